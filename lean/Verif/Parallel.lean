import Verif.Outside
/-
Parallel execution.  The Solana runtime runs transactions at the same time if none of them may write an account that
another one lists (account locks).  This is a model of the runtime, not of code in `/repo`.
-/
namespace Xorca.Spec

/-- Something that runs as one piece: the accounts it locks, and what it makes of a ledger (`none` if it fails). -/
structure Job where
  locks : List Meta
  run : Ledger → Option Ledger

/-- The ledger afterwards; a failure changes nothing. -/
def Job.after (j : Job) (L : Ledger) : Ledger := (j.run L).getD L

/-- The account is locked for writing. -/
def Job.writes (j : Job) (k : Pubkey) : Bool := j.locks.any fun m => m.isWritable && decide (m.key = k)

/-- One call of the program. -/
def callJob (x : Ctx) (accs : List Meta) (data : Bytes) : Job :=
  ⟨accs, fun L => match entry x PROGRAM_ID L accs data with
    | .ok (L', _) => some L'
    | .error _ => none⟩

/-- One job after another, all or nothing. -/
def Job.then (j j' : Job) : Job := ⟨j.locks ++ j'.locks, fun L => (j.run L).bind j'.run⟩

/-- From `L` the job keeps to its locks: what it does depends on the locked accounts only, and it writes only those locked
for writing. -/
structure Job.Keeps (L : Ledger) (j : Job) : Prop where
  same : ∀ M, (∀ m ∈ j.locks, M m.key = L m.key) → ∀ L', j.run L = some L' →
    ∃ M', j.run M = some M' ∧ ∀ k, M' k = if j.writes k then L' k else M k
  fails : ∀ M, (∀ m ∈ j.locks, M m.key = L m.key) → j.run L = none → j.run M = none

/-- Two lists of locks that the runtime does not hold at the same time. -/
def Conflict (a b : List Meta) : Prop :=
  ∃ m ∈ a, ∃ n ∈ b, m.key = n.key ∧ (m.isWritable = true ∨ n.isWritable = true)

/-- All jobs at once: each starts from `L`, and each account ends as the job that may write it leaves it. -/
def parallel (L : Ledger) (js : List Job) : Ledger := fun k =>
  match js.find? fun j => j.writes k with
  | some j => j.after L k
  | none => L k

/-- One after the other. -/
def sequential (L : Ledger) (js : List Job) : Ledger := js.foldl (fun M j => j.after M) L

end Xorca.Spec
