import Verif.Outside
/-
The chain as a sequence of transactions.  A transaction takes a fee from its payer and then runs its instructions, all or
nothing.  This is a model of the runtime, not of code in `/repo`.
-/
namespace Xorca.Spec

/-- One transaction as it was processed: the ledger it met, who paid which fee, the instructions that ran (newest first,
with those of called programs and with removals of empty accounts), and whether all of them succeeded. -/
structure Tx where
  pre : Ledger
  payer : Pubkey
  fee : UInt64
  steps : List Entry
  committed : Bool

/-- The ledger after the fee is taken. -/
def Tx.charged (t : Tx) : Ledger := t.pre.setLamports t.payer ((t.pre t.payer).lamports - t.fee)

/-- The payer is a wallet that can pay the fee. -/
def Tx.Payable (t : Tx) : Prop :=
  (t.pre t.payer).owner = SYSTEM_PROGRAM_ID ∧ t.fee.toNat ≤ (t.pre t.payer).lamports.toNat

/-- Processing a transaction: if an instruction fails, everything but the fee is undone. -/
inductive Tx.Runs (cr : Crypto) (t : Tx) : Ledger → Prop
  | commit {L'} : t.committed = true → t.Payable → World cr t.charged t.steps L' → Tx.Runs cr t L'
  | abort {M} : t.committed = false → t.Payable → World cr t.charged t.steps M → Tx.Runs cr t t.charged

/-- The steps that a transaction leaves on the chain, newest first. -/
def Tx.entries (t : Tx) : List Entry :=
  (if t.committed then t.steps else []) ++ [⟨t.pre, .env, t.charged⟩]

/-- A sequence of transactions, newest first. -/
inductive Chain (cr : Crypto) (L : Ledger) : List Tx → Ledger → Prop
  | nil : Chain cr L [] L
  | step {ts t L'} : Chain cr L ts t.pre → t.Runs cr L' → Chain cr L (t :: ts) L'

/-- The steps that the transactions left on the chain, newest first. -/
def stepsOf : List Tx → List Entry
  | [] => []
  | t :: ts => t.entries ++ stepsOf ts

end Xorca.Spec
