import Verif.Entrypoint
import Verif.Spec
/-
Executions of the program: a call with raw instruction bytes, as the runtime makes it.
-/
namespace Xorca.Spec

/-- Instruction data, read at fixed offsets: tag, then little-endian arguments; trailing bytes are
ignored. -/
def decodeIx (d : Bytes) : Option Instruction :=
  if d.length = 0 then none
  else if readU8 d 0 = 0 then if 9 ≤ d.length then some (.Stake (readU64 d 1)) else none
  else if readU8 d 0 = 1 then if 10 ≤ d.length then some (.Unstake (readU64 d 1) (readU8 d 9)) else none
  else if readU8 d 0 = 2 then if 2 ≤ d.length then some (.Withdraw (readU8 d 1)) else none
  else if readU8 d 0 = 3 then if 9 ≤ d.length then some (.Initialize (readI64 d 1)) else none
  else if readU8 d 0 = 4 then
    if d.length = 1 then none
    else if readU8 d 1 = 0 then
      if 10 ≤ d.length then some (.Set (.UpdateCoolDownPeriod (readI64 d 2))) else none
    else if readU8 d 1 = 1 then
      if 34 ≤ d.length then some (.Set (.UpdateUpdateAuthority (readKey d 2))) else none
    else none
  else none

/-- A call whose instruction bytes mean `ix` succeeded, giving ledger `L'` and `logs`. -/
def Runs (x : Ctx) (L : Ledger) (accs : List Meta) (ix : Instruction) (L' : Ledger) (logs : List Bytes) :
    Prop :=
  ∃ data, decodeIx data = some ix ∧ entry x PROGRAM_ID L accs data = .ok (L', logs)

/-- A call whose instruction bytes mean `ix` failed with `e` (the ledger stays as it was). -/
def Fails (x : Ctx) (L : Ledger) (accs : List Meta) (ix : Instruction) (e : Err) : Prop :=
  ∃ data, decodeIx data = some ix ∧ entry x PROGRAM_ID L accs data = .error e

/-- Nothing but the `n` bytes from offset `o` differs between `d` and `d'`. -/
def SameExcept (o n : Nat) (d d' : Bytes) : Prop :=
  d'.length = d.length ∧ ∀ j, (j < o ∨ o + n ≤ j) → d'[j]? = d[j]?

end Xorca.Spec
