import Verif.Runtime
/-
The runtime's rent rule for transactions (Solana runtime, `RentState`; not code in `/repo`): at the end of a transaction
each writable account is empty, or rent exempt, or was below the minimum before and has neither grown, shrunk nor been
credited.
-/
namespace Xorca

/-- `RentState::from_account`. -/
inductive RentState
  | uninitialized
  | rentPaying (lamports : UInt64) (dataSize : Nat)
  | rentExempt
deriving DecidableEq

def rentState (rentMin : Nat → UInt64) (a : Account) : RentState :=
  if a.lamports = 0 then .uninitialized
  else if rentMin a.data.length ≤ a.lamports then .rentExempt
  else .rentPaying a.lamports a.data.length

/-- `RentState::transition_allowed_from`. -/
def transitionAllowed : (pre post : RentState) → Bool
  | _, .uninitialized => true
  | _, .rentExempt => true
  | .rentPaying l n, .rentPaying l' n' => decide (n' = n ∧ l' ≤ l)
  | _, .rentPaying _ _ => false

/-- The check for one account. -/
def RentOk (rentMin : Nat → UInt64) (pre post : Account) : Prop :=
  transitionAllowed (rentState rentMin pre) (rentState rentMin post) = true

instance (rentMin : Nat → UInt64) (pre post : Account) : Decidable (RentOk rentMin pre post) := by
  unfold RentOk; infer_instance

end Xorca
