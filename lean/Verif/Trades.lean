import Verif.History
/-
Kinds of steps in a history.
-/
namespace Xorca.Spec

/-- The step is a call of Stake or Unstake. -/
def isTrade (e : Entry) : Bool :=
  match e.label with
  | .call _ _ (.Stake _) _ => true
  | .call _ _ (.Unstake ..) _ => true
  | _ => false

/-- The step is a call of Stake. -/
def isStake (e : Entry) : Bool :=
  match e.label with
  | .call _ _ (.Stake _) _ => true
  | _ => false

/-- If the step is one of others, it neither donates to the vault nor burns xORCA. -/
def Quiet (v : Pubkey) (e : Entry) : Prop :=
  e.label = .env → balance e.post v = balance e.pre v ∧ supply e.post XORCA_MINT_ID = supply e.pre XORCA_MINT_ID

end Xorca.Spec
