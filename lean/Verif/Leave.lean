import Verif.Plan
/-
Vocabulary of C116: the acts by which a user takes something out of the pool.
-/
namespace Xorca.Spec

/-- The time of an act that takes something out. -/
def Act.takesOut : Act → Option Int64
  | .unstake t _ _ _ => some t
  | .withdraw t _ _ => some t
  | _ => none

end Xorca.Spec
