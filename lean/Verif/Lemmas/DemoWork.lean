import Verif.Lemmas.DemoCalls
import Verif.Work
/-
Traces of the example calls.
-/
namespace Xorca
open Spec

namespace Demo

/-- An Unstake at the end of the clock, after which nothing can mature. -/
def tooLate : Traced Outcome :=
  entryT (ctx 9223372036854775800) PROGRAM_ID L4 (unstakeAccs R255) (1 :: u64le 600000 ++ [255])

theorem worked :
    (err tooLate.result = some (.custom .CoolDownOverflow) ∧
      tooLate.trace = [.hash, .hash, .hash, .call SPL_TOKEN_PROGRAM_ID, .hash, .call SYSTEM_PROGRAM_ID]) ∧
    (L5 R0).lamports = 0 := by decide +kernel

end Demo

end Xorca
