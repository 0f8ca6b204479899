import Verif.Lemmas.RoundTripsAux
/-
Lemmas for `Props/Griefing.lean`.
-/
namespace Xorca
open Spec

variable {cr : Crypto} {L L' : Ledger}

/-- A call as a path of one step. -/
theorem Spec.Took.path {ix : Instruction} (h : Took cr L ix L') :
    ∃ x accs logs, Path cr L [⟨L, .call x accs ix logs, L'⟩] L' := by
  obtain ⟨x, accs, logs, rfl, h1, h2, h3⟩ := h
  exact ⟨x, accs, logs, .step .nil (.call rfl h1 h2 h3)⟩

/-- What `a` of `s` units get after one Stake, whose rounding raised the price. -/
theorem payout_after_stake {a s n w n2 s2 : Nat} (ha : a ≤ s) (hs : s ≤ s2) (hw : w * (s2 + 100) ≤ a * (n2 + 100))
    (h : (n2 + 100) * (s + 100) ≤ (n + 100) * (s2 + 101)) : w * (s + 100) ≤ (a + 1) * (n + 100) := by
  refine Nat.le_of_mul_le_mul_right ?_ (show 0 < s2 + 100 by omega)
  calc w * (s + 100) * (s2 + 100) = w * (s2 + 100) * (s + 100) := by ring
    _ ≤ a * (n2 + 100) * (s + 100) := Nat.mul_le_mul_right _ hw
    _ = a * ((n2 + 100) * (s + 100)) := by ring
    _ ≤ a * ((n + 100) * (s2 + 101)) := Nat.mul_le_mul_left _ h
    _ = (n + 100) * (a * (s2 + 100) + a) := by ring
    _ ≤ (n + 100) * (a * (s2 + 100) + (s2 + 100)) := Nat.mul_le_mul_left _ (by omega)
    _ = _ := by ring

/-- The price of a loss. -/
theorem griefing_arith {a s n d u w wv : Nat} (ha : a ≤ s) (hw : w * (s + 100) ≤ (a + 1) * (n + d + 100))
    (hu : u * (s + 100) < (wv + 1) * (s + 100) + (n + d + 100)) :
    (99 * u + w) * (s + 100) ≤ (99 * wv + redeemFor a n s + d + 100) * (s + 100) + 100 * (n + 100) := by
  have h1 : a * (n + 100) < (redeemFor a n s + 1) * (s + 100) := lt_redeemFor_succ_mul a n s
  have h2 : (a + 100) * d ≤ (s + 100) * d := Nat.mul_le_mul_right _ (by omega)
  nlinarith

end Xorca
