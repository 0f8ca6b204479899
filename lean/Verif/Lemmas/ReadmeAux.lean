import Verif.Readme
import Verif.View
import Verif.Props.Accept
import Verif.Props.Effects
import Verif.Props.Init
import Verif.Lemmas.DemoCalls
/-
Lemmas for `Props/Readme.lean`.
-/
namespace Xorca
open Spec

variable {cr : Crypto} {x : Ctx} {L L' : Ledger} {rest : List Meta} {logs : List Bytes}

theorem readmeMint_le {a n s : Nat} (hb : s ≤ n) : readmeMint a n s ≤ mintFor a n s := by
  unfold readmeMint mintFor
  by_cases h : s = 0 ∨ n = 0
  · rw [if_neg (show ¬ (s ≠ 0 ∧ n ≠ 0) by omega), if_pos h]
  · rw [if_pos (show s ≠ 0 ∧ n ≠ 0 by omega), if_neg h, Nat.le_div_iff_mul_le (by omega)]
    have h1 : a * s / n * n ≤ a * s := Nat.div_mul_le_self _ _
    have h2 : a * s / n ≤ a := by
      refine Nat.le_of_mul_le_mul_right (c := n) (h1.trans (Nat.mul_le_mul_left a hb)) (by omega)
    calc a * s / n * (n + 100) = a * s / n * n + a * s / n * 100 := by ring
      _ ≤ a * s + a * 100 := Nat.add_le_add h1 (Nat.mul_le_mul_right 100 h2)
      _ = a * (s + 100) := by ring

theorem mintFor_lt_readme {a n s : Nat} (hb : s ≤ n) (hs : s ≠ 0) :
    mintFor a n s * (n * (n + 100)) < (readmeMint a n s + 1) * (n * (n + 100)) + a * 100 * (n - s) := by
  unfold readmeMint mintFor
  have hn : n ≠ 0 := by omega
  rw [if_pos (show s ≠ 0 ∧ n ≠ 0 from ⟨hs, hn⟩), if_neg (show ¬ (s = 0 ∨ n = 0) by omega)]
  have h1 : a * (s + 100) / (n + 100) * (n + 100) ≤ a * (s + 100) := Nat.div_mul_le_self _ _
  have h2 : a * s < (a * s / n + 1) * n := Nat.lt_mul_of_div_lt (Nat.lt_succ_self _) (by omega)
  obtain ⟨d, rfl⟩ := Nat.exists_eq_add_of_le hb
  have hd : s + d - s = d := by omega
  rw [hd]
  generalize a * (s + 100) / (s + d + 100) = p at *
  generalize a * s / (s + d) = q at *
  have h3 : p * (s + d + 100) * (s + d) ≤ a * (s + 100) * (s + d) := Nat.mul_le_mul_right _ h1
  have h4 : a * s * (s + d + 100) < (q + 1) * (s + d) * (s + d + 100) :=
    Nat.mul_lt_mul_of_pos_right h2 (by omega)
  nlinarith

theorem redeem_le_readme {a n s : Nat} (hb : s ≤ n) (hs : s ≠ 0) : redeemFor a n s ≤ readmeRedeem a n s := by
  unfold redeemFor readmeRedeem
  rw [Nat.le_div_iff_mul_le (by omega)]
  have h1 : a * (n + 100) / (s + 100) * (s + 100) ≤ a * (n + 100) := Nat.div_mul_le_self _ _
  have h2 : (s + 100) * n ≥ (n + 100) * s := by nlinarith
  refine Nat.le_of_mul_le_mul_right (c := s + 100) ?_ (by omega)
  calc a * (n + 100) / (s + 100) * s * (s + 100) = a * (n + 100) / (s + 100) * (s + 100) * s := by ring
    _ ≤ a * (n + 100) * s := Nat.mul_le_mul_right _ h1
    _ = a * ((n + 100) * s) := by ring
    _ ≤ a * ((s + 100) * n) := Nat.mul_le_mul_left _ h2
    _ = a * n * (s + 100) := by ring

theorem readme_lt_redeem {a n s : Nat} (hb : s ≤ n) (hs : s ≠ 0) :
    readmeRedeem a n s * (s * (s + 100)) < (redeemFor a n s + 1) * (s * (s + 100)) + a * 100 * (n - s) := by
  unfold redeemFor readmeRedeem
  have h1 : a * n / s * s ≤ a * n := Nat.div_mul_le_self _ _
  have h2 : a * (n + 100) < (a * (n + 100) / (s + 100) + 1) * (s + 100) :=
    Nat.lt_mul_of_div_lt (Nat.lt_succ_self _) (by omega)
  obtain ⟨d, rfl⟩ := Nat.exists_eq_add_of_le hb
  have hd : s + d - s = d := by omega
  rw [hd]
  generalize a * (s + d + 100) / (s + 100) = p at *
  generalize a * (s + d) / s = q at *
  have h3 : q * s * (s + 100) ≤ a * (s + d) * (s + 100) := Nat.mul_le_mul_right _ h1
  have h4 : a * (s + d + 100) * s < (p + 1) * (s + 100) * s := Nat.mul_lt_mul_of_pos_right h2 (by omega)
  nlinarith

end Xorca
