import Verif.RentRule
import Verif.Lemmas.Rent
/-
Lemmas about the runtime's rent rule.
-/
namespace Xorca
open Spec

variable {f : Nat → UInt64} {a b c : Account}

/-- When the rule refuses a change. -/
theorem not_rentOk : ¬ RentOk f a b ↔ b.lamports ≠ 0 ∧ b.lamports < f b.data.length ∧
    (a.lamports = 0 ∨ f a.data.length ≤ a.lamports ∨ b.data.length ≠ a.data.length ∨ a.lamports < b.lamports) := by
  unfold RentOk rentState
  by_cases h1 : b.lamports = 0
  · simp [h1, transitionAllowed]
  by_cases h2 : f b.data.length ≤ b.lamports
  · simp [h1, h2, transitionAllowed, UInt64.not_lt.2 h2]
  by_cases h3 : a.lamports = 0
  · simp [h1, h2, h3, transitionAllowed, UInt64.not_le.1 h2]
  by_cases h4 : f a.data.length ≤ a.lamports
  · simp [h1, h2, h3, h4, transitionAllowed, UInt64.not_le.1 h2]
  · simp only [h1, h2, h3, h4, transitionAllowed, UInt64.not_le.1 h2, if_false, decide_eq_true_eq, not_and,
      UInt64.not_le, false_or, ne_eq, not_false_eq_true, true_and]
    constructor
    · intro h
      by_cases h5 : b.data.length = a.data.length
      · exact Or.inr (h h5)
      · exact Or.inl h5
    · rintro (h | h) h5
      · exact absurd h5 h
      · exact h

theorem rentOk_of_exempt (h : (f b.data.length).toNat ≤ b.lamports.toNat) : RentOk f a b := by
  by_contra hn
  have := (not_rentOk.1 hn).2.1
  rw [UInt64.lt_iff_toNat_lt] at this
  omega

theorem rentOk_of_empty (h : b.lamports = 0) : RentOk f a b := by
  by_contra hn
  exact (not_rentOk.1 hn).1 h

theorem rentOk_of_same (h1 : b.lamports = a.lamports) (h2 : b.data.length = a.data.length) : RentOk f a b := by
  by_contra hn
  obtain ⟨h3, h4, h5⟩ := not_rentOk.1 hn
  rw [h1] at h3 h4 h5
  rw [h2] at h4 h5
  rcases h5 with h | h | h | h
  · exact h3 h
  · rw [UInt64.le_iff_toNat_le] at h; rw [UInt64.lt_iff_toNat_lt] at h4; omega
  · exact h rfl
  · rw [UInt64.lt_iff_toNat_lt] at h; omega

theorem rentOk_trans (h1 : RentOk f a b) (h2 : RentOk f b c) : RentOk f a c := by
  by_contra hn
  obtain ⟨g1, g2, g3⟩ := not_rentOk.1 hn
  have h2' : ¬ ¬ RentOk f b c := fun h => h h2
  have h1' : ¬ ¬ RentOk f a b := fun h => h h1
  rw [not_rentOk] at h1' h2'
  simp only [UInt64.le_iff_toNat_le, UInt64.lt_iff_toNat_lt, ne_eq, ← UInt64.toNat_inj, UInt64.toNat_zero] at *
  have k : ∀ P : Prop, ¬ ¬ P → P := fun P => Classical.not_not.1
  by_cases e1 : c.data.length = b.data.length
  · rw [e1] at g2 g3 h2'
    by_cases e2 : b.data.length = a.data.length
    · rw [e2] at g2 g3 h2' h1'
      omega
    · rw [not_and_or, not_and_or] at h1' h2'
      omega
  · rw [not_and_or, not_and_or] at h1' h2'
    omega

end Xorca
