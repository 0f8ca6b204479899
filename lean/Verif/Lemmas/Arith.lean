import Verif.Math
import Verif.Spec
import Mathlib.Tactic.Linarith
import Mathlib.Tactic.Ring
import Mathlib.Tactic.Positivity
/-
Arithmetic facts about the two conversion formulas, on natural numbers.
-/
namespace Xorca

open Spec

theorem u64_ne_zero_iff {a : UInt64} : a ≠ 0 ↔ a.toNat ≠ 0 := by
  rw [ne_eq, ne_eq, ← UInt64.toNat_inj]; simp

theorem u64_eq_zero_iff {a : UInt64} : a = 0 ↔ a.toNat = 0 := by
  rw [← UInt64.toNat_inj]; simp

theorem checkedAddU128_u64_100 (a : UInt64) : checkedAddU128 a.toNat 100 = some (a.toNat + 100) := by
  have h := UInt64.toNat_lt a
  unfold checkedAddU128
  rw [if_pos (by omega)]

/-- Unfolded form of the mint conversion. -/
theorem convertOrcaToXorca_eq (a n s : UInt64) :
    convertOrcaToXorca a n s =
      if s.toNat = 0 ∨ n.toNat = 0 then .ok a
      else if 2 ^ 128 ≤ a.toNat * (s.toNat + 100) ∨ 2 ^ 64 ≤ a.toNat * (s.toNat + 100) / (n.toNat + 100)
        then .error (.custom .ArithmeticError)
      else .ok (UInt64.ofNat (a.toNat * (s.toNat + 100) / (n.toNat + 100))) := by
  unfold convertOrcaToXorca
  simp only [u64_eq_zero_iff]
  split
  · rfl
  · simp only [VIRTUAL_XORCA_SUPPLY, VIRTUAL_NON_ESCROWED_ORCA_AMOUNT, checkedAddU128_u64_100, okOr,
      bind, Except.bind, checkedMulU128]
    by_cases h : a.toNat * (s.toNat + 100) < 2 ^ 128
    · rw [if_pos h]
      simp only [checkedDivU128, Nat.add_eq_zero_iff, u64OfU128]
      rw [if_neg (by omega)]
      by_cases h2 : a.toNat * (s.toNat + 100) / (n.toNat + 100) < 2 ^ 64
      · simp only [if_pos h2]
        rw [if_neg (by omega)]
      · simp only [if_neg h2]
        rw [if_pos (by omega)]
    · rw [if_neg h]
      simp only []
      rw [if_pos (by omega)]

/-- Unfolded form of the redeem conversion. -/
theorem convertXorcaToOrca_eq (x n s : UInt64) :
    convertXorcaToOrca x n s =
      if s.toNat = 0 ∨ n.toNat = 0 then .error (.custom .ArithmeticError)
      else if 2 ^ 128 ≤ x.toNat * (n.toNat + 100) ∨ 2 ^ 64 ≤ x.toNat * (n.toNat + 100) / (s.toNat + 100)
        then .error (.custom .ArithmeticError)
      else .ok (UInt64.ofNat (x.toNat * (n.toNat + 100) / (s.toNat + 100))) := by
  unfold convertXorcaToOrca
  simp only [u64_eq_zero_iff]
  split
  · rfl
  · simp only [VIRTUAL_XORCA_SUPPLY, VIRTUAL_NON_ESCROWED_ORCA_AMOUNT, checkedAddU128_u64_100, okOr,
      bind, Except.bind, checkedMulU128]
    by_cases h : x.toNat * (n.toNat + 100) < 2 ^ 128
    · rw [if_pos h]
      simp only [checkedDivU128, Nat.add_eq_zero_iff, u64OfU128]
      rw [if_neg (by omega)]
      by_cases h2 : x.toNat * (n.toNat + 100) / (s.toNat + 100) < 2 ^ 64
      · simp only [if_pos h2]
        rw [if_neg (by omega)]
      · simp only [if_neg h2]
        rw [if_pos (by omega)]
    · rw [if_neg h]
      simp only []
      rw [if_pos (by omega)]

/-- Success of the mint conversion. -/
theorem convertOrcaToXorca_ok {a n s c : UInt64} (h : convertOrcaToXorca a n s = .ok c) :
    c.toNat = mintFor a.toNat n.toNat s.toNat := by
  rw [convertOrcaToXorca_eq] at h
  unfold mintFor
  split at h
  · next h0 => rw [if_pos h0]; cases h; rfl
  · next h0 =>
    rw [if_neg h0]
    split at h
    · cases h
    · next h1 => cases h; exact UInt64.toNat_ofNat_of_lt' (by change _ < 2 ^ 64; omega)

/-- Success of the redeem conversion. -/
theorem convertXorcaToOrca_ok {x n s c : UInt64} (h : convertXorcaToOrca x n s = .ok c) :
    s.toNat ≠ 0 ∧ n.toNat ≠ 0 ∧ c.toNat = redeemFor x.toNat n.toNat s.toNat := by
  rw [convertXorcaToOrca_eq] at h
  unfold redeemFor
  split at h
  · cases h
  · next h0 =>
    split at h
    · cases h
    · next h1 =>
      cases h
      exact ⟨by omega, by omega, UInt64.toNat_ofNat_of_lt' (by change _ < 2 ^ 64; omega)⟩

/-! ### Inequalities of the formulas -/

theorem mintFor_mul_le {a n s : Nat} (hs : s ≠ 0) (hn : n ≠ 0) :
    mintFor a n s * (n + 100) ≤ a * (s + 100) := by
  unfold mintFor
  rw [if_neg (by omega)]
  exact Nat.div_mul_le_self _ _

theorem redeemFor_mul_le (x n s : Nat) : redeemFor x n s * (s + 100) ≤ x * (n + 100) := by
  unfold redeemFor
  exact Nat.div_mul_le_self _ _

theorem lt_redeemFor_succ_mul (x n s : Nat) : x * (n + 100) < (redeemFor x n s + 1) * (s + 100) := by
  unfold redeemFor
  exact Nat.lt_mul_of_div_lt (Nat.lt_succ_self _) (by omega)

theorem lt_mintFor_succ_mul {a n s : Nat} (hs : s ≠ 0) (hn : n ≠ 0) :
    a * (s + 100) < (mintFor a n s + 1) * (n + 100) := by
  unfold mintFor
  rw [if_neg (by omega)]
  exact Nat.lt_mul_of_div_lt (Nat.lt_succ_self _) (by omega)

theorem le_of_mul_le_mul_of_pos {a b c : Nat} (hc : 0 < c) (h : a * c ≤ b * c) : a ≤ b :=
  Nat.le_of_mul_le_mul_right h hc

/-- Stake then redeem the minted amount. -/
theorem redeem_mint_le {a n s : Nat} (h : ¬ (s = 0 ∧ n ≠ 0)) :
    redeemFor (mintFor a n s) (n + a) (s + mintFor a n s) ≤ a := by
  have hr := redeemFor_mul_le (mintFor a n s) (n + a) (s + mintFor a n s)
  have key : mintFor a n s * (n + a + 100) ≤ a * (s + mintFor a n s + 100) := by
    by_cases h0 : s = 0 ∨ n = 0
    · have hm : mintFor a n s = a := by unfold mintFor; rw [if_pos h0]
      have hn : n = 0 := by omega
      rw [hm, hn]
      nlinarith [Nat.zero_le (a * s)]
    · have := mintFor_mul_le (a := a) (n := n) (s := s) (by omega) (by omega)
      nlinarith
  exact le_of_mul_le_mul_of_pos (c := s + mintFor a n s + 100) (by omega) (le_trans hr key)

/-- Redeem then stake the proceeds. -/
theorem mint_redeem_le {x n s n1 s1 : Nat} (hn : n1 + redeemFor x n s = n) (hs : s1 + x = s)
    (hs1 : s1 ≠ 0) (hn1 : n1 ≠ 0) : mintFor (redeemFor x n s) n1 s1 ≤ x := by
  have h1 := mintFor_mul_le (a := redeemFor x n s) hs1 hn1
  have h2 := redeemFor_mul_le x n s
  have key : redeemFor x n s * (s1 + 100) ≤ x * (n1 + 100) := by
    generalize redeemFor x n s = w at *
    subst hn hs
    nlinarith
  exact le_of_mul_le_mul_of_pos (c := n1 + 100) (by omega) (le_trans h1 key)

/-- Two stakes against one. -/
theorem mint_split_le {a b n s : Nat} (h : n ≠ 0 ∨ s = 0) :
    mintFor a n s + mintFor b (n + a) (s + mintFor a n s) ≤ mintFor (a + b) n s := by
  by_cases h0 : s = 0
  · have e1 : ∀ t, mintFor t n s = t := fun t => by unfold mintFor; rw [if_pos (Or.inl h0)]
    rw [e1, e1]
    have : mintFor b (n + a) (s + a) ≤ b := by
      unfold mintFor
      split
      · exact le_refl _
      · apply Nat.div_le_of_le_mul
        rw [Nat.mul_comm]
        exact Nat.mul_le_mul_right _ (by omega)
    omega
  · have hn : n ≠ 0 := by omega
    have h1 := mintFor_mul_le (a := a) h0 hn
    have h2 := mintFor_mul_le (a := b) (n := n + a) (s := s + mintFor a n s) (by omega) (by omega)
    generalize hm1 : mintFor a n s = m1 at *
    generalize hm2 : mintFor b (n + a) (s + m1) = m2 at *
    have h3 : m2 * (n + 100) ≤ b * (s + 100) := by
      have : m2 * (n + 100) * (n + a + 100) ≤ b * (s + 100) * (n + a + 100) := by
        have e : b * ((s + 100) * (n + 100) + m1 * (n + 100)) ≤
            b * ((s + 100) * (n + 100) + a * (s + 100)) := Nat.mul_le_mul_left _ (by omega)
        have f : m2 * (n + a + 100) * (n + 100) ≤ b * (s + m1 + 100) * (n + 100) :=
          Nat.mul_le_mul_right _ h2
        nlinarith
      exact le_of_mul_le_mul_of_pos (by omega) this
    have : mintFor (a + b) n s = (a + b) * (s + 100) / (n + 100) := by
      unfold mintFor; rw [if_neg (by omega)]
    rw [this, Nat.le_div_iff_mul_le (by omega)]
    nlinarith

/-- Two redemptions against one. -/
theorem redeem_split_le {x y n s n1 s1 : Nat} (hn : n1 + redeemFor x n s = n) (hs : s1 + x = s)
    (hy : y ≤ s1) : redeemFor x n s + redeemFor y n1 s1 ≤ redeemFor (x + y) n s := by
  have h1 := redeemFor_mul_le x n s
  have h2 := redeemFor_mul_le y n1 s1
  generalize hw1 : redeemFor x n s = w1 at *
  generalize hw2 : redeemFor y n1 s1 = w2 at *
  have hd : redeemFor (x + y) n s = (x + y) * (n + 100) / (s + 100) := rfl
  rw [hd, Nat.le_div_iff_mul_le (by omega)]
  obtain ⟨r, hr⟩ := Nat.le.dest h1
  -- w2 * s' ≤ y * n' + r
  have h3 : w2 * (s + 100) ≤ y * (n + 100) + r := by
    have : w2 * (s + 100) * (s1 + 100) ≤ (y * (n + 100) + r) * (s1 + 100) := by
      have f : w2 * (s1 + 100) * (s + 100) ≤ y * (n1 + 100) * (s + 100) := Nat.mul_le_mul_right _ h2
      have g : y * r ≤ (s1 + 100) * r := Nat.mul_le_mul_right _ (by omega)
      have e : (n1 + 100) * (s + 100) = (n + 100) * (s1 + 100) + r := by
        subst hn hs
        nlinarith
      calc w2 * (s + 100) * (s1 + 100) = w2 * (s1 + 100) * (s + 100) := by ring
        _ ≤ y * (n1 + 100) * (s + 100) := f
        _ = y * ((n1 + 100) * (s + 100)) := by ring
        _ = y * (n + 100) * (s1 + 100) + y * r := by rw [e]; ring
        _ ≤ y * (n + 100) * (s1 + 100) + (s1 + 100) * r := by omega
        _ = (y * (n + 100) + r) * (s1 + 100) := by ring
    exact le_of_mul_le_mul_of_pos (by omega) this
  nlinarith

/-- First staker, donation, one victim, redemption. -/
theorem inflation_attack_le (a d v : Nat) :
    let m2 := mintFor v (a + d) a
    redeemFor a (a + d + v) (a + m2) ≤ a + d := by
  intro m2
  by_cases ha : a = 0
  · subst ha; simp [redeemFor]
  have h2 : v * (a + 100) < (m2 + 1) * (a + d + 100) := lt_mintFor_succ_mul (by omega) (by omega)
  have hr := redeemFor_mul_le a (a + d + v) (a + m2)
  by_contra hc
  have hc : a + d + 1 ≤ redeemFor a (a + d + v) (a + m2) := by omega
  have h4 : (a + d + 1) * (a + m2 + 100) ≤ a * (a + d + v + 100) :=
    le_trans (Nat.mul_le_mul_right _ hc) hr
  generalize m2 = m at *
  -- multiply by ν = a + d + 100
  have h5 : (a + d + 1) * (a + m + 100) * (a + d + 100) ≤ a * (a + d + v + 100) * (a + d + 100) :=
    Nat.mul_le_mul_right _ h4
  have h6 : (a + d + 1) * (v * (a + 100) + 1) ≤ (a + d + 1) * ((m + 1) * (a + d + 100)) :=
    Nat.mul_le_mul_left _ h2
  nlinarith

/-- With at least one ORCA behind each xORCA a stake mints at most the deposit. -/
theorem mintFor_le {a n s : Nat} (h : s ≤ n) : mintFor a n s ≤ a := by
  unfold mintFor
  split
  · exact le_refl _
  · apply Nat.div_le_of_le_mul
    rw [Nat.mul_comm]
    exact Nat.mul_le_mul_right _ (by omega)

/-- With at least one ORCA behind each xORCA a redemption pays at least face value. -/
theorem le_redeemFor {x n s : Nat} (h : s ≤ n) : x ≤ redeemFor x n s := by
  unfold redeemFor
  rw [Nat.le_div_iff_mul_le (by omega)]
  exact Nat.mul_le_mul_left _ (by omega)

/-- A redemption never pays more than the pool holds. -/
theorem redeemFor_le {x n s : Nat} (h : s ≤ n) (hx : x ≤ s) : redeemFor x n s ≤ n := by
  unfold redeemFor
  apply Nat.div_le_of_le_mul
  nlinarith [Nat.mul_le_mul_right (n + 100) hx]

/-- What stays behind after a redemption still covers the remaining supply. -/
theorem redeem_backing {x n s : Nat} (h : s ≤ n) (hx : x ≤ s) : s - x ≤ n - redeemFor x n s := by
  have h1 := redeemFor_mul_le x n s
  have h2 := redeemFor_le h hx
  obtain ⟨t, rfl⟩ := Nat.le.dest hx
  generalize redeemFor x n (x + t) = w at *
  obtain ⟨r, rfl⟩ := Nat.le.dest h2
  rw [Nat.add_sub_cancel_left, Nat.add_sub_cancel_left]
  by_contra hc
  have hc : r + 1 ≤ t := by omega
  -- w (x+t+100) ≤ x (w + r + 100),  x + t ≤ w + r,  r < t
  nlinarith [Nat.mul_le_mul_left w hc, Nat.mul_le_mul_left x hc]

/-! ### The virtual price (n + 100) / (s + 100) never falls -/

theorem mint_price {a n s : Nat} (hs : s ≠ 0) (hn : n ≠ 0) :
    (n + 100) * (s + mintFor a n s + 100) ≤ (n + a + 100) * (s + 100) := by
  have := mintFor_mul_le (a := a) hs hn
  nlinarith

theorem redeem_price {x n s n1 s1 : Nat} (hn : n1 + redeemFor x n s = n) (hs : s1 + x = s) :
    (n + 100) * (s1 + 100) ≤ (n1 + 100) * (s + 100) := by
  have h1 := redeemFor_mul_le x n s
  generalize redeemFor x n s = w at *
  subst hn hs
  nlinarith

theorem redeemFor_mono_price {x n s n' s' : Nat}
    (h : (n + 100) * (s' + 100) ≤ (n' + 100) * (s + 100)) : redeemFor x n s ≤ redeemFor x n' s' := by
  have h1 := redeemFor_mul_le x n s
  unfold redeemFor
  rw [Nat.le_div_iff_mul_le (by omega)]
  change redeemFor x n s * (s' + 100) ≤ _
  generalize redeemFor x n s = w at *
  have : w * (s' + 100) * (s + 100) ≤ x * (n' + 100) * (s + 100) := by
    have f : w * (s + 100) * (s' + 100) ≤ x * (n + 100) * (s' + 100) := Nat.mul_le_mul_right _ h1
    have g : x * ((n + 100) * (s' + 100)) ≤ x * ((n' + 100) * (s + 100)) := Nat.mul_le_mul_left _ h
    nlinarith
  exact le_of_mul_le_mul_of_pos (by omega) this

theorem redeemFor_mono {x y n s : Nat} (h : x ≤ y) : redeemFor x n s ≤ redeemFor y n s :=
  Nat.div_le_div_right (Nat.mul_le_mul_right _ h)

theorem mintFor_mono {a b n s : Nat} (h : a ≤ b) : mintFor a n s ≤ mintFor b n s := by
  unfold mintFor
  split
  · exact h
  · exact Nat.div_le_div_right (Nat.mul_le_mul_right _ h)

end Xorca
