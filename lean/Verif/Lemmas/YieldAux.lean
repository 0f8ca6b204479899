import Verif.Lemmas.PriceAux
import Verif.Props.NoProfit
import Verif.Props.RoundTrips
import Verif.Lemmas.DemoCalls
/-
Arithmetic for C94, C95 and the demo of a stake around a gift.
-/
namespace Xorca
open Spec

/-- What a gift of `d` adds to the value of `x`. -/
theorem gift_share (x n s d : Nat) :
    redeemFor x n s ≤ redeemFor x (n + d) s ∧
    (redeemFor x (n + d) s - redeemFor x n s) * (s + 100) < x * d + (s + 100) ∧
    x * d < (redeemFor x (n + d) s - redeemFor x n s + 1) * (s + 100) := by
  have h1 := redeemFor_mul_le x n s
  have h2 := lt_redeemFor_succ_mul x n s
  have h3 := redeemFor_mul_le x (n + d) s
  have h4 := lt_redeemFor_succ_mul x (n + d) s
  have hle : redeemFor x n s ≤ redeemFor x (n + d) s := Nat.div_le_div_right (Nat.mul_le_mul_left _ (by omega))
  obtain ⟨g, hg⟩ := Nat.exists_eq_add_of_le hle
  rw [hg] at h3 h4 ⊢
  rw [Nat.add_sub_cancel_left]
  generalize redeemFor x n s = r at *
  refine ⟨by omega, ?_, ?_⟩ <;> nlinarith

/-- Two amounts are redeemed at one price. -/
theorem one_price (x y n s : Nat) : redeemFor x n s * y < (redeemFor y n s + 1) * x + (if x = 0 then 1 else 0) := by
  have h1 := redeemFor_mul_le x n s
  have h2 := lt_redeemFor_succ_mul y n s
  split
  · next h => subst h; simp [redeemFor]
  · next h =>
    have hx : 0 < x := by omega
    have h3 : redeemFor x n s * (s + 100) * y ≤ x * (n + 100) * y := Nat.mul_le_mul_right _ h1
    have h4 : y * (n + 100) * x < (redeemFor y n s + 1) * (s + 100) * x := Nat.mul_lt_mul_of_pos_right h2 hx
    have : redeemFor x n s * y * (s + 100) < (redeemFor y n s + 1) * x * (s + 100) := by nlinarith
    simpa using Nat.lt_of_mul_lt_mul_right this

/-- Stake, gift, unstake. -/
theorem sandwich_arith {a n s d m w : Nat} (hs : s ≠ 0) (hn : n ≠ 0) (hm : m = mintFor a n s)
    (hw : w = redeemFor m (n + a + d) (s + m)) :
    w * (s + m + 100) ≤ a * (s + m + 100) + m * d ∧
    a * (s + m + 100) + m * d < (w + 1) * (s + m + 100) + (n + 100) := by
  have h1 := mintFor_mul_le (a := a) hs hn
  have h2 := lt_mintFor_succ_mul (a := a) hs hn
  have h3 := redeemFor_mul_le m (n + a + d) (s + m)
  have h4 := lt_redeemFor_succ_mul m (n + a + d) (s + m)
  rw [← hm] at h1 h2
  rw [← hw] at h3 h4
  constructor <;> nlinarith

/-- What is left when all xORCA is redeemed at once. -/
theorem residue {n s : Nat} (hb : s ≤ n) :
    (n - redeemFor s n s) * (s + 100) < 100 * (n - s) + (s + 100) ∧ 100 * (n - s) ≤ (n - redeemFor s n s) * (s + 100) := by
  have h1 := redeemFor_mul_le s n s
  have h2 := lt_redeemFor_succ_mul s n s
  have h3 := redeemFor_le hb (le_refl s)
  obtain ⟨r, hr⟩ := Nat.exists_eq_add_of_le h3
  obtain ⟨q, rfl⟩ := Nat.exists_eq_add_of_le hb
  generalize redeemFor s (s + q) s = p at *
  have e : s + q - p = r := by omega
  rw [e, Nat.add_sub_cancel_left]
  constructor <;> nlinarith

/-- `(1 + 1/M)^k ≤ 1 + 2k/M` for `2k ≤ M + 2`. -/
theorem pow_bound {M : Nat} : ∀ {k : Nat}, 2 * k ≤ M + 2 → (M + 1) ^ k * M ≤ M ^ k * (M + 2 * k)
  | 0, _ => by simp
  | k + 1, h => by
    have ih := pow_bound (M := M) (k := k) (by omega)
    have h1 : (M + 1) ^ (k + 1) * M ≤ (M + 1) * (M ^ k * (M + 2 * k)) := by
      rw [pow_succ, Nat.mul_comm ((M + 1) ^ k), Nat.mul_assoc]
      exact Nat.mul_le_mul_left _ ih
    have h2 : (M + 1) * (M + 2 * k) ≤ M * (M + 2 * (k + 1)) := by nlinarith
    have h3 : M ^ k * ((M + 1) * (M + 2 * k)) ≤ M ^ k * (M * (M + 2 * (k + 1))) := Nat.mul_le_mul_left _ h2
    calc (M + 1) ^ (k + 1) * M ≤ (M + 1) * (M ^ k * (M + 2 * k)) := h1
      _ = M ^ k * ((M + 1) * (M + 2 * k)) := by ring
      _ ≤ M ^ k * (M * (M + 2 * (k + 1))) := h3
      _ = M ^ (k + 1) * (M + 2 * (k + 1)) := by ring

/-- The value of `x` after a rise of the price by at most `A / B`. -/
theorem redeem_rise {x n s n' s' A B : Nat} (hB : 0 < B) (h : (n' + 100) * (s + 100) * B ≤ (n + 100) * (s' + 100) * A) :
    redeemFor x n' s' * B < (redeemFor x n s + 1) * A := by
  have h1 := redeemFor_mul_le x n' s'
  have h2 := lt_redeemFor_succ_mul x n s
  have hA : 0 < A := by
    rcases Nat.eq_zero_or_pos A with rfl | hA
    · have : 0 < (n' + 100) * (s + 100) * B := by positivity
      omega
    · exact hA
  generalize redeemFor x n' s' = w' at *
  generalize redeemFor x n s = w at *
  have h3 : w' * (s' + 100) * ((s + 100) * B) ≤ x * (n' + 100) * ((s + 100) * B) := Nat.mul_le_mul_right _ h1
  have h4 : x * ((n' + 100) * (s + 100) * B) ≤ x * ((n + 100) * (s' + 100) * A) := Nat.mul_le_mul_left _ h
  have h5 : x * (n + 100) * ((s' + 100) * A) < (w + 1) * (s + 100) * ((s' + 100) * A) :=
    Nat.mul_lt_mul_of_pos_right h2 (by positivity)
  have h6 : w' * B * ((s' + 100) * (s + 100)) < (w + 1) * A * ((s' + 100) * (s + 100)) := by
    calc w' * B * ((s' + 100) * (s + 100)) = w' * (s' + 100) * ((s + 100) * B) := by ring
      _ ≤ x * (n' + 100) * ((s + 100) * B) := h3
      _ = x * ((n' + 100) * (s + 100) * B) := by ring
      _ ≤ x * ((n + 100) * (s' + 100) * A) := h4
      _ = x * (n + 100) * ((s' + 100) * A) := by ring
      _ < (w + 1) * (s + 100) * ((s' + 100) * A) := h5
      _ = (w + 1) * A * ((s' + 100) * (s + 100)) := by ring
  exact Nat.lt_of_mul_lt_mul_right h6

/-- What `a` mints after a rise of the price by at most `A / B`. -/
theorem mint_rise {a n s n' s' A B : Nat} (hB : 0 < B) (hs : s ≠ 0) (hn : n ≠ 0) (hs' : s' ≠ 0) (hn' : n' ≠ 0)
    (h : (n' + 100) * (s + 100) * B ≤ (n + 100) * (s' + 100) * A) :
    mintFor a n s * B < (mintFor a n' s' + 1) * A := by
  have h1 := mintFor_mul_le (a := a) hs hn
  have h2 := lt_mintFor_succ_mul (a := a) hs' hn'
  have hA : 0 < A := by
    rcases Nat.eq_zero_or_pos A with rfl | hA
    · have : 0 < (n' + 100) * (s + 100) * B := by positivity
      omega
    · exact hA
  generalize mintFor a n s = m at *
  generalize mintFor a n' s' = m' at *
  have h6 : m * B * ((n + 100) * (n' + 100)) < (m' + 1) * A * ((n + 100) * (n' + 100)) := by
    calc m * B * ((n + 100) * (n' + 100)) = m * (n + 100) * (B * (n' + 100)) := by ring
      _ ≤ a * (s + 100) * (B * (n' + 100)) := Nat.mul_le_mul_right _ h1
      _ = a * ((n' + 100) * (s + 100) * B) := by ring
      _ ≤ a * ((n + 100) * (s' + 100) * A) := Nat.mul_le_mul_left _ h
      _ = a * (s' + 100) * ((n + 100) * A) := by ring
      _ < (m' + 1) * (n' + 100) * ((n + 100) * A) := Nat.mul_lt_mul_of_pos_right h2 (by positivity)
      _ = (m' + 1) * A * ((n + 100) * (n' + 100)) := by ring
  exact Nat.lt_of_mul_lt_mul_right h6

/-- A path without trades moves the backing by the gifts alone. -/
theorem gifts_only {cr : Crypto} {L L' : Ledger} {st v : Pubkey} {b : UInt8} {h : List Entry}
    (hr : Reachable cr L) (hi : Initialised cr L st) (hv : VaultAddr cr st v b) (hp : Path cr L h L')
    (ht : ∀ e ∈ h, isTrade e = false) : backing L' v st = backing L v st + (h.map (donated st v)).sum := by
  obtain ⟨h0, hh⟩ := hr
  have hf := backing_flow hh hi hv hp
  have h1 : (h.map staked).sum = 0 := by
    rw [List.sum_eq_zero_iff]
    intro n hn
    obtain ⟨e, he, rfl⟩ := List.mem_map.1 hn
    have := ht e he
    unfold isTrade at this
    unfold staked
    split <;> simp_all
  have h2 : (h.map (setAside st v)).sum = 0 := by
    rw [List.sum_eq_zero_iff]
    intro n hn
    obtain ⟨e, he, rfl⟩ := List.mem_map.1 hn
    have := ht e he
    unfold isTrade at this
    unfold setAside
    split <;> simp_all
  omega

namespace Demo

/-- 300000 ORCA staked just before a gift of 500000, into a pool of 1000000. -/
def Y3 : Ledger := after 1002 L2 stakeAccs (0 :: u64le 300000)
def Y4 : Ledger := outL (splTransfer Y3 UO VA US 500000)
def Y5 : Ledger := after 1003 Y4 (unstakeAccs R255) (1 :: u64le 300000 ++ [255])

theorem tookY3 : Took cr L2 (.Stake 300000) Y3 := took (by decide +kernel) (by decide +kernel) (by decide +kernel)
theorem transferY4 : splTransfer Y3 UO VA US 500000 = .ok Y4 := outL_eq (by decide +kernel)
theorem envY4 : EnvStep cr Y3 Y4 := envStep_transfer transferY4 us_ne_st (fun _ => Or.inr (by decide +kernel))
theorem tookY5 : Took cr Y4 (.Unstake 300000 255) Y5 := took (by decide +kernel) (by decide +kernel) (by decide +kernel)
theorem pathY4 : Path cr Y3 [⟨Y3, .env, Y4⟩] Y4 := path_env .nil envY4

end Demo

end Xorca
