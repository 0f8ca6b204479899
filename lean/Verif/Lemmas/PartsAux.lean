import Verif.Lemmas.TwiceAux
import Verif.Lemmas.PriceAux
/-
Lemmas for `Props/Parts.lean`.
-/
namespace Xorca
open Spec

variable {cr : Crypto} {st v : Pubkey}

/-- One more part of a stake: what is missing is scaled up with the pool, and less than one unit is added. -/
theorem stake_part {N S N1 S1 a m k : Nat} (h : N1 * S + N1 ≤ S1 * N + N + k * N1) (hm : a * S1 < (m + 1) * N1)
    (hN : N ≤ N1) (h0 : 0 < N) : (N1 + a) * S + (N1 + a) < (S1 + m) * N + N + (k + 1) * (N1 + a) := by
  refine Nat.lt_of_mul_lt_mul_left (a := N1) ?_
  have h1 : (N1 + a) * (N1 * S + N1) ≤ (N1 + a) * (S1 * N + N + k * N1) := Nat.mul_le_mul_left _ h
  have h2 : a * S1 * N < (m + 1) * N1 * N := Nat.mul_lt_mul_of_pos_right hm h0
  have h3 : (N1 + a) * N ≤ (N1 + a) * N1 := Nat.mul_le_mul_left _ hN
  nlinarith

/-- One more part of an unstake: less than one unit more is missing. -/
theorem unstake_part {N S N2 S2 x w k : Nat} (h : (N2 + w) * S ≤ (S2 + x) * N + k * S)
    (hw : x * (N2 + w) < (w + 1) * (S2 + x)) (h0 : 0 < S) : N2 * S < S2 * N + (k + 1) * S := by
  refine Nat.lt_of_mul_lt_mul_left (a := S2 + x) ?_
  have h1 : S2 * ((N2 + w) * S) ≤ S2 * ((S2 + x) * N + k * S) := Nat.mul_le_mul_left _ h
  have h2 : x * (N2 + w) * S < (w + 1) * (S2 + x) * S := Nat.mul_lt_mul_of_pos_right hw h0
  have h3 : S2 * (k * S) ≤ (S2 + x) * (k * S) := Nat.mul_le_mul_right _ (by omega)
  nlinarith

/-- The figures before and after a Stake in a pool with xORCA. -/
theorem stake_figures {e : Entry} (ok : e.Ok cr) (inv : Inv cr e.pre) (p : Pool cr e.pre st v) (h : isStake e = true) :
    backing e.post v st = backing e.pre v st + staked e ∧
    supply e.post XORCA_MINT_ID =
      supply e.pre XORCA_MINT_ID + mintFor (staked e) (backing e.pre v st) (supply e.pre XORCA_MINT_ID) := by
  have hb := p.backed
  cases ok.move inv p with
  | stake a hl hs he hbal =>
    obtain ⟨x, accs, n, logs, hl, hn⟩ := hl
    have hst : staked e = a := by rw [staked, hl]; exact hn
    rw [hst]
    exact ⟨by simp only [backing] at *; omega, hs⟩
  | unstake a hl => obtain ⟨_, _, _, _, _, hl, _⟩ := hl; simp [isStake, hl] at h
  | withdraw a hl => obtain ⟨_, _, _, _, _, hl, _⟩ := hl; simp [isStake, hl] at h
  | set hl => obtain ⟨_, _, _, _, hl⟩ := hl; simp [isStake, hl] at h
  | env hl => simp [isStake, hl] at h

/-- The figures before and after an Unstake. -/
theorem unstake_figures {e : Entry} (ok : e.Ok cr) (inv : Inv cr e.pre) (p : Pool cr e.pre st v) (h : isTrade e = true)
    (h' : isStake e = false) : ∃ x,
    supply e.post XORCA_MINT_ID + x = supply e.pre XORCA_MINT_ID ∧
    backing e.post v st + redeemFor x (backing e.pre v st) (supply e.pre XORCA_MINT_ID) = backing e.pre v st ∧
    setAside st v e = redeemFor x (backing e.pre v st) (supply e.pre XORCA_MINT_ID) := by
  have hb := p.backed
  cases ok.move inv p with
  | stake a hl => obtain ⟨x, accs, n, logs, hl, hn⟩ := hl; simp [isStake, hl] at h'
  | unstake a hl hs he hbal =>
    have hle : supply e.pre XORCA_MINT_ID ≤ backing e.pre v st := by rw [backing]; omega
    have h2 := redeemFor_le (x := a) hle (by omega)
    obtain ⟨x, accs, n, i, logs, hl, hn⟩ := hl
    exact ⟨a, hs, by simp only [backing] at *; omega, by rw [setAside, hl, ← hn]⟩
  | withdraw a hl => obtain ⟨_, _, _, _, _, hl, _⟩ := hl; simp [isTrade, hl] at h
  | set hl => obtain ⟨_, _, _, _, hl⟩ := hl; simp [isTrade, hl] at h
  | env hl => simp [isTrade, hl] at h

theorem staked_zero {e : Entry} (h : isStake e = false) : staked e = 0 := by
  unfold isStake at h
  unfold staked
  split <;> simp_all

theorem setAside_zero {e : Entry} (h : isTrade e = false) : setAside st v e = 0 := by
  unfold isTrade at h
  unfold setAside
  split <;> simp_all

namespace Demo

/-- Two Stakes of 300000. -/
def eTwice : Entry := ⟨L4, .call (ctx 1003) stakeAccs (.Stake 300000)
  (outLogs (entry (ctx 1003) PROGRAM_ID L4 stakeAccs (0 :: u64le 300000))), twice⟩
theorem runTwice : Runs (ctx 1003) L4 stakeAccs (.Stake 300000) twice
    (outLogs (entry (ctx 1003) PROGRAM_ID L4 stakeAccs (0 :: u64le 300000))) :=
  ⟨_, by decide +kernel, out_eq stepsTwice.1.2⟩
theorem pathTwice : Path Demo.cr L3 [eTwice, e4] twice :=
  path_call (path_call .nil signers4 run4) (signersOk stepsTwice.1.1) runTwice

end Demo
end Xorca
