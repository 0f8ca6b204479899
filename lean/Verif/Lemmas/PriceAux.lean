import Verif.Trades
import Verif.Props.NoProfit
import Verif.Props.RoundTrips
/-
Lemmas for `Props/Price.lean`.
-/
namespace Xorca
open Spec

variable {cr : Crypto} {L L' L1 L2 L3 L4 : Ledger} {st v : Pubkey} {b : UInt8} {h : List Entry}

theorem stake_parts {n s n' s' a : Nat} (hb : s ≤ n) (hn : n' = n + a)
    (h : (n + 100) * (s' + 100) ≤ (n' + 100) * (s + 100)) : s' ≤ s + mintFor a n s := by
  subst hn
  unfold mintFor
  split
  · rename_i h0
    have : s = 0 := by omega
    subst this
    nlinarith
  · rw [← Nat.sub_le_iff_le_add', Nat.le_div_iff_mul_le (by omega)]
    by_cases hs : s ≤ s'
    · obtain ⟨c, rfl⟩ := Nat.exists_eq_add_of_le hs
      rw [Nat.add_sub_cancel_left]
      nlinarith
    · rw [Nat.sub_eq_zero_of_le (by omega), Nat.zero_mul]
      exact Nat.zero_le _

theorem unstake_parts {n s n' s' o : Nat} (hn : n' + o = n) (hs : s' ≤ s)
    (h : (n + 100) * (s' + 100) ≤ (n' + 100) * (s + 100)) : o ≤ redeemFor (s - s') n s := by
  obtain ⟨c, rfl⟩ := Nat.exists_eq_add_of_le hs
  rw [Nat.add_sub_cancel_left]
  unfold redeemFor
  rw [Nat.le_div_iff_mul_le (by omega)]
  subst hn
  nlinarith

theorem stake_rise {a n s : Nat} (hb : s ≤ n) : (n + a + 100) * (s + 100) ≤ (n + 100) * (s + mintFor a n s + 101) := by
  by_cases h0 : s = 0
  · subst h0
    simp only [mintFor, true_or, if_true]
    nlinarith
  · have := lt_mintFor_succ_mul (a := a) h0 (show n ≠ 0 by omega)
    nlinarith

theorem unstake_rise {x n s n' s' : Nat} (hb : s ≤ n) (hn : n' + redeemFor x n s = n) (hs : s' + x = s) :
    (n' + 100) * (s + 100) ≤ (n + 100) * (s' + 101) := by
  have := lt_redeemFor_succ_mul x n s
  generalize redeemFor x n s = w at *
  subst hn hs
  nlinarith

theorem Move.rise {st v : Pubkey} {e : Entry} (m : Move e.pre e.post st v e)
    (p : Pool cr e.pre st v) (hq : Quiet v e) :
    (backing e.post v st + 100) * (supply e.pre XORCA_MINT_ID + 100) ≤
        (backing e.pre v st + 100) * (supply e.post XORCA_MINT_ID + 101) ∧
    (isTrade e = false → backing e.post v st = backing e.pre v st ∧
      supply e.post XORCA_MINT_ID = supply e.pre XORCA_MINT_ID) ∧
    (isStake e = true → supply e.pre XORCA_MINT_ID ≤ supply e.post XORCA_MINT_ID) := by
  have hb := p.backed
  have hle : supply e.pre XORCA_MINT_ID ≤ backing e.pre v st := by rw [backing]; omega
  cases m with
  | stake a hl hs he hbal =>
    have e1 : backing e.post v st = backing e.pre v st + a := by simp only [backing] at *; omega
    obtain ⟨x, accs, n, logs, hl, _⟩ := hl
    refine ⟨?_, fun h => absurd h (by simp [isTrade, hl]), fun _ => by omega⟩
    rw [e1, hs]
    exact stake_rise hle
  | unstake a hl hs he hbal =>
    have h2 := redeemFor_le (x := a) hle (by omega)
    obtain ⟨x, accs, n, i, logs, hl, _⟩ := hl
    refine ⟨?_, fun h => absurd h (by simp [isTrade, hl]), fun h => absurd h (by simp [isStake, hl])⟩
    exact unstake_rise (x := a) hle (by simp only [backing] at *; omega) hs
  | withdraw w hl hs he hbal =>
    have e1 : backing e.post v st = backing e.pre v st := by simp only [backing]; omega
    rw [e1, hs]
    exact ⟨Nat.mul_le_mul_left _ (by omega), fun _ => ⟨rfl, rfl⟩, fun _ => le_refl _⟩
  | set hl hs he hbal =>
    have e1 : backing e.post v st = backing e.pre v st := by simp only [backing]; omega
    rw [e1, hs]
    exact ⟨Nat.mul_le_mul_left _ (by omega), fun _ => ⟨rfl, rfl⟩, fun _ => le_refl _⟩
  | env hl hs he hbal =>
    obtain ⟨q1, q2⟩ := hq hl
    have e1 : backing e.post v st = backing e.pre v st := by simp only [backing]; omega
    rw [e1, q2]
    exact ⟨Nat.mul_le_mul_left _ (by omega), fun _ => ⟨rfl, rfl⟩, fun _ => le_refl _⟩

theorem rise_pow {n0 s0 n1 s1 n2 s2 m k : Nat} (hm : m ≤ s2) (h1 : (n1 + 100) * (s0 + 100) * (m + 100) ^ k ≤ (n0 + 100) * (s1 + 100) * (m + 101) ^ k)
    (h2 : (n2 + 100) * (s1 + 100) ≤ (n1 + 100) * (s2 + 101)) :
    (n2 + 100) * (s0 + 100) * (m + 100) ^ (k + 1) ≤ (n0 + 100) * (s2 + 100) * (m + 101) ^ (k + 1) := by
  have h3 : (s2 + 101) * (m + 100) ≤ (s2 + 100) * (m + 101) := by nlinarith
  refine Nat.le_of_mul_le_mul_right ?_ (show 0 < (s1 + 100) * (n1 + 100) by positivity)
  calc (n2 + 100) * (s0 + 100) * (m + 100) ^ (k + 1) * ((s1 + 100) * (n1 + 100))
      = ((n2 + 100) * (s1 + 100)) * ((n1 + 100) * (s0 + 100) * (m + 100) ^ k) * (m + 100) := by ring
    _ ≤ ((n1 + 100) * (s2 + 101)) * ((n0 + 100) * (s1 + 100) * (m + 101) ^ k) * (m + 100) :=
        Nat.mul_le_mul_right _ (Nat.mul_le_mul h2 h1)
    _ = ((n0 + 100) * (n1 + 100) * (s1 + 100) * (m + 101) ^ k) * ((s2 + 101) * (m + 100)) := by ring
    _ ≤ ((n0 + 100) * (n1 + 100) * (s1 + 100) * (m + 101) ^ k) * ((s2 + 100) * (m + 101)) := Nat.mul_le_mul_left _ h3
    _ = _ := by ring

theorem quiet_call {v : Pubkey} {e : Entry} {x : Ctx} {accs : List Meta} {ix : Instruction} {logs : List Bytes}
    (h : e.label = .call x accs ix logs) : Quiet v e := fun hh => by rw [h] at hh; cases hh

theorem demo_quiet49 : ∀ e ∈ [Demo.e9, Demo.e8, Demo.e7, Demo.e6, Demo.e5], Quiet Demo.VA e := by
  intro e he
  simp only [List.mem_cons, List.not_mem_nil, or_false] at he
  rcases he with rfl | rfl | rfl | rfl | rfl <;> exact quiet_call (by rfl)

theorem rise_telescope {n0 s0 n1 s1 n2 s2 k : Nat} (hs : s0 + k + 1 ≤ s2)
    (h1 : (n1 + 100) * (s0 + 100) * (s0 + 101) ≤ (n0 + 100) * (s1 + 100) * (s0 + 101 + k))
    (h2 : (n2 + 100) * (s1 + 100) ≤ (n1 + 100) * (s2 + 101)) :
    (n2 + 100) * (s0 + 100) * (s0 + 101) ≤ (n0 + 100) * (s2 + 100) * (s0 + 101 + (k + 1)) := by
  have h3 : (s2 + 101) * (s0 + 101 + k) ≤ (s2 + 100) * (s0 + 101 + (k + 1)) := by nlinarith
  refine Nat.le_of_mul_le_mul_right ?_ (show 0 < (s1 + 100) * (n1 + 100) by positivity)
  calc (n2 + 100) * (s0 + 100) * (s0 + 101) * ((s1 + 100) * (n1 + 100))
      = ((n2 + 100) * (s1 + 100)) * ((n1 + 100) * (s0 + 100) * (s0 + 101)) := by ring
    _ ≤ ((n1 + 100) * (s2 + 101)) * ((n0 + 100) * (s1 + 100) * (s0 + 101 + k)) := Nat.mul_le_mul h2 h1
    _ = ((n0 + 100) * (n1 + 100) * (s1 + 100)) * ((s2 + 101) * (s0 + 101 + k)) := by ring
    _ ≤ ((n0 + 100) * (n1 + 100) * (s1 + 100)) * ((s2 + 100) * (s0 + 101 + (k + 1))) := Nat.mul_le_mul_left _ h3
    _ = _ := by ring

theorem stake_grows {e : Entry} (ok : e.Ok cr) (inv : Inv cr e.pre) (p : Pool cr e.pre st v) (h : isStake e = true) :
    supply e.pre XORCA_MINT_ID + 1 ≤ supply e.post XORCA_MINT_ID := by
  have m := ok.move inv p
  cases ok with
  | env he => simp [isStake] at h
  | @call x accs ix logs M M' hx hrent hs hrun =>
    cases ix with
    | Stake a =>
      subst hx
      obtain ⟨s, v', oa, xa, xm, st', om, tp, L1, w, r, f, q, q', i'⟩ := inv.stake hs hrun.dispatch
      obtain ⟨rfl, rfl, _⟩ := p.unique q
      have h1 := r.minted
      have h2 := u64_ne_zero_iff.1 r.minted_pos
      cases m with
      | stake n hl h3 h4 h5 =>
        obtain ⟨_, _, n', _, he, hn⟩ := hl
        simp only [Label.call.injEq, Instruction.Stake.injEq] at he
        obtain ⟨_, _, rfl, _⟩ := he
        subst hn
        simp only at h3 ⊢
        omega
      | unstake n hl => obtain ⟨_, _, _, _, _, he, _⟩ := hl; simp at he
      | withdraw n hl => obtain ⟨_, _, _, _, _, he, _⟩ := hl; simp at he
      | set hl => obtain ⟨_, _, _, _, he⟩ := hl; simp at he
      | env hl => simp at hl
    | _ => simp [isStake] at h

theorem attack_arith {a d n s k w : Nat} (hw : w * (s + 100) ≤ a * (n + 100))
    (h : (n + 100) * (a + 100) * (a + 101) ≤ (a + d + 100) * (s + 100) * (a + 101 + k)) :
    w * ((a + 100) * (a + 101)) ≤ a * (a + d + 100) * (a + 101 + k) := by
  refine Nat.le_of_mul_le_mul_right ?_ (show 0 < s + 100 by omega)
  calc w * ((a + 100) * (a + 101)) * (s + 100) = w * (s + 100) * ((a + 100) * (a + 101)) := by ring
    _ ≤ a * (n + 100) * ((a + 100) * (a + 101)) := Nat.mul_le_mul_right _ hw
    _ = a * ((n + 100) * (a + 100) * (a + 101)) := by ring
    _ ≤ a * ((a + d + 100) * (s + 100) * (a + 101 + k)) := Nat.mul_le_mul_left _ h
    _ = _ := by ring

theorem attack_no_profit {a d k w : Nat} (hk : k * (a + d) ≤ 100 * d)
    (h : w * ((a + 100) * (a + 101)) ≤ a * (a + d + 100) * (a + 101 + k)) : w ≤ a + d := by
  refine Nat.le_of_mul_le_mul_right (le_trans h ?_) (show 0 < (a + 100) * (a + 101) by positivity)
  have h1 : k * (a + d) * (a + 100) ≤ 100 * d * (a + 101 + k) := Nat.mul_le_mul hk (by omega)
  nlinarith

theorem demo_path34 : Path Demo.cr Demo.L3 [Demo.e4] Demo.L4 := Demo.path_call .nil Demo.signers4 Demo.run4

end Xorca
