import Verif.Lemmas.PartsAux
/-
C118: what it costs to stake or unstake in parts.
-/
namespace Xorca
open Spec

variable {cr : Crypto} {L L' : Ledger} {st v : Pubkey} {b : UInt8} {h : List Entry}

/-- In a pool with xORCA, `k` Stakes of together `A` (with Withdraws, Sets and quiet steps of others in between) mint
less than `1 + (k - 1) * (n + A + 100) / (n + 100)` xORCA less than one Stake of `A`, where `n` is the backing. -/
theorem C118_stake_in_parts (hr : Reachable cr L) (hi : Initialised cr L st) (hv : VaultAddr cr st v b)
    (h0 : supply L XORCA_MINT_ID ≠ 0) (hp : Path cr L h L') (hq : ∀ e ∈ h, Quiet v e)
    (hs : ∀ e ∈ h, isTrade e = true → isStake e = true) (hk : 0 < h.countP isStake) :
    (mintFor (h.map staked).sum (backing L v st) (supply L XORCA_MINT_ID) + supply L XORCA_MINT_ID) * (backing L v st + 100) +
        (backing L v st + (h.map staked).sum + 100) <
      (supply L' XORCA_MINT_ID + 1) * (backing L v st + 100) +
        h.countP isStake * (backing L v st + (h.map staked).sum + 100) := by
  have p := reachable_pool hr hi hv
  have hb : supply L XORCA_MINT_ID ≤ backing L v st := backed p
  suffices hsuff : backing L' v st = backing L v st + (h.map staked).sum ∧
      supply L XORCA_MINT_ID ≤ supply L' XORCA_MINT_ID ∧
      (backing L' v st + 100) * (supply L XORCA_MINT_ID + 100) + (backing L' v st + 100) ≤
        (supply L' XORCA_MINT_ID + 100) * (backing L v st + 100) + (backing L v st + 100) +
          h.countP isStake * (backing L' v st + 100) ∧
      (0 < h.countP isStake →
        (backing L' v st + 100) * (supply L XORCA_MINT_ID + 100) + (backing L' v st + 100) <
          (supply L' XORCA_MINT_ID + 100) * (backing L v st + 100) + (backing L v st + 100) +
            h.countP isStake * (backing L' v st + 100)) by
    obtain ⟨e1, -, -, key⟩ := hsuff
    have key := key hk
    rw [e1] at key
    have hm : mintFor (h.map staked).sum (backing L v st) (supply L XORCA_MINT_ID) * (backing L v st + 100) ≤
        (h.map staked).sum * (supply L XORCA_MINT_ID + 100) := by
      rw [mintFor, if_neg (by omega)]
      exact Nat.div_mul_le_self _ _
    generalize mintFor (h.map staked).sum (backing L v st) (supply L XORCA_MINT_ID) = m at *
    generalize (h.map staked).sum = A at *
    nlinarith
  clear hk
  induction hp with
  | nil => simp [Nat.mul_comm]
  | @step h e q ok ih =>
    obtain ⟨f1, f2, f3, f4⟩ := ih (fun e he => hq e (List.mem_cons_of_mem _ he)) (fun e he => hs e (List.mem_cons_of_mem _ he))
    obtain ⟨i1, hpool⟩ := q.inv hr.inv
    have p1 := hpool st v p
    rw [List.map_cons, List.sum_cons]
    cases ht : isStake e with
    | true =>
      rw [List.countP_cons_of_pos ht]
      obtain ⟨g1, g2⟩ := stake_figures ok i1 p1 ht
      have key := stake_part (a := staked e) (m := mintFor (staked e) (backing e.pre v st) (supply e.pre XORCA_MINT_ID)) f3
        (by
          rw [mintFor, if_neg (by omega)]
          exact Nat.lt_mul_of_div_lt (Nat.lt_succ_self _) (by omega))
        (by omega) (by omega)
      rw [g1, g2]
      rw [show backing e.pre v st + 100 + staked e = backing e.pre v st + staked e + 100 by omega,
        Nat.add_right_comm _ 100] at key
      exact ⟨by omega, by omega, key.le, fun _ => key⟩
    | false =>
      rw [List.countP_cons_of_neg (by simp [ht]), staked_zero ht, Nat.zero_add]
      have hf : isTrade e = false := by
        cases hc : isTrade e with
        | false => rfl
        | true => rw [hs e (by simp) hc] at ht; cases ht
      obtain ⟨e1, e2⟩ := ((ok.move i1 p1).rise p1 (hq e (by simp))).2.1 hf
      rw [e1, e2]
      exact ⟨f1, f2, f3, f4⟩

/-- Two Stakes of 300000 at a price of about 1.5. -/
example := C118_stake_in_parts Demo.reach3 Demo.init3 Demo.va_addr (by rw [Demo.supplyTwice.1]; decide) Demo.pathTwice
  (by
    intro e he
    simp only [List.mem_cons, List.not_mem_nil, or_false] at he
    rcases he with rfl | rfl <;> exact quiet_call (by rfl))
  (by
    intro e he
    simp only [List.mem_cons, List.not_mem_nil, or_false] at he
    rcases he with rfl | rfl <;> exact fun _ => rfl)
  (by decide)

/-- The factor by which the pool grows does count: with 100 ORCA and 1 xORCA, 99 and then 1000000 staked mint 3328 xORCA
less than 1000099 staked at once. -/
example : mintFor 99 100 1 = 49 ∧ mintFor 1000000 199 50 = 501672 ∧ mintFor 1000099 100 1 = 49 + 501672 + 3328 := by decide

/-- `k` Unstakes (with Withdraws, Sets and quiet steps of others in between) set aside less than `k` units less than
one Unstake of the same xORCA. -/
theorem C118_unstake_in_parts (hr : Reachable cr L) (hi : Initialised cr L st) (hv : VaultAddr cr st v b)
    (hp : Path cr L h L') (hq : ∀ e ∈ h, Quiet v e) (hs : ∀ e ∈ h, isStake e = false) (hk : 0 < h.countP isTrade) :
    supply L' XORCA_MINT_ID ≤ supply L XORCA_MINT_ID ∧
    redeemFor (supply L XORCA_MINT_ID - supply L' XORCA_MINT_ID) (backing L v st) (supply L XORCA_MINT_ID) + 1 ≤
      (h.map (setAside st v)).sum + h.countP isTrade := by
  have p := reachable_pool hr hi hv
  suffices hsuff : backing L' v st ≤ backing L v st ∧ supply L' XORCA_MINT_ID ≤ supply L XORCA_MINT_ID ∧
      backing L' v st + (h.map (setAside st v)).sum = backing L v st ∧
      (backing L' v st + 100) * (supply L XORCA_MINT_ID + 100) ≤
        (supply L' XORCA_MINT_ID + 100) * (backing L v st + 100) + h.countP isTrade * (supply L XORCA_MINT_ID + 100) ∧
      (0 < h.countP isTrade → (backing L' v st + 100) * (supply L XORCA_MINT_ID + 100) <
        (supply L' XORCA_MINT_ID + 100) * (backing L v st + 100) + h.countP isTrade * (supply L XORCA_MINT_ID + 100)) by
    obtain ⟨e1, e2, e3, -, key⟩ := hsuff
    refine ⟨e2, ?_⟩
    have key := key hk
    have hm := redeemFor_mul_le (supply L XORCA_MINT_ID - supply L' XORCA_MINT_ID) (backing L v st) (supply L XORCA_MINT_ID)
    generalize redeemFor (supply L XORCA_MINT_ID - supply L' XORCA_MINT_ID) (backing L v st) (supply L XORCA_MINT_ID) = w at *
    generalize (h.map (setAside st v)).sum = W at *
    obtain ⟨X, hX⟩ := Nat.exists_eq_add_of_le e2
    rw [hX, Nat.add_sub_cancel_left] at hm
    rw [hX] at key
    rw [← e3] at hm key
    refine Nat.lt_of_mul_lt_mul_right (a := supply L' XORCA_MINT_ID + X + 100) ?_
    nlinarith
  clear hk
  induction hp with
  | nil => simp [Nat.mul_comm]
  | @step h e q ok ih =>
    obtain ⟨f1, f2, f3, f4, f5⟩ := ih (fun e he => hq e (List.mem_cons_of_mem _ he)) (fun e he => hs e (List.mem_cons_of_mem _ he))
    obtain ⟨i1, hpool⟩ := q.inv hr.inv
    have p1 := hpool st v p
    rw [List.map_cons, List.sum_cons]
    cases ht : isTrade e with
    | true =>
      rw [List.countP_cons_of_pos ht]
      obtain ⟨x, g1, g2, g3⟩ := unstake_figures ok i1 p1 ht (hs e (by simp))
      have hlt := lt_redeemFor_succ_mul x (backing e.pre v st) (supply e.pre XORCA_MINT_ID)
      have key := unstake_part (N2 := backing e.post v st + 100) (S2 := supply e.post XORCA_MINT_ID + 100) (x := x)
        (w := redeemFor x (backing e.pre v st) (supply e.pre XORCA_MINT_ID)) (k := h.countP isTrade)
        (N := backing L v st + 100) (S := supply L XORCA_MINT_ID + 100)
        (by
          rw [Nat.add_right_comm, g2, Nat.add_right_comm (supply e.post XORCA_MINT_ID), g1]
          exact f4)
        (by
          rw [Nat.add_right_comm (backing e.post v st), g2, Nat.add_right_comm (supply e.post XORCA_MINT_ID), g1]
          exact hlt)
        (by omega)
      rw [g3]
      exact ⟨by omega, by omega, by omega, key.le, fun _ => key⟩
    | false =>
      rw [List.countP_cons_of_neg (by simp [ht])]
      obtain ⟨e1, e2⟩ := ((ok.move i1 p1).rise p1 (hq e (by simp))).2.1 ht
      rw [e1, e2, setAside_zero ht, Nat.zero_add]
      exact ⟨f1, f2, f3, f4, f5⟩

/-- Two Unstakes, two Sets and a Withdraw. -/
example := C118_unstake_in_parts Demo.reach4 Demo.init4 Demo.va_addr Demo.path49 demo_quiet49 (by
    intro e he
    simp only [List.mem_cons, List.not_mem_nil, or_false] at he
    rcases he with rfl | rfl | rfl | rfl | rfl <;> rfl)
  (by decide)

end Xorca
