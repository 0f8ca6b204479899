import Verif.Lemmas.PriceAux
import Verif.Trades
import Verif.Props.NoProfit
import Verif.Props.RoundTrips
/-
C06, C07 for any number of parts; C71, C72: how fast the price can rise, and the donation attack against any number of victims.
-/
namespace Xorca
open Spec

variable {cr : Crypto} {L L' L1 L2 L3 L4 : Ledger} {st v : Pubkey} {b : UInt8} {h : List Entry}

/-! ### C06, C07: any number of parts -/

/-- On any path without donations and without a Stake into an ownerless pool, however many Stakes there are and
whatever happens between them, at most as much xORCA is added as one Stake of the total would have minted. -/
theorem C06_any_number_of_parts (hr : Reachable cr L) (hi : Initialised cr L st) (hv : VaultAddr cr st v b)
    (hp : Path cr L h L') (hno : ∀ e ∈ h, ¬ OrphanStake e st v) (hd : (h.map (donated st v)).sum = 0)
    (hu : (h.map (setAside st v)).sum = 0) :
    supply L' XORCA_MINT_ID ≤ supply L XORCA_MINT_ID +
      mintFor (h.map staked).sum (backing L v st) (supply L XORCA_MINT_ID) := by
  have p := reachable_pool hr hi hv
  have hprice := (C09_no_dilution hr hi hv hp hno).1
  obtain ⟨h0, hh⟩ := hr
  have hf := backing_flow hh hi hv hp
  have hb := p.backed
  exact stake_parts (by rw [backing]; omega) (by omega) hprice

/-- On any path without donations, Stakes and burns, however many Unstakes there are, together they set aside at
most what one Unstake of the total would have. -/
theorem C07_any_number_of_parts (hr : Reachable cr L) (hi : Initialised cr L st) (hv : VaultAddr cr st v b)
    (hp : Path cr L h L') (hd : (h.map (donated st v)).sum = 0) (hs : ∀ e ∈ h, isStake e = false)
    (hle : supply L' XORCA_MINT_ID ≤ supply L XORCA_MINT_ID) :
    (h.map (setAside st v)).sum ≤
      redeemFor (supply L XORCA_MINT_ID - supply L' XORCA_MINT_ID) (backing L v st) (supply L XORCA_MINT_ID) := by
  have hno : ∀ e ∈ h, ¬ OrphanStake e st v := by
    rintro e he ⟨⟨x, accs, n, logs, hl⟩, _⟩
    have := hs e he
    simp [isStake, hl] at this
  have hst : (h.map staked).sum = 0 := by
    rw [List.sum_eq_zero_iff]
    intro n hn
    obtain ⟨e, he, rfl⟩ := List.mem_map.1 hn
    have := hs e he
    unfold isStake at this
    unfold staked
    split <;> simp_all
  have hprice := (C09_no_dilution hr hi hv hp hno).1
  obtain ⟨h0, hh⟩ := hr
  have hf := backing_flow hh hi hv hp
  exact unstake_parts (by omega) hle hprice

/-! ### C71: the price rises by rounding only -/

/-- One call of the program raises the price `(backing + 100) / (supply + 100)` by a factor of at most
`(supply' + 101) / (supply' + 100)`, where `supply'` is the supply after the call (written without division). -/
theorem C71_price_rise_of_a_call {ix : Instruction} (hr : Reachable cr L) (hi : Initialised cr L st)
    (hv : VaultAddr cr st v b) (h1 : Took cr L ix L') :
    (backing L' v st + 100) * (supply L XORCA_MINT_ID + 100) ≤
      (backing L v st + 100) * (supply L' XORCA_MINT_ID + 101) := by
  obtain ⟨x, accs, logs, hx, hrent, hs, hrun⟩ := h1
  have p := reachable_pool hr hi hv
  have ok : Entry.Ok cr ⟨L, .call x accs ix logs, L'⟩ := .call hx hrent hs hrun
  exact ((ok.move hr.inv p).rise p (fun hh => by simp at hh)).1

/-- The price before is 1500100 / 1000100, the supply after is 1200006. -/
example := C71_price_rise_of_a_call Demo.reach3 Demo.init3 Demo.va_addr (Demo.took_run Demo.signers4 Demo.run4)

/-- Along any path on which nobody donates or burns and the supply stays at least `m`, `k` calls of Stake and Unstake
raise the price by a factor of at most `((m + 101) / (m + 100)) ^ k`; nothing else raises it. -/
theorem C71_price_rise_of_a_path {m : Nat} (hr : Reachable cr L) (hi : Initialised cr L st) (hv : VaultAddr cr st v b)
    (hp : Path cr L h L') (hq : ∀ e ∈ h, Quiet v e) (hm : ∀ e ∈ h, m ≤ supply e.post XORCA_MINT_ID) :
    (backing L' v st + 100) * (supply L XORCA_MINT_ID + 100) * (m + 100) ^ (h.countP isTrade) ≤
      (backing L v st + 100) * (supply L' XORCA_MINT_ID + 100) * (m + 101) ^ (h.countP isTrade) := by
  have p := reachable_pool hr hi hv
  induction hp with
  | nil => simp
  | @step h e q ok ih =>
    have h1 := ih (fun e he => hq e (List.mem_cons_of_mem _ he)) (fun e he => hm e (List.mem_cons_of_mem _ he))
    obtain ⟨i1, hpool⟩ := q.inv hr.inv
    have p1 := hpool st v p
    obtain ⟨h2, h3, _⟩ := (ok.move i1 p1).rise p1 (hq e (by simp))
    cases ht : isTrade e with
    | true =>
      rw [List.countP_cons_of_pos ht]
      exact rise_pow (hm e (by simp)) h1 h2
    | false =>
      rw [List.countP_cons_of_neg (by simp [ht])]
      obtain ⟨e1, e2⟩ := h3 ht
      rw [e1, e2]
      exact h1

/-- Two Unstakes, two Sets and a Withdraw. -/
example := C71_price_rise_of_a_path (m := 500000) Demo.reach4 Demo.init4 Demo.va_addr Demo.path49 demo_quiet49 (by
  intro e he
  simp only [List.mem_cons, List.not_mem_nil, or_false] at he
  rcases he with rfl | rfl | rfl | rfl | rfl <;> decide +kernel)

/-! ### C72: the donation attack against many victims -/

/-- Along any path on which nobody donates, burns or unstakes, `k` Stakes raise the price by a factor of at most
`(supply + 101 + k) / (supply + 101)`: the more xORCA there is, the less the rounding of the next Stake can do. -/
theorem C72_price_rise_of_stakes (hr : Reachable cr L) (hi : Initialised cr L st) (hv : VaultAddr cr st v b)
    (hp : Path cr L h L') (hq : ∀ e ∈ h, Quiet v e) (hs : ∀ e ∈ h, isTrade e = true → isStake e = true) :
    (backing L' v st + 100) * (supply L XORCA_MINT_ID + 100) * (supply L XORCA_MINT_ID + 101) ≤
      (backing L v st + 100) * (supply L' XORCA_MINT_ID + 100) * (supply L XORCA_MINT_ID + 101 + h.countP isStake) := by
  have p := reachable_pool hr hi hv
  suffices hsuff : (backing L' v st + 100) * (supply L XORCA_MINT_ID + 100) * (supply L XORCA_MINT_ID + 101) ≤
      (backing L v st + 100) * (supply L' XORCA_MINT_ID + 100) * (supply L XORCA_MINT_ID + 101 + h.countP isStake) ∧
      supply L XORCA_MINT_ID + h.countP isStake ≤ supply L' XORCA_MINT_ID from hsuff.1
  induction hp with
  | nil => simp
  | @step h e q ok ih =>
    obtain ⟨h1, h1'⟩ := ih (fun e he => hq e (List.mem_cons_of_mem _ he)) (fun e he => hs e (List.mem_cons_of_mem _ he))
    obtain ⟨i1, hpool⟩ := q.inv hr.inv
    have p1 := hpool st v p
    obtain ⟨h2, h3, _⟩ := (ok.move i1 p1).rise p1 (hq e (by simp))
    cases ht : isStake e with
    | true =>
      rw [List.countP_cons_of_pos ht]
      have hg := stake_grows ok i1 p1 ht
      exact ⟨rise_telescope (by omega) h1 h2, by omega⟩
    | false =>
      rw [List.countP_cons_of_neg (by simp [ht])]
      have hf : isTrade e = false := by
        cases hc : isTrade e with
        | false => rfl
        | true => rw [hs e (by simp) hc] at ht; cases ht
      obtain ⟨e1, e2⟩ := h3 hf
      rw [e1, e2]
      exact ⟨h1, h1'⟩

/-- The attack: the first to stake, into an empty pool, stakes `a`; then others, the attacker among them, send `d` to
the vault; then any number `k` of victims stake any amounts; then the attacker unstakes the `a` xORCA.  What the
attacker gets is at most `a * (a + d + 100) / (a + 100) * (a + 101 + k) / (a + 101)` (written without division), and
with `k * (a + d) ≤ 100 * d` at most what was put in: `a + d`.  For example, with a donation as large as the stake the
attack does not pay against 50 victims, and with a donation of 99 times the stake not against 99. -/
theorem C72_many_victims {a m : UInt64} {i : UInt8} (hr : Reachable cr L) (hi : Initialised cr L st)
    (hv : VaultAddr cr st v b) (h0 : supply L XORCA_MINT_ID = 0 ∧ backing L v st = 0)
    (h1 : Took cr L (.Stake a) L1) (h2 : EnvStep cr L1 L2) (hs2 : supply L2 XORCA_MINT_ID = supply L1 XORCA_MINT_ID)
    (hp : Path cr L2 h L3) (hq : ∀ e ∈ h, Quiet v e) (hs : ∀ e ∈ h, isTrade e = true → isStake e = true)
    (h4 : Took cr L3 (.Unstake m i) L4) (hm : m.toNat = supply L1 XORCA_MINT_ID) :
    let d := balance L2 v - balance L1 v
    let w := escrow L4 st - escrow L3 st
    w * ((a.toNat + 100) * (a.toNat + 101)) ≤
      a.toNat * (a.toNat + d + 100) * (a.toNat + 101 + h.countP isStake) ∧
    (h.countP isStake * (a.toNat + d) ≤ 100 * d → w ≤ a.toNat + d) := by
  intro d w
  have p := reachable_pool hr hi hv
  have hr1 := h1.reach hr
  have p1 := h1.pool hr p
  have hr2 := reach_env hr1 h2
  have p2 := pool_env hr1 h2 p1
  have hi2 : Initialised cr L2 st := ⟨hi.1, p2.prog, p2.acc.tag⟩
  have p3 := (hp.inv hr2.inv).2 st v p2
  have hr3 : Reachable cr L3 := by
    obtain ⟨g0, L0, g, q⟩ := hr2
    exact ⟨_, L0, g, q.append hp⟩
  obtain ⟨s1, s2, s3⟩ := h1.stake hr p
  obtain ⟨_, _, u3⟩ := h4.unstake hr3 p3
  have he : escrow L2 st = escrow L1 st := escrow_of_data (h2.owned st p1.prog p1.acc.lam).2.1
  have hb : balance L1 v ≤ balance L2 v := (h2.token v p1.v_tok).2.2.2.2
  have hb1 := p1.backed
  have e2 : backing L2 v st = a.toNat + d := by
    have : backing L1 v st = balance L1 v - escrow L1 st := rfl
    have : backing L2 v st = balance L2 v - escrow L2 st := rfl
    omega
  have e1 : supply L1 XORCA_MINT_ID = a.toNat := by rw [s1, h0.1, mintFor, if_pos (Or.inl rfl)]; omega
  have key := C72_price_rise_of_stakes hr2 hi2 hv hp hq hs
  rw [hs2, e1, e2] at key
  have hw : w * (supply L3 XORCA_MINT_ID + 100) ≤ a.toNat * (backing L3 v st + 100) := by
    have : w = redeemFor a.toNat (backing L3 v st) (supply L3 XORCA_MINT_ID) := by
      rw [hm, e1] at u3
      omega
    rw [this]
    exact redeemFor_mul_le _ _ _
  have h5 := attack_arith hw key
  exact ⟨h5, fun hk => attack_no_profit hk h5⟩

/-- Stake 1000000, donate 500000, another stakes 300000, unstake 1000000. -/
example := C72_many_victims Demo.reach1 Demo.init1 Demo.va_addr (by decide +kernel)
  (Demo.took_run Demo.signers2 Demo.run2) Demo.env3 (by decide +kernel) demo_path34
  (by simp only [List.mem_singleton, forall_eq]; exact quiet_call (by rfl))
  (by simp only [List.mem_singleton, forall_eq]; intro _; rfl)
  (Demo.took (now := 1003) (accs := Demo.unstakeAccs Demo.R255) (data := 1 :: u64le 1000000 ++ [255])
    (by decide +kernel) (ix := .Unstake 1000000 255) (by decide +kernel) (by decide +kernel)) (by decide +kernel)

/-- One Stake after another. -/
example := C06_any_number_of_parts Demo.reach3 Demo.init3 Demo.va_addr demo_path34
  (fun e he => Demo.noOrphan24 e (by simp only [List.mem_singleton] at he; simp [he])) (by rfl) (by rfl)

/-- Two Unstakes, of 600000 and 1000. -/
example := C07_any_number_of_parts Demo.reach4 Demo.init4 Demo.va_addr Demo.path49 (by rfl)
  (by
    intro e he
    simp only [List.mem_cons, List.not_mem_nil, or_false] at he
    rcases he with rfl | rfl | rfl | rfl | rfl <;> rfl)
  (by decide +kernel)

/-- The condition on the number of victims cannot be dropped: with a stake of 1000 and a donation of 1, two victims
who stake 5 each lose so much to rounding that the attacker gets 1002 for 1001. -/
theorem C72_dust_profit_witness :
    let s0 := mintFor 1000 0 0
    let m1 := mintFor 5 (1000 + 1) s0
    let m2 := mintFor 5 (1000 + 1 + 5) (s0 + m1)
    redeemFor s0 (1000 + 1 + 5 + 5) (s0 + m1 + m2) = 1000 + 1 + 1 := by decide

end Xorca
