import Verif.Lemmas.YieldAux
import Verif.Props.Price
import Verif.Props.Quotes
/-
C94: how gifts to the vault are shared; C95: how far a quote can move.
-/
namespace Xorca
open Spec

variable {cr : Crypto} {L L' L1 L2 L3 : Ledger} {st v : Pubkey} {b : UInt8} {h : List Entry}

/-! ### C94: gifts are shared in proportion -/

/-- Between two moments with only gifts, Sets and Withdraws in between and the same supply, the value of `x` xORCA grows
by `x / (supply + 100)` of what was given, up to less than one unit. -/
theorem C94_gift_shared_in_proportion (hr : Reachable cr L) (hi : Initialised cr L st) (hv : VaultAddr cr st v b)
    (hp : Path cr L h L') (ht : ∀ e ∈ h, isTrade e = false) (hs : supply L' XORCA_MINT_ID = supply L XORCA_MINT_ID)
    (x : Nat) :
    let before := redeemFor x (backing L v st) (supply L XORCA_MINT_ID)
    let after := redeemFor x (backing L' v st) (supply L' XORCA_MINT_ID)
    let given := (h.map (donated st v)).sum
    before ≤ after ∧
    (after - before) * (supply L XORCA_MINT_ID + 100) < x * given + (supply L XORCA_MINT_ID + 100) ∧
    x * given < (after - before + 1) * (supply L XORCA_MINT_ID + 100) := by
  intro before after given
  have e : backing L' v st = backing L v st + given := gifts_only hr hi hv hp ht
  have := gift_share x (backing L v st) (supply L XORCA_MINT_ID) given
  simp only [after, e, hs]
  exact this

/-- A gift of 500000 to a pool of 1000000 xORCA: the value of 200000 grows by 99990. -/
example := C94_gift_shared_in_proportion Demo.reach2 Demo.init2 Demo.va_addr (Demo.path_env .nil Demo.env3)
  (by simp only [List.mem_singleton, forall_eq]; rfl) (by decide +kernel) 200000
example : redeemFor 200000 (backing Demo.L3 Demo.VA Demo.ST) (supply Demo.L3 XORCA_MINT_ID) =
    redeemFor 200000 (backing Demo.L2 Demo.VA Demo.ST) (supply Demo.L2 XORCA_MINT_ID) + 99990 := by decide +kernel

/-- All who unstake in one state get the same price: of two Unstakes from one ledger neither gets more per xORCA than the
other, but for less than one unit of ORCA. -/
theorem C94_one_price {m m' : UInt64} {i i' : UInt8} {w w' : Nat} (hr : Reachable cr L) (hi : Initialised cr L st)
    (hv : VaultAddr cr st v b) (h1 : Took cr L (.Unstake m i) L1) (h2 : Took cr L (.Unstake m' i') L2)
    (hw : escrow L1 st = escrow L st + w) (hw' : escrow L2 st = escrow L st + w') (hm : m ≠ 0) :
    w * m'.toNat < (w' + 1) * m.toNat := by
  have p := reachable_pool hr hi hv
  obtain ⟨-, -, u3⟩ := h1.unstake hr p
  obtain ⟨-, -, t3⟩ := h2.unstake hr p
  have e1 : w = redeemFor m.toNat (backing L v st) (supply L XORCA_MINT_ID) := by omega
  have e2 : w' = redeemFor m'.toNat (backing L v st) (supply L XORCA_MINT_ID) := by omega
  have := one_price m.toNat m'.toNat (backing L v st) (supply L XORCA_MINT_ID)
  have hm0 : m.toNat ≠ 0 := fun h0 => hm (UInt64.toNat_inj.1 h0)
  rw [if_neg hm0, Nat.add_zero, ← e1, ← e2] at this
  exact this

example := C94_one_price (w := 899970) (w' := 1499) Demo.reach4 Demo.init4 Demo.va_addr
  (Demo.took_run Demo.signers5 Demo.run5)
  (Demo.took (now := 1003) (accs := Demo.unstakeAccs Demo.R0) (data := 1 :: u64le 1000 ++ [0])
    (by decide +kernel) (ix := .Unstake 1000 0) (by decide +kernel) (by decide +kernel))
  (by decide +kernel) (by decide +kernel) (by decide)

/-- Who stakes before a gift and unstakes right after it gets back the stake and the same share of the gift as
everybody else: `m / (supply + 100)` of it, where `supply` counts the new xORCA.  Not more, and less only by one unit of
ORCA and the price of one unit of xORCA. -/
theorem C94_stake_around_a_gift {a m : UInt64} {i : UInt8} {w : Nat} (hr : Reachable cr L) (hi : Initialised cr L st)
    (hv : VaultAddr cr st v b) (h1 : Took cr L (.Stake a) L1) (hp : Path cr L1 h L2) (ht : ∀ e ∈ h, isTrade e = false)
    (hs : supply L2 XORCA_MINT_ID = supply L1 XORCA_MINT_ID) (h2 : Took cr L2 (.Unstake m i) L3)
    (hm : supply L1 XORCA_MINT_ID = supply L XORCA_MINT_ID + m.toNat) (hw : escrow L3 st = escrow L2 st + w)
    (h0 : supply L XORCA_MINT_ID ≠ 0) :
    let given := (h.map (donated st v)).sum
    w * (supply L1 XORCA_MINT_ID + 100) ≤ a.toNat * (supply L1 XORCA_MINT_ID + 100) + m.toNat * given ∧
    a.toNat * (supply L1 XORCA_MINT_ID + 100) + m.toNat * given <
      (w + 1) * (supply L1 XORCA_MINT_ID + 100) + (backing L v st + 100) := by
  intro given
  have p := reachable_pool hr hi hv
  have hr1 := h1.reach hr
  have p1 := h1.pool hr p
  have hi1 : Initialised cr L1 st := ⟨hi.1, p1.prog, p1.acc.tag⟩
  have p2 := (hp.inv hr1.inv).2 st v p1
  have hr2 : Reachable cr L2 := by
    obtain ⟨h0, L0, g, q⟩ := hr1
    exact ⟨_, L0, g, q.append hp⟩
  obtain ⟨s1, s2, s3⟩ := h1.stake hr p
  obtain ⟨_, _, u3⟩ := h2.unstake hr2 p2
  have hb := backed p
  have e := gifts_only hr1 hi1 hv hp ht
  rw [hm]
  refine sandwich_arith (n := backing L v st) h0 (by omega) (by omega) ?_
  have e' : backing L2 v st = backing L v st + a.toNat + given := by rw [e, s2]
  rw [e', hs, hm] at u3
  omega

/-- 300000 ORCA staked before a gift of 500000 to a pool of 1000000. -/
example := C94_stake_around_a_gift (w := 415375) Demo.reach2 Demo.init2 Demo.va_addr Demo.tookY3 Demo.pathY4
  (by simp only [List.mem_singleton, forall_eq]; rfl) (by decide +kernel) Demo.tookY5 (by decide +kernel) (by decide +kernel)
  (by decide +kernel)

/-- So a stake that is there for the moment of the gift only is paid for it: 300000 ORCA become 415375, with nothing
in between.  The cool-down delays the payment but the amount is fixed at the Unstake. -/
theorem C94_momentary_stake_witness : ∃ L L1 L2 L3 e, Reachable Real.crypto L ∧ Took Real.crypto L (.Stake 300000) L1 ∧
    Path Real.crypto L1 [e] L2 ∧ isTrade e = false ∧ Took Real.crypto L2 (.Unstake 300000 255) L3 ∧
    supply L1 XORCA_MINT_ID = supply L XORCA_MINT_ID + 300000 ∧
    ∃ st b, StateAddr Real.crypto st b ∧ escrow L3 st = escrow L2 st + 415375 := by
  rw [← Demo.cr_eq]
  exact ⟨Demo.L2, Demo.Y3, Demo.Y4, Demo.Y5, _, Demo.reach2, Demo.tookY3, Demo.pathY4, rfl, Demo.tookY5, by decide +kernel,
    Demo.ST, _, Demo.st_addr, by decide +kernel⟩

/-- If all xORCA is redeemed at once, what stays behind is `100 * (backing - supply) / (supply + 100)`, rounded up: the
share of the offset. -/
theorem C94_residue {m : UInt64} {i : UInt8} (hr : Reachable cr L) (hi : Initialised cr L st)
    (hv : VaultAddr cr st v b) (h1 : Took cr L (.Unstake m i) L1) (hm : m.toNat = supply L XORCA_MINT_ID) :
    supply L1 XORCA_MINT_ID = 0 ∧
    backing L1 v st * (supply L XORCA_MINT_ID + 100) <
      100 * (backing L v st - supply L XORCA_MINT_ID) + (supply L XORCA_MINT_ID + 100) ∧
    100 * (backing L v st - supply L XORCA_MINT_ID) ≤ backing L1 v st * (supply L XORCA_MINT_ID + 100) := by
  have p := reachable_pool hr hi hv
  obtain ⟨u1, u2, u3⟩ := h1.unstake hr p
  have hb := backed p
  have key := residue hb
  have e : backing L1 v st = backing L v st - redeemFor (supply L XORCA_MINT_ID) (backing L v st) (supply L XORCA_MINT_ID) := by
    simp only [hm] at u1 u2 u3; omega
  rw [← e] at key
  exact ⟨by omega, key⟩

/-- 1200006 xORCA for 1800000 ORCA: 50 ORCA stay. -/
example := C94_residue Demo.reach4 Demo.init4 Demo.va_addr
  (Demo.took (now := 1003) (accs := Demo.unstakeAccs Demo.R0) (data := 1 :: u64le 1200006 ++ [0])
    (by decide +kernel) (ix := .Unstake 1200006 0) (by decide +kernel) (by decide +kernel)) (by decide +kernel)

/-! ### C95: how far a quote can move -/

/-- Between a quote and the call, `k` trades of others on a path without gifts and burns, with at least `m` xORCA in
existence, move the ORCA due for `x` xORCA up by the factor `((m + 101) / (m + 100)) ^ k` at most, up to one unit, and
never down. -/
theorem C95_redemption_quote {m : Nat} (hr : Reachable cr L) (hi : Initialised cr L st) (hv : VaultAddr cr st v b)
    (hp : Path cr L h L') (hq : ∀ e ∈ h, Quiet v e) (hno : ∀ e ∈ h, ¬ OrphanStake e st v)
    (hm : ∀ e ∈ h, m ≤ supply e.post XORCA_MINT_ID) (x : Nat) :
    redeemFor x (backing L v st) (supply L XORCA_MINT_ID) ≤ redeemFor x (backing L' v st) (supply L' XORCA_MINT_ID) ∧
    redeemFor x (backing L' v st) (supply L' XORCA_MINT_ID) * (m + 100) ^ (h.countP isTrade) <
      (redeemFor x (backing L v st) (supply L XORCA_MINT_ID) + 1) * (m + 101) ^ (h.countP isTrade) :=
  ⟨(C59_stale_quotes hr hi hv hp hno x).1,
    redeem_rise (by positivity) (C71_price_rise_of_a_path hr hi hv hp hq hm)⟩

theorem Demo.minSupply49 : ∀ e ∈ [Demo.e9, Demo.e8, Demo.e7, Demo.e6, Demo.e5], 500000 ≤ supply e.post XORCA_MINT_ID := by
  intro e he
  simp only [List.mem_cons, List.not_mem_nil, or_false] at he
  rcases he with rfl | rfl | rfl | rfl | rfl <;> decide +kernel

example := C95_redemption_quote (m := 500000) Demo.reach4 Demo.init4 Demo.va_addr Demo.path49 demo_quiet49
  Demo.noOrphan49 Demo.minSupply49 1000

/-- The same for a stake: the xORCA minted for `a` ORCA falls by that factor at most, up to one unit, and never rises. -/
theorem C95_stake_quote {m : Nat} (hr : Reachable cr L) (hi : Initialised cr L st) (hv : VaultAddr cr st v b)
    (hp : Path cr L h L') (hq : ∀ e ∈ h, Quiet v e) (hno : ∀ e ∈ h, ¬ OrphanStake e st v)
    (hm : ∀ e ∈ h, m ≤ supply e.post XORCA_MINT_ID) (h0 : supply L XORCA_MINT_ID ≠ 0)
    (h0' : supply L' XORCA_MINT_ID ≠ 0) (a : Nat) :
    mintFor a (backing L' v st) (supply L' XORCA_MINT_ID) ≤ mintFor a (backing L v st) (supply L XORCA_MINT_ID) ∧
    mintFor a (backing L v st) (supply L XORCA_MINT_ID) * (m + 100) ^ (h.countP isTrade) <
      (mintFor a (backing L' v st) (supply L' XORCA_MINT_ID) + 1) * (m + 101) ^ (h.countP isTrade) := by
  have p := reachable_pool hr hi hv
  have p' := (hp.inv hr.inv).2 st v p
  have hb := backed p
  have hb' := backed p'
  exact ⟨(C59_stale_quotes hr hi hv hp hno a).2 fun h => absurd h h0',
    mint_rise (by positivity) h0 (by omega) h0' (by omega) (C71_price_rise_of_a_path hr hi hv hp hq hm)⟩

example := C95_stake_quote (m := 500000) Demo.reach4 Demo.init4 Demo.va_addr Demo.path49 demo_quiet49
  Demo.noOrphan49 Demo.minSupply49 (by decide +kernel) (by decide +kernel) 1000

/-- In plain figures: as long as twice the number `k` of trades is at most `m + 100`, the ORCA due for `x` xORCA rises by
less than `2 * k / (m + 100)` of it, up to rounding.  With at least one whole xORCA in existence (`m = 1000000`), 500
trades move a quote by less than a thousandth. -/
theorem C95_quote_moves_little {m : Nat} (hr : Reachable cr L) (hi : Initialised cr L st) (hv : VaultAddr cr st v b)
    (hp : Path cr L h L') (hq : ∀ e ∈ h, Quiet v e) (hm : ∀ e ∈ h, m ≤ supply e.post XORCA_MINT_ID)
    (hk : 2 * h.countP isTrade ≤ m + 100) (x : Nat) :
    redeemFor x (backing L' v st) (supply L' XORCA_MINT_ID) * (m + 100) <
      (redeemFor x (backing L v st) (supply L XORCA_MINT_ID) + 1) * (m + 100 + 2 * h.countP isTrade) := by
  have h1 := C71_price_rise_of_a_path hr hi hv hp hq hm
  refine redeem_rise (by omega) ?_
  have h2 := pow_bound (M := m + 100) (k := h.countP isTrade) (by omega)
  generalize h.countP isTrade = k at *
  generalize backing L' v st + 100 = n' at *
  generalize supply L XORCA_MINT_ID + 100 = s at *
  generalize backing L v st + 100 = n at *
  generalize supply L' XORCA_MINT_ID + 100 = s' at *
  have h3 : n' * s * (m + 100) ^ k * (m + 100) ≤ n * s' * (m + 101) ^ k * (m + 100) := Nat.mul_le_mul_right _ h1
  have h4 : n * s' * ((m + 100 + 1) ^ k * (m + 100)) ≤ n * s' * ((m + 100) ^ k * (m + 100 + 2 * k)) := Nat.mul_le_mul_left _ h2
  have h5 : n' * s * (m + 100) * (m + 100) ^ k ≤ n * s' * (m + 100 + 2 * k) * (m + 100) ^ k := by
    calc n' * s * (m + 100) * (m + 100) ^ k = n' * s * (m + 100) ^ k * (m + 100) := by ring
      _ ≤ n * s' * (m + 101) ^ k * (m + 100) := h3
      _ = n * s' * ((m + 100 + 1) ^ k * (m + 100)) := by ring
      _ ≤ n * s' * ((m + 100) ^ k * (m + 100 + 2 * k)) := h4
      _ = n * s' * (m + 100 + 2 * k) * (m + 100) ^ k := by ring
  exact Nat.le_of_mul_le_mul_right h5 (by positivity)

example := C95_quote_moves_little (m := 500000) Demo.reach4 Demo.init4 Demo.va_addr Demo.path49 demo_quiet49
  Demo.minSupply49 (by decide +kernel) 1000

end Xorca
