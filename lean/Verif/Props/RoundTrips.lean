import Verif.Lemmas.RoundTripsAux
import Verif.Props.Histories
import Verif.Props.Liveness
import Verif.Lemmas.Moves
import Verif.Lemmas.DemoBooks
/-
C04 - C07 and C10 for calls of the program in reachable ledgers, and C65: what a staker can lose.
-/
namespace Xorca
open Spec

variable {cr : Crypto} {L L' L1 L2 L3 L4 : Ledger} {st v : Pubkey} {bump : UInt8} {h : List Entry}

/-! ### C04: stake, then unstake -/

/-- A Stake followed by an Unstake of all that was minted sets aside at most the deposit, plus, if there was no xORCA
before, the ORCA then in the pool. -/
theorem C04_stake_then_unstake {a m : UInt64} {i : UInt8} (hr : Reachable cr L) (hi : Initialised cr L st)
    (hv : VaultAddr cr st v bump) (h1 : Took cr L (.Stake a) L1) (h2 : Took cr L1 (.Unstake m i) L2)
    (hm : supply L1 XORCA_MINT_ID = supply L XORCA_MINT_ID + m.toNat) :
    escrow L2 st ≤ escrow L st + a.toNat + (if supply L XORCA_MINT_ID = 0 then backing L v st else 0) := by
  have p := reachable_pool hr hi hv
  have hr1 := h1.reach hr
  have p1 := h1.pool hr p
  obtain ⟨s1, s2, s3⟩ := h1.stake hr p
  obtain ⟨u1, u2, u3⟩ := h2.unstake hr1 p1
  split
  · omega
  · have e : m.toNat = mintFor a.toNat (backing L v st) (supply L XORCA_MINT_ID) := by omega
    have := redeem_mint_le (a := a.toNat) (n := backing L v st) (s := supply L XORCA_MINT_ID) (by omega)
    rw [s1, s2, e] at u3
    omega

/-- 300000 ORCA staked at a price of about 1.5 give 200006 xORCA. -/
example := C04_stake_then_unstake Demo.reach3 Demo.init3 Demo.va_addr (Demo.took_run Demo.signers4 Demo.run4)
  (Demo.took (now := 1003) (accs := Demo.unstakeAccs Demo.R255) (data := 1 :: u64le 200006 ++ [255])
    (by decide +kernel) (ix := .Unstake 200006 255) (by decide +kernel) (by decide +kernel)) (by decide +kernel)

/-! ### C05: unstake, then stake -/

/-- An Unstake followed by a Stake of what was set aside ends with no more xORCA than before, unless all xORCA was
unstaked. -/
theorem C05_unstake_then_stake {m w : UInt64} {i : UInt8} (hr : Reachable cr L) (hi : Initialised cr L st)
    (hv : VaultAddr cr st v bump) (h1 : Took cr L (.Unstake m i) L1) (h2 : Took cr L1 (.Stake w) L2)
    (hw : escrow L1 st = escrow L st + w.toNat) (hrest : supply L1 XORCA_MINT_ID ≠ 0) :
    supply L2 XORCA_MINT_ID ≤ supply L XORCA_MINT_ID := by
  have p := reachable_pool hr hi hv
  have hr1 := h1.reach hr
  have p1 := h1.pool hr p
  obtain ⟨u1, u2, u3⟩ := h1.unstake hr p
  obtain ⟨s1, s2, s3⟩ := h2.stake hr1 p1
  have b1 := backed p1
  have e : w.toNat = redeemFor m.toNat (backing L v st) (supply L XORCA_MINT_ID) := by omega
  have := mint_redeem_le u2 u1 hrest (by omega)
  rw [e] at s1
  omega

/-- 600000 xORCA for 899970 ORCA, and back. -/
example := C05_unstake_then_stake Demo.reach4 Demo.init4 Demo.va_addr (Demo.took_run Demo.signers5 Demo.run5)
  (Demo.took (now := 1004) (accs := Demo.stakeAccs) (data := 0 :: u64le 899970)
    (by decide +kernel) (ix := .Stake 899970) (by decide +kernel) (by decide +kernel)) (by decide +kernel)
  (by decide +kernel)

/-! ### C06: two stakes, or one -/

/-- Two Stakes in a row mint at most what one Stake of the sum mints. -/
theorem C06_two_stakes {a a' s : UInt64} (hr : Reachable cr L) (hi : Initialised cr L st) (hv : VaultAddr cr st v bump)
    (h1 : Took cr L (.Stake a) L1) (h2 : Took cr L1 (.Stake a') L2) (h3 : Took cr L (.Stake s) L3)
    (hs : s.toNat = a.toNat + a'.toNat) : supply L2 XORCA_MINT_ID ≤ supply L3 XORCA_MINT_ID := by
  have p := reachable_pool hr hi hv
  have hr1 := h1.reach hr
  have p1 := h1.pool hr p
  obtain ⟨s1, s2, _⟩ := h1.stake hr p
  obtain ⟨t1, _, _⟩ := h2.stake hr1 p1
  obtain ⟨w1, _, _⟩ := h3.stake hr p
  have hb := backed p
  have := mint_split_le (a := a.toNat) (b := a'.toNat) (n := backing L v st) (s := supply L XORCA_MINT_ID) (by omega)
  rw [w1, t1, s2, s1, hs]
  omega

example := C06_two_stakes Demo.reach3 Demo.init3 Demo.va_addr
  (Demo.took (now := 1002) (accs := Demo.stakeAccs) (data := 0 :: u64le 100000)
    (by decide +kernel) (ix := .Stake 100000) (by decide +kernel) (by decide +kernel))
  (Demo.took (now := 1002) (accs := Demo.stakeAccs) (data := 0 :: u64le 200000)
    (by decide +kernel) (ix := .Stake 200000) (by decide +kernel) (by decide +kernel))
  (Demo.took_run Demo.signers4 Demo.run4) (by decide +kernel)

/-! ### C07: two unstakes, or one -/

/-- Two Unstakes in a row set aside at most what one Unstake of the sum sets aside. -/
theorem C07_two_unstakes {m m' s : UInt64} {i i' j : UInt8} (hr : Reachable cr L) (hi : Initialised cr L st)
    (hv : VaultAddr cr st v bump) (h1 : Took cr L (.Unstake m i) L1) (h2 : Took cr L1 (.Unstake m' i') L2)
    (h3 : Took cr L (.Unstake s j) L3) (hs : s.toNat = m.toNat + m'.toNat) : escrow L2 st ≤ escrow L3 st := by
  have p := reachable_pool hr hi hv
  have hr1 := h1.reach hr
  have p1 := h1.pool hr p
  obtain ⟨u1, u2, u3⟩ := h1.unstake hr p
  obtain ⟨t1, _, t3⟩ := h2.unstake hr1 p1
  obtain ⟨_, _, w3⟩ := h3.unstake hr p
  have := redeem_split_le (y := m'.toNat) u2 u1 (by omega)
  rw [w3, t3, u3, hs]
  omega

example := C07_two_unstakes Demo.reach4 Demo.init4 Demo.va_addr (Demo.took_run Demo.signers5 Demo.run5)
  (Demo.took_run Demo.signers6 Demo.run6)
  (Demo.took (now := 1003) (accs := Demo.unstakeAccs Demo.R255) (data := 1 :: u64le 601000 ++ [255])
    (by decide +kernel) (ix := .Unstake 601000 255) (by decide +kernel) (by decide +kernel)) (by decide +kernel)

/-! ### C10: the inflation attack -/

/-- The first staker of an empty pool, who then donates to the vault, lets another stake, and unstakes everything,
gets out no more than was staked and donated. -/
theorem C10_inflation_attack_calls {a u m : UInt64} {i : UInt8} (hr : Reachable cr L) (hi : Initialised cr L st)
    (hv : VaultAddr cr st v bump) (h0 : supply L XORCA_MINT_ID = 0 ∧ backing L v st = 0)
    (h1 : Took cr L (.Stake a) L1) (h2 : EnvStep cr L1 L2) (hs : supply L2 XORCA_MINT_ID = supply L1 XORCA_MINT_ID)
    (h3 : Took cr L2 (.Stake u) L3) (h4 : Took cr L3 (.Unstake m i) L4) (hm : m.toNat = supply L1 XORCA_MINT_ID) :
    escrow L4 st ≤ escrow L st + a.toNat + (balance L2 v - balance L1 v) := by
  have p := reachable_pool hr hi hv
  have hr1 := h1.reach hr
  have p1 := h1.pool hr p
  have hr2 := reach_env hr1 h2
  have p2 := pool_env hr1 h2 p1
  have hr3 := h3.reach hr2
  have p3 := h3.pool hr2 p2
  obtain ⟨s1, s2, s3⟩ := h1.stake hr p
  obtain ⟨t1, t2, t3⟩ := h3.stake hr2 p2
  obtain ⟨_, _, u3⟩ := h4.unstake hr3 p3
  have he : escrow L2 st = escrow L1 st := escrow_of_data (h2.owned st p1.prog p1.acc.lam).2.1
  have hb : balance L1 v ≤ balance L2 v := (h2.token v p1.v_tok).2.2.2.2
  have hb1 := p1.backed
  have e2 : backing L2 v st = a.toNat + (balance L2 v - balance L1 v) := by
    have : backing L1 v st = balance L1 v - escrow L1 st := rfl
    have : backing L2 v st = balance L2 v - escrow L2 st := rfl
    omega
  have e1 : supply L1 XORCA_MINT_ID = a.toNat := by rw [s1, h0.1, mintFor, if_pos (Or.inl rfl)]; omega
  have key := inflation_attack_le a.toNat (balance L2 v - balance L1 v) u.toNat
  simp only at key
  rw [t2, t1, hm, hs, e1, e2] at u3
  omega

/-- Stake 1000000, donate 500000, another stakes 300000, unstake 1000000. -/
example := C10_inflation_attack_calls Demo.reach1 Demo.init1 Demo.va_addr (by decide +kernel)
  (Demo.took_run Demo.signers2 Demo.run2) Demo.env3 (by decide +kernel) (Demo.took_run Demo.signers4 Demo.run4)
  (Demo.took (now := 1003) (accs := Demo.unstakeAccs Demo.R255) (data := 1 :: u64le 1000000 ++ [255])
    (by decide +kernel) (ix := .Unstake 1000000 255) (by decide +kernel) (by decide +kernel)) (by decide +kernel)

/-! ### C65: what a staker can lose -/

/-- Who stakes and later, whatever happened in between, unstakes what was minted, loses less than the price of one
unit of xORCA at the time of the Stake plus one unit of ORCA (both sides are multiplied by `supply + 100`), and
nothing at all if there was no xORCA before.  No Stake in between may be one into a pool without xORCA. -/
theorem C65_staker_loses_dust {a m : UInt64} {i : UInt8} {w : Nat} (hr : Reachable cr L) (hi : Initialised cr L st)
    (hv : VaultAddr cr st v bump) (h1 : Took cr L (.Stake a) L1) (hp : Path cr L1 h L2)
    (hno : ∀ e ∈ h, ¬ OrphanStake e st v) (h2 : Took cr L2 (.Unstake m i) L3)
    (hm : supply L1 XORCA_MINT_ID = supply L XORCA_MINT_ID + m.toNat) (hw : escrow L3 st = escrow L2 st + w) :
    (supply L XORCA_MINT_ID = 0 → a.toNat ≤ w) ∧
    (supply L XORCA_MINT_ID ≠ 0 → a.toNat * (supply L XORCA_MINT_ID + 100) <
      (w + 1) * (supply L XORCA_MINT_ID + 100) + (backing L v st + 100)) := by
  have p := reachable_pool hr hi hv
  have hr1 := h1.reach hr
  have p1 := h1.pool hr p
  have hi1 : Initialised cr L1 st := ⟨hi.1, p1.prog, p1.acc.tag⟩
  have p2 := (hp.inv hr1.inv).2 st v p1
  have hr2 : Reachable cr L2 := by
    obtain ⟨h0, L0, g, q⟩ := hr1
    exact ⟨_, L0, g, q.append hp⟩
  obtain ⟨s1, s2, s3⟩ := h1.stake hr p
  obtain ⟨_, _, u3⟩ := h2.unstake hr2 p2
  have hb := backed p
  have hb2 := backed p2
  have ew : w = redeemFor m.toNat (backing L2 v st) (supply L2 XORCA_MINT_ID) := by omega
  have em : m.toNat = mintFor a.toNat (backing L v st) (supply L XORCA_MINT_ID) := by omega
  refine ⟨fun h0 => ?_, fun h0 => ?_⟩
  · have : m.toNat = a.toNat := by rw [em, h0, mintFor, if_pos (Or.inl rfl)]
    rw [ew, ← this]
    exact le_redeemFor hb2
  · have hprice := (C09_no_dilution hr1 hi1 hv hp hno).1
    have hn0 : backing L v st ≠ 0 := by omega
    have k0 := mint_price (a := a.toNat) h0 hn0
    have k1 := lt_mintFor_succ_mul (a := a.toNat) h0 hn0
    have k2 := lt_redeemFor_succ_mul m.toNat (backing L2 v st) (supply L2 XORCA_MINT_ID)
    have k3 : redeemFor m.toNat (backing L v st) (supply L XORCA_MINT_ID) ≤ w := by
      rw [ew]
      refine le_trans ?_ (redeemFor_mono_price hprice)
      apply redeemFor_mono_price
      rw [s1, s2]
      exact k0
    have k4 := lt_redeemFor_succ_mul m.toNat (backing L v st) (supply L XORCA_MINT_ID)
    have k5 : (redeemFor m.toNat (backing L v st) (supply L XORCA_MINT_ID) + 1) * (supply L XORCA_MINT_ID + 100) ≤
        (w + 1) * (supply L XORCA_MINT_ID + 100) := Nat.mul_le_mul_right _ (by omega)
    rw [← em] at k1
    nlinarith

/-- 300000 ORCA staked, 600000 xORCA unstaken by others, then 200006 xORCA unstaken: 299999 ORCA come back. -/
example := C65_staker_loses_dust (w := 299999) Demo.reach3 Demo.init3 Demo.va_addr
  (Demo.took_run Demo.signers4 Demo.run4) Demo.path45 Demo.noOrphan45
  (Demo.took (now := 1004) (accs := Demo.unstakeAccs Demo.R0) (data := 1 :: u64le 200006 ++ [0])
    (by decide +kernel) (ix := .Unstake 200006 0) (by decide +kernel) (by decide +kernel)) (by decide +kernel)
  (by decide +kernel)

end Xorca
