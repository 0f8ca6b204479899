import Verif.Lemmas.Schedule
import Verif.Lemmas.DemoSchedule
import Verif.Props.Yield
/-
C104: who decides on the order of calls decides on next to nothing.
-/
namespace Xorca
open Spec

variable {cr : Crypto} {x : Ctx} {L L' L1 L2 R1 R2 : Ledger} {st v : Pubkey} {b : UInt8} {gs gs' : List Leaver}
  {h1 h2 : List Entry}

/-! ### C104: the order of calls -/

/-- Any number of Withdraws, several of one user among them: if they succeed one after another in one order, they do so in
every other, and the end state is the same, byte for byte. -/
theorem C104_withdrawals_in_any_order (hr : Reachable cr L) (hi : Initialised cr L st) (hv : VaultAddr cr st v b)
    (hx : x.cr = cr) (hrent : ∀ n, x.rentMin n ≠ 0) (hreq : ∀ g ∈ gs, g.HasRequest cr L) (hap : Leaver.OtherRequests gs)
    (hom : MintOk L ORCA_MINT_ID) (hp : gs.Perm gs') :
    CallsRun x L (withdraws st v gs) L' ↔ CallsRun x L (withdraws st v gs') L' :=
  ⟨withdraws_perm hx hrent hp hr (reachable_pool hr hi hv) hreq hap hom,
    withdraws_perm hx hrent hp.symm hr (reachable_pool hr hi hv) (fun g hg => hreq g (hp.mem_iff.2 hg))
      ((hp.pairwise_iff fun h => Ne.symm h).1 hap) hom⟩

/-- Two requests of one user, paid to one account, in either order. -/
example : CallsRun (Demo.ctx 1200) Demo.N6 (withdraws Demo.ST Demo.VA [Demo.leaverU0, Demo.leaverU1]) Demo.N8 :=
  (C104_withdrawals_in_any_order Demo.reachN6 Demo.initN6 Demo.va_addr rfl Demo.rent_ne
    (List.forall_mem_cons.2 ⟨Demo.requestU1, List.forall_mem_cons.2 ⟨Demo.requestU0, fun g hg => by cases hg⟩⟩)
    (by unfold Leaver.OtherRequests; decide +kernel) Demo.orcaN6 (List.Perm.swap Demo.leaverU0 Demo.leaverU1 [])).1
    (.cons Demo.signersN7 Demo.runN7 (.cons Demo.signersN8 Demo.runN8 .nil))

/-- One and the same Unstake after two different sequences of trades, Withdraws and Sets of others, for instance after the
same calls in two orders: what is set aside differs by the rounding of the trades only. -/
theorem C104_unstake_whatever_the_order {m : Nat} {n : UInt64} {i : UInt8} {w1 w2 : Nat} (hr : Reachable cr L)
    (hi : Initialised cr L st) (hv : VaultAddr cr st v b) (hp1 : Path cr L h1 L1) (hp2 : Path cr L h2 L2)
    (hq1 : ∀ e ∈ h1, Quiet v e) (hn1 : ∀ e ∈ h1, ¬ OrphanStake e st v) (hn2 : ∀ e ∈ h2, ¬ OrphanStake e st v)
    (hm : ∀ e ∈ h1, m ≤ supply e.post XORCA_MINT_ID)
    (t1 : Took cr L1 (.Unstake n i) R1) (t2 : Took cr L2 (.Unstake n i) R2)
    (hw1 : escrow R1 st = escrow L1 st + w1) (hw2 : escrow R2 st = escrow L2 st + w2) :
    w1 * (m + 100) ^ (h1.countP isTrade) < (w2 + 1) * (m + 101) ^ (h1.countP isTrade) := by
  have p := reachable_pool hr hi hv
  have p1 := (hp1.inv hr.inv).2 st v p
  have p2 := (hp2.inv hr.inv).2 st v p
  obtain ⟨-, -, e1⟩ := t1.unstake (hr.path hp1) p1
  obtain ⟨-, -, e2⟩ := t2.unstake (hr.path hp2) p2
  have k1 : w1 = redeemFor n.toNat (backing L1 v st) (supply L1 XORCA_MINT_ID) := by omega
  have k2 : w2 = redeemFor n.toNat (backing L2 v st) (supply L2 XORCA_MINT_ID) := by omega
  have q1 := (C95_redemption_quote hr hi hv hp1 hq1 hn1 hm n.toNat).2
  have q2 := (C59_stale_quotes hr hi hv hp2 hn2 n.toNat).1
  rw [k1, k2]
  exact q1.trans_le (Nat.mul_le_mul_right _ (by omega))

/-- An Unstake of 2000 after two other Unstakes, two Sets and a Withdraw, and before them. -/
example := C104_unstake_whatever_the_order (m := 500000) (w1 := 2999) (w2 := 2999) Demo.reach4 Demo.init4 Demo.va_addr
  Demo.path49 .nil demo_quiet49 Demo.noOrphan49 (fun e he => by cases he) Demo.minSupply49
  Demo.tookLate Demo.tookEarly Demo.dueLate Demo.dueEarly

/-- In plain figures: less than `2 * k / (m + 100)` of it and one unit. -/
theorem C104_unstake_order_in_figures {m : Nat} {n : UInt64} {i : UInt8} {w1 w2 : Nat} (hr : Reachable cr L)
    (hi : Initialised cr L st) (hv : VaultAddr cr st v b) (hp1 : Path cr L h1 L1) (hp2 : Path cr L h2 L2)
    (hq1 : ∀ e ∈ h1, Quiet v e) (hn2 : ∀ e ∈ h2, ¬ OrphanStake e st v)
    (hm : ∀ e ∈ h1, m ≤ supply e.post XORCA_MINT_ID) (hk : 2 * h1.countP isTrade ≤ m + 100)
    (t1 : Took cr L1 (.Unstake n i) R1) (t2 : Took cr L2 (.Unstake n i) R2)
    (hw1 : escrow R1 st = escrow L1 st + w1) (hw2 : escrow R2 st = escrow L2 st + w2) :
    w1 * (m + 100) < (w2 + 1) * (m + 100 + 2 * h1.countP isTrade) := by
  have p := reachable_pool hr hi hv
  have p1 := (hp1.inv hr.inv).2 st v p
  have p2 := (hp2.inv hr.inv).2 st v p
  obtain ⟨-, -, e1⟩ := t1.unstake (hr.path hp1) p1
  obtain ⟨-, -, e2⟩ := t2.unstake (hr.path hp2) p2
  have k1 : w1 = redeemFor n.toNat (backing L1 v st) (supply L1 XORCA_MINT_ID) := by omega
  have k2 : w2 = redeemFor n.toNat (backing L2 v st) (supply L2 XORCA_MINT_ID) := by omega
  have q1 := C95_quote_moves_little hr hi hv hp1 hq1 hm hk n.toNat
  have q2 := (C59_stale_quotes hr hi hv hp2 hn2 n.toNat).1
  rw [k1, k2]
  exact q1.trans_le (Nat.mul_le_mul_right _ (by omega))

example := C104_unstake_order_in_figures (m := 500000) (w1 := 2999) (w2 := 2999) Demo.reach4 Demo.init4 Demo.va_addr
  Demo.path49 .nil demo_quiet49 (fun e he => by cases he) Demo.minSupply49 (by decide +kernel)
  Demo.tookLate Demo.tookEarly Demo.dueLate Demo.dueEarly

/-- The same for a Stake: what is minted differs by the rounding of the trades only. -/
theorem C104_stake_whatever_the_order {m : Nat} {a : UInt64} {w1 w2 : Nat} (hr : Reachable cr L)
    (hi : Initialised cr L st) (hv : VaultAddr cr st v b) (hp1 : Path cr L h1 L1) (hp2 : Path cr L h2 L2)
    (hn1 : ∀ e ∈ h1, ¬ OrphanStake e st v) (hq2 : ∀ e ∈ h2, Quiet v e) (hn2 : ∀ e ∈ h2, ¬ OrphanStake e st v)
    (hm : ∀ e ∈ h2, m ≤ supply e.post XORCA_MINT_ID) (h0 : supply L XORCA_MINT_ID ≠ 0)
    (h01 : supply L1 XORCA_MINT_ID ≠ 0) (h02 : supply L2 XORCA_MINT_ID ≠ 0)
    (t1 : Took cr L1 (.Stake a) R1) (t2 : Took cr L2 (.Stake a) R2)
    (hw1 : supply R1 XORCA_MINT_ID = supply L1 XORCA_MINT_ID + w1)
    (hw2 : supply R2 XORCA_MINT_ID = supply L2 XORCA_MINT_ID + w2) :
    w1 * (m + 100) ^ (h2.countP isTrade) < (w2 + 1) * (m + 101) ^ (h2.countP isTrade) := by
  have p := reachable_pool hr hi hv
  have p1 := (hp1.inv hr.inv).2 st v p
  have p2 := (hp2.inv hr.inv).2 st v p
  obtain ⟨e1, -⟩ := t1.stake (hr.path hp1) p1
  obtain ⟨e2, -⟩ := t2.stake (hr.path hp2) p2
  have k1 : w1 = mintFor a.toNat (backing L1 v st) (supply L1 XORCA_MINT_ID) := by omega
  have k2 : w2 = mintFor a.toNat (backing L2 v st) (supply L2 XORCA_MINT_ID) := by omega
  have q1 := (C59_stale_quotes hr hi hv hp1 hn1 a.toNat).2 fun h => absurd h h01
  have q2 := (C95_stake_quote hr hi hv hp2 hq2 hn2 hm h0 h02 a.toNat).2
  rw [k1, k2]
  exact (Nat.mul_le_mul_right _ q1).trans_lt q2

/-- A Stake of 1000 before and after the same calls. -/
example := C104_stake_whatever_the_order (m := 500000) (w1 := 666) (w2 := 666) Demo.reach4 Demo.init4 Demo.va_addr
  .nil Demo.path49 (fun e he => by cases he) demo_quiet49 Demo.noOrphan49 Demo.minSupply49 (by decide +kernel)
  (by decide +kernel) (by decide +kernel)
  (Demo.took (L := Demo.L4) (now := 1104) (accs := Demo.stakeAccs) (data := 0 :: u64le 1000)
    (by decide +kernel) (ix := .Stake 1000) (by decide +kernel) (by decide +kernel))
  (Demo.took (L := Demo.L9) (now := 1104) (accs := Demo.stakeAccs) (data := 0 :: u64le 1000)
    (by decide +kernel) (ix := .Stake 1000) (by decide +kernel) (by decide +kernel))
  (by decide +kernel) (by decide +kernel)

end Xorca
