import Verif.Lemmas.BankRun
import Verif.Lemmas.DemoBank
/-
C100: everybody can leave, in any order, and nobody gets less than the quote before the run.
-/
namespace Xorca
open Spec

variable {cr : Crypto} {x x1 x2 : Ctx} {L : Ledger} {st v : Pubkey} {vb : UInt8} {gs : List Leaver}

/-! ### C100: a bank run -/

/-- Any number of users unstake one after another: all calls succeed, and the amount set aside for each of them, the last
one included, is at least the quote before the first call. -/
theorem C100_everyone_can_unstake (hr : Reachable cr L) (hi : Initialised cr L st) (hv : VaultAddr cr st v vb)
    (hx : x.cr = cr) (hrent : ∀ n, x.rentMin n ≠ 0) (hcan : ∀ g ∈ gs, g.CanUnstake cr (x.rentMin 1024).toNat L)
    (hap : Leaver.Apart gs) (hsum : (gs.map fun g => g.amount.toNat).sum ≤ supply L XORCA_MINT_ID)
    (hfit : supply L XORCA_MINT_ID * (backing L v st + 100) < 2 ^ 128) (hclk : x.now.toInt + coolDown L st < 2 ^ 63)
    (hom : MintOk L ORCA_MINT_ID) :
    ∃ L', CallsRun x L (unstakes st v gs) L' ∧
      supply L' XORCA_MINT_ID + (gs.map fun g => g.amount.toNat).sum = supply L XORCA_MINT_ID ∧
      escrow L' st = escrow L st + (gs.map fun g => recAmount L' g.record).sum ∧ L' v = L v ∧
      ∀ g ∈ gs, IsRecord L' g.record ∧ recOwner L' g.record = g.user ∧ recIndex L' g.record = g.index ∧
        redeemFor g.amount.toNat (backing L v st) (supply L XORCA_MINT_ID) ≤ recAmount L' g.record ∧
        recTime L' g.record = x.now.toInt + coolDown L st := by
  obtain ⟨L', h1, -, -, h2, -, -, h3, h4, -, -, -, h5⟩ := unstakes_run hx hrent gs hr (reachable_pool hr hi hv) hcan hap
    hsum hfit hclk hom
  exact ⟨L', h1, h4, h3, h2, fun g hg =>
    ⟨(h5 g hg).isRecord, (h5 g hg).owner, (h5 g hg).index, (h5 g hg).amount, (h5 g hg).time⟩⟩

/-- Any number of matured requests of different users can be withdrawn one after another; each is paid in full. -/
theorem C100_everyone_can_withdraw (hr : Reachable cr L) (hi : Initialised cr L st) (hv : VaultAddr cr st v vb)
    (hx : x.cr = cr) (hrent : ∀ n, x.rentMin n ≠ 0) (hcan : ∀ g ∈ gs, g.CanWithdraw cr L) (hap : Leaver.Apart gs)
    (hmat : ∀ g ∈ gs, recTime L g.record ≤ x.now.toInt) (hthaw : readU8 (L v).data 108 = 1)
    (hom : MintOk L ORCA_MINT_ID) :
    ∃ L', CallsRun x L (withdraws st v gs) L' ∧
      escrow L' st + (gs.map fun g => recAmount L g.record).sum = escrow L st ∧
      supply L' XORCA_MINT_ID = supply L XORCA_MINT_ID ∧
      ∀ g ∈ gs, balance L' g.orca = balance L g.orca + recAmount L g.record ∧
        L' g.record = ⟨0, SYSTEM_PROGRAM_ID, []⟩ := by
  obtain ⟨L', h1, -, -, h2, h3, -, -, h4⟩ := withdraws_run hx hrent gs hr (reachable_pool hr hi hv) hcan hap hmat hthaw hom
  exact ⟨L', h1, h2, h3, h4⟩

/-- The whole run: all unstake, the cool-down passes, all withdraw.  Every call succeeds and everybody ends with at least
the quote of the beginning more. -/
theorem C100_bank_run (hr : Reachable cr L) (hi : Initialised cr L st) (hv : VaultAddr cr st v vb)
    (hx1 : x1.cr = cr) (hx2 : x2.cr = cr) (hrent1 : ∀ n, x1.rentMin n ≠ 0) (hrent2 : ∀ n, x2.rentMin n ≠ 0)
    (hcan : ∀ g ∈ gs, g.CanUnstake cr (x1.rentMin 1024).toNat L) (hap : Leaver.Apart gs)
    (hsum : (gs.map fun g => g.amount.toNat).sum ≤ supply L XORCA_MINT_ID)
    (hfit : supply L XORCA_MINT_ID * (backing L v st + 100) < 2 ^ 128) (hclk : x1.now.toInt + coolDown L st < 2 ^ 63)
    (hom : MintOk L ORCA_MINT_ID) (hmat : x1.now.toInt + coolDown L st ≤ x2.now.toInt)
    (hthaw : readU8 (L v).data 108 = 1) (hroom : ∀ g ∈ gs, balance L g.orca + balance L v < 2 ^ 64) :
    ∃ L1 L2, CallsRun x1 L (unstakes st v gs) L1 ∧ CallsRun x2 L1 (withdraws st v gs) L2 ∧
      supply L2 XORCA_MINT_ID + (gs.map fun g => g.amount.toNat).sum = supply L XORCA_MINT_ID ∧
      escrow L2 st = escrow L st ∧
      ∀ g ∈ gs, balance L g.orca + redeemFor g.amount.toNat (backing L v st) (supply L XORCA_MINT_ID) ≤
        balance L2 g.orca ∧ L2 g.record = ⟨0, SYSTEM_PROGRAM_ID, []⟩ := by
  obtain ⟨L1, h1, hr1, p1, h2, h3, -, h4, h5, -, -, -, h6⟩ := unstakes_run hx1 hrent1 gs hr (reachable_pool hr hi hv) hcan
    hap hsum hfit hclk hom
  have hb : ∀ g ∈ gs, balance L1 g.orca = balance L g.orca := fun g hg => by rw [balance, balance, (h6 g hg).kept]
  obtain ⟨L2, k1, -, -, k2, k3, -, -, k4⟩ := withdraws_run hx2 hrent2 gs hr1 p1 (fun g hg => by
      refine ⟨(h6 g hg).toHasAccounts, (h6 g hg).isRecord, (h6 g hg).owner, (h6 g hg).index, ?_⟩
      have h7 := hroom g hg
      have h8 : recAmount L1 g.record ≤ (gs.map fun g => recAmount L1 g.record).sum :=
        List.le_sum_of_mem (List.mem_map_of_mem hg)
      have h9 := p1.backed
      have h10 : balance L1 v = balance L v := by rw [balance, balance, h2]
      rw [hb g hg]
      omega) hap (fun g hg => by rw [(h6 g hg).time]; exact hmat) (by rw [h2]; exact hthaw)
    ⟨by rw [h3]; exact hom.prog, by rw [h3]; exact hom.len, by rw [h3]; exact hom.init⟩
  refine ⟨L1, L2, h1, k1, by omega, by omega, fun g hg => ⟨?_, (k4 g hg).2⟩⟩
  have := (h6 g hg).amount
  rw [(k4 g hg).1, hb g hg]
  omega

/-- The order does not matter: if a group can leave in one order, it can leave in every other, with the same bound. -/
theorem C100_any_order {gs' : List Leaver} (hperm : gs'.Perm gs) (hr : Reachable cr L) (hi : Initialised cr L st)
    (hv : VaultAddr cr st v vb) (hx : x.cr = cr) (hrent : ∀ n, x.rentMin n ≠ 0)
    (hcan : ∀ g ∈ gs, g.CanUnstake cr (x.rentMin 1024).toNat L)
    (hap : Leaver.Apart gs) (hsum : (gs.map fun g => g.amount.toNat).sum ≤ supply L XORCA_MINT_ID)
    (hfit : supply L XORCA_MINT_ID * (backing L v st + 100) < 2 ^ 128) (hclk : x.now.toInt + coolDown L st < 2 ^ 63)
    (hom : MintOk L ORCA_MINT_ID) :
    ∃ L', CallsRun x L (unstakes st v gs') L' ∧
      ∀ g ∈ gs, redeemFor g.amount.toNat (backing L v st) (supply L XORCA_MINT_ID) ≤ recAmount L' g.record := by
  obtain ⟨L', h1, -, -, -, h2⟩ := C100_everyone_can_unstake hr hi hv hx hrent
    (fun g hg => hcan g (hperm.mem_iff.1 hg))
    ((hperm.pairwise_iff fun h => ⟨Ne.symm h.1, Ne.symm h.2⟩).2 hap)
    (by rw [(hperm.map _).sum_eq]; exact hsum) hfit hclk hom
  exact ⟨L', h1, fun g hg => (h2 g (hperm.mem_iff.2 hg)).2.2.2.1⟩

/-! ### Examples -/

/-- Two holders leave a pool with a price of about 1.5. -/
example : ∃ L1 L2, CallsRun (Demo.ctx 1003) Demo.M4 (unstakes Demo.ST Demo.VA [Demo.leaverU, Demo.leaverD]) L1 ∧
    CallsRun (Demo.ctx 1103) L1 (withdraws Demo.ST Demo.VA [Demo.leaverU, Demo.leaverD]) L2 ∧
    balance Demo.M4 Demo.UO + 1499950 ≤ balance L2 Demo.UO ∧ balance Demo.M4 Demo.DO + 299998 ≤ balance L2 Demo.DO := by
  obtain ⟨L1, L2, h1, h2, -, -, h3⟩ := C100_bank_run (x1 := Demo.ctx 1003) (x2 := Demo.ctx 1103) Demo.reachM4 Demo.initM4
    Demo.va_addr rfl rfl Demo.rent_ne Demo.rent_ne (gs := [Demo.leaverU, Demo.leaverD])
    (List.forall_mem_cons.2 ⟨Demo.canU, List.forall_mem_cons.2 ⟨Demo.canD, fun g hg => by cases hg⟩⟩)
    (by unfold Leaver.Apart; decide +kernel) (by decide +kernel) (by decide +kernel) (by decide +kernel)
    ⟨by decide +kernel, by decide +kernel, by decide +kernel⟩ (by decide +kernel) (by decide +kernel) (by decide +kernel)
  have q1 : 1499950 ≤ redeemFor Demo.leaverU.amount.toNat (backing Demo.M4 Demo.VA Demo.ST)
      (supply Demo.M4 XORCA_MINT_ID) := by decide +kernel
  have q2 : 299998 ≤ redeemFor Demo.leaverD.amount.toNat (backing Demo.M4 Demo.VA Demo.ST)
      (supply Demo.M4 XORCA_MINT_ID) := by decide +kernel
  have k1 := (h3 Demo.leaverU (List.mem_cons_self ..)).1
  have k2 := (h3 Demo.leaverD (List.mem_cons_of_mem _ (List.mem_cons_self ..))).1
  rw [show Demo.leaverU.orca = Demo.UO from rfl] at k1
  rw [show Demo.leaverD.orca = Demo.DO from rfl] at k2
  generalize redeemFor Demo.leaverU.amount.toNat _ _ = n1 at q1 k1
  generalize redeemFor Demo.leaverD.amount.toNat _ _ = n2 at q2 k2
  exact ⟨L1, L2, h1, h2, (Nat.add_le_add_left q1 _).trans k1, (Nat.add_le_add_left q2 _).trans k2⟩

end Xorca
