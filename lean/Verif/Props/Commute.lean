import Verif.Lemmas.Commute
import Verif.Lemmas.DemoCommute
import Verif.Props.Accept
/-
C101: a Withdraw commutes with the calls of other users.
-/
namespace Xorca
open Spec

variable {cr : Crypto} {x y : Ctx} {L L1 M1 : Ledger} {st v : Pubkey} {vb : UInt8} {g h : Leaver} {l1 l2 : List Bytes}
  {a : UInt64}

/-! ### C101: the order of a Withdraw and another user's call -/

/-- Withdraw and Stake: from one state both calls can be made in either order, with one and the same end state. -/
theorem C101_withdraw_stake_commute (hr : Reachable cr L) (hi : Initialised cr L st) (hv : VaultAddr cr st v vb)
    (hx : x.cr = cr) (hy : y.cr = cr) (hrx : ∀ n, x.rentMin n ≠ 0) (hry : ∀ n, y.rentMin n ≠ 0)
    (hg : g.CanWithdraw cr L) (hh : h.CanStake cr L) (hne : g.user ≠ h.user) (hom : MintOk L ORCA_MINT_ID)
    (h1 : Runs x L (g.withdrawAccs st v) (.Withdraw g.index) L1 l1)
    (h2 : Runs y L (h.stakeAccs st v) (.Stake a) M1 l2) :
    ∃ L2 l1' l2', Runs y L1 (h.stakeAccs st v) (.Stake a) L2 l2' ∧
      Runs x M1 (g.withdrawAccs st v) (.Withdraw g.index) L2 l1' := by
  have p := reachable_pool hr hi hv
  have hs1 := Leaver.signers_withdraw (st := st) (v := v) hg.toHasAccounts
  have hs2 := Leaver.signers_stake (st := st) (v := v) hh
  obtain ⟨hrL1, pL1, thaw1, -⟩ := Leaver.withdraw_one p hg h1 hx hr hrx
  obtain ⟨hrM1, pM1⟩ := step_pool hr p hy hry hs2 h2
  have ust : h.user ≠ st := fun e => hh.signer.1 _ (e ▸ p.acc.addr)
  have gst : g.user ≠ st := fun e => hg.signer.1 _ (e ▸ p.acc.addr)
  -- the Stake after the Withdraw
  have k1 := Leaver.withdraw_plain p hg h1 hx hh.wallet.1 (Ne.symm hne)
  have k2 := Leaver.withdraw_token p hg h1 hx hh.orca ust hne
  have k3 := Leaver.withdraw_token p hg h1 hx hh.xorca ust hne
  have k4 := Leaver.withdraw_orca_mint p hg h1 hx hom
  have k5 := Leaver.withdraw_mint p hg h1 hx
  obtain ⟨k6, k7, -⟩ := Leaver.withdraw_backing p hg h1 hx
  have hh1 : h.CanStake cr L1 := ⟨hh.signer, by rw [k1]; exact hh.wallet, hh.orca.same k2, hh.xorca.same k3⟩
  have hs2' := Leaver.signers_stake (st := st) (v := v) hh1
  have s5 : supply L1 XORCA_MINT_ID = supply L XORCA_MINT_ID := by rw [supply, supply, k5]
  have acc := (C58_stake_accepted_iff hr hy hs2 hh.orca hh.xorca).1 (succeeds_iff.2 ⟨_, _, h2⟩)
  obtain ⟨c, -, -, -, -, a1, a2, a3, a4, a5, a6, -⟩ := acc
  simp only [] at a1 a2 a3 a4 a5 a6
  have hsucc : Succeeds y L1 (h.stakeAccs st v) (.Stake a) := by
    refine (C58_stake_accepted_iff hrL1 hy hs2' hh1.orca hh1.xorca).2 ⟨c, ⟨⟨_, pL1.acc.addr⟩, pL1.prog, pL1.acc.tag⟩,
      ⟨_, pL1.v_addr⟩, ⟨rfl, rfl⟩, ⟨rfl, rfl⟩, ?_, ?_, ?_, ?_, ?_, thaw1, by rw [k4]; exact hom.prog⟩
    · unfold NotMultisig at a1 ⊢; rw [k1]; exact a1
    · rw [balance, k2]; exact a2
    · rw [k6, s5]; exact a3
    · exact lt_of_le_of_lt (Nat.add_le_add_right k7 _) a4
    · rw [k6, s5, balance, k3]; exact a5
  obtain ⟨L2, l2', r2⟩ := succeeds_iff.1 hsucc
  -- the Withdraw after the Stake
  subst hx
  obtain ⟨A1, A2, e1, w1⟩ := h1.withdraw
  obtain ⟨B1, m1, s1⟩ := h2.stake
  have f1 := s1.eff (hy ▸ hs2)
  have g1 : M1 g.user = L g.user := Leaver.stake_frame h2 (hy ▸ hs2) hne
    (ne_of_owner hg.wallet.1 p.v_tok.prog token_ne_system.symm) (ne_of_owner hg.wallet.1 hh.orca.prog token_ne_system.symm)
    (ne_of_owner hg.wallet.1 hh.xorca.prog token_ne_system.symm) (ne_of_owner hg.wallet.1 p.mint.prog token_ne_system.symm)
  have gv : g.orca ≠ v := fun e => gst (by rw [← hg.orca.owner, e, p.v_owner])
  have go : g.orca ≠ h.orca := tok_ne hg.orca hh.orca (Or.inr hne)
  have gx : g.orca ≠ h.xorca := tok_ne hg.orca hh.xorca (Or.inr hne)
  have gm : g.orca ≠ XORCA_MINT_ID := hg.orca.ne_mint p.mint.len
  have g2 : M1 g.orca = L g.orca := Leaver.stake_frame h2 (hy ▸ hs2)
    (ne_of_owner hg.orca.prog hh.wallet.1 token_ne_system) gv go gx gm
  have rp := hg.isRecord.1
  have g3 : M1 g.record = L g.record := Leaver.stake_frame h2 (hy ▸ hs2) (ne_of_owner rp hh.wallet.1 program_ne_system)
    (ne_of_owner rp p.v_tok.prog token_ne_program.symm) (ne_of_owner rp hh.orca.prog token_ne_program.symm)
    (ne_of_owner rp hh.xorca.prog token_ne_program.symm) (ne_of_owner rp p.mint.prog token_ne_program.symm)
  have g4 : M1 ORCA_MINT_ID = L ORCA_MINT_ID := Leaver.stake_frame h2 (hy ▸ hs2)
    (ne_of_owner hom.prog hh.wallet.1 token_ne_system)
    (fun e => by have q := hom.len; rw [e, p.v_tok.len] at q; cases q) (hh.orca.ne_mint hom.len).symm
    (hh.xorca.ne_mint hom.len).symm orca_ne_xorca
  have thawM : readU8 (M1 v).data 108 = 1 := by
    obtain ⟨w, hw, -⟩ := f1.v_data
    rw [hw, readU8_writeAt_apart (by simp [p.v_tok.len]) (Or.inr (by simp))]
    exact a6
  obtain ⟨L2', l1', r1⟩ := Leaver.CanWithdraw.runs hrM1 pM1 rfl (hg.same g1 g2 g3)
    (by rw [recTime, g3]; exact w1.mature) thawM (by rw [g4]; exact hom.prog)
  -- the two ends agree
  obtain ⟨A1', A2', e1', w1'⟩ := r1.withdraw
  obtain ⟨B1', m1', s1'⟩ := r2.stake
  have f1' := s1'.eff (hy ▸ hs2')
  have hsM := Leaver.signers_withdraw (st := st) (v := v) (hg.same g1 g2 g3).toHasAccounts
  have hob : (L2 h.orca).data = (M1 h.orca).data := s1.orca_same s1' f1 k2
  have key : L2 = L2' := withdraw_stake_same (w1.eff hs1).1 (w1'.eff hsM).1 f1 f1'
    (u64_inj (by have q1 := s1.minted; have q2 := s1'.minted; simp only [] at q1 q2; rw [q1, q2, k6, s5]))
    (by simp only []; rw [p.v_tok.delegate]; decide) (ne_of_owner rp hh.orca.prog token_ne_program.symm)
    (ne_of_owner rp hh.xorca.prog token_ne_program.symm) (ne_of_owner rp p.mint.prog token_ne_program.symm) go gx gm hob
  exact ⟨L2, l1', l2', r2, key ▸ r1⟩

/-- Withdraw and Unstake. -/
theorem C101_withdraw_unstake_commute (hr : Reachable cr L) (hi : Initialised cr L st) (hv : VaultAddr cr st v vb)
    (hx : x.cr = cr) (hy : y.cr = cr) (hrx : ∀ n, x.rentMin n ≠ 0) (hry : ∀ n, y.rentMin n ≠ 0)
    (hg : g.CanWithdraw cr L) (hh : h.CanUnstake cr (y.rentMin 1024).toNat L) (hne : g.user ≠ h.user)
    (hom : MintOk L ORCA_MINT_ID)
    (h1 : Runs x L (g.withdrawAccs st v) (.Withdraw g.index) L1 l1)
    (h2 : Runs y L (h.unstakeAccs st v) (.Unstake h.amount h.index) M1 l2) :
    ∃ L2 l1' l2', Runs y L1 (h.unstakeAccs st v) (.Unstake h.amount h.index) L2 l2' ∧
      Runs x M1 (g.withdrawAccs st v) (.Withdraw g.index) L2 l1' := by
  have p := reachable_pool hr hi hv
  have hs1 := Leaver.signers_withdraw (st := st) (v := v) hg.toHasAccounts
  have hs2 := Leaver.signers_unstake (st := st) (v := v) hh.toHasAccounts
  obtain ⟨hrL1, pL1, thaw1, -⟩ := Leaver.withdraw_one p hg h1 hx hr hrx
  obtain ⟨hrM1, pM1, kv, -⟩ := Leaver.unstake_one p hh h2 hy hr hry
  have ust : h.user ≠ st := fun e => hh.signer.1 _ (e ▸ p.acc.addr)
  have pwpb : g.record ≠ h.record := ne_of_owner hg.isRecord.1 hh.free.1 program_ne_system
  have ub : g.user ≠ h.record := fun e => hg.signer.2.2 _ _ _ (e ▸ hh.addr)
  -- the Unstake after the Withdraw
  have k1 := Leaver.withdraw_plain p hg h1 hx hh.wallet.1 (Ne.symm hne)
  have k2 := Leaver.withdraw_token p hg h1 hx hh.orca ust hne
  have k3 := Leaver.withdraw_token p hg h1 hx hh.xorca ust hne
  have k4 := Leaver.withdraw_orca_mint p hg h1 hx hom
  have k5 := Leaver.withdraw_mint p hg h1 hx
  have k8 := Leaver.withdraw_plain p hg h1 hx hh.free.1 ub.symm
  obtain ⟨k6, k7, k9⟩ := Leaver.withdraw_backing p hg h1 hx
  have hh1 : h.CanUnstake cr (y.rentMin 1024).toNat L1 :=
    ⟨⟨hh.signer, by rw [k1]; exact hh.wallet, hh.addr, hh.orca.same k2⟩, by rw [k8]; exact hh.free,
      by rw [k1, k8]; exact hh.deposit, hh.xorca.same k3, hh.pos, by rw [balance, k3]; exact hh.enough⟩
  have hs2' := Leaver.signers_unstake (st := st) (v := v) hh1.toHasAccounts
  have s5 : supply L1 XORCA_MINT_ID = supply L XORCA_MINT_ID := by rw [supply, supply, k5]
  have hom1 : MintOk L1 ORCA_MINT_ID :=
    ⟨by rw [k4]; exact hom.prog, by rw [k4]; exact hom.len, by rw [k4]; exact hom.init⟩
  have acc := (C58_unstake_accepted_iff hr hy hs2 hh.xorca hom hh.wallet).1 (succeeds_iff.2 ⟨_, _, h2⟩)
  obtain ⟨c, -, -, -, -, -, -, a1, a2, a3, a4, a5⟩ := acc
  simp only [] at a1 a2 a3 a4 a5
  have hsucc : Succeeds y L1 (h.unstakeAccs st v) (.Unstake h.amount h.index) := by
    refine (C58_unstake_accepted_iff hrL1 hy hs2' hh1.xorca hom1 hh1.wallet).2 ⟨c,
      ⟨⟨_, pL1.acc.addr⟩, pL1.prog, pL1.acc.tag⟩, ⟨_, pL1.v_addr⟩, ⟨_, hh.addr⟩, hh1.free, ⟨rfl, rfl⟩, hh1.deposit, a1,
      hh1.enough, ?_, ?_, ?_⟩
    · rw [s5]; exact a3
    · rw [k6]; exact a4
    · rw [k9]; exact a5
  obtain ⟨L2, l2', r2⟩ := succeeds_iff.1 hsucc
  -- the Withdraw after the Unstake
  subst hx
  obtain ⟨A1, A2, e1, w1⟩ := h1.withdraw
  have we1 := (w1.eff hs1).1
  obtain ⟨B1, B3, n1, c1, ts1, b1, u1⟩ := h2.unstake
  have f1 := (u1.eff (hy ▸ hs2)).1
  have g1 := Leaver.unstake_wallet p hh h2 hy hg.toHasAccounts (Ne.symm hne)
  have g2 := Leaver.unstake_token p hh h2 hy hg.orca (Or.inl orca_ne_xorca)
  have g3 := Leaver.unstake_record p hh h2 hy hg.isRecord
  have g4 := Leaver.unstake_orca_mint p hh h2 hy hom
  obtain ⟨L2', l1', r1⟩ := Leaver.CanWithdraw.runs hrM1 pM1 rfl (hg.same g1 g2 g3)
    (by rw [recTime, g3]; exact w1.mature) (by rw [kv]; exact we1.v_ok.state) (by rw [g4]; exact hom.prog)
  -- the two ends agree
  obtain ⟨A1', A2', e1', w1'⟩ := r1.withdraw
  obtain ⟨B1', B3', n1', c1', ts1', b1', u1'⟩ := r2.unstake
  have f1' := (u1'.eff (hy ▸ hs2')).1
  have hsM := Leaver.signers_withdraw (st := st) (v := v) (hg.same g1 g2 g3).toHasAccounts
  have rp := hg.isRecord.1
  have hb : b1 = b1' := by
    have q := u1.pw_find.symm.trans u1'.pw_find
    simpa using q
  have key : L2 = L2' := withdraw_unstake_same we1 (w1'.eff hsM).1 f1 f1'
    (u64_inj (by have q1 := u1.amount; have q2 := u1'.amount; simp only [] at q1 q2; rw [q1, q2, k6, s5])) hb
    (by simp only []; rw [p.v_tok.delegate]; decide) (by simp only []; rw [p.acc.len]) pwpb
    (ne_of_owner rp hh.xorca.prog token_ne_program.symm) (ne_of_owner rp p.mint.prog token_ne_program.symm)
    (ne_of_owner hg.orca.prog hh.free.1 token_ne_system) (tok_ne hg.orca hh.xorca (Or.inr hne))
    (hg.orca.ne_mint p.mint.len) ub (ne_of_owner hh.wallet.1 rp program_ne_system.symm) (fun e => absurd e hne)
    (u1.xorca_same u1' f1 f1' k3)
  exact ⟨L2, l1', l2', r2, key ▸ r1⟩

/-- Two Withdraws. -/
theorem C101_withdraws_commute (hr : Reachable cr L) (hi : Initialised cr L st) (hv : VaultAddr cr st v vb)
    (hx : x.cr = cr) (hy : y.cr = cr) (hrx : ∀ n, x.rentMin n ≠ 0) (hry : ∀ n, y.rentMin n ≠ 0)
    (hg : g.CanWithdraw cr L) (hh : h.CanWithdraw cr L) (hne : g.user ≠ h.user ∧ g.record ≠ h.record)
    (hom : MintOk L ORCA_MINT_ID)
    (h1 : Runs x L (g.withdrawAccs st v) (.Withdraw g.index) L1 l1)
    (h2 : Runs y L (h.withdrawAccs st v) (.Withdraw h.index) M1 l2) :
    ∃ L2 l1' l2', Runs y L1 (h.withdrawAccs st v) (.Withdraw h.index) L2 l2' ∧
      Runs x M1 (g.withdrawAccs st v) (.Withdraw g.index) L2 l1' := by
  have p := reachable_pool hr hi hv
  have hs1 := Leaver.signers_withdraw (st := st) (v := v) hg.toHasAccounts
  have hs2 := Leaver.signers_withdraw (st := st) (v := v) hh.toHasAccounts
  obtain ⟨hrL1, pL1, thaw1, -⟩ := Leaver.withdraw_one p hg h1 hx hr hrx
  obtain ⟨hrM1, pM1, thaw2, -⟩ := Leaver.withdraw_one p hh h2 hy hr hry
  have k4 := Leaver.withdraw_orca_mint p hg h1 hx hom
  have k4' := Leaver.withdraw_orca_mint p hh h2 hy hom
  obtain ⟨hh1, -, t1, -⟩ := Leaver.CanWithdraw.next p hg h1 hx hh hne
  obtain ⟨hg1, -, t2, -⟩ := Leaver.CanWithdraw.next p hh h2 hy hg ⟨Ne.symm hne.1, Ne.symm hne.2⟩
  subst hx
  obtain ⟨A1, A2, e1, w1⟩ := h1.withdraw
  obtain ⟨B1, B2, c1, u1⟩ := h2.withdraw
  obtain ⟨L2, l2', r2⟩ := Leaver.CanWithdraw.runs hrL1 pL1 hy hh1 (by rw [t1]; exact u1.mature) thaw1
    (by rw [k4]; exact hom.prog)
  obtain ⟨L2', l1', r1⟩ := Leaver.CanWithdraw.runs hrM1 pM1 rfl hg1 (by rw [t2]; exact w1.mature) thaw2
    (by rw [k4']; exact hom.prog)
  obtain ⟨A1', A2', e1', w1'⟩ := r1.withdraw
  obtain ⟨B1', B2', c1', u1'⟩ := r2.withdraw
  have rp := hg.isRecord.1
  have rp' := hh.isRecord.1
  have key : L2 = L2' := withdraw_withdraw_same (w1.eff hs1).1
    (w1'.eff (Leaver.signers_withdraw (st := st) (v := v) hg1.toHasAccounts)).1 (u1.eff (hy ▸ hs2)).1
    (u1'.eff (hy ▸ Leaver.signers_withdraw (st := st) (v := v) hh1.toHasAccounts)).1
    (by simp only []; rw [p.v_tok.delegate]; decide) (by simp only []; rw [p.acc.len]) hne.2
    (ne_of_owner rp hh.orca.prog token_ne_program.symm) (ne_of_owner hg.orca.prog rp' token_ne_program)
    (ne_of_owner hg.wallet.1 rp' program_ne_system.symm) (ne_of_owner hh.wallet.1 rp program_ne_system.symm)
  exact ⟨L2, l1', l2', r2, key ▸ r1⟩

/-- Two Stakes of different users do not commute: the order can move one unit of xORCA between the rounding of one and the
other. -/
theorem C101_stakes_do_not_commute : ∃ (cr : Crypto) (x : Ctx) (L A A2 B B2 : Ledger) (st v : Pubkey) (g h : Leaver)
    (a b : UInt64) (l1 l2 l3 l4 : List Bytes), x.cr = cr ∧ Reachable cr L ∧ Initialised cr L st ∧ g.user ≠ h.user ∧
      Runs x L (g.stakeAccs st v) (.Stake a) A l1 ∧ Runs x A (h.stakeAccs st v) (.Stake b) A2 l2 ∧
      Runs x L (h.stakeAccs st v) (.Stake b) B l3 ∧ Runs x B (g.stakeAccs st v) (.Stake a) B2 l4 ∧
      balance A2 g.xorca = balance B2 g.xorca + 1 :=
  ⟨Demo.cr, Demo.ctx 1003, Demo.M4, (Demo.outLedger Demo.s1), (Demo.outLedger Demo.s2), (Demo.outLedger Demo.t1),
    (Demo.outLedger Demo.t2), Demo.ST, Demo.VA, Demo.leaverU, Demo.leaverD, 3000000, 2, _, _, _, _, rfl, Demo.reachM4,
    Demo.initM4, by decide +kernel, Demo.runS1, Demo.runS2, Demo.runT1, Demo.runT2, Demo.stakes_differ⟩

/-! ### Examples -/

/-- The user withdraws while the other holder stakes. -/
example : ∃ L2 l1 l2,
    Runs (Demo.ctx 1103) (Demo.outLedger Demo.m6) (Demo.leaverD.stakeAccs Demo.ST Demo.VA) (.Stake 70000) L2 l2 ∧
    Runs (Demo.ctx 1103) (Demo.outLedger Demo.m7) (Demo.leaverU.withdrawAccs Demo.ST Demo.VA) (.Withdraw 255) L2 l1 :=
  C101_withdraw_stake_commute Demo.reachM5 Demo.initM5 Demo.va_addr rfl rfl Demo.rent_ne Demo.rent_ne Demo.can5
    Demo.canS5 (by decide +kernel) Demo.orcaM5 Demo.runM6 Demo.runM7

/-- The user withdraws while the other holder unstakes. -/
example : ∃ L2 l1 l2,
    Runs (Demo.ctx 1103) (Demo.outLedger Demo.m6) (Demo.leaverD.unstakeAccs Demo.ST Demo.VA) (.Unstake 200006 4) L2 l2 ∧
    Runs (Demo.ctx 1103) (Demo.outLedger Demo.m8) (Demo.leaverU.withdrawAccs Demo.ST Demo.VA) (.Withdraw 255) L2 l1 :=
  C101_withdraw_unstake_commute Demo.reachM5 Demo.initM5 Demo.va_addr rfl rfl Demo.rent_ne Demo.rent_ne Demo.can5
    Demo.canD5 (by decide +kernel) Demo.orcaM5 Demo.runM6 Demo.runM8

/-- Both holders have unstaked; their Withdraws commute. -/
example : ∃ L L1 M1 L2 l1 l2 l3 l4,
    Runs (Demo.ctx 1203) L (Demo.leaverU.withdrawAccs Demo.ST Demo.VA) (.Withdraw 255) L1 l1 ∧
    Runs (Demo.ctx 1203) L (Demo.leaverD.withdrawAccs Demo.ST Demo.VA) (.Withdraw 4) M1 l2 ∧
    Runs (Demo.ctx 1203) L1 (Demo.leaverD.withdrawAccs Demo.ST Demo.VA) (.Withdraw 4) L2 l3 ∧
    Runs (Demo.ctx 1203) M1 (Demo.leaverU.withdrawAccs Demo.ST Demo.VA) (.Withdraw 255) L2 l4 := by
  have hne : Demo.leaverU.user ≠ Demo.leaverD.user ∧ Demo.leaverU.record ≠ Demo.leaverD.record :=
    ⟨by decide +kernel, by decide +kernel⟩
  obtain ⟨hr, p, kv, -, -, ke, -, d1, d2, d3, d4, d5, d6, -⟩ :=
    Leaver.unstake_one Demo.pool5 Demo.canD5 Demo.runM8 rfl Demo.reachM5 Demo.rent_ne
  have g1 := Leaver.unstake_wallet Demo.pool5 Demo.canD5 Demo.runM8 rfl Demo.can5.toHasAccounts hne.1.symm
  have g2 := Leaver.unstake_token Demo.pool5 Demo.canD5 Demo.runM8 rfl Demo.can5.orca (Or.inl orca_ne_xorca)
  have g3 := Leaver.unstake_record Demo.pool5 Demo.canD5 Demo.runM8 rfl Demo.can5.isRecord
  have g4 := Leaver.unstake_orca_mint Demo.pool5 Demo.canD5 Demo.runM8 rfl Demo.orcaM5
  have cU := Demo.can5.same g1 g2 g3
  have cD : Demo.leaverD.CanWithdraw Demo.cr (Demo.outLedger Demo.m8) := ⟨d1, d2, d3, d4, by decide +kernel⟩
  have thaw : readU8 ((Demo.outLedger Demo.m8) Demo.VA).data 108 = 1 := by decide +kernel
  have hom : MintOk (Demo.outLedger Demo.m8) ORCA_MINT_ID :=
    ⟨by rw [g4]; exact Demo.orcaM5.prog, by rw [g4]; exact Demo.orcaM5.len, by rw [g4]; exact Demo.orcaM5.init⟩
  obtain ⟨L1, l1, r1⟩ := Leaver.CanWithdraw.runs (x := Demo.ctx 1203) hr p rfl cU (by decide +kernel) thaw hom.prog
  obtain ⟨M1, l2, r2⟩ := Leaver.CanWithdraw.runs (x := Demo.ctx 1203) hr p rfl cD (by decide +kernel) thaw hom.prog
  obtain ⟨L2, l3, l4, h1, h2⟩ := C101_withdraws_commute hr ⟨⟨_, p.acc.addr⟩, p.prog, p.acc.tag⟩ p.v_addr rfl rfl
    Demo.rent_ne Demo.rent_ne cU cD hne hom r1 r2
  exact ⟨_, L1, M1, L2, l1, l2, l4, l3, r1, r2, h1, h2⟩

end Xorca
