import Verif.Lemmas.Commute
import Mathlib.Data.List.Perm.Basic
/-
Lemmas for `Props/Schedule.lean`: two Withdraws next to each other can be exchanged, also those of one user.
-/
namespace Xorca
open Spec

variable {cr : Crypto} {x : Ctx} {L L' L1 L2 : Ledger} {st v : Pubkey} {g h : Leaver} {l1 l2 logs : List Bytes}

/-- A Withdraw that ran had room for the payment. -/
theorem Spec.Leaver.HasRequest.canWithdraw (hg : g.HasRequest cr L) (hx : x.cr = cr)
    (hr : Runs x L (g.withdrawAccs st v) (.Withdraw g.index) L' logs) :
    g.CanWithdraw cr L ∧ balance L' g.orca = balance L g.orca + recAmount L g.record := by
  have hs := Leaver.signers_withdraw (st := st) (v := v) hg.toHasAccounts
  subst hx
  obtain ⟨-, -, -, -, -, e1, -⟩ := Props.C14_withdraw_effects hr hs
  simp only [] at e1
  exact ⟨⟨hg.toHasAccounts, hg.isRecord, hg.owner, hg.index, by rw [← e1]; exact UInt64.toNat_lt _⟩, e1⟩

/-- Another request is untouched, and its owner's accounts stay usable. -/
theorem Spec.Leaver.HasRequest.next (p : Pool cr L st v) (hg : g.HasRequest cr L) (hx : x.cr = cr)
    (hr : Runs x L (g.withdrawAccs st v) (.Withdraw g.index) L' logs) (hh : h.HasRequest cr L)
    (hne : g.record ≠ h.record) :
    h.HasRequest cr L' ∧ recAmount L' h.record = recAmount L h.record ∧ recTime L' h.record = recTime L h.record ∧
      (h.orca ≠ g.orca → balance L' h.orca = balance L h.orca) := by
  obtain ⟨hc, -⟩ := hg.canWithdraw hx hr
  have e3 := Leaver.withdraw_record p hc hr hx hh.isRecord (Ne.symm hne)
  have hs := Leaver.signers_withdraw (st := st) (v := v) hg.toHasAccounts
  have w : Blank (L' h.user) := by
    by_cases e : h.user = g.user
    · subst hx
      obtain ⟨A1, A2, e1, w1⟩ := hr.withdraw
      have w := (w1.eff hs).1
      have u1 : g.user ≠ g.record := w.pw_ne.2.2.symm
      have u2 : g.user ≠ st := w.st_ne.2.2.2.symm
      rw [e]
      refine ⟨?_, ?_⟩
      · rw [w.owner _ u1]; exact hg.wallet.1
      · rw [w.data _ (by
          simp [u1, u2, ne_of_owner hg.wallet.1 hg.orca.prog token_ne_system.symm,
            ne_of_owner hg.wallet.1 p.v_tok.prog token_ne_system.symm])]
        exact hg.wallet.2
    · rw [Leaver.withdraw_plain p hc hr hx hh.wallet.1 e]; exact hh.wallet
  have other : h.orca ≠ g.orca → L' h.orca = L h.orca := fun e =>
    Leaver.withdraw_frame hr (hx ▸ hs) (ne_of_owner hh.orca.prog hg.wallet.1 token_ne_system)
      (ne_of_owner hh.orca.prog p.prog token_ne_program) (ne_of_owner hh.orca.prog hg.isRecord.1 token_ne_program) e
      (fun e => hh.signer.1 _ ((by rw [← hh.orca.owner, e, p.v_owner] : h.user = st) ▸ p.acc.addr))
  have o : TokenOk L' h.orca ORCA_MINT_ID h.user := by
    by_cases e : h.orca = g.orca
    · have hu : h.user = g.user := by rw [← hh.orca.owner, e, hg.orca.owner]
      subst hx
      obtain ⟨A1, A2, e1, w1⟩ := hr.withdraw
      have w := (w1.eff hs).1
      obtain ⟨-, -, -, -, -, -, -, -, -, -, -, e6, -⟩ := Props.C14_withdraw_effects hr hs
      simp only [] at e6
      rw [e, hu]
      exact hg.orca.amount (w.owner _ w.pw_ne.1.symm) e6
    · exact hh.orca.same (other e)
  refine ⟨⟨⟨hh.signer, w, hh.addr, o⟩, ⟨by rw [e3]; exact hh.isRecord.1, by rw [e3]; exact hh.isRecord.2.1,
    by rw [e3]; exact hh.isRecord.2.2⟩, by rw [recOwner, e3]; exact hh.owner, by rw [recIndex, e3]; exact hh.index⟩,
    by rw [recAmount, recAmount, e3], by rw [recTime, recTime, e3], fun e => by rw [balance, balance, other e]⟩

/-- Two Withdraws in a row can be exchanged. -/
theorem withdraws_swap (hr : Reachable cr L) (p : Pool cr L st v) (hx : x.cr = cr) (hrent : ∀ n, x.rentMin n ≠ 0)
    (hg : g.HasRequest cr L) (hh : h.HasRequest cr L) (hne : g.record ≠ h.record) (hom : MintOk L ORCA_MINT_ID)
    (h1 : Runs x L (g.withdrawAccs st v) (.Withdraw g.index) L1 l1)
    (h2 : Runs x L1 (h.withdrawAccs st v) (.Withdraw h.index) L2 l2) :
    ∃ M1 l1' l2', Runs x L (h.withdrawAccs st v) (.Withdraw h.index) M1 l2' ∧
      Runs x M1 (g.withdrawAccs st v) (.Withdraw g.index) L2 l1' := by
  obtain ⟨cg, bg⟩ := hg.canWithdraw hx h1
  obtain ⟨hh1, a1, t1, b1⟩ := hg.next p hx h1 hh hne
  obtain ⟨ch1, bh⟩ := hh1.canWithdraw hx h2
  obtain ⟨hrL1, pL1, thaw1, -⟩ := Leaver.withdraw_one p cg h1 hx hr hrent
  have mono : balance L h.orca ≤ balance L1 h.orca := by
    by_cases e : h.orca = g.orca
    · rw [e]; omega
    · rw [b1 e]
  have ch : h.CanWithdraw cr L := ⟨hh.toHasAccounts, hh.isRecord, hh.owner, hh.index, by
    have := ch1.fits; rw [a1] at this; omega⟩
  subst hx
  have hs1 := Leaver.signers_withdraw (st := st) (v := v) hg.toHasAccounts
  obtain ⟨A1, A2, e1, w1⟩ := h1.withdraw
  obtain ⟨B1, B2, c1, u1⟩ := h2.withdraw
  have thaw := (w1.eff hs1).1.v_ok.state
  simp only [] at thaw
  obtain ⟨M1, l2', r2⟩ := ch.runs hr p rfl (by rw [← t1]; exact u1.mature) thaw hom.prog
  obtain ⟨hrM1, pM1, thaw2, bM, -⟩ := Leaver.withdraw_one p ch r2 rfl hr hrent
  obtain ⟨hg1, a2, t2, b2⟩ := hh.next p rfl r2 hg hne.symm
  have cg1 : g.CanWithdraw x.cr M1 := ⟨hg1.toHasAccounts, hg1.isRecord, hg1.owner, hg1.index, by
    by_cases e : g.orca = h.orca
    · have := ch1.fits
      rw [a2, e, bM]
      rw [a1, ← e, bg] at this
      rw [← e]; omega
    · rw [a2, b2 e]; exact cg.fits⟩
  have k4 := Leaver.withdraw_orca_mint p ch r2 rfl hom
  obtain ⟨L2', l1', r1⟩ := cg1.runs hrM1 pM1 rfl (by rw [t2]; exact w1.mature) thaw2 (by rw [k4]; exact hom.prog)
  obtain ⟨A1', A2', e1', w1'⟩ := r1.withdraw
  obtain ⟨B1', B2', c1', u1'⟩ := r2.withdraw
  have rp := hg.isRecord.1
  have rp' := hh.isRecord.1
  have key : L2 = L2' := withdraw_withdraw_same (w1.eff hs1).1
    (w1'.eff (Leaver.signers_withdraw (st := st) (v := v) hg1.toHasAccounts)).1
    (u1'.eff (Leaver.signers_withdraw (st := st) (v := v) hh.toHasAccounts)).1
    (u1.eff (Leaver.signers_withdraw (st := st) (v := v) hh1.toHasAccounts)).1
    (by simp only []; rw [p.v_tok.delegate]; decide) (by simp only []; rw [p.acc.len]) hne
    (ne_of_owner rp hh.orca.prog token_ne_program.symm) (ne_of_owner hg.orca.prog rp' token_ne_program)
    (ne_of_owner hg.wallet.1 rp' program_ne_system.symm) (ne_of_owner hh.wallet.1 rp program_ne_system.symm)
  exact ⟨M1, l1', l2', r2, key ▸ r1⟩

/-- The end state of a row of Withdraws does not depend on their order. -/
theorem withdraws_perm (hx : x.cr = cr) (hrent : ∀ n, x.rentMin n ≠ 0) {gs gs' : List Leaver} (hp : gs.Perm gs') :
    ∀ {L : Ledger}, Reachable cr L → Pool cr L st v → (∀ g ∈ gs, g.HasRequest cr L) → Leaver.OtherRequests gs →
      MintOk L ORCA_MINT_ID → CallsRun x L (withdraws st v gs) L' → CallsRun x L (withdraws st v gs') L' := by
  induction hp with
  | nil => intro L _ _ _ _ _ h; exact h
  | @cons g l l' hp ih =>
    intro L hr p hreq hap hom h
    cases h with
    | cons hs h1 hc =>
      have hg := hreq g (List.mem_cons_self ..)
      obtain ⟨cg, -⟩ := hg.canWithdraw hx h1
      obtain ⟨hr1, p1, -⟩ := Leaver.withdraw_one p cg h1 hx hr hrent
      obtain ⟨hap1, hap2⟩ := List.pairwise_cons.1 hap
      have k4 := Leaver.withdraw_orca_mint p cg h1 hx hom
      exact .cons hs h1 (ih hr1 p1 (fun h hh => (hg.next p hx h1 (hreq h (List.mem_cons_of_mem _ hh)) (hap1 h hh)).1) hap2
        ⟨by rw [k4]; exact hom.prog, by rw [k4]; exact hom.len, by rw [k4]; exact hom.init⟩ hc)
  | swap g h l =>
    intro L hr p hreq hap hom hrun
    cases hrun with
    | cons hs h1 hc =>
      cases hc with
      | cons hs' h2 hc =>
        have hh := hreq h (List.mem_cons_self ..)
        have hg := hreq g (List.mem_cons_of_mem _ (List.mem_cons_self ..))
        obtain ⟨M1, l1', l2', r2, r1⟩ := withdraws_swap hr p hx hrent hh hg
          ((List.pairwise_cons.1 hap).1 g (List.mem_cons_self ..)) hom h1 h2
        have hg1 := (hg.next p hx r2 hh ((List.pairwise_cons.1 hap).1 g (List.mem_cons_self ..)).symm).1
        exact .cons (hx ▸ Leaver.signers_withdraw hg.toHasAccounts) r2
          (.cons (hx ▸ Leaver.signers_withdraw hg1.toHasAccounts) r1 hc)
  | trans hp1 hp2 ih1 ih2 =>
    intro L hr p hreq hap hom h
    exact ih2 hr p (fun g hg => hreq g (hp1.mem_iff.2 hg)) ((hp1.pairwise_iff fun h => Ne.symm h).1 hap) hom
      (ih1 hr p hreq hap hom h)

end Xorca
