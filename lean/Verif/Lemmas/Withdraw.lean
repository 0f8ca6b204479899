import Verif.Lemmas.Stake
import Verif.Instr.Withdraw
/-
Inversion of a successful Withdraw.
-/
namespace Xorca
open Spec

/-- All checks passed by a successful Withdraw, and its calls. -/
structure WithdrawRun (x : Ctx) (L : Ledger) (accs : List Meta) (i : UInt8) (L' : Ledger)
    (logs : List Bytes) (u st pw oa v om sp tp : Meta) (L1 L2 : Ledger) (e : UInt64) : Prop where
  accs_eq : ∃ rest, accs = u :: st :: pw :: oa :: v :: om :: sp :: tp :: rest
  signer : u.isSigner = true
  u_w : u.isWritable = true
  om_key : om.key = ORCA_MINT_ID
  om_prog : (L ORCA_MINT_ID).owner = SPL_TOKEN_PROGRAM_ID
  st_w : st.isWritable = true
  st_prog : (L st.key).owner = PROGRAM_ID
  st_len : 2048 ≤ (L st.key).data.length
  st_disc : readU8 (L st.key).data 0 = 1
  st_addr : st.key = deriveAddress x.cr stateSeedsRaw (readU8 (L st.key).data 6) PROGRAM_ID
  st_pda : x.cr.onCurve st.key = false
  v_addr : v.key = deriveAddress x.cr (vaultSeedsRaw st.key SPL_TOKEN_PROGRAM_ID ORCA_MINT_ID)
    (readU8 (L st.key).data 7) ASSOCIATED_TOKEN_PROGRAM_ID
  pw_w : pw.isWritable = true
  pw_prog : (L pw.key).owner = PROGRAM_ID
  pw_len : 1024 ≤ (L pw.key).data.length
  pw_disc : readU8 (L pw.key).data 0 = 2
  pw_addr : pw.key = deriveAddress x.cr (pendingWithdrawSeedsRaw u.key [i])
    (readU8 (L pw.key).data 6) PROGRAM_ID
  oa_w : oa.isWritable = true
  oa_prog : (L oa.key).owner = SPL_TOKEN_PROGRAM_ID
  oa_len : 165 ≤ (L oa.key).data.length
  oa_owner : ownerOf L oa.key = u.key
  oa_mint : mintOf L oa.key = ORCA_MINT_ID
  v_w : v.isWritable = true
  v_prog : (L v.key).owner = SPL_TOKEN_PROGRAM_ID
  v_len : 165 ≤ (L v.key).data.length
  v_owner : ownerOf L v.key = st.key
  v_mint : mintOf L v.key = ORCA_MINT_ID
  sp_key : sp.key = SYSTEM_PROGRAM_ID
  tp_key : tp.key = SPL_TOKEN_PROGRAM_ID
  mature : recTime L pw.key ≤ x.now.toInt
  enough : recAmount L pw.key ≤ escrow L st.key
  transfer : cpiTokenTransfer ⟨accs, [st.key]⟩ L v.key oa.key st.key (readU64 (L pw.key).data 40) = .ok L1
  close : closeProgramAccount L1 pw.key u.key = .ok L2
  new_escrow : escrow L2 st.key = recAmount L pw.key + e.toNat
  result : L' = L2.setData st.key (setStEscrow (L2 st.key).data e)
  log : logs = [(Event.Withdraw e (readU64 (L pw.key).data 40)
    (stCoolDown (setStEscrow (L2 st.key).data e)) i).serialize]

theorem processWithdraw_run {x : Ctx} {L : Ledger} {accs : List Meta} {i : UInt8} {L' : Ledger}
    {logs : List Bytes} (h : processWithdraw x L accs i = .ok (L', logs)) :
    ∃ u st pw oa v om sp tp L1 L2 e, WithdrawRun x L accs i L' logs u st pw oa v om sp tp L1 L2 e := by
  unfold processWithdraw at h
  simp only [bind_eq_ok, exists_unit, getAccountInfo_ok, assertAccountRole_SW, assertAccountRole_W,
    assertAccountAddress_ok, makeOwnerTokenAccountAssertions_ok, ensure_eq_ok, assertAccountOwner_ok,
    assertStateData_ok, assertPendingWithdrawData_ok, verifyStateAddress_ok, verifyVaultAddress_ok,
    verifyPendingWithdrawAddress_ok, okOr_eq_ok,
    signerPda_ok, Except.ok.injEq, Prod.mk.injEq, true_implies] at h
  obtain ⟨u, h0, st, h1, pw, h2, oa, h3, v, h4, om, h5, sp, h6, tp, h7, ⟨hs, hsw⟩, ho, omp, stw, stp,
    sd, ⟨rfl, stl, std⟩, sta, va, pww, pwp, pd, ⟨rfl, pwl, pwd⟩, pwa, toa, ⟨oaw, oap, oad, oao, oam⟩,
    tv, ⟨vw, vp, vd, vo, vm⟩, hsp, htp, hmat, hesc, pda, ⟨rfl, hcurve⟩, L1, hL1, L2, hL2,
    sd2, ⟨rfl, st2l, _⟩, e, he, rfl, rfl⟩ := h
  obtain ⟨oal, e1, e2, e3⟩ := decoded_fields oad
  obtain ⟨vl, e7, e8, e9⟩ := decoded_fields vd
  change st.key = deriveAddress _ _ (readU8 (L st.key).data 6) _ at sta
  change x.cr.onCurve (deriveAddress _ _ (readU8 (L st.key).data 6) _) = false at hcurve
  have hL1' : cpiTokenTransfer ⟨accs, [deriveAddress x.cr stateSeedsRaw (readU8 (L st.key).data 6) PROGRAM_ID]⟩ L
    v.key oa.key st.key (readU64 (L pw.key).data 40) = .ok L1 := hL1
  rw [← sta] at hcurve hL1'
  rw [checkedSubU64_eq_some] at he
  change ¬ x.now.toInt < recTime L pw.key at hmat
  change ¬ escrow L st.key < recAmount L pw.key at hesc
  refine ⟨u, st, pw, oa, v, om, sp, tp, L1, L2, e, ?_⟩
  exact {
    accs_eq := list8_of_getElem? h0 h1 h2 h3 h4 h5 h6 h7
    signer := hs
    u_w := hsw
    om_key := ho
    om_prog := by rw [← ho]; exact omp
    st_w := stw
    st_prog := stp
    st_len := stl
    st_disc := std
    st_addr := sta
    st_pda := hcurve
    v_addr := by rw [ho] at va; exact va
    pw_w := pww
    pw_prog := pwp
    pw_len := pwl
    pw_disc := pwd
    pw_addr := pwa
    oa_w := oaw
    oa_prog := oap
    oa_len := oal
    oa_owner := by rw [ownerOf, ← e1, oao]
    oa_mint := by rw [mintOf, ← e2, oam, ho]
    v_w := vw
    v_prog := vp
    v_len := vl
    v_owner := by rw [ownerOf, ← e7, vo]
    v_mint := by rw [mintOf, ← e8, vm, ho]
    sp_key := hsp
    tp_key := htp
    mature := by omega
    enough := by omega
    transfer := hL1'
    close := hL2
    new_escrow := he
    result := rfl
    log := by simp; rfl }

/-- Net effect of a successful Withdraw on the ledger. -/
structure WithdrawEff (L L' : Ledger) (e : UInt64) (u st pw oa v : Pubkey) : Prop where
  transfer : ∃ L1, TransferEff L L1 v oa st (readU64 (L pw).data 40)
  st_ne : st ≠ pw ∧ st ≠ oa ∧ st ≠ v ∧ st ≠ u
  pw_ne : pw ≠ oa ∧ pw ≠ v ∧ pw ≠ u
  v_ne : v ≠ oa
  owner : ∀ k, k ≠ pw → (L' k).owner = (L k).owner
  data : ∀ k, k ∉ [pw, oa, v, st] → (L' k).data = (L k).data
  lamports : ∀ k, k ∉ [pw, u] → (L' k).lamports = (L k).lamports
  st_data : (L' st).data = writeAt (L st).data 8 (u64le e)
  escrow : e.toNat + recAmount L pw = Spec.escrow L st
  v_data : ∃ w, AmountSet (L v).data (L' v).data w ∧ w.toNat + recAmount L pw = balance L v
  v_exact : readU32 (L v).data 72 ≠ 1 → ∃ w, (L' v).data = writeAt (L v).data 64 (u64le w)
  oa_data : ∃ w, (L' oa).data = writeAt (L oa).data 64 (u64le w) ∧
    w.toNat = balance L oa + recAmount L pw
  pw_closed : L' pw = ⟨0, SYSTEM_PROGRAM_ID, []⟩
  refund : (L' u).lamports = (L u).lamports + (L pw).lamports
  v_ok : TokUsable (L v)
  oa_ok : TokUsable (L oa)

theorem WithdrawRun.eff {x : Ctx} {L : Ledger} {accs : List Meta} {i : UInt8} {L' : Ledger}
    {logs : List Bytes} {u st pw oa v om sp tp : Meta} {L1 L2 : Ledger} {e : UInt64}
    (hsig : SignersOk x.cr L accs)
    (r : WithdrawRun x L accs i L' logs u st pw oa v om sp tp L1 L2 e) :
    WithdrawEff L L' e u.key st.key pw.key oa.key v.key ∧
    logs = [(Event.Withdraw e (readU64 (L pw.key).data 40) (readI64 (L st.key).data 16) i).serialize] := by
  have hsne : u.key ≠ st.key := by
    obtain ⟨rest, hr⟩ := r.accs_eq
    exact signer_ne hsig (by rw [hr]; simp) r.signer r.st_prog (by rw [r.st_disc]; decide)
  have hne : u.key ≠ pw.key := by
    obtain ⟨rest, hr⟩ := r.accs_eq
    exact signer_ne hsig (by rw [hr]; simp) r.signer r.pw_prog (by rw [r.pw_disc]; decide)
  have kst := r.st_prog
  have kpw := r.pw_prog
  have o1 : st.key ≠ oa.key := fun h => token_ne_program (by rw [← r.oa_prog, ← h, kst])
  have o3 : st.key ≠ v.key := fun h => token_ne_program (by rw [← r.v_prog, ← h, kst])
  have o4 : st.key ≠ pw.key := by
    intro h
    have h1 := r.st_disc
    rw [h, r.pw_disc] at h1
    exact absurd h1 (by decide)
  have p1 : pw.key ≠ oa.key := fun h => token_ne_program (by rw [← r.oa_prog, ← h, kpw])
  have p3 : pw.key ≠ v.key := fun h => token_ne_program (by rw [← r.v_prog, ← h, kpw])
  have v1 : v.key ≠ oa.key := by
    intro h
    have h1 := r.oa_owner
    rw [← h, r.v_owner] at h1
    exact hsne h1.symm
  have t := splTransfer_eff v1 (cpiTokenTransfer_ok.1 r.transfer).2.2
  have c := closeProgramAccount_eff hne r.close
  have hst1 : L1 st.key = L st.key := t.frame.other _ (by simp [o1, o3])
  have hpw1 : L1 pw.key = L pw.key := t.frame.other _ (by simp [p1, p3])
  have hst2 : L2 st.key = L st.key := by rw [c.other _ o4 hsne.symm, hst1]
  have hstl := r.st_len
  have hcool : stCoolDown (setStEscrow (L2 st.key).data e) = readI64 (L st.key).data 16 := by
    rw [hst2]
    simp only [stCoolDown, setStEscrow, stateOff_4, stateOff_5]
    exact readI64_writeAt_apart (by simp; omega) (by simp [Apart])
  have hL' := r.result
  have h2d : ∀ k, k ≠ pw.key → (L2 k).data = (L1 k).data := by
    intro k hk
    by_cases hku : k = u.key
    · subst hku; rw [c.received]
    · rw [c.other k hk hku]
  have h2o : ∀ k, k ≠ pw.key → (L2 k).owner = (L1 k).owner := by
    intro k hk
    by_cases hku : k = u.key
    · subst hku; rw [c.received]
    · rw [c.other k hk hku]
  refine ⟨?_, by rw [r.log, hcool]⟩
  exact {
    transfer := ⟨L1, t⟩
    st_ne := ⟨o4, o1, o3, hsne.symm⟩
    pw_ne := ⟨p1, p3, hne.symm⟩
    v_ne := v1
    owner := by
      intro k hk
      rw [hL', Ledger.setData_owner, h2o k hk, t.frame.owner]
    data := by
      intro k hk
      simp only [List.mem_cons, List.not_mem_nil, or_false, not_or] at hk
      rw [hL', Ledger.setData_other _ _ hk.2.2.2, h2d k hk.1]
      exact t.frame.data_other (by simp [hk])
    lamports := by
      intro k hk
      simp only [List.mem_cons, List.not_mem_nil, or_false, not_or] at hk
      rw [hL', Ledger.setData_lamports, c.other k hk.1 hk.2, t.frame.lamports]
    st_data := by rw [hL', Ledger.setData_same, hst2]; rfl
    escrow := by
      have := r.new_escrow
      rw [Spec.escrow, hst2] at this
      rw [Spec.escrow]; omega
    v_data := by
      rw [hL', Ledger.setData_other _ _ o3.symm, h2d _ p3.symm]; exact t.debit
    v_exact := by
      rw [hL', Ledger.setData_other _ _ o3.symm, h2d _ p3.symm]; exact t.exact_src
    oa_data := by
      rw [hL', Ledger.setData_other _ _ o1.symm, h2d _ p1.symm]; exact t.credit
    pw_closed := by rw [hL', Ledger.setData_other _ _ o4.symm, c.closed]
    refund := by
      rw [hL', Ledger.setData_lamports, c.received, hpw1, t.frame.lamports]
    v_ok := t.src_ok
    oa_ok := t.dst_ok }

end Xorca
