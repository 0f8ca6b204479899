import Verif.Lemmas.Live
import Verif.Lemmas.Fail
/-
Well-formed calls succeed.
-/
namespace Xorca
open Spec

theorem mint_ids_ne : ORCA_MINT_ID ≠ XORCA_MINT_ID := by decide

theorem convertOrcaToXorca_of {a n s : UInt64}
    (h : s.toNat ≠ 0 → n.toNat ≠ 0 → a.toNat * (s.toNat + 100) < 2 ^ 128 ∧
      a.toNat * (s.toNat + 100) / (n.toNat + 100) < 2 ^ 64) :
    ∃ m, convertOrcaToXorca a n s = .ok m ∧ m.toNat = mintFor a.toNat n.toNat s.toNat := by
  cases hc : convertOrcaToXorca a n s with
  | ok m => exact ⟨m, rfl, convertOrcaToXorca_ok hc⟩
  | error e =>
    obtain ⟨⟨h1, h2, h3⟩, _⟩ := convertOrcaToXorca_err.1 hc
    obtain ⟨h4, h5⟩ := h h1 h2
    omega

theorem convertXorcaToOrca_of {a n s : UInt64} (hs : s.toNat ≠ 0) (hn : n.toNat ≠ 0)
    (h1 : a.toNat * (n.toNat + 100) < 2 ^ 128) (h2 : a.toNat * (n.toNat + 100) / (s.toNat + 100) < 2 ^ 64) :
    ∃ m, convertXorcaToOrca a n s = .ok m ∧ m.toNat = redeemFor a.toNat n.toNat s.toNat := by
  cases hc : convertXorcaToOrca a n s with
  | ok m => exact ⟨m, rfl, (convertXorcaToOrca_ok hc).2.2⟩
  | error e =>
    obtain ⟨h3, _⟩ := convertXorcaToOrca_err.1 hc
    omega

/-- The mint conversion cannot overflow while the vault does not. -/
theorem mint_no_overflow {a n s v : Nat} (hs : s ≤ v) (hn : s ≤ n) (ha : v + a < 2 ^ 64) :
    a * (s + 100) < 2 ^ 128 ∧ a * (s + 100) / (n + 100) < 2 ^ 64 := by
  constructor
  · by_cases h : s + 100 ≤ 2 ^ 64
    · calc a * (s + 100) ≤ a * 2 ^ 64 := Nat.mul_le_mul_left _ h
        _ < 2 ^ 64 * 2 ^ 64 := Nat.mul_lt_mul_of_pos_right (by omega) (by norm_num)
        _ = 2 ^ 128 := by norm_num
    · calc a * (s + 100) ≤ 100 * (2 ^ 64 + 100) := Nat.mul_le_mul (by omega) (by omega)
        _ < 2 ^ 128 := by norm_num
  · have : a * (s + 100) / (n + 100) ≤ a := by
      apply Nat.div_le_of_le_mul
      rw [Nat.mul_comm (n + 100)]
      exact Nat.mul_le_mul_left _ (by omega)
    omega

theorem redeem_no_overflow {a n s : Nat} (hs : s ≤ n) (ha : a ≤ s) (hn : n < 2 ^ 64)
    (hf : a * (n + 100) < 2 ^ 128) :
    a * (n + 100) < 2 ^ 128 ∧ a * (n + 100) / (s + 100) < 2 ^ 64 := by
  constructor
  · exact hf
  · have := redeemFor_le hs ha
    unfold redeemFor at this
    omega

section
variable {x : Ctx} {L : Ledger} {accs : List Meta}

theorem stake_succeeds {a : UInt64} {s v oa xa xm st om tp : Meta}
    (c : StakeCall accs s v oa xa xm st om tp) (p : Pool x.cr L st.key v.key) (hsig : SignersOk x.cr L accs)
    (hoa : TokenOk L oa.key ORCA_MINT_ID s.key) (hxa : TokenOk L xa.key XORCA_MINT_ID s.key)
    (hth : readU8 (L v.key).data 108 = 1) (hms : NotMultisig L s.key)
    (hom : (L ORCA_MINT_ID).owner = SPL_TOKEN_PROGRAM_ID) (ha : a.toNat ≤ balance L oa.key)
    (hm : 0 < mintFor a.toNat (backing L v.key st.key) (supply L XORCA_MINT_ID))
    (hov : balance L v.key + a.toNat < 2 ^ 64)
    (hox : balance L xa.key + mintFor a.toNat (backing L v.key st.key) (supply L XORCA_MINT_ID) < 2 ^ 64) :
    ∃ L' logs, processStake x L accs a = .ok (L', logs) := by
  obtain ⟨n, hn, e⟩ := processStake_eval c p hoa hxa hom ha
  rw [e]
  obtain ⟨rest, rfl⟩ := c.accs_eq
  have hb := p.backed
  have hsn : supply L XORCA_MINT_ID ≤ backing L v.key st.key := by unfold backing; omega
  obtain ⟨m, hc, hm2⟩ := convertOrcaToXorca_of (a := a) (n := n) (s := readU64 (L XORCA_MINT_ID).data 36)
    (fun _ _ => mint_no_overflow (v := balance L v.key) (by change supply L _ ≤ _; omega)
      (by rw [hn]; exact hsn) hov)
  rw [hn] at hm2
  change m.toNat = mintFor a.toNat _ (supply L XORCA_MINT_ID) at hm2
  have hle := mintFor_le (a := a.toNat) hsn
  have hsst : s.key ≠ st.key := by
    intro h
    exact (hsig s (by simp) c.signer).2.1 _ (h ▸ p.acc.addr)
  have hne : oa.key ≠ v.key := by
    intro h
    have h1 := hoa.owner; rw [h, p.v_owner] at h1; exact hsst h1.symm
  obtain ⟨L1, hL1⟩ := splTransfer_succeeds (amt := a) hne hoa.usable (p.v_usable hth)
    (by change mintOf L _ = mintOf L _; rw [hoa.mint, p.v_mint]) hoa.owner (Or.inl hoa.undelegated) hms ha hov
  have e1 := splTransfer_eff hne hL1
  have xoa : xa.key ≠ oa.key := by
    intro h; have h1 := hxa.mint; rw [h, hoa.mint] at h1; exact mint_ids_ne h1
  have xv : xa.key ≠ v.key := by
    intro h; have h1 := hxa.mint; rw [h, p.v_mint] at h1; exact mint_ids_ne h1
  have moa : XORCA_MINT_ID ≠ oa.key := by
    intro h; have h1 := hoa.len; rw [← h, p.mint.len] at h1; omega
  have mv : XORCA_MINT_ID ≠ v.key := by
    intro h; have h1 := p.v_tok.len; rw [← h, p.mint.len] at h1; omega
  have fx : L1 xa.key = L xa.key := e1.frame.other _ (by simp [xoa, xv])
  have fm : L1 XORCA_MINT_ID = L XORCA_MINT_ID := e1.frame.other _ (by simp [moa, mv])
  obtain ⟨L2, hL2⟩ := splMintTo_succeeds (L := L1) (mint := XORCA_MINT_ID) (dst := xa.key) (auth := st.key)
    (amt := m) (by rw [fm]; exact p.m_usable) (by rw [fx]; exact hxa.usable) (by rw [fx]; exact hxa.mint)
    (by rw [fm]; exact p.mint.flag) (by rw [fm]; exact p.m_auth)
    (by rw [e1.frame.owner, p.prog]; intro h; exact token_ne_program h.1.symm)
    (by rw [fx]; change balance L xa.key + _ < _; rw [hm2]; exact hox)
    (by rw [fm]; change supply L _ + _ < _; rw [hm2]; omega)
  rw [bind_ok_eq hc, bind_ok_eq ((ensure_eq_ok (u := ())).2 (by rw [u64_ne_zero_iff, hm2]; omega)),
    bind_ok_eq (cpiTokenTransfer_ok.2 ⟨by rw [← c.tp_key]; exact Caller.has_of_mem (by simp),
      ⟨Caller.writes_of_mem (by simp) c.oa_w, Caller.writes_of_mem (by simp) c.v_w,
        Caller.signs_of_mem (by simp) c.signer⟩, hL1⟩),
    bind_ok_eq (cpiMintTo_ok.2 ⟨by rw [← c.tp_key]; exact Caller.has_of_mem (by simp),
      ⟨by rw [← c.xm_key]; exact Caller.writes_of_mem (by simp) c.xm_w, Caller.writes_of_mem (by simp) c.xa_w,
        Caller.signs_of_pda (by simp)⟩, hL2⟩)]
  exact ⟨_, _, rfl⟩

/-- A dust stake is refused. -/
theorem stake_dust {a : UInt64} {s v oa xa xm st om tp : Meta}
    (c : StakeCall accs s v oa xa xm st om tp) (p : Pool x.cr L st.key v.key)
    (hoa : TokenOk L oa.key ORCA_MINT_ID s.key) (hxa : TokenOk L xa.key XORCA_MINT_ID s.key)
    (hom : (L ORCA_MINT_ID).owner = SPL_TOKEN_PROGRAM_ID) (ha : a.toNat ≤ balance L oa.key)
    (hm : mintFor a.toNat (backing L v.key st.key) (supply L XORCA_MINT_ID) = 0) :
    processStake x L accs a = .error (.custom .InsufficientStakeAmount) := by
  obtain ⟨n, hn, e⟩ := processStake_eval c p hoa hxa hom ha
  rw [e]
  have hm' : mintFor a.toNat n.toNat (readU64 (L XORCA_MINT_ID).data 36).toNat = 0 := by rw [hn]; exact hm
  obtain ⟨m, hc, hm2⟩ := convertOrcaToXorca_of (a := a) (n := n) (s := readU64 (L XORCA_MINT_ID).data 36) (by
    intro h1 h2
    have h3 := lt_mintFor_succ_mul (a := a.toNat) h1 h2
    rw [hm'] at h3
    have := n.toNat_lt
    refine ⟨by omega, ?_⟩
    rw [Nat.div_eq_of_lt (by omega)]; omega)
  rw [hm'] at hm2
  rw [bind_ok_eq hc, bind_err_eq (ensure_eq_err.2 ⟨?_, rfl⟩)]
  rw [u64_ne_zero_iff, hm2]; simp

theorem unstake_succeeds {a : UInt64} {i b : UInt8} {u st pw xa xm om v sp tp : Meta}
    (c : UnstakeCall accs u st pw xa xm om v sp tp)
    (p : Pool x.cr L st.key v.key) (hsig : SignersOk x.cr L accs) (hr : RecordAddr x.cr u.key i pw.key b)
    (hpw : (L pw.key).owner = SYSTEM_PROGRAM_ID) (hpd : (L pw.key).data = [])
    (hxa : TokenOk L xa.key XORCA_MINT_ID u.key) (hom : MintOk L ORCA_MINT_ID)
    (hu : (L u.key).owner = SYSTEM_PROGRAM_ID) (hud : (L u.key).data = [])
    (h0 : 0 < a.toNat) (ha : a.toNat ≤ balance L xa.key) (has : a.toNat ≤ supply L XORCA_MINT_ID)
    (hov : a.toNat * (backing L v.key st.key + 100) < 2 ^ 128) (hclk : x.now.toInt + coolDown L st.key < 2 ^ 63)
    (hrent : (x.rentMin 1024).toNat ≤ (L u.key).lamports.toNat + (L pw.key).lamports.toNat) :
    ∃ L' logs, processUnstake x L accs a i = .ok (L', logs) := by
  obtain ⟨n, hn, e⟩ := processUnstake_eval c p hr hpw hxa hom ha
  rw [e]
  obtain ⟨rest, rfl⟩ := c.accs_eq
  have hb := p.backed
  have hsn : supply L XORCA_MINT_ID ≤ backing L v.key st.key := by unfold backing; omega
  have hnv : backing L v.key st.key + escrow L st.key = balance L v.key := by unfold backing; omega
  have hv64 : balance L v.key < 2 ^ 64 := UInt64.toNat_lt _
  obtain ⟨o1, o2⟩ := redeem_no_overflow hsn has (by omega) hov
  obtain ⟨w, hc, hw⟩ := convertXorcaToOrca_of (a := a) (n := n) (s := readU64 (L XORCA_MINT_ID).data 36)
    (by change supply L _ ≠ 0; omega) (by rw [hn]; omega) (by rw [hn]; exact o1) (by rw [hn]; exact o2)
  rw [hn] at hw
  change w.toNat = redeemFor a.toNat _ (supply L XORCA_MINT_ID) at hw
  have hle := redeemFor_le hsn has
  have hge := le_redeemFor (x := a.toNat) hsn
  obtain ⟨L1, hL1⟩ := splBurn_succeeds (L := L) (src := xa.key) (mint := XORCA_MINT_ID) (auth := u.key) (amt := a)
    p.m_usable hxa.usable hxa.mint hxa.owner (Or.inl hxa.undelegated)
    (by rw [hu]; intro h; exact token_ne_system h.1.symm) ha has
  have e1 := splBurn_eff hL1
  have ne_xa : ∀ k, (L k).owner ≠ SPL_TOKEN_PROGRAM_ID → k ≠ xa.key ∧ k ≠ XORCA_MINT_ID := by
    intro k hk
    exact ⟨fun h => hk (by rw [h]; exact hxa.prog), fun h => hk (by rw [h]; exact p.mint.prog)⟩
  have keep : ∀ k, (L k).owner ≠ SPL_TOKEN_PROGRAM_ID → L1 k = L k := by
    intro k hk
    have := ne_xa k hk
    exact e1.frame.other k (by simp [this.1, this.2])
  have kst := keep st.key (by rw [p.prog]; exact token_ne_program.symm)
  have kpw := keep pw.key (by rw [hpw]; exact token_ne_system.symm)
  have ku := keep u.key (by rw [hu]; exact token_ne_system.symm)
  have hsd : assertStateData L1 st = .ok (L st.key).data :=
    assertStateData_ok.2 ⟨by rw [kst], by rw [p.acc.len], p.acc.tag⟩
  obtain ⟨ne, hne, hne2⟩ := checkedAddU64_of_lt (a := stEscrow (L st.key).data) (b := w) (by
    change escrow L st.key + _ < _; omega)
  have st_pw : st.key ≠ pw.key := by
    intro h; have := p.prog; rw [h, hpw] at this; exact program_ne_system this.symm
  have st_u : st.key ≠ u.key := by
    intro h; have := p.prog; rw [h, hu] at this; exact program_ne_system this.symm
  have u_pw : u.key ≠ pw.key := by
    intro h
    exact (hsig u (by simp) c.signer).2.2.2 i b (by rw [← h] at hr; exact hr)
  obtain ⟨L3, hL3⟩ := createPendingWithdrawSecure_succeeds (x := x)
    (c := ⟨u :: st :: pw :: xa :: xm :: om :: v :: sp :: tp :: rest, [pw.key]⟩)
    (L := L1.setData st.key (setStEscrow (L st.key).data ne)) (funder := u.key) (new := pw.key) u_pw
    (by rw [Ledger.setData_other _ _ st_pw.symm, kpw]; exact hpw)
    (by rw [Ledger.setData_other _ _ st_pw.symm, kpw]; exact hpd)
    (by rw [← c.sp_key]; exact Caller.has_of_mem (by simp))
    ⟨Caller.writes_of_mem (by simp) c.u_w, Caller.writes_of_mem (by simp) c.pw_w,
      Caller.signs_of_mem (by simp) c.signer, Caller.signs_of_pda (by simp)⟩
    (by rw [Ledger.setData_other _ _ st_u.symm, ku]; exact hu)
    (by rw [Ledger.setData_other _ _ st_u.symm, ku]; exact hud)
    (by rw [Ledger.setData_other _ _ st_u.symm, ku, Ledger.setData_other _ _ st_pw.symm, kpw]; exact hrent)
  have hcd : stCoolDown ((L1.setData st.key (setStEscrow (L st.key).data ne)) st.key).data =
      readI64 (L st.key).data 16 := by
    rw [Ledger.setData_data, if_pos rfl]
    exact readI64_writeAt_apart (by simp [p.acc.len]) (by simp [Apart])
  obtain ⟨t, ht⟩ : ∃ t, checkedAddI64 x.now (readI64 (L st.key).data 16) = some t := by
    cases hq : checkedAddI64 x.now (readI64 (L st.key).data 16) with
    | some t => exact ⟨t, rfl⟩
    | none =>
      exfalso
      have h1 := checkedAddI64_none.1 hq
      have h2 := p.acc.cool
      have h3 := x.now.le_toInt
      change coolDown L st.key ≥ 0 at h2
      simp only [coolDown] at *
      omega
  rw [bind_ok_eq hc, bind_ok_eq ((ensure_eq_ok (u := ())).2 (by rw [u64_ne_zero_iff, hw]; omega)),
    bind_ok_eq (cpiBurn_ok.2 ⟨by rw [← c.tp_key]; exact Caller.has_of_mem (by simp),
      ⟨Caller.writes_of_mem (by simp) c.xa_w, by rw [← c.xm_key]; exact Caller.writes_of_mem (by simp) c.xm_w,
        Caller.signs_of_mem (by simp) c.signer⟩, hL1⟩),
    bind_ok_eq hsd, bind_ok_eq (okOr_eq_ok.2 hne), bind_ok_eq hL3, hcd, bind_ok_eq (okOr_eq_ok.2 ht)]
  exact ⟨_, _, rfl⟩

/-- A dust unstake is refused. -/
theorem unstake_dust {a : UInt64} {i b : UInt8} {u st pw xa xm om v sp tp : Meta}
    (c : UnstakeCall accs u st pw xa xm om v sp tp) (p : Pool x.cr L st.key v.key)
    (hr : RecordAddr x.cr u.key i pw.key b) (hpw : (L pw.key).owner = SYSTEM_PROGRAM_ID)
    (hxa : TokenOk L xa.key XORCA_MINT_ID u.key) (hom : MintOk L ORCA_MINT_ID)
    (ha : a.toNat ≤ balance L xa.key) (hs : supply L XORCA_MINT_ID ≠ 0)
    (hm : redeemFor a.toNat (backing L v.key st.key) (supply L XORCA_MINT_ID) = 0) :
    processUnstake x L accs a i = .error (.custom .InsufficientUnstakeAmount) := by
  obtain ⟨n, hn, e⟩ := processUnstake_eval c p hr hpw hxa hom ha
  rw [e]
  have hb := p.backed
  have hm' : redeemFor a.toNat n.toNat (readU64 (L XORCA_MINT_ID).data 36).toNat = 0 := by rw [hn]; exact hm
  have h3 := lt_redeemFor_succ_mul a.toNat n.toNat (readU64 (L XORCA_MINT_ID).data 36).toNat
  rw [hm'] at h3
  have := (readU64 (L XORCA_MINT_ID).data 36).toNat_lt
  obtain ⟨w, hc, hw⟩ := convertXorcaToOrca_of (a := a) (n := n) (s := readU64 (L XORCA_MINT_ID).data 36) hs
    (by rw [hn, backing]; omega) (by omega) (by rw [Nat.div_eq_of_lt (by omega)]; omega)
  rw [hm'] at hw
  rw [bind_ok_eq hc, bind_err_eq (ensure_eq_err.2 ⟨?_, rfl⟩)]
  rw [u64_ne_zero_iff, hw]; simp

theorem withdraw_succeeds {i : UInt8} {u st pw oa v om sp tp : Meta}
    (c : WithdrawCall accs u st pw oa v om sp tp)
    (p : Pool x.cr L st.key v.key) (hsig : SignersOk x.cr L accs)
    (hpw : IsRecord L pw.key) (hr : RecAcc x.cr pw.key (L pw.key))
    (ho : recOwner L pw.key = u.key) (hi : recIndex L pw.key = i)
    (hoa : TokenOk L oa.key ORCA_MINT_ID u.key) (hom : (L ORCA_MINT_ID).owner = SPL_TOKEN_PROGRAM_ID)
    (hth : readU8 (L v.key).data 108 = 1) (hclk : recTime L pw.key ≤ x.now.toInt)
    (hov : balance L oa.key + recAmount L pw.key < 2 ^ 64) :
    ∃ L' logs, processWithdraw x L accs i = .ok (L', logs) := by
  rw [processWithdraw_eval c p hpw.1 hr ho hi hoa hom]
  obtain ⟨rest, rfl⟩ := c.accs_eq
  have hb := p.backed
  have hamt : recAmount L pw.key ≤ escrow L st.key := by
    obtain ⟨rs, h1, h2, h3⟩ := p.records
    rw [← h3]
    exact List.single_le_sum (by simp) _ (List.mem_map_of_mem ((h2 _).2 hpw))
  obtain ⟨s1, s2, _, _⟩ := hsig u (by simp) c.signer
  have u_st : u.key ≠ st.key := by
    intro h; exact s2 _ (h ▸ p.acc.addr)
  have u_pw : u.key ≠ pw.key := by
    intro h
    exact absurd (s1 (by rw [h]; exact hpw.1)) (not_allZero (o := 0) (by rw [h, hpw.2.2]; decide))
  have st_pw : st.key ≠ pw.key := by
    intro h
    have h1 := p.acc.tag; rw [h, hpw.2.2] at h1; exact absurd h1 (by decide)
  have hne : v.key ≠ oa.key := by
    intro h
    have h1 := hoa.owner; rw [← h, p.v_owner] at h1; exact u_st h1.symm
  obtain ⟨L1, hL1⟩ := splTransfer_succeeds (amt := readU64 (L pw.key).data 40) hne (p.v_usable hth) hoa.usable
    (by change mintOf L _ = mintOf L _; rw [hoa.mint, p.v_mint]) p.v_owner
    (Or.inl (by rw [p.v_tok.delegate]; intro h; exact absurd h.1 (by decide)))
    (by rw [p.prog]; intro h; exact token_ne_program h.1.symm)
    (by change recAmount L pw.key ≤ balance L v.key; omega) hov
  have e1 := splTransfer_eff hne hL1
  have keep : ∀ k, (L k).owner = PROGRAM_ID → L1 k = L k := by
    intro k hk
    refine e1.frame.other k ?_
    simp only [List.mem_cons, List.not_mem_nil, or_false, not_or]
    exact ⟨fun h => by rw [h, p.v_tok.prog] at hk; exact token_ne_program hk,
      fun h => by rw [h, hoa.prog] at hk; exact token_ne_program hk⟩
  obtain ⟨L2, hL2⟩ := closeProgramAccount_succeeds (L := L1) (toClose := pw.key) (receiver := u.key) (by
    rw [keep _ hpw.1]; intro h; have := hr.len; rw [h] at this; simp at this)
  have e2 := closeProgramAccount_eff u_pw hL2
  have kst : L2 st.key = L st.key := by rw [e2.other _ st_pw u_st.symm, keep _ p.prog]
  have hsd : assertStateData L2 st = .ok (L st.key).data :=
    assertStateData_ok.2 ⟨by rw [kst], by rw [p.acc.len], p.acc.tag⟩
  obtain ⟨ne, hne, _⟩ := checkedSubU64_of_le (a := stEscrow (L st.key).data)
    (b := readU64 (L pw.key).data 40) hamt
  rw [bind_ok_eq ((ensure_eq_ok (u := ())).2 (by omega)), bind_ok_eq ((ensure_eq_ok (u := ())).2 (by omega)),
    bind_ok_eq (cpiTokenTransfer_ok.2 ⟨by rw [← c.tp_key]; exact Caller.has_of_mem (by simp),
      ⟨Caller.writes_of_mem (by simp) c.v_w, Caller.writes_of_mem (by simp) c.oa_w,
        Caller.signs_of_pda (by simp)⟩, hL1⟩),
    bind_ok_eq hL2, bind_ok_eq hsd, bind_ok_eq (okOr_eq_ok.2 hne)]
  exact ⟨_, _, rfl⟩

end
/-- Whether a Set on an existing state is accepted. -/
theorem set_refused {au st : Meta} {u : StateUpdateInstruction} (hc : SetCall accs au st)
    (ho : (L st.key).owner = PROGRAM_ID) (hl : 2048 ≤ (L st.key).data.length)
    (h0 : readU8 (L st.key).data 0 = 1)
    (ha : st.key = deriveAddress x.cr stateSeedsRaw (readU8 (L st.key).data 6) PROGRAM_ID) :
    (au.key ≠ authority L st.key → processSet x L accs u = .error (.custom .IncorrectAccountAddress)) ∧
    (au.key = authority L st.key → (∀ c, u = .UpdateCoolDownPeriod c → 0 ≤ c.toInt) →
      ∃ L' logs, processSet x L accs u = .ok (L', logs)) := by
  obtain ⟨rest, rfl⟩ := hc.accs_eq
  have key : ∀ {r : Res Outcome}, (do
      assertAccountAddress au (stAuthority (L st.key).data)
      match u with
      | .UpdateCoolDownPeriod newCoolDownPeriodS => do
        ensure (¬ newCoolDownPeriodS.toInt < 0) (.custom .InvalidCoolDownPeriod)
        .ok (L.setData st.key (setStCoolDown (L st.key).data newCoolDownPeriodS), [])
      | .UpdateUpdateAuthority newAuthority =>
        let oldAuthority := stAuthority (L st.key).data
        .ok (L.setData st.key (setStAuthority (L st.key).data newAuthority),
          [(Event.UpdateAuthoritySet newAuthority oldAuthority).serialize])) = r →
      processSet x L (au :: st :: rest) u = r := by
    intro r hr
    rw [← hr]
    unfold processSet
    rw [bind_ok_eq ((getAccountInfo_ok (m := au)).2 rfl), bind_ok_eq ((getAccountInfo_ok (m := st)).2 rfl),
      bind_ok_eq ((assertAccountRole_SW (u := ())).2 ⟨hc.signer, hc.au_w⟩),
      bind_ok_eq ((assertAccountRole_W (u := ())).2 hc.st_w),
      bind_ok_eq ((assertAccountOwner_ok (u := ())).2 ho), bind_ok_eq (assertStateData_ok.2 ⟨rfl, hl, h0⟩),
      bind_ok_eq ((verifyStateAddress_ok (u := ()) (b := stBump _)).2 ha)]
    all_goals (cases u <;> rfl)
  constructor
  · intro hn
    exact key (bind_err_eq (assertAccountAddress_err.2 ⟨hn, rfl⟩) _)
  · intro he hcd
    replace he : au.key = stAuthority (L st.key).data := he
    cases u with
    | UpdateCoolDownPeriod c =>
      have := hcd c rfl
      refine ⟨L.setData st.key (setStCoolDown (L st.key).data c), [], key ?_⟩
      rw [bind_ok_eq ((assertAccountAddress_ok (u := ())).2 he)]
      exact bind_ok_eq ((ensure_eq_ok (u := ())).2 (by omega)) _
    | UpdateUpdateAuthority k =>
      refine ⟨L.setData st.key (setStAuthority (L st.key).data k),
        [(Event.UpdateAuthoritySet k (stAuthority (L st.key).data)).serialize], key ?_⟩
      exact bind_ok_eq ((assertAccountAddress_ok (u := ())).2 he) _

end Xorca
