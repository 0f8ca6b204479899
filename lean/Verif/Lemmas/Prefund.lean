import Verif.Lemmas.Exec
/-
Unstake on a ledger in which the record address holds more lamports.
-/
namespace Xorca
open Spec

theorem Ledger.setLamports_self (L : Ledger) (k : Pubkey) : L.setLamports k (L k).lamports = L := by
  funext j
  by_cases h : j = k
  · subst h; simp
  · rw [Ledger.setLamports_other _ _ h]

theorem Ledger.setData_setLamports (L : Ledger) (k j : Pubkey) (v : UInt64) (d : Bytes) :
    (L.setLamports k v).setData j d = (L.setData j d).setLamports k v := by
  funext i
  simp only [Ledger.setLamports, Ledger.setData, Ledger.set]
  by_cases h1 : i = k <;> by_cases h2 : i = j <;> by_cases h3 : k = j <;> simp_all

theorem authorizeDebit_setLamports (L : Ledger) (k : Pubkey) (v : UInt64) (t : TokenAccount) (d : Bytes)
    (auth : Pubkey) (n : UInt64) (b : Bool) :
    authorizeDebit (L.setLamports k v) t d auth n b = authorizeDebit L t d auth n b := by
  unfold authorizeDebit validateOwner
  simp only [Ledger.setLamports_owner, Ledger.setLamports_data]

theorem splBurn_setLamports {L L1 : Ledger} {src mint auth k : Pubkey} {n v : UInt64}
    (h : splBurn L src mint auth n = .ok L1) :
    splBurn (L.setLamports k v) src mint auth n = .ok (L1.setLamports k v) := by
  unfold splBurn at h ⊢
  simp only [Ledger.setLamports_owner, Ledger.setLamports_data, authorizeDebit_setLamports, bind_eq_ok] at h ⊢
  obtain ⟨u1, h1, s, h2, m, h3, u2, h4, u3, h5, u4, h6, u5, h7, h8⟩ := h
  refine ⟨u1, h1, s, h2, m, h3, u2, h4, u3, h5, u4, h6, u5, h7, ?_⟩
  split at h8 <;> [rw [if_pos (by assumption)]; rw [if_neg (by assumption)]] <;>
  · simp only [bind_eq_ok, Except.ok.injEq] at h8 ⊢
    obtain ⟨sd, h8, sa, h9, ms, h10, rfl⟩ := h8
    exact ⟨sd, h8, sa, h9, ms, h10, by rw [Ledger.setData_setLamports, Ledger.setData_setLamports]⟩

theorem cpiBurn_setLamports {c : Caller} {L L1 : Ledger} {src mint auth k : Pubkey} {n v : UInt64}
    (h : cpiBurn c L src mint auth n = .ok L1) :
    cpiBurn c (L.setLamports k v) src mint auth n = .ok (L1.setLamports k v) := by
  rw [cpiBurn_ok] at h ⊢
  exact ⟨h.1, h.2.1, splBurn_setLamports h.2.2⟩

/-- What creating the account needed. -/
theorem createAccountSecure_needs {x : Ctx} {c : Caller} {L L' : Ledger} {f n o : Pubkey} {space : Nat}
    (hne : f ≠ n) (hn : o ≠ SYSTEM_PROGRAM_ID)
    (ho : (L n).owner = SYSTEM_PROGRAM_ID) (h : createAccountSecure x c L f n space o = .ok L') :
    c.has SYSTEM_PROGRAM_ID = true ∧ c.writes n = true ∧ c.signs n = true ∧ space ≤ MAX_DATA_LEN ∧
    (L n).data = [] ∧
    ((x.rentMin space).toNat ≤ (L n).lamports.toNat ∨ (c.writes f = true ∧ c.signs f = true ∧
      (L f).owner = SYSTEM_PROGRAM_ID ∧ (L f).data = [] ∧
      (x.rentMin space).toNat ≤ (L f).lamports.toNat + (L n).lamports.toNat)) := by
  have e := createAccountSecure_eff hne hn ho h
  have hp := e.paid
  obtain ⟨w, _, hw⟩ := hp
  have hfresh := e.fresh
  unfold createAccountSecure at h
  rw [if_neg (by simp [ho])] at h
  simp only at h
  split at h
  · rw [cpiCreateAccount_ok] at h
    obtain ⟨h1, ⟨h2, h3, h4, h5⟩, h6⟩ := h
    unfold systemCreateAccount at h6
    simp only [bind_eq_ok, exists_unit, ensure_eq_ok, systemAllocate_ok] at h6
    obtain ⟨h7, L1, ⟨_, h8, rfl⟩, L2, h9, h10⟩ := h6
    refine ⟨h1, h3, h5, h8, hfresh, Or.inr ⟨h2, h4, ?_⟩⟩
    rw [systemAssign_ok (by simpa using ho) hn] at h9
    subst h9
    unfold systemTransfer at h10
    simp only [bind_eq_ok, exists_unit, ensure_eq_ok] at h10
    obtain ⟨a, b, _⟩ := h10
    rw [Ledger.set_other _ _ hne, Ledger.setData_other _ _ hne] at a b
    exact ⟨b, a, by omega⟩
  · by_cases hr : (x.rentMin space).toNat ≤ (L n).lamports.toNat
    · simp only [if_pos hr] at h
      rw [if_neg (by simp)] at h
      simp only [bind_eq_ok, Except.ok.injEq, cpiAllocate_ok, cpiAssign_ok, systemAllocate_ok] at h
      obtain ⟨_, rfl, L2, ⟨h1, ⟨h2, h3⟩, _, h4, _⟩, _⟩ := h
      exact ⟨h1, h2, h3, h4, hfresh, Or.inl hr⟩
    · simp only [if_neg hr] at h
      have hs : (x.rentMin space - (L n).lamports).toNat =
        (x.rentMin space).toNat - (L n).lamports.toNat := u64_sub_toNat (by omega)
      rw [if_pos (by rw [hs]; omega)] at h
      simp only [bind_eq_ok, cpiSystemTransfer_ok, cpiAllocate_ok, cpiAssign_ok, systemAllocate_ok] at h
      obtain ⟨L1, ⟨_, ⟨a1, _, a2⟩, ht⟩, L2, ⟨h1, ⟨h2, h3⟩, _, h4, _⟩, _⟩ := h
      unfold systemTransfer at ht
      simp only [bind_eq_ok, exists_unit, ensure_eq_ok] at ht
      obtain ⟨a, b, _⟩ := ht
      exact ⟨h1, h2, h3, h4, hfresh, Or.inr ⟨a1, a2, b, a, by omega⟩⟩

theorem createAccountSecure_prefund {x : Ctx} {c : Caller} {L L' : Ledger} {f n o : Pubkey} {space : Nat}
    {v : UInt64} (hne : f ≠ n) (hn : o ≠ SYSTEM_PROGRAM_ID)
    (ho : (L n).owner = SYSTEM_PROGRAM_ID) (hv : (L n).lamports.toNat ≤ v.toNat)
    (h : createAccountSecure x c L f n space o = .ok L') :
    ∃ M', createAccountSecure x c (L.setLamports n v) f n space o = .ok M' := by
  by_cases heq : v = (L n).lamports
  · rw [heq, Ledger.setLamports_self]; exact ⟨_, h⟩
  obtain ⟨h1, h2, h3, h4, h5, h6⟩ := createAccountSecure_needs hne hn ho h
  have hlt : (L n).lamports.toNat < v.toNat := by
    rcases Nat.lt_or_ge (L n).lamports.toNat v.toNat with hh | hh
    · exact hh
    · exact absurd (UInt64.toNat_inj.1 (by omega)) heq
  have e1 : (L.setLamports n v n).lamports = v := by simp
  by_cases hr : (x.rentMin space).toNat ≤ v.toNat
  · unfold createAccountSecure
    rw [if_neg (by simp [ho])]
    simp only [e1]
    rw [if_neg (by rw [u64_eq_zero_iff]; omega)]
    simp only [if_pos hr]
    rw [if_neg (by simp)]
    simp only [bind_eq_ok, Except.ok.injEq, cpiAllocate_ok, cpiAssign_ok]
    exact ⟨_, _, rfl, _, ⟨h1, ⟨h2, h3⟩, systemAllocate_ok.2 ⟨⟨by simpa using h5, by simpa using ho⟩, h4, rfl⟩⟩, h1,
        ⟨h2, h3⟩, (systemAssign_ok (by simp [ho]) hn).2 rfl⟩
  · have h7 := h6.resolve_left (by omega)
    obtain ⟨a1, a2, a3, a4, a5⟩ := h7
    refine createAccountSecure_succeeds hne hn h4 (by simpa using ho) (by simpa using h5) h1 ⟨a1, h2, a2, h3⟩
      (by simpa using a3) (by simpa using a4) ?_
    rw [e1, Ledger.setLamports_other _ _ hne]
    omega

theorem createPendingWithdrawSecure_prefund {x : Ctx} {c : Caller} {L L' : Ledger} {f n : Pubkey}
    {v : UInt64} (hne : f ≠ n)
    (ho : (L n).owner = SYSTEM_PROGRAM_ID) (hv : (L n).lamports.toNat ≤ v.toNat)
    (h : createPendingWithdrawSecure x c L f n = .ok L') :
    ∃ M', createPendingWithdrawSecure x c (L.setLamports n v) f n = .ok M' := by
  have h' := h
  unfold createPendingWithdrawSecure at h'
  simp only [bind_eq_ok] at h'
  obtain ⟨L1, h1, _⟩ := h'
  obtain ⟨M1, hM⟩ := createAccountSecure_prefund hne program_ne_system ho hv h1
  have e := createAccountSecure_eff hne program_ne_system (by simpa using ho) hM
  have hd : (M1 n).data = List.replicate 1024 0 := by
    obtain ⟨v, hv, _⟩ := e.created; rw [hv]; rfl
  unfold createPendingWithdrawSecure
  simp only [bind_eq_ok, Except.ok.injEq]
  refine ⟨_, M1, hM, 2 :: List.replicate 1023 0, ?_, rfl⟩
  rw [hd, List.replicate_succ]; rfl

theorem makeOwner_setLamports {L : Ledger} {k : Pubkey} {v : UInt64} {a b c : Meta} {w : Bool} :
    makeOwnerTokenAccountAssertions (L.setLamports k v) a b c w = makeOwnerTokenAccountAssertions L a b c w := by
  unfold makeOwnerTokenAccountAssertions assertAccountOwner assertTokenAccountData
  simp only [Ledger.setLamports_owner, Ledger.setLamports_data]

theorem assertOwner_setLamports {L : Ledger} {k o : Pubkey} {v : UInt64} {a : Meta} :
    assertAccountOwner (L.setLamports k v) a o = assertAccountOwner L a o := by
  unfold assertAccountOwner
  simp only [Ledger.setLamports_owner]

theorem assertMint_setLamports {L : Ledger} {k : Pubkey} {v : UInt64} {a : Meta} :
    assertTokenMintData (L.setLamports k v) a = assertTokenMintData L a := by
  unfold assertTokenMintData
  simp only [Ledger.setLamports_data]

theorem assertState_setLamports {L : Ledger} {k : Pubkey} {v : UInt64} {a : Meta} :
    assertStateData (L.setLamports k v) a = assertStateData L a := by
  unfold assertStateData assertAccountData assertAccountLen assertAccountDiscriminator
  simp only [Ledger.setLamports_data]

/-- Prefunding the record address does not make an Unstake fail, and changes nothing but lamports. -/
theorem processUnstake_prefund {x : Ctx} {L L' : Ledger} {accs : List Meta} {a : UInt64} {i : UInt8}
    {logs : List Bytes} {pw : Meta} {v : UInt64} (hsig : SignersOk x.cr L accs) (hpw : accs[2]? = some pw)
    (hv : (L pw.key).lamports.toNat ≤ v.toNat)
    (h : processUnstake x L accs a i = .ok (L', logs)) :
    ∃ M', processUnstake x (L.setLamports pw.key v) accs a i = .ok (M', logs) ∧
      (∀ k, (M' k).owner = (L' k).owner ∧ (M' k).data = (L' k).data) ∧
      (M' pw.key).lamports.toNat = max (x.rentMin 1024).toNat v.toNat := by
  obtain ⟨u0, st0, pw0, xa0, xm0, om0, v0, sp0, tp0, L10, L30, w0, e0, ts0, b0, r⟩ := processUnstake_run h
  obtain ⟨rest, hacc⟩ := r.accs_eq
  have hp0 : pw0 = pw := by rw [hacc] at hpw; simpa using hpw
  subst hp0
  have hune : u0.key ≠ pw0.key := by
    intro hh
    have hf := r.pw_find
    rw [← hh] at hf
    exact (hsig u0 (by rw [hacc]; simp) r.signer).2.2.2 i b0 hf
  unfold processUnstake at h ⊢
  simp only [makeOwner_setLamports, assertOwner_setLamports, assertMint_setLamports, assertState_setLamports]
  rw [bind_eq_ok] at h
  simp only [bind_eq_ok] at h ⊢
  obtain ⟨u, h0, st, h1, pw, h2, xa, h3, xm, h4, om, h5, vv, h6, sp, h7, tp, h8, c1, k1, c2, k2, c3, k3, c4, k4,
    c5, k5, c6, k6, c7, k7, tv, k8, c9, k9, c10, k10, b, k11, txa, k12, c13, k13, c14, k14, c15, k15, tm, k16,
    c17, k17, c18, k18, c19, k19, tom, k20, sd, k21, c22, k22, c23, k23, n, k24, w, k25, c26, k26, L1, k27,
    sd1, k28, e, k29, pda, k30, L3, k31, ts, k32, k33⟩ := h
  have g0 : u = u0 := by rw [getAccountInfo_ok, hacc] at h0; simpa using h0.symm
  have g2 : pw = pw0 := by rw [getAccountInfo_ok, hacc] at h2; simpa using h2.symm
  subst g0 g2
  have hb := (cpiBurn_ok.1 k27).2.2
  have bt := splBurn_eff hb
  have hl : (L1 pw.key).lamports = (L pw.key).lamports := bt.frame.lamports _
  have ho : (L1 pw.key).owner = SYSTEM_PROGRAM_ID := by rw [bt.frame.owner]; exact r.pw_prog
  obtain ⟨M3, hM3⟩ := createPendingWithdrawSecure_prefund (v := v) hune
    (by rw [Ledger.setData_owner]; exact ho) (by rw [Ledger.setData_lamports, hl]; exact hv) k31
  rw [Except.ok.injEq, Prod.mk.injEq] at k33
  have eL := createPendingWithdrawSecure_eff hune (by rw [Ledger.setData_owner]; exact ho) k31
  have eM := createPendingWithdrawSecure_eff hune
    (by rw [Ledger.setLamports_owner, Ledger.setData_owner]; exact ho) hM3
  refine ⟨M3.setData pw.key (setPwTimestamp (setPwAmount (setPwUnstaker (setPwIndex
      (setPwBump (M3 pw.key).data b) i) u.key) w) ts), ⟨u, h0, st, h1, pw, h2, xa, h3, xm, h4, om, h5, vv, h6, sp, h7, tp, h8, c1, k1, c2, k2, c3, k3,
    c4, k4, c5, k5, c6, k6, c7, k7, tv, k8, c9, k9, c10, k10, b, k11, txa, k12, c13, k13, c14, k14, c15, k15, tm,
    k16, c17, k17, c18, k18, c19, k19, tom, k20, sd, k21, c22, k22, c23, k23, n, k24, w, k25, c26, k26,
    L1.setLamports pw.key v, cpiBurn_setLamports k27, sd1, ?_, e, k29, pda, k30, M3, ?_, ts, ?_, ?_⟩, ?_, ?_⟩
  · rw [assertState_setLamports]; exact k28
  · rw [Ledger.setData_setLamports]; exact hM3
  · rw [Ledger.setData_setLamports, Ledger.setLamports_data]; exact k32
  · rw [Ledger.setData_setLamports, Ledger.setLamports_data, Except.ok.injEq, Prod.mk.injEq]
    exact ⟨rfl, k33.2⟩
  · intro k
    rw [← k33.1]
    by_cases hk : k = pw.key
    · subst hk
      obtain ⟨l1, p1, _⟩ := eL.created
      obtain ⟨l2, p2, _⟩ := eM.created
      rw [Ledger.setData_same, Ledger.setData_same, p1, p2]
      exact ⟨rfl, rfl⟩
    · rw [Ledger.setData_other _ _ hk, Ledger.setData_other _ _ hk]
      by_cases hf : k = u.key
      · subst hf
        obtain ⟨l1, p1, _⟩ := eL.paid
        obtain ⟨l2, p2, _⟩ := eM.paid
        simp [p1, p2]
      · rw [eL.other k hf hk, eM.other k hf hk]
        simp
  · obtain ⟨l2, p2, q2⟩ := eM.created
    rw [Ledger.setData_lamports, p2, q2, Ledger.setLamports_same]

end Xorca
