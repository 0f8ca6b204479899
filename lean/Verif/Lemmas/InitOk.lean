import Verif.Lemmas.Inv
import Verif.Calls
/-
Initialize succeeds on a prepared chain; a vault created early blocks it.
-/
namespace Xorca
open Spec

theorem createStateBorsh_succeeds {x : Ctx} {c : Caller} {L : Ledger} {funder new : Pubkey} {s : State}
    (hs : s.serialize.length = 2048)
    (hne : funder ≠ new) (ho : (L new).owner = SYSTEM_PROGRAM_ID) (hd : (L new).data = [])
    (hsys : c.has SYSTEM_PROGRAM_ID = true)
    (hw : c.writes funder = true ∧ c.writes new = true ∧ c.signs funder = true ∧ c.signs new = true)
    (hf : (L funder).owner = SYSTEM_PROGRAM_ID) (hfd : (L funder).data = [])
    (hpay : (x.rentMin 2048).toNat ≤ (L funder).lamports.toNat + (L new).lamports.toNat) :
    ∃ L', createStateBorsh x c L funder new s = .ok L' := by
  obtain ⟨L1, h1⟩ := createAccountSecure_succeeds (owner := PROGRAM_ID) (space := STATE_LEN) hne
    program_ne_system (by decide) ho hd hsys hw hf hfd hpay
  have e := createAccountSecure_eff hne program_ne_system ho h1
  have hd : (L1 new).data = List.replicate 2048 0 := by
    obtain ⟨v, hv, _⟩ := e.created; rw [hv]; rfl
  unfold createStateBorsh
  simp only [bind_eq_ok, exists_unit, ensure_eq_ok, Except.ok.injEq]
  exact ⟨_, L1, h1, by rw [hd, hs, List.length_replicate], rfl⟩

theorem ataNeed (n : UInt64) : (if n = 0 then 1 else n).toNat = max 1 n.toNat := by
  split
  · next hz => rw [hz]; rfl
  · next hz =>
    have : n.toNat ≠ 0 := by intro h0; apply hz; rw [← UInt64.toNat_inj]; exact h0
    omega

theorem ataCreatePda_succeeds {x : Ctx} {L : Ledger} {funder ata : Pubkey}
    (hne : funder ≠ ata) (ho : (L ata).owner = SYSTEM_PROGRAM_ID) (hd : (L ata).data = [])
    (hf : (L funder).owner = SYSTEM_PROGRAM_ID) (hfd : (L funder).data = [])
    (hpay : max 1 (x.rentMin 165).toNat ≤ (L funder).lamports.toNat + (L ata).lamports.toNat) :
    ∃ L', ataCreatePda x L funder ata = .ok L' := by
  unfold ataCreatePda
  have hneed := ataNeed (x.rentMin TOKEN_ACCOUNT_LEN)
  change max 1 (x.rentMin TOKEN_ACCOUNT_LEN).toNat ≤ _ at hpay
  rw [← hneed] at hpay
  simp only
  generalize (if x.rentMin TOKEN_ACCOUNT_LEN = 0 then 1 else x.rentMin TOKEN_ACCOUNT_LEN) = need at hpay
  split
  · next h0 =>
    have hz : (L ata).lamports.toNat = 0 := by rw [h0]; rfl
    exact systemCreateAccount_succeeds hne token_ne_system (by decide) h0 hd ho hfd hf (by omega)
  · split
    · simp only [bind_eq_ok, Except.ok.injEq]
      exact ⟨_, L, rfl, _, systemAllocate_ok.2 ⟨⟨hd, ho⟩, by decide, rfl⟩,
        (systemAssign_ok (by simp [ho]) token_ne_system).2 rfl⟩
    · next hr =>
      have hs : (need - (L ata).lamports).toNat = need.toNat - (L ata).lamports.toNat := u64_sub_toNat (by omega)
      have hlt := need.toNat_lt
      obtain ⟨L1, hL1⟩ := systemTransfer_succeeds (L := L) (n := need - (L ata).lamports) hne hfd hf
        (by omega) (by rw [hs]; omega)
      obtain ⟨v, hv, _⟩ := (systemTransfer_eff hne hL1).credit
      simp only [bind_eq_ok]
      exact ⟨_, L1, hL1, _, systemAllocate_ok.2 ⟨by rw [hv]; exact ⟨hd, ho⟩, by decide, rfl⟩,
        (systemAssign_ok (by simp [hv, ho]) token_ne_system).2 rfl⟩

theorem cpiCreateAta_succeeds {x : Ctx} {c : Caller} {L : Ledger} {funder ata wallet mint : Pubkey} {b : UInt8}
    (hhas : c.has ASSOCIATED_TOKEN_PROGRAM_ID = true ∧ c.has SPL_TOKEN_PROGRAM_ID = true ∧
      c.has SYSTEM_PROGRAM_ID = true ∧ c.has wallet = true ∧ c.has mint = true)
    (hw : c.writes funder = true ∧ c.writes ata = true ∧ c.signs funder = true)
    (hfind : findProgramAddress x.cr (vaultSeedsRaw wallet SPL_TOKEN_PROGRAM_ID mint)
      ASSOCIATED_TOKEN_PROGRAM_ID = some (ata, b))
    (hne : funder ≠ ata) (ho : (L ata).owner = SYSTEM_PROGRAM_ID) (hd : (L ata).data = [])
    (hf : (L funder).owner = SYSTEM_PROGRAM_ID) (hfd : (L funder).data = [])
    (hm : MintUsable (L mint))
    (hpay : max 1 (x.rentMin 165).toNat ≤ (L funder).lamports.toNat + (L ata).lamports.toNat) :
    ∃ L', cpiCreateAtaIdempotent x c L funder ata wallet mint = .ok L' := by
  obtain ⟨L1, h1⟩ := ataCreatePda_succeeds (x := x) hne ho hd hf hfd hpay
  unfold cpiCreateAtaIdempotent
  rw [if_neg (by rw [ho]; exact token_ne_system.symm)]
  simp only [bind_eq_ok, exists_unit, ensure_eq_ok, okOr_eq_ok, Prod.exists, Except.ok.injEq]
  exact ⟨_, hhas, hw, ata, b, hfind, rfl, ho, hm.owner, _, hm.unpack, L1, h1, rfl⟩

theorem initialize_succeeds {x : Ctx} {L : Ledger} {accs : List Meta} {c : Int64}
    {p au st v xm om sp tp ap : Meta} {b vb : UInt8} (hc : InitCall accs p au st v xm om sp tp ap)
    (hsig : SignersOk x.cr L accs)
    (hst : StateAddr x.cr st.key b) (hv : VaultAddr x.cr st.key v.key vb) (hne : st.key ≠ v.key)
    (bst : Blank (L st.key)) (bv : Blank (L v.key)) (bp : Blank (L p.key))
    (fm : FreshMint L st.key) (fo : OrcaMint L) (hcool : 0 ≤ c.toInt)
    (hpay : ((x.rentMin 2048).toNat - (L st.key).lamports.toNat) +
      (max 1 (x.rentMin 165).toNat - (L v.key).lamports.toNat) ≤ (L p.key).lamports.toNat) :
    ∃ L' logs, processInitialize x L accs c = .ok (L', logs) := by
  obtain ⟨rest, rfl⟩ := hc.accs_eq
  have hs := hsig p (by simp) hc.signer
  have n1 : p.key ≠ st.key := fun h => hs.2.1 b (by rw [h]; exact hst)
  have n2 : p.key ≠ v.key := fun h => hs.2.2.1 st.key b vb hst (by rw [h]; exact hv)
  have hmu : MintUsable (L XORCA_MINT_ID) := ⟨fm.ok.prog, fm.ok.len, fm.ok.init, Or.inr fm.flag, Or.inl fm.freeze⟩
  have hou : MintUsable (L ORCA_MINT_ID) := ⟨fo.ok.prog, fo.ok.len, fo.ok.init, fo.flag, fo.freeze⟩
  have hdm : decodeTokenMint (L XORCA_MINT_ID).data = some (tokenMintAt (L XORCA_MINT_ID).data true) :=
    decodeTokenMint_ok.2 ⟨by rw [fm.ok.len], true, by rw [fm.ok.init]; rfl, rfl⟩
  have hdo : decodeTokenMint (L ORCA_MINT_ID).data = some (tokenMintAt (L ORCA_MINT_ID).data true) :=
    decodeTokenMint_ok.2 ⟨by rw [fo.ok.len], true, by rw [fo.ok.init]; rfl, rfl⟩
  obtain ⟨hk, hcv⟩ := findProgramAddress_some hst
  set accs := p :: au :: st :: v :: xm :: om :: sp :: tp :: ap :: rest with haccs
  obtain ⟨L1, hL1⟩ := createStateBorsh_succeeds (x := x) (c := ⟨accs, [st.key]⟩) (L := L) (funder := p.key)
    (new := st.key)
    (s := ⟨.State, List.replicate 5 0, b, vb, 0, c, au.key, List.replicate 1992 0⟩)
    (State.serialize_length List.length_replicate List.length_replicate) n1 bst.1 bst.2
    (by rw [← hc.sp_key]; exact Caller.has_of_mem (by simp [haccs]))
    ⟨Caller.writes_of_mem (by simp [haccs]) hc.p_w, Caller.writes_of_mem (by simp [haccs]) hc.st_w,
      Caller.signs_of_mem (by simp [haccs]) hc.signer, Caller.signs_of_pda (by simp)⟩ bp.1 bp.2 (by omega)
  have e := createStateBorsh_eff n1 bst.1
    (State.serialize_length List.length_replicate List.length_replicate) hL1
  obtain ⟨f, hf1, hf2⟩ := e.paid
  have ev : L1 v.key = L v.key := e.other _ n2.symm hne.symm
  have om_ne : ∀ k, Blank (L k) → ORCA_MINT_ID ≠ k := by
    rintro k hb rfl
    have := fo.ok.prog
    rw [hb.1] at this
    exact token_ne_system this.symm
  have eo : L1 ORCA_MINT_ID = L ORCA_MINT_ID := e.other _ (om_ne _ bp) (om_ne _ bst)
  obtain ⟨L2, hL2⟩ := cpiCreateAta_succeeds (x := x) (c := ⟨accs, []⟩) (L := L1) (funder := p.key) (ata := v.key)
    (wallet := st.key) (mint := ORCA_MINT_ID) (b := vb)
    ⟨by rw [← hc.ap_key]; exact Caller.has_of_mem (by simp [haccs]),
      by rw [← hc.tp_key]; exact Caller.has_of_mem (by simp [haccs]),
      by rw [← hc.sp_key]; exact Caller.has_of_mem (by simp [haccs]), Caller.has_of_mem (by simp [haccs]),
      by rw [← hc.om_key]; exact Caller.has_of_mem (by simp [haccs])⟩
    ⟨Caller.writes_of_mem (by simp [haccs]) hc.p_w, Caller.writes_of_mem (by simp [haccs]) hc.v_w,
      Caller.signs_of_mem (by simp [haccs]) hc.signer⟩ hv n2 (by rw [ev]; exact bv.1) (by rw [ev]; exact bv.2)
    (by rw [hf1]; exact bp.1) (by rw [hf1]; exact bp.2) (by rw [eo]; exact hou)
    (by rw [ev, hf1]; simp only; omega)
  unfold processInitialize
  simp only [bind_eq_ok, exists_unit, getAccountInfo_ok, assertAccountRole_SW, assertAccountRole_W,
    assertAccountAddress_ok, ensure_eq_ok, assertAccountOwner_ok, assertAccountSeeds_ok,
    assertTokenMintData_ok, okOr_eq_ok, Prod.exists,
    signerPda_ok, Except.ok.injEq, Prod.mk.injEq]
  refine ⟨L2, [], p, rfl, au, rfl, st, rfl, v, rfl, xm, rfl, om, rfl, sp, rfl, tp, rfl, ap, rfl, ⟨hc.signer, hc.p_w⟩,
    hc.deployer, hc.st_w, b, hst, by rw [bst.2]; simp, bst.1, by rw [hc.xm_key]; exact fm.ok.prog, _,
    by rw [hc.xm_key]; exact hdm, fm.auth.symm, ?_, hc.xm_key, fm.flag, fm.freeze, fm.freezeKey, fm.decimals,
    by rw [hc.om_key]; exact fo.ok.prog, _, by rw [hc.om_key]; exact hdo, hc.om_key, fo.decimals,
    ⟨hc.au_signer, hc.au_w⟩, hc.sp_key, hc.v_w, bv.1, hc.tp_key, hc.ap_key, v.key, vb,
    by rw [hc.om_key]; exact hv, vb, by rw [hc.om_key]; exact hv, by omega, _, ⟨rfl, hk ▸ hcv⟩, L1, ?_, L2, ?_, rfl, rfl⟩
  · rw [← UInt64.toNat_inj]; exact fm.supply
  · change st.key = deriveAddress x.cr stateSeedsRaw b PROGRAM_ID at hk
    rw [← hk]; exact hL1
  · rw [hc.om_key]; exact hL2

/-- A pool token account at the vault address blocks the program: no call ever succeeds. -/
theorem blocked {cr : Crypto} {L L' : Ledger} {h : List Entry} {st v : Pubkey} {b vb : UInt8}
    (i : Inv cr L) (hno : ∀ k, (L k).owner = PROGRAM_ID → AllZero (L k).data)
    (hst : StateAddr cr st b) (hv : VaultAddr cr st v vb) (ht : PoolToken cr (L v)) (hp : Path cr L h L') :
    (Inv cr L' ∧ (∀ k, (L' k).owner = PROGRAM_ID → AllZero (L' k).data) ∧ PoolToken cr (L' v)) ∧
    ∀ e ∈ h, e.label = .env := by
  have nopool : ∀ {M : Ledger}, (∀ k, (M k).owner = PROGRAM_ID → AllZero (M k).data) → ∀ {st v}, ¬ Pool cr M st v :=
    fun hz st v p => absurd (hz st p.prog) (not_allZero (o := 0) (by rw [p.acc.tag]; decide))
  induction hp with
  | nil => exact ⟨⟨i, hno, ht⟩, by simp⟩
  | @step h e hp ok ih =>
    obtain ⟨⟨i1, hno1, ht1⟩, hall⟩ := ih
    cases ok with
    | env s =>
      refine ⟨⟨(i1.env s).1, ?_, (s.vault ht1).1⟩, ?_⟩
      · intro k hk
        rcases s.given k hk with h1 | ⟨h1, h2⟩
        · exact h1
        · rw [h2]; exact hno1 k h1
      · intro f hf
        rcases List.mem_cons.1 hf with rfl | hf
        · rfl
        · exact hall f hf
    | @call x accs ix logs M M' hcr hrent hs hr =>
      exfalso
      subst hcr
      have hd := hr.dispatch
      cases ix with
      | Stake a =>
        obtain ⟨s, v, oa, xa, xm, st, om, tp, L1, m, r, e, q, _⟩ := Inv.stake hs i1 hd
        exact nopool hno1 q
      | Unstake a ix =>
        obtain ⟨u, st, pw, xa, xm, om, v, sp, tp, L1, L3, w, e, ts, b, r, f, q, _⟩ := Inv.unstake hrent hs i1 hd
        exact nopool hno1 q
      | Withdraw ix =>
        obtain ⟨u, st, pw, oa, v, om, sp, tp, L1, L2, e, r, f, q, _⟩ := Inv.withdraw hs i1 hd
        exact nopool hno1 q
      | Initialize c =>
        obtain ⟨p, au, st', v', xm, om, sp, tp, ap, L1, b', vb', r⟩ := processInitialize_run hd
        obtain ⟨e1, _⟩ := stateAddr_unique (k' := st'.key) (b' := b') hst r.st_find
        obtain ⟨e2, _⟩ := vaultAddr_unique (k' := v'.key) (b' := vb') hv (by rw [e1]; exact r.v_find)
        have h1 := r.v_sys
        rw [← e2] at h1
        exact token_ne_system (ht1.prog.symm.trans h1)
      | Set u =>
        obtain ⟨a, st, v, r, q, _⟩ := Inv.set i1 hd
        exact nopool hno1 q

end Xorca
