import Verif.Lemmas.Stake
import Verif.Lemmas.Serial
import Verif.Instr.Initialize
/-
Inversion of a successful Initialize.
-/
namespace Xorca
open Spec

/-- The bytes of a new state account. -/
def initialStateBytes (bump vaultBump : UInt8) (coolDown : Int64) (auth : Pubkey) : Bytes :=
  (State.mk .State (List.replicate 5 0) bump vaultBump 0 coolDown auth (List.replicate 1992 0)).serialize

theorem initialStateBytes_length (b vb : UInt8) (c : Int64) (a : Pubkey) :
    (initialStateBytes b vb c a).length = 2048 :=
  State.serialize_length List.length_replicate List.length_replicate

theorem initialStateBytes_fields (b vb : UInt8) (c : Int64) (a : Pubkey) :
    readU8 (initialStateBytes b vb c a) 0 = 1 ∧ readU8 (initialStateBytes b vb c a) 6 = b ∧
    readU8 (initialStateBytes b vb c a) 7 = vb ∧ readU64 (initialStateBytes b vb c a) 8 = 0 ∧
    readI64 (initialStateBytes b vb c a) 16 = c ∧ readKey (initialStateBytes b vb c a) 24 = a := by
  obtain ⟨h1, _, h3, h4, h5, h6, h7, _⟩ := State.serialize_fields
    (p := ⟨.State, List.replicate 5 0, b, vb, 0, c, a, List.replicate 1992 0⟩) List.length_replicate
  exact ⟨h1, h3, h4, h5, h6, h7⟩

/-- All checks passed by a successful Initialize, and its calls. -/
structure InitRun (x : Ctx) (L : Ledger) (accs : List Meta) (c : Int64) (L' : Ledger)
    (logs : List Bytes) (p au st v xm om sp tp ap : Meta) (L1 : Ledger) (b vb : UInt8) : Prop where
  accs_eq : ∃ rest, accs = p :: au :: st :: v :: xm :: om :: sp :: tp :: ap :: rest
  signer : p.isSigner = true
  p_w : p.isWritable = true
  deployer : p.key = DEPLOYER_ADDRESS
  st_w : st.isWritable = true
  st_find : findProgramAddress x.cr stateSeedsRaw PROGRAM_ID = some (st.key, b)
  st_empty : (L st.key).data = []
  st_sys : (L st.key).owner = SYSTEM_PROGRAM_ID
  xm_key : xm.key = XORCA_MINT_ID
  xm_prog : (L XORCA_MINT_ID).owner = SPL_TOKEN_PROGRAM_ID
  xm_len : 82 ≤ (L XORCA_MINT_ID).data.length
  xm_auth : readKey (L XORCA_MINT_ID).data 4 = st.key
  xm_flag : readU32 (L XORCA_MINT_ID).data 0 = 1
  xm_supply : supply L XORCA_MINT_ID = 0
  xm_freeze : readU32 (L XORCA_MINT_ID).data 46 = 0
  xm_freezeKey : readKey (L XORCA_MINT_ID).data 50 = DEFAULT_PUBKEY
  xm_decimals : readU8 (L XORCA_MINT_ID).data 44 = 6
  om_key : om.key = ORCA_MINT_ID
  om_prog : (L ORCA_MINT_ID).owner = SPL_TOKEN_PROGRAM_ID
  om_len : 82 ≤ (L ORCA_MINT_ID).data.length
  om_decimals : readU8 (L ORCA_MINT_ID).data 44 = 6
  au_signer : au.isSigner = true
  au_w : au.isWritable = true
  sp_key : sp.key = SYSTEM_PROGRAM_ID
  v_w : v.isWritable = true
  v_sys : (L v.key).owner = SYSTEM_PROGRAM_ID
  tp_key : tp.key = SPL_TOKEN_PROGRAM_ID
  ap_key : ap.key = ASSOCIATED_TOKEN_PROGRAM_ID
  v_find : findProgramAddress x.cr (vaultSeedsRaw st.key SPL_TOKEN_PROGRAM_ID ORCA_MINT_ID)
    ASSOCIATED_TOKEN_PROGRAM_ID = some (v.key, vb)
  cool : 0 ≤ c.toInt
  create : createStateBorsh x ⟨accs, [st.key]⟩ L p.key st.key
    ⟨.State, List.replicate 5 0, b, vb, 0, c, au.key, List.replicate 1992 0⟩ = .ok L1
  ata : cpiCreateAtaIdempotent x ⟨accs, []⟩ L1 p.key v.key st.key ORCA_MINT_ID = .ok L'
  log : logs = []

theorem processInitialize_run {x : Ctx} {L : Ledger} {accs : List Meta} {c : Int64} {L' : Ledger}
    {logs : List Bytes} (h : processInitialize x L accs c = .ok (L', logs)) :
    ∃ p au st v xm om sp tp ap L1 b vb,
      InitRun x L accs c L' logs p au st v xm om sp tp ap L1 b vb := by
  unfold processInitialize at h
  simp only [bind_eq_ok, exists_unit, getAccountInfo_ok, assertAccountRole_SW, assertAccountRole_W,
    assertAccountAddress_ok, ensure_eq_ok, assertAccountOwner_ok, assertAccountSeeds_ok,
    assertTokenMintData_ok, okOr_eq_ok, Prod.exists,
    signerPda_ok, Except.ok.injEq, Prod.mk.injEq] at h
  obtain ⟨p, h0, au, h1, st, h2, v, h3, xm, h4, om, h5, sp, h6, tp, h7, ap, h8, ⟨hs, hsw⟩, hdep, stw, b, hb,
    hemp, stsys, xmp, tm, hm, hauth, hsup, hx, hflag, hfz, hfzk, hdec, omp, tom, hom, ho, hdec2,
    ⟨aus, auw⟩, hsp, vw, vsys, htp, hap, vk, vb, hvb, vb2, hvb2, hc, pda, ⟨rfl, hcurve⟩, L1, hL1, L2, hL2,
    rfl, rfl⟩ := h
  obtain ⟨ml, e10, e11, e12, e13, e14, e15⟩ := decoded_mint_fields hm
  obtain ⟨ml2, _, _, _, e16, _⟩ := decoded_mint_fields hom
  rw [hx] at ml e10 e11 e12 e13 e14 e15 xmp
  rw [ho] at ml2 e16 omp hvb hvb2 hL2
  rw [hvb2, Option.some.injEq, Prod.mk.injEq] at hvb
  obtain ⟨rfl, rfl⟩ := hvb
  have hpk := (findProgramAddress_some hb).1
  rw [← hpk] at hL1
  refine ⟨p, au, st, v, xm, om, sp, tp, ap, L1, b, vb2, ?_⟩
  exact {
    accs_eq := list9_of_getElem? h0 h1 h2 h3 h4 h5 h6 h7 h8
    signer := hs
    p_w := hsw
    deployer := hdep
    st_w := stw
    st_find := hb
    st_empty := by
      cases hd : (L st.key).data with
      | nil => rfl
      | cons y ys => rw [hd] at hemp; simp at hemp
    st_sys := stsys
    xm_key := hx
    xm_prog := xmp
    xm_len := ml
    xm_auth := by rw [← e12, ← hauth]
    xm_flag := by rw [← e11]; exact hflag
    xm_supply := by rw [supply, ← e10, hsup]; rfl
    xm_freeze := by rw [← e14]; exact hfz
    xm_freezeKey := by rw [← e15]; exact hfzk
    xm_decimals := by rw [← e13]; exact hdec
    om_key := ho
    om_prog := omp
    om_len := ml2
    om_decimals := by rw [← e16]; exact hdec2
    au_signer := aus
    au_w := auw
    sp_key := hsp
    v_w := vw
    v_sys := vsys
    tp_key := htp
    ap_key := hap
    v_find := hvb2
    cool := by omega
    create := hL1
    ata := hL2
    log := rfl }

/-- Net effect of a successful Initialize on the ledger. -/
structure InitEff (x : Ctx) (L L' : Ledger) (c : Int64) (p au st v : Pubkey) (b vb : UInt8) : Prop where
  p_ne : p ≠ st ∧ p ≠ v
  st_ne_v : st ≠ v
  st_fresh : L st = ⟨(L st).lamports, SYSTEM_PROGRAM_ID, []⟩
  st_new : ∃ l, L' st = ⟨l, PROGRAM_ID, initialStateBytes b vb c au⟩ ∧
    l.toNat = max (x.rentMin 2048).toNat (L st).lamports.toNat
  v_fresh : L v = ⟨(L v).lamports, SYSTEM_PROGRAM_ID, []⟩
  v_new : ∃ l, L' v = ⟨l, SPL_TOKEN_PROGRAM_ID, freshTokenAccountData ORCA_MINT_ID st⟩ ∧
    l.toNat = max (max 1 (x.rentMin 165).toNat) (L v).lamports.toNat
  paid : ∃ l, L' p = { L p with lamports := l } ∧
    l.toNat + ((x.rentMin 2048).toNat - (L st).lamports.toNat) +
      (max 1 (x.rentMin 165).toNat - (L v).lamports.toNat) = (L p).lamports.toNat
  payer : (L p).owner = SYSTEM_PROGRAM_ID ∨ L' p = L p
  other : ∀ k, k ∉ [p, st, v] → L' k = L k

theorem InitRun.eff {x : Ctx} {L : Ledger} {accs : List Meta} {c : Int64} {L' : Ledger}
    {logs : List Bytes} {p au st v xm om sp tp ap : Meta} {L1 : Ledger} {b vb : UInt8}
    (hsig : SignersOk x.cr L accs)
    (r : InitRun x L accs c L' logs p au st v xm om sp tp ap L1 b vb) :
    InitEff x L L' c p.key au.key st.key v.key b vb := by
  obtain ⟨rest, hr⟩ := r.accs_eq
  have hs := hsig p (by rw [hr]; simp) r.signer
  have n1 : p.key ≠ st.key := fun h => hs.2.1 b (by rw [h]; exact r.st_find)
  have n2 : p.key ≠ v.key := fun h => hs.2.2.1 st.key b vb r.st_find (by rw [h]; exact r.v_find)
  have c1 := createStateBorsh_eff n1 r.st_sys
    (State.serialize_length List.length_replicate List.length_replicate) r.create
  obtain ⟨l, hl, hl2⟩ := c1.created
  obtain ⟨f, hf1, hf2⟩ := c1.paid
  -- the vault differs from the state: otherwise the associated-token call would fail
  have n3 : st.key ≠ v.key := by
    intro h
    have ha := r.ata
    unfold cpiCreateAtaIdempotent at ha
    simp only [bind_eq_ok, exists_unit, ensure_eq_ok, okOr_eq_ok, Prod.exists] at ha
    obtain ⟨_, _, addr, b', _, _, ha⟩ := ha
    rw [← h, hl] at ha
    rw [if_neg token_ne_program.symm] at ha
    simp only [bind_eq_ok, exists_unit, ensure_eq_ok] at ha
    exact program_ne_system ha.1
  have hv1 : L1 v.key = L v.key := c1.other _ n2.symm n3.symm
  obtain ⟨c2, _, _⟩ := cpiCreateAtaIdempotent_eff n2 (by rw [hv1]; exact r.v_sys) r.ata
  obtain ⟨m, hm, hm2⟩ := c2.created
  obtain ⟨g, hg1, hg2⟩ := c2.paid
  have hvf := c2.fresh
  rw [hv1] at hm2 hg2 hvf
  rw [hf1] at hg1 hg2
  exact {
    p_ne := ⟨n1, n2⟩
    st_ne_v := n3
    st_fresh := account_ext (b := ⟨_, _, _⟩) rfl r.st_sys r.st_empty
    st_new := ⟨l, by rw [c2.other _ n1.symm n3, hl]; rfl, hl2⟩
    v_fresh := account_ext (b := ⟨_, _, _⟩) rfl r.v_sys hvf
    v_new := ⟨m, hm, hm2⟩
    paid := ⟨g, hg1, by simp only at hg2; omega⟩
    payer := by
      rcases c1.payer with h1 | h1
      · exact Or.inl h1
      rcases c2.payer with h2 | h2
      · left; rw [hf1] at h2; exact h2
      · right
        rw [hv1] at h2
        rw [hg1]
        simp only at hg2
        exact account_ext (UInt64.toNat_inj.1 (by simp only; omega)) rfl rfl
    other := by
      intro k hk
      simp only [List.mem_cons, List.not_mem_nil, or_false, not_or] at hk
      rw [c2.other k hk.1 hk.2.2, c1.other k hk.1 hk.2.1] }

end Xorca
