import Verif.Lemmas.System
import Verif.Lemmas.Arith
import Verif.Instr.Stake
/-
Inversion of a successful Stake.
-/
namespace Xorca
open Spec

theorem list8_of_getElem? {α : Type} {l : List α} {a b c d e f g h : α}
    (h0 : l[0]? = some a) (h1 : l[1]? = some b) (h2 : l[2]? = some c) (h3 : l[3]? = some d)
    (h4 : l[4]? = some e) (h5 : l[5]? = some f) (h6 : l[6]? = some g) (h7 : l[7]? = some h) :
    ∃ r, l = a :: b :: c :: d :: e :: f :: g :: h :: r := by
  match l, h0, h1, h2, h3, h4, h5, h6, h7 with
  | _ :: _ :: _ :: _ :: _ :: _ :: _ :: _ :: r, h0, h1, h2, h3, h4, h5, h6, h7 =>
    simp at h0 h1 h2 h3 h4 h5 h6 h7
    subst h0 h1 h2 h3 h4 h5 h6 h7
    exact ⟨r, rfl⟩

theorem list9_of_getElem? {α : Type} {l : List α} {a b c d e f g h i : α}
    (h0 : l[0]? = some a) (h1 : l[1]? = some b) (h2 : l[2]? = some c) (h3 : l[3]? = some d)
    (h4 : l[4]? = some e) (h5 : l[5]? = some f) (h6 : l[6]? = some g) (h7 : l[7]? = some h)
    (h8 : l[8]? = some i) :
    ∃ r, l = a :: b :: c :: d :: e :: f :: g :: h :: i :: r := by
  match l, h0, h1, h2, h3, h4, h5, h6, h7, h8 with
  | _ :: _ :: _ :: _ :: _ :: _ :: _ :: _ :: _ :: r, h0, h1, h2, h3, h4, h5, h6, h7, h8 =>
    simp at h0 h1 h2 h3 h4 h5 h6 h7 h8
    subst h0 h1 h2 h3 h4 h5 h6 h7 h8
    exact ⟨r, rfl⟩

/-- Decoded owner/mint/amount of a token account that passed the program's check. -/
theorem decoded_fields {d : Bytes} {t : TokenAccount} (h : decodeTokenAccount d = some t) :
    165 ≤ d.length ∧ t.owner = readKey d 32 ∧ t.mint = readKey d 0 ∧ t.amount = readU64 d 64 := by
  obtain ⟨h1, st, _, rfl⟩ := decodeTokenAccount_ok.1 h
  exact ⟨h1, rfl, rfl, rfl⟩

theorem decoded_mint_fields {d : Bytes} {t : TokenMint} (h : decodeTokenMint d = some t) :
    82 ≤ d.length ∧ t.supply = readU64 d 36 ∧ t.mintAuthorityFlag = readU32 d 0 ∧
      t.mintAuthority = readKey d 4 ∧ t.decimals = readU8 d 44 ∧ t.freezeAuthorityFlag = readU32 d 46 ∧
      t.freezeAuthority = readKey d 50 := by
  obtain ⟨h1, st, _, rfl⟩ := decodeTokenMint_ok.1 h
  exact ⟨h1, rfl, rfl, rfl, rfl, rfl, rfl⟩

/-- All checks passed by a successful Stake, and its two token calls. -/
structure StakeRun (x : Ctx) (L : Ledger) (accs : List Meta) (a : UInt64) (L' : Ledger) (logs : List Bytes)
    (s v oa xa xm st om tp : Meta) (L1 : Ledger) (m : UInt64) : Prop where
  accs_eq : ∃ rest, accs = s :: v :: oa :: xa :: xm :: st :: om :: tp :: rest
  signer : s.isSigner = true
  s_w : s.isWritable = true
  om_key : om.key = ORCA_MINT_ID
  xm_key : xm.key = XORCA_MINT_ID
  tp_key : tp.key = SPL_TOKEN_PROGRAM_ID
  oa_w : oa.isWritable = true
  oa_prog : (L oa.key).owner = SPL_TOKEN_PROGRAM_ID
  oa_len : 165 ≤ (L oa.key).data.length
  oa_owner : ownerOf L oa.key = s.key
  oa_mint : mintOf L oa.key = ORCA_MINT_ID
  funds : a.toNat ≤ balance L oa.key
  xa_w : xa.isWritable = true
  xa_prog : (L xa.key).owner = SPL_TOKEN_PROGRAM_ID
  xa_len : 165 ≤ (L xa.key).data.length
  xa_owner : ownerOf L xa.key = s.key
  xa_mint : mintOf L xa.key = XORCA_MINT_ID
  xm_w : xm.isWritable = true
  xm_prog : (L XORCA_MINT_ID).owner = SPL_TOKEN_PROGRAM_ID
  om_prog : (L ORCA_MINT_ID).owner = SPL_TOKEN_PROGRAM_ID
  st_prog : (L st.key).owner = PROGRAM_ID
  st_len : 2048 ≤ (L st.key).data.length
  st_disc : readU8 (L st.key).data 0 = 1
  st_addr : st.key = deriveAddress x.cr stateSeedsRaw (readU8 (L st.key).data 6) PROGRAM_ID
  st_pda : x.cr.onCurve st.key = false
  v_addr : v.key = deriveAddress x.cr (vaultSeedsRaw st.key SPL_TOKEN_PROGRAM_ID ORCA_MINT_ID)
    (readU8 (L st.key).data 7) ASSOCIATED_TOKEN_PROGRAM_ID
  v_w : v.isWritable = true
  v_prog : (L v.key).owner = SPL_TOKEN_PROGRAM_ID
  v_len : 165 ≤ (L v.key).data.length
  v_owner : ownerOf L v.key = st.key
  v_mint : mintOf L v.key = ORCA_MINT_ID
  solvent : escrow L st.key ≤ balance L v.key
  minted : m.toNat = mintFor a.toNat (backing L v.key st.key) (supply L XORCA_MINT_ID)
  minted_pos : m ≠ 0
  transfer : cpiTokenTransfer ⟨accs, []⟩ L oa.key v.key s.key a = .ok L1
  mint : cpiMintTo ⟨accs, [st.key]⟩ L1 xm.key xa.key st.key m = .ok L'
  log : logs = [(Event.Stake a (readU64 (L v.key).data 64 + a) (readU64 (L st.key).data 8)
    (readU64 (L XORCA_MINT_ID).data 36 + m) m).serialize]

theorem processStake_run {x : Ctx} {L : Ledger} {accs : List Meta} {a : UInt64} {L' : Ledger}
    {logs : List Bytes} (h : processStake x L accs a = .ok (L', logs)) :
    ∃ s v oa xa xm st om tp L1 m, StakeRun x L accs a L' logs s v oa xa xm st om tp L1 m := by
  unfold processStake at h
  simp only [bind_eq_ok, exists_unit, getAccountInfo_ok, assertAccountRole_SW, assertAccountRole_W,
    assertAccountAddress_ok, makeOwnerTokenAccountAssertions_ok, ensure_eq_ok, assertAccountOwner_ok,
    assertTokenMintData_ok, assertStateData_ok, verifyStateAddress_ok, verifyVaultAddress_ok, okOr_eq_ok,
    signerPda_ok, Except.ok.injEq, Prod.mk.injEq, true_implies] at h
  obtain ⟨s, h0, v, h1, oa, h2, xa, h3, xm, h4, st, h5, om, h6, tp, h7, ⟨hs, hsw⟩, ho, hx, ht,
    toa, ⟨oaw, oap, oad, oao, oam⟩, hfunds, txa, ⟨xaw, xap, xad, xao, xam⟩, xmw, xmp, tm, hm, omp, stp,
    sd, ⟨rfl, stl, std⟩, sta, va, tv, ⟨vw, vp, vd, vo, vm⟩, n, hn, m, hmint, hpos, L1, hL1, pda,
    ⟨rfl, hcurve⟩, L2, hL2, rfl, rfl⟩ := h
  obtain ⟨oal, e1, e2, e3⟩ := decoded_fields oad
  obtain ⟨xal, e4, e5, e6⟩ := decoded_fields xad
  obtain ⟨vl, e7, e8, e9⟩ := decoded_fields vd
  obtain ⟨ml, e10, _⟩ := decoded_mint_fields hm
  rw [checkedSubU64_eq_some] at hn
  change tv.amount.toNat = escrow L st.key + _ at hn
  rw [e9] at hn
  change balance L v.key = _ at hn
  change st.key = deriveAddress _ _ (readU8 (L st.key).data 6) _ at sta
  change x.cr.onCurve (deriveAddress _ _ (readU8 (L st.key).data 6) _) = false at hcurve
  have hL2' : cpiMintTo ⟨accs, [deriveAddress x.cr stateSeedsRaw (readU8 (L st.key).data 6) PROGRAM_ID]⟩ L1
    xm.key xa.key st.key m = .ok L2 := hL2
  rw [← sta] at hcurve hL2'
  refine ⟨s, v, oa, xa, xm, st, om, tp, L1, m, ?_⟩
  exact {
    accs_eq := list8_of_getElem? h0 h1 h2 h3 h4 h5 h6 h7
    signer := hs
    s_w := hsw
    om_key := ho
    xm_key := hx
    tp_key := ht
    oa_w := oaw
    oa_prog := oap
    oa_len := oal
    oa_owner := by rw [ownerOf, ← e1, oao]
    oa_mint := by rw [mintOf, ← e2, oam, ho]
    funds := by rw [balance, ← e3]; omega
    xa_w := xaw
    xa_prog := xap
    xa_len := xal
    xa_owner := by rw [ownerOf, ← e4, xao]
    xa_mint := by rw [mintOf, ← e5, xam, hx]
    xm_w := xmw
    xm_prog := by rw [← hx]; exact xmp
    om_prog := by rw [← ho]; exact omp
    st_prog := stp
    st_len := stl
    st_disc := std
    st_addr := sta
    st_pda := hcurve
    v_addr := by rw [ho] at va; exact va
    v_w := vw
    v_prog := vp
    v_len := vl
    v_owner := by rw [ownerOf, ← e7, vo]
    v_mint := by rw [mintOf, ← e8, vm, ho]
    solvent := by omega
    minted := by
      rw [convertOrcaToXorca_ok hmint, e10, backing, hn, Nat.add_sub_cancel_left, hx]; rfl
    minted_pos := hpos
    transfer := hL1
    mint := hL2'
    log := by rw [← hx, ← e10, ← e9]; rfl }

theorem not_allZero {d : Bytes} {o : Nat} (h : readU8 d o ≠ 0) : ¬ AllZero d := by
  intro hz
  apply h
  simp only [readU8, List.getD]
  cases hd : d[o]? with
  | none => rfl
  | some b => exact hz b (List.mem_of_getElem? hd)

/-- A signer is not an account in which the program stored a discriminator. -/
theorem signer_ne {cr : Crypto} {L : Ledger} {accs : List Meta} {m : Meta} {k : Pubkey}
    (h : SignersOk cr L accs) (hm : m ∈ accs) (hs : m.isSigner = true) (hk : (L k).owner = PROGRAM_ID)
    (hd : readU8 (L k).data 0 ≠ 0) : m.key ≠ k := by
  rintro rfl
  exact not_allZero hd ((h m hm hs).1 hk)

theorem orca_ne_xorca : ORCA_MINT_ID ≠ XORCA_MINT_ID := by decide

/-- Net effect of a successful Stake on the ledger. -/
structure StakeEff (L L' : Ledger) (a m : UInt64) (s v oa xa st : Pubkey) : Prop where
  transfer : ∃ L1, TransferEff L L1 oa v s a ∧ MintEff L1 L' XORCA_MINT_ID xa st m
  oa_ne_v : oa ≠ v
  oa_ne_xa : oa ≠ xa
  v_ne_xa : v ≠ xa
  oa_ne_xm : oa ≠ XORCA_MINT_ID
  v_ne_xm : v ≠ XORCA_MINT_ID
  xa_ne_xm : xa ≠ XORCA_MINT_ID
  st_ne : st ≠ oa ∧ st ≠ v ∧ st ≠ xa ∧ st ≠ XORCA_MINT_ID
  frame : DataFrame L L' [oa, v, xa, XORCA_MINT_ID]
  oa_data : ∃ w, AmountSet (L oa).data (L' oa).data w ∧ w.toNat + a.toNat = balance L oa
  v_data : ∃ w, (L' v).data = writeAt (L v).data 64 (u64le w) ∧ w.toNat = balance L v + a.toNat
  xa_data : ∃ w, (L' xa).data = writeAt (L xa).data 64 (u64le w) ∧ w.toNat = balance L xa + m.toNat
  xm_data : ∃ w, (L' XORCA_MINT_ID).data = writeAt (L XORCA_MINT_ID).data 36 (u64le w) ∧
    w.toNat = supply L XORCA_MINT_ID + m.toNat
  oa_ok : TokUsable (L oa)
  v_ok : TokUsable (L v)
  xa_ok : TokUsable (L xa)
  xm_ok : MintUsable (L XORCA_MINT_ID)
  xm_flag : readU32 (L XORCA_MINT_ID).data 0 = 1
  xm_auth : readKey (L XORCA_MINT_ID).data 4 = st

theorem StakeRun.eff {x : Ctx} {L : Ledger} {accs : List Meta} {a : UInt64} {L' : Ledger} {logs : List Bytes}
    {s v oa xa xm st om tp : Meta} {L1 : Ledger} {m : UInt64} (hsig : SignersOk x.cr L accs)
    (r : StakeRun x L accs a L' logs s v oa xa xm st om tp L1 m) :
    StakeEff L L' a m s.key v.key oa.key xa.key st.key := by
  have hsne : s.key ≠ st.key := by
    obtain ⟨rest, hr⟩ := r.accs_eq
    exact signer_ne hsig (by rw [hr]; simp) r.signer r.st_prog (by rw [r.st_disc]; decide)
  have hne : oa.key ≠ v.key := by
    intro e
    have h1 := r.oa_owner
    rw [e, r.v_owner] at h1
    exact hsne h1.symm
  have t := splTransfer_eff hne (cpiTokenTransfer_ok.1 r.transfer).2.2
  have mt := splMintTo_eff (cpiMintTo_ok.1 r.mint).2.2
  rw [r.xm_key] at mt
  have n1 : oa.key ≠ xa.key := by
    intro e
    have := r.oa_mint
    rw [e, r.xa_mint] at this
    exact orca_ne_xorca this.symm
  have n2 : v.key ≠ xa.key := by
    intro e
    have := r.v_mint
    rw [e, r.xa_mint] at this
    exact orca_ne_xorca this.symm
  have n3 : oa.key ≠ XORCA_MINT_ID := by
    intro e
    have l1 := t.src_ok.len
    have l2 := mt.mint_ok.len
    obtain ⟨w, hw, _⟩ := t.debit
    rw [← e, hw.len] at l2; omega
  have n4 : v.key ≠ XORCA_MINT_ID := by
    intro e
    have l1 := t.dst_ok.len
    have l2 := mt.mint_ok.len
    obtain ⟨w, hw, _⟩ := t.credit
    rw [← e, hw, writeAt_length (by rw [l1]; simp), l1] at l2; omega
  have hxm : L1 XORCA_MINT_ID = L XORCA_MINT_ID := t.frame.other _ (by simp [n3.symm, n4.symm])
  have hxa : L1 xa.key = L xa.key := t.frame.other _ (by simp [n1.symm, n2.symm])
  have k1 : (L oa.key).owner ≠ PROGRAM_ID := by rw [r.oa_prog]; exact token_ne_program
  have k2 : (L v.key).owner ≠ PROGRAM_ID := by rw [r.v_prog]; exact token_ne_program
  have k3 : (L xa.key).owner ≠ PROGRAM_ID := by rw [r.xa_prog]; exact token_ne_program
  have k4 : (L XORCA_MINT_ID).owner ≠ PROGRAM_ID := by rw [r.xm_prog]; exact token_ne_program
  have kst := r.st_prog
  have ho2 : L' oa.key = L1 oa.key := mt.frame.other _ (by simp [n3, n1])
  have hv2 : L' v.key = L1 v.key := mt.frame.other _ (by simp [n4, n2])
  exact {
    transfer := ⟨L1, t, mt⟩
    oa_ne_v := hne
    oa_ne_xa := n1
    v_ne_xa := n2
    oa_ne_xm := n3
    v_ne_xm := n4
    xa_ne_xm := mt.ne.symm
    st_ne := ⟨fun e => k1 (e ▸ kst), fun e => k2 (e ▸ kst), fun e => k3 (e ▸ kst), fun e => k4 (e ▸ kst)⟩
    frame := (t.frame.trans mt.frame).mono (by intro k; simp; tauto)
    oa_data := by rw [ho2]; exact t.debit
    v_data := by rw [hv2]; exact t.credit
    xa_data := by have := mt.credit; rw [hxa] at this; exact this
    xm_data := by have := mt.supply; rw [hxm] at this; exact this
    oa_ok := t.src_ok
    v_ok := t.dst_ok
    xa_ok := hxa ▸ mt.dst_ok
    xm_ok := hxm ▸ mt.mint_ok
    xm_flag := hxm ▸ mt.aflag
    xm_auth := hxm ▸ mt.authKey }

end Xorca
