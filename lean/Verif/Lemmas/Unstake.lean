import Verif.Lemmas.Stake
import Verif.Lemmas.Serial
import Verif.Instr.Unstake
/-
Inversion of a successful Unstake.
-/
namespace Xorca
open Spec

/-- A successful redeem conversion did not overflow. -/
theorem convertXorcaToOrca_fits {x n s c : UInt64} (h : convertXorcaToOrca x n s = .ok c) :
    x.toNat * (n.toNat + 100) < 2 ^ 128 := by
  rw [convertXorcaToOrca_eq] at h
  split at h
  · cases h
  · split at h
    · cases h
    · omega

/-- All checks passed by a successful Unstake, and its calls. -/
structure UnstakeRun (x : Ctx) (L : Ledger) (accs : List Meta) (a : UInt64) (i : UInt8) (L' : Ledger)
    (logs : List Bytes) (u st pw xa xm om v sp tp : Meta) (L1 L3 : Ledger) (w e : UInt64) (ts : Int64)
    (b : UInt8) : Prop where
  accs_eq : ∃ rest, accs = u :: st :: pw :: xa :: xm :: om :: v :: sp :: tp :: rest
  signer : u.isSigner = true
  u_w : u.isWritable = true
  xm_key : xm.key = XORCA_MINT_ID
  om_key : om.key = ORCA_MINT_ID
  tp_key : tp.key = SPL_TOKEN_PROGRAM_ID
  sp_key : sp.key = SYSTEM_PROGRAM_ID
  st_w : st.isWritable = true
  st_prog : (L st.key).owner = PROGRAM_ID
  v_prog : (L v.key).owner = SPL_TOKEN_PROGRAM_ID
  v_len : 165 ≤ (L v.key).data.length
  v_owner : ownerOf L v.key = st.key
  v_mint : mintOf L v.key = ORCA_MINT_ID
  pw_w : pw.isWritable = true
  pw_prog : (L pw.key).owner = SYSTEM_PROGRAM_ID
  pw_find : findProgramAddress x.cr (pendingWithdrawSeedsRaw u.key [i]) PROGRAM_ID = some (pw.key, b)
  xa_w : xa.isWritable = true
  xa_prog : (L xa.key).owner = SPL_TOKEN_PROGRAM_ID
  xa_len : 165 ≤ (L xa.key).data.length
  xa_owner : ownerOf L xa.key = u.key
  xa_mint : mintOf L xa.key = XORCA_MINT_ID
  funds : a.toNat ≤ balance L xa.key
  xm_w : xm.isWritable = true
  xm_prog : (L XORCA_MINT_ID).owner = SPL_TOKEN_PROGRAM_ID
  xm_flag : readU32 (L XORCA_MINT_ID).data 0 ≠ 0
  xm_auth : readKey (L XORCA_MINT_ID).data 4 = st.key
  xm_freeze : readU32 (L XORCA_MINT_ID).data 46 = 0
  om_prog : (L ORCA_MINT_ID).owner = SPL_TOKEN_PROGRAM_ID
  om_len : 82 ≤ (L ORCA_MINT_ID).data.length
  st_len : 2048 ≤ (L st.key).data.length
  st_disc : readU8 (L st.key).data 0 = 1
  st_addr : st.key = deriveAddress x.cr stateSeedsRaw (readU8 (L st.key).data 6) PROGRAM_ID
  v_addr : v.key = deriveAddress x.cr (vaultSeedsRaw st.key SPL_TOKEN_PROGRAM_ID ORCA_MINT_ID)
    (readU8 (L st.key).data 7) ASSOCIATED_TOKEN_PROGRAM_ID
  solvent : escrow L st.key ≤ balance L v.key
  supply_pos : supply L XORCA_MINT_ID ≠ 0
  backing_pos : backing L v.key st.key ≠ 0
  amount : w.toNat = redeemFor a.toNat (backing L v.key st.key) (supply L XORCA_MINT_ID)
  fits : a.toNat * (backing L v.key st.key + 100) < 2 ^ 128
  amount_pos : w ≠ 0
  burn : cpiBurn ⟨accs, []⟩ L xa.key xm.key u.key a = .ok L1
  new_escrow : e.toNat = escrow L1 st.key + w.toNat
  st1_len : 2048 ≤ (L1 st.key).data.length
  create : createPendingWithdrawSecure x ⟨accs, [pw.key]⟩
    (L1.setData st.key (setStEscrow (L1 st.key).data e)) u.key pw.key = .ok L3
  maturity : ts.toInt = x.now.toInt + (stCoolDown (setStEscrow (L1 st.key).data e)).toInt
  result : L' = L3.setData pw.key (setPwTimestamp (setPwAmount (setPwUnstaker (setPwIndex
    (setPwBump (L3 pw.key).data b) i) u.key) w) ts)
  log : logs = [(Event.Unstake a (readU64 (L v.key).data 64) e (readU64 (L XORCA_MINT_ID).data 36 - a) w
    (stCoolDown (setStEscrow (L1 st.key).data e)) i).serialize]

theorem processUnstake_run {x : Ctx} {L : Ledger} {accs : List Meta} {a : UInt64} {i : UInt8} {L' : Ledger}
    {logs : List Bytes} (h : processUnstake x L accs a i = .ok (L', logs)) :
    ∃ u st pw xa xm om v sp tp L1 L3 w e ts b,
      UnstakeRun x L accs a i L' logs u st pw xa xm om v sp tp L1 L3 w e ts b := by
  unfold processUnstake at h
  simp only [bind_eq_ok, exists_unit, getAccountInfo_ok, assertAccountRole_SW, assertAccountRole_W,
    assertAccountAddress_ok, makeOwnerTokenAccountAssertions_ok, ensure_eq_ok, assertAccountOwner_ok,
    assertAccountSeeds_ok,
    assertTokenMintData_ok, assertStateData_ok, verifyStateAddress_ok, verifyVaultAddress_ok, okOr_eq_ok,
    signerPda_ok, Except.ok.injEq, Prod.mk.injEq, true_implies] at h
  obtain ⟨u, h0, st, h1, pw, h2, xa, h3, xm, h4, om, h5, v, h6, sp, h7, tp, h8, ⟨hs, hsw⟩, hx, ho, ht, hsp,
    stw, stp, tv, ⟨_, vp, vd, vo, vm⟩, pww, pwp, b, hb, txa, ⟨xaw, xap, xad, xao, xam⟩, hfunds, xmp, xmw,
    tm, hm, hauth, hfreeze, omp, tom, hom, sd, ⟨rfl, stl, std⟩, sta, va, n, hn, w, hw, hpos, L1, hL1,
    sd1, ⟨rfl, st1l, _⟩, e, he, pda, ⟨rfl, hcurve⟩, L3, hL3, ts, hts, rfl, rfl⟩ := h
  obtain ⟨vl, e7, e8, e9⟩ := decoded_fields vd
  obtain ⟨xal, e4, e5, e6⟩ := decoded_fields xad
  obtain ⟨ml, e10, e11, e12, e13, e14, e15⟩ := decoded_mint_fields hm
  obtain ⟨hs0, hn0, hw1⟩ := convertXorcaToOrca_ok hw
  have hfits := convertXorcaToOrca_fits hw
  rw [checkedSubU64_eq_some] at hn
  change tv.amount.toNat = escrow L st.key + _ at hn
  rw [e9] at hn
  change balance L v.key = _ at hn
  change st.key = deriveAddress _ _ (readU8 (L st.key).data 6) _ at sta
  have hpk := (findProgramAddress_some hb).1
  rw [← hpk] at hL3 hcurve
  rw [checkedAddU64_eq_some] at he
  rw [checkedAddI64_eq_some] at hts
  rw [hx] at e10 e11 e12 e13 e14 e15 xmp
  have hback : backing L v.key st.key = n.toNat := by rw [backing, hn, Nat.add_sub_cancel_left]
  refine ⟨u, st, pw, xa, xm, om, v, sp, tp, L1, L3, w, e, ts, b, ?_⟩
  exact {
    accs_eq := list9_of_getElem? h0 h1 h2 h3 h4 h5 h6 h7 h8
    signer := hs
    u_w := hsw
    xm_key := hx
    om_key := ho
    tp_key := ht
    sp_key := hsp
    st_w := stw
    st_prog := stp
    v_prog := vp
    v_len := vl
    v_owner := by rw [ownerOf, ← e7, vo]
    v_mint := by rw [mintOf, ← e8, vm, ho]
    pw_w := pww
    pw_prog := pwp
    pw_find := hb
    xa_w := xaw
    xa_prog := xap
    xa_len := xal
    xa_owner := by rw [ownerOf, ← e4, xao]
    xa_mint := by rw [mintOf, ← e5, xam, hx]
    funds := by rw [balance, ← e6]; omega
    xm_w := xmw
    xm_prog := xmp
    xm_flag := by rw [← e11]; intro hc; exact hauth (Or.inl hc)
    xm_auth := by rw [← e12]; by_contra hc; exact hauth (Or.inr hc)
    xm_freeze := by rw [← e14]; by_contra hc; exact hfreeze hc
    om_prog := by rw [← ho]; exact omp
    om_len := by rw [← ho]; exact (decoded_mint_fields hom).1
    st_len := stl
    st_disc := std
    st_addr := sta
    v_addr := by rw [ho] at va; exact va
    solvent := by omega
    supply_pos := by rw [e10] at hs0; exact hs0
    backing_pos := by rw [hback]; exact hn0
    amount := by rw [hw1, e10, hback]; rfl
    fits := by rw [hback]; exact hfits
    amount_pos := hpos
    burn := hL1
    new_escrow := he
    st1_len := st1l
    create := hL3
    maturity := by simpa using hts
    result := rfl
    log := by rw [← e10, ← e9]; simp }

/-! ### The record bytes -/

/-- The bytes of a new record. -/
def recordBytes (b i : UInt8) (u : Pubkey) (w : UInt64) (ts : Int64) : Bytes :=
  (PendingWithdraw.mk .PendingWithdraw (List.replicate 5 0) b i u w ts (List.replicate 968 0)).serialize

theorem recordBytes_eq (b i : UInt8) (u : Pubkey) (w : UInt64) (ts : Int64) :
    setPwTimestamp (setPwAmount (setPwUnstaker (setPwIndex
      (setPwBump (2 :: List.replicate 1023 0) b) i) u) w) ts = recordBytes b i u w ts := by
  have h0 : (2 :: List.replicate 1023 0 : Bytes) = [2] ++ List.replicate 5 0 ++ ([0] : Bytes) ++
    [0] ++ List.replicate 32 0 ++ List.replicate 8 0 ++ List.replicate 8 0 ++ List.replicate 968 0 := by
    decide +kernel
  rw [h0, record_writes List.length_replicate List.length_replicate List.length_replicate
    List.length_replicate]
  rfl

theorem recordBytes_length (b i : UInt8) (u : Pubkey) (w : UInt64) (ts : Int64) :
    (recordBytes b i u w ts).length = 1024 :=
  PendingWithdraw.serialize_length List.length_replicate List.length_replicate

theorem recordBytes_fields (b i : UInt8) (u : Pubkey) (w : UInt64) (ts : Int64) :
    readU8 (recordBytes b i u w ts) 0 = 2 ∧ readU8 (recordBytes b i u w ts) 6 = b ∧
    readU8 (recordBytes b i u w ts) 7 = i ∧ readKey (recordBytes b i u w ts) 8 = u ∧
    readU64 (recordBytes b i u w ts) 40 = w ∧ readI64 (recordBytes b i u w ts) 48 = ts := by
  obtain ⟨h1, _, h3, h4, h5, h6, h7, _⟩ := PendingWithdraw.serialize_fields
    (p := ⟨.PendingWithdraw, List.replicate 5 0, b, i, u, w, ts, List.replicate 968 0⟩) List.length_replicate
  exact ⟨h1, h3, h4, h5, h6, h7⟩

/-! ### Net effect -/

/-- Net effect of a successful Unstake on the ledger. -/
structure UnstakeEff (x : Ctx) (L L' : Ledger) (a w e : UInt64) (i b : UInt8) (ts : Int64)
    (u st pw xa v : Pubkey) : Prop where
  burn : ∃ L1, BurnEff L L1 xa XORCA_MINT_ID u a
  xa_ne_xm : xa ≠ XORCA_MINT_ID
  st_ne : st ≠ pw ∧ st ≠ xa ∧ st ≠ XORCA_MINT_ID ∧ st ≠ v
  pw_ne : pw ≠ u ∧ pw ≠ xa ∧ pw ≠ XORCA_MINT_ID ∧ pw ≠ v
  v_ne : v ≠ xa ∧ v ≠ XORCA_MINT_ID
  owner : ∀ k, k ≠ pw → (L' k).owner = (L k).owner
  data : ∀ k, k ∉ [pw, xa, XORCA_MINT_ID, st] → (L' k).data = (L k).data
  lamports : ∀ k, k ∉ [pw, u] → (L' k).lamports = (L k).lamports
  st_data : (L' st).data = writeAt (L st).data 8 (u64le e)
  escrow : e.toNat = Spec.escrow L st + w.toNat
  xa_data : ∃ r, AmountSet (L xa).data (L' xa).data r ∧ r.toNat + a.toNat = balance L xa
  xm_data : ∃ r, (L' XORCA_MINT_ID).data = writeAt (L XORCA_MINT_ID).data 36 (u64le r) ∧
    r.toNat + a.toNat = supply L XORCA_MINT_ID
  pw_fresh : L pw = ⟨(L pw).lamports, SYSTEM_PROGRAM_ID, []⟩
  pw_new : ∃ l, L' pw = ⟨l, PROGRAM_ID, recordBytes b i u w ts⟩ ∧
    l.toNat = max (x.rentMin 1024).toNat (L pw).lamports.toNat
  paid : (L' u).lamports.toNat + ((x.rentMin 1024).toNat - (L pw).lamports.toNat) = (L u).lamports.toNat
  payer : (L u).owner = SYSTEM_PROGRAM_ID ∨ (x.rentMin 1024).toNat ≤ (L pw).lamports.toNat
  maturity : ts.toInt = x.now.toInt + coolDown L st
  xa_ok : TokUsable (L xa)
  xm_ok : MintUsable (L XORCA_MINT_ID)

theorem UnstakeRun.eff {x : Ctx} {L : Ledger} {accs : List Meta} {a : UInt64} {i : UInt8} {L' : Ledger}
    {logs : List Bytes} {u st pw xa xm om v sp tp : Meta} {L1 L3 : Ledger} {w e : UInt64} {ts : Int64}
    {b : UInt8} (hsig : SignersOk x.cr L accs)
    (r : UnstakeRun x L accs a i L' logs u st pw xa xm om v sp tp L1 L3 w e ts b) :
    UnstakeEff x L L' a w e i b ts u.key st.key pw.key xa.key v.key ∧
    logs = [(Event.Unstake a (readU64 (L v.key).data 64) e (readU64 (L XORCA_MINT_ID).data 36 - a) w
      (readI64 (L st.key).data 16) i).serialize] := by
  have hune : u.key ≠ pw.key := by
    intro h
    obtain ⟨rest, hr⟩ := r.accs_eq
    have hf := r.pw_find
    rw [← h] at hf
    exact (hsig u (by rw [hr]; simp) r.signer).2.2.2 i b hf
  have bt := splBurn_eff (cpiBurn_ok.1 r.burn).2.2
  rw [r.xm_key] at bt
  have kst := r.st_prog
  have kpw := r.pw_prog
  have o1 : st.key ≠ xa.key := fun h => token_ne_program (by rw [← r.xa_prog, ← h, kst])
  have o2 : st.key ≠ XORCA_MINT_ID := fun h => token_ne_program (by rw [← r.xm_prog, ← h, kst])
  have o3 : st.key ≠ v.key := fun h => token_ne_program (by rw [← r.v_prog, ← h, kst])
  have o4 : st.key ≠ pw.key := fun h => program_ne_system (by rw [← kst, h, kpw])
  have p1 : pw.key ≠ xa.key := fun h => token_ne_system (by rw [← r.xa_prog, ← h, kpw])
  have p2 : pw.key ≠ XORCA_MINT_ID := fun h => token_ne_system (by rw [← r.xm_prog, ← h, kpw])
  have p3 : pw.key ≠ v.key := fun h => token_ne_system (by rw [← r.v_prog, ← h, kpw])
  have v1 : v.key ≠ xa.key := by
    intro h
    have := r.v_mint
    rw [h, r.xa_mint] at this
    exact orca_ne_xorca this.symm
  have v2 : v.key ≠ XORCA_MINT_ID := by
    intro h
    have l1 := r.v_len
    rw [h, bt.mint_ok.len] at l1
    omega
  have hst1 : L1 st.key = L st.key := bt.frame.other _ (by simp [o1, o2])
  have hpw1 : L1 pw.key = L pw.key := bt.frame.other _ (by simp [p1, p2])
  have ce := createPendingWithdrawSecure_eff hune
    (by rw [Ledger.setData_other _ _ o4.symm, hpw1]; exact kpw) r.create
  have hstl := r.st_len
  have hcool : stCoolDown (setStEscrow (L1 st.key).data e) = readI64 (L st.key).data 16 := by
    rw [hst1]
    simp only [stCoolDown, setStEscrow, stateOff_4, stateOff_5]
    exact readI64_writeAt_apart (by simp; omega) (by simp [Apart])
  have hcool2 := r.maturity
  rw [hcool] at hcool2
  obtain ⟨l, hl, hl2⟩ := ce.created
  obtain ⟨f, hf1, hf2⟩ := ce.paid
  have hfresh := ce.fresh
  rw [Ledger.setData_other _ _ o4.symm, hpw1] at hl2 hf2 hfresh
  have hL' := r.result
  rw [hl] at hL'
  simp only at hL'
  rw [recordBytes_eq] at hL'
  have hL3o : ∀ k, k ≠ pw.key → (L3 k).owner = (L k).owner := by
    intro k hk
    by_cases hku : k = u.key
    · subst hku; rw [hf1]; simp [bt.frame.owner]
    · rw [ce.other k hku hk]; simp [bt.frame.owner]
  have hL3d : ∀ k, k ≠ pw.key → (L3 k).data = if k = st.key then setStEscrow (L st.key).data e
      else (L1 k).data := by
    intro k hk
    have : (L3 k).data = ((L1.setData st.key (setStEscrow (L1 st.key).data e)) k).data := by
      by_cases hku : k = u.key
      · subst hku; rw [hf1]
      · rw [ce.other k hku hk]
    rw [this, Ledger.setData_data, hst1]
  refine ⟨?_, ?_⟩
  · exact {
      burn := ⟨L1, bt⟩
      xa_ne_xm := bt.ne.symm
      st_ne := ⟨o4, o1, o2, o3⟩
      pw_ne := ⟨hune.symm, p1, p2, p3⟩
      v_ne := ⟨v1, v2⟩
      owner := by
        intro k hk
        rw [hL', Ledger.setData_other _ _ hk, hL3o k hk]
      data := by
        intro k hk
        simp only [List.mem_cons, List.not_mem_nil, or_false, not_or] at hk
        rw [hL', Ledger.setData_other _ _ hk.1, hL3d k hk.1, if_neg hk.2.2.2]
        exact bt.frame.data_other (by simp [hk])
      lamports := by
        intro k hk
        simp only [List.mem_cons, List.not_mem_nil, or_false, not_or] at hk
        rw [hL', Ledger.setData_other _ _ hk.1, ce.other k hk.2 hk.1]
        simp [bt.frame.lamports]
      st_data := by
        rw [hL', Ledger.setData_other _ _ o4, hL3d _ o4, if_pos rfl]; rfl
      escrow := by have := r.new_escrow; rw [Spec.escrow, hst1] at this; exact this
      xa_data := by
        rw [hL', Ledger.setData_other _ _ p1.symm, hL3d _ p1.symm, if_neg o1.symm]
        exact bt.debit
      xm_data := by
        rw [hL', Ledger.setData_other _ _ p2.symm, hL3d _ p2.symm, if_neg o2.symm]
        exact bt.supply
      pw_fresh := by
        exact account_ext (b := ⟨_, _, _⟩) rfl kpw hfresh
      pw_new := ⟨l, by rw [hL', Ledger.setData_same, hl], hl2⟩
      paid := by
        rw [hL', Ledger.setData_other _ _ hune, hf1]
        simp only [Ledger.setData_lamports, bt.frame.lamports] at hf2
        exact hf2
      payer := by
        have := ce.payer
        rw [Ledger.setData_owner, bt.frame.owner, Ledger.setData_other _ _ o4.symm, hpw1] at this
        exact this
      maturity := hcool2
      xa_ok := bt.src_ok
      xm_ok := bt.mint_ok }
  · rw [r.log, hcool]

end Xorca
