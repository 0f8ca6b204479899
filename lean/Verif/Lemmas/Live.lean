import Verif.Calls
import Verif.Lemmas.Fail
/-
Evaluating calls whose accounts are well formed.
-/
namespace Xorca
open Spec

theorem bind_ok_eq {α β : Type} {r : Res α} {a : α} (h : r = .ok a) (f : α → Res β) : (r >>= f) = f a := by
  rw [h]; rfl
theorem bind_err_eq {α β : Type} {r : Res α} {e : Err} (h : r = .error e) (f : α → Res β) :
    (r >>= f) = .error e := by
  rw [h]; rfl

theorem Spec.TokenOk.usable {L : Ledger} {k m o : Pubkey} (h : TokenOk L k m o) : TokUsable (L k) :=
  ⟨h.prog, h.len, h.state, h.native, h.delegate, h.close⟩

theorem decode_of_state {d : Bytes} (hl : d.length = 165) (hs : readU8 d 108 = 1 ∨ readU8 d 108 = 2) :
    ∃ t, decodeTokenAccount d = some t ∧ t.owner = readKey d 32 ∧ t.mint = readKey d 0 ∧
      t.amount = readU64 d 64 := by
  rcases hs with hs | hs
  · exact ⟨tokenAccountAt d .Initialized, decodeTokenAccount_ok.2 ⟨by omega, _, by rw [hs]; rfl, rfl⟩,
      rfl, rfl, rfl⟩
  · exact ⟨tokenAccountAt d .Frozen, decodeTokenAccount_ok.2 ⟨by omega, _, by rw [hs]; rfl, rfl⟩,
      rfl, rfl, rfl⟩

theorem decode_mint {d : Bytes} (hl : d.length = 82) (hs : readU8 d 45 = 1) :
    decodeTokenMint d = some (tokenMintAt d true) :=
  decodeTokenMint_ok.2 ⟨by omega, true, by rw [hs]; rfl, rfl⟩

theorem makeOwner_of {L : Ledger} {ta ow mi : Meta} {w : Bool} (hw : ta.isWritable = true ∨ w = false)
    (hp : (L ta.key).owner = SPL_TOKEN_PROGRAM_ID) (hl : (L ta.key).data.length = 165)
    (hs : readU8 (L ta.key).data 108 = 1 ∨ readU8 (L ta.key).data 108 = 2)
    (ho : ownerOf L ta.key = ow.key) (hm : mintOf L ta.key = mi.key) :
    ∃ t, makeOwnerTokenAccountAssertions L ta ow mi w = .ok t ∧ t.amount = readU64 (L ta.key).data 64 := by
  obtain ⟨t, h1, h2, h3, h4⟩ := decode_of_state hl hs
  refine ⟨t, makeOwnerTokenAccountAssertions_ok.2 ⟨?_, hp, h1, ?_, ?_⟩, h4⟩
  · rintro rfl; rcases hw with h | h
    · exact h
    · cases h
  · rw [h2]; exact ho
  · rw [h3]; exact hm

theorem checkedSubU64_of_le {a b : UInt64} (h : b.toNat ≤ a.toNat) :
    ∃ c, checkedSubU64 a b = some c ∧ c.toNat = a.toNat - b.toNat := by
  unfold checkedSubU64; rw [if_pos h]
  exact ⟨_, rfl, UInt64.toNat_ofNat_of_lt' (by have := a.toNat_lt; simp only [UInt64.size]; omega)⟩

theorem checkedAddU64_of_lt {a b : UInt64} (h : a.toNat + b.toNat < 2 ^ 64) :
    ∃ c, checkedAddU64 a b = some c ∧ c.toNat = a.toNat + b.toNat := by
  unfold checkedAddU64; rw [if_pos h]
  refine ⟨_, rfl, ?_⟩
  exact UInt64.toNat_ofNat_of_lt' h

/-- Everything of a Stake after its checks, for a pool. -/
theorem processStake_eval {x : Ctx} {L : Ledger} {accs : List Meta} {a : UInt64}
    {s v oa xa xm st om tp : Meta} (c : StakeCall accs s v oa xa xm st om tp) (p : Pool x.cr L st.key v.key)
    (hoa : TokenOk L oa.key ORCA_MINT_ID s.key) (hxa : TokenOk L xa.key XORCA_MINT_ID s.key)
    (hom : (L ORCA_MINT_ID).owner = SPL_TOKEN_PROGRAM_ID) (ha : a.toNat ≤ balance L oa.key) :
    ∃ n : UInt64, n.toNat = backing L v.key st.key ∧
    processStake x L accs a =
      (convertOrcaToXorca a n (readU64 (L XORCA_MINT_ID).data 36) >>= fun m =>
       ensure (m ≠ 0) (.custom .InsufficientStakeAmount) >>= fun _ =>
       cpiTokenTransfer ⟨accs, []⟩ L oa.key v.key s.key a >>= fun L1 =>
       cpiMintTo ⟨accs, [st.key]⟩ L1 XORCA_MINT_ID xa.key st.key m >>= fun L2 =>
       .ok (L2, [(Event.Stake a (readU64 (L v.key).data 64 + a) (readU64 (L st.key).data 8)
         (readU64 (L XORCA_MINT_ID).data 36 + m) m).serialize])) := by
  obtain ⟨rest, rfl⟩ := c.accs_eq
  obtain ⟨toa, o1, o2⟩ := makeOwner_of (L := L) (ta := oa) (ow := s) (mi := om) (w := true) (Or.inl c.oa_w)
    hoa.prog hoa.len (Or.inl hoa.state) hoa.owner (by rw [hoa.mint, c.om_key])
  obtain ⟨txa, x1, x2⟩ := makeOwner_of (L := L) (ta := xa) (ow := s) (mi := xm) (w := true) (Or.inl c.xa_w)
    hxa.prog hxa.len (Or.inl hxa.state) hxa.owner (by rw [hxa.mint, c.xm_key])
  obtain ⟨tv, v1, v2⟩ := makeOwner_of (L := L) (ta := v) (ow := st) (mi := om) (w := true) (Or.inl c.v_w)
    p.v_tok.prog p.v_tok.len p.v_tok.state p.v_owner (by rw [p.v_mint, c.om_key])
  have hb := p.backed
  obtain ⟨n, hn, hn2⟩ := checkedSubU64_of_le (a := tv.amount) (b := stEscrow (L st.key).data) (by
    rw [v2]; change escrow L st.key ≤ balance L v.key; omega)
  rw [v2] at hn2
  refine ⟨n, hn2, ?_⟩
  obtain ⟨d1, d2⟩ := findProgramAddress_some p.acc.addr
  obtain ⟨d3, d4⟩ := findProgramAddress_some p.v_addr
  unfold processStake
  rw [bind_ok_eq ((getAccountInfo_ok (m := s)).2 rfl), bind_ok_eq ((getAccountInfo_ok (m := v)).2 rfl),
    bind_ok_eq ((getAccountInfo_ok (m := oa)).2 rfl), bind_ok_eq ((getAccountInfo_ok (m := xa)).2 rfl),
    bind_ok_eq ((getAccountInfo_ok (m := xm)).2 rfl), bind_ok_eq ((getAccountInfo_ok (m := st)).2 rfl),
    bind_ok_eq ((getAccountInfo_ok (m := om)).2 rfl), bind_ok_eq ((getAccountInfo_ok (m := tp)).2 rfl),
    bind_ok_eq ((assertAccountRole_SW (u := ())).2 ⟨c.signer, c.s_w⟩),
    bind_ok_eq ((assertAccountAddress_ok (u := ())).2 c.om_key),
    bind_ok_eq ((assertAccountAddress_ok (u := ())).2 c.xm_key),
    bind_ok_eq ((assertAccountAddress_ok (u := ())).2 c.tp_key),
    bind_ok_eq o1,
    bind_ok_eq ((ensure_eq_ok (u := ())).2 (by rw [o2]; change ¬ balance L oa.key < _; omega)),
    bind_ok_eq x1,
    bind_ok_eq ((assertAccountRole_W (u := ())).2 c.xm_w),
    bind_ok_eq ((assertAccountOwner_ok (u := ())).2 (by rw [c.xm_key]; exact p.mint.prog)),
    bind_ok_eq (assertTokenMintData_ok.2 (by rw [c.xm_key]; exact decode_mint p.mint.len p.mint.init)),
    bind_ok_eq ((assertAccountOwner_ok (u := ())).2 (by rw [c.om_key]; exact hom)),
    bind_ok_eq ((assertAccountOwner_ok (u := ())).2 p.prog),
    bind_ok_eq (assertStateData_ok.2 ⟨rfl, by rw [p.acc.len], p.acc.tag⟩),
    bind_ok_eq ((verifyStateAddress_ok (b := stBump _) (u := ())).2 d1),
    bind_ok_eq ((verifyVaultAddress_ok (b := stVaultBump _) (u := ())).2 (by rw [c.om_key]; exact d3)),
    bind_ok_eq v1,
    bind_ok_eq (okOr_eq_ok.2 hn)]
  have hsd : signerPda x.cr stateSeedsRaw (stBump (L st.key).data) = .ok st.key :=
    signerPda_ok.2 ⟨d1, d1 ▸ d2⟩
  simp only [bind_ok_eq hsd, v2, c.xm_key]
  rfl

/-- The vault is usable by the token program unless frozen. -/
theorem Pool.v_usable {cr : Crypto} {L : Ledger} {st v : Pubkey} (p : Pool cr L st v)
    (h : readU8 (L v).data 108 = 1) : TokUsable (L v) :=
  ⟨p.v_tok.prog, p.v_tok.len, h, p.v_tok.native, Or.inl p.v_tok.delegate, Or.inl p.v_tok.close⟩

theorem Pool.m_usable {cr : Crypto} {L : Ledger} {st v : Pubkey} (p : Pool cr L st v) :
    MintUsable (L XORCA_MINT_ID) :=
  ⟨p.mint.prog, p.mint.len, p.mint.init, Or.inr p.mint.flag, Or.inl p.mint.freeze⟩

/-- Everything of an Unstake after its checks, for a pool. -/
theorem processUnstake_eval {x : Ctx} {L : Ledger} {accs : List Meta} {a : UInt64} {i b : UInt8}
    {u st pw xa xm om v sp tp : Meta} (c : UnstakeCall accs u st pw xa xm om v sp tp)
    (p : Pool x.cr L st.key v.key) (hr : RecordAddr x.cr u.key i pw.key b)
    (hpw : (L pw.key).owner = SYSTEM_PROGRAM_ID)
    (hxa : TokenOk L xa.key XORCA_MINT_ID u.key)
    (hom : MintOk L ORCA_MINT_ID) (ha : a.toNat ≤ balance L xa.key) :
    ∃ n : UInt64, n.toNat = backing L v.key st.key ∧
    processUnstake x L accs a i =
      (convertXorcaToOrca a n (readU64 (L XORCA_MINT_ID).data 36) >>= fun w =>
       ensure (w ≠ 0) (.custom .InsufficientUnstakeAmount) >>= fun _ =>
       cpiBurn ⟨accs, []⟩ L xa.key XORCA_MINT_ID u.key a >>= fun L1 =>
       assertStateData L1 st >>= fun sd =>
       okOr (checkedAddU64 (stEscrow sd) w) (.custom .ArithmeticError) >>= fun e =>
       createPendingWithdrawSecure x ⟨accs, [pw.key]⟩ (L1.setData st.key (setStEscrow sd e)) u.key pw.key >>=
         fun L3 =>
       okOr (checkedAddI64 x.now (stCoolDown ((L1.setData st.key (setStEscrow sd e)) st.key).data))
         (.custom .CoolDownOverflow) >>= fun t =>
       .ok (L3.setData pw.key (setPwTimestamp (setPwAmount (setPwUnstaker (setPwIndex (setPwBump
           (L3 pw.key).data b) i) u.key) w) t),
         [(Event.Unstake a (readU64 (L v.key).data 64) e (readU64 (L XORCA_MINT_ID).data 36 - a) w
           (stCoolDown ((L1.setData st.key (setStEscrow sd e)) st.key).data) i).serialize])) := by
  obtain ⟨rest, rfl⟩ := c.accs_eq
  obtain ⟨txa, x1, x2⟩ := makeOwner_of (L := L) (ta := xa) (ow := u) (mi := xm) (w := true) (Or.inl c.xa_w)
    hxa.prog hxa.len (Or.inl hxa.state) hxa.owner (by rw [hxa.mint, c.xm_key])
  obtain ⟨tv, v1, v2⟩ := makeOwner_of (L := L) (ta := v) (ow := st) (mi := om) (w := false) (Or.inr rfl)
    p.v_tok.prog p.v_tok.len p.v_tok.state p.v_owner (by rw [p.v_mint, c.om_key])
  have hb := p.backed
  obtain ⟨n, hn, hn2⟩ := checkedSubU64_of_le (a := tv.amount) (b := stEscrow (L st.key).data) (by
    rw [v2]; change escrow L st.key ≤ balance L v.key; omega)
  rw [v2] at hn2
  refine ⟨n, hn2, ?_⟩
  obtain ⟨d1, d2⟩ := findProgramAddress_some p.acc.addr
  obtain ⟨d3, d4⟩ := findProgramAddress_some p.v_addr
  obtain ⟨d5, d6⟩ := findProgramAddress_some hr
  have hsd : signerPda x.cr (pendingWithdrawSeedsRaw u.key [i]) b = .ok pw.key :=
    signerPda_ok.2 ⟨d5, d5 ▸ d6⟩
  unfold processUnstake
  rw [bind_ok_eq ((getAccountInfo_ok (m := u)).2 rfl), bind_ok_eq ((getAccountInfo_ok (m := st)).2 rfl),
    bind_ok_eq ((getAccountInfo_ok (m := pw)).2 rfl), bind_ok_eq ((getAccountInfo_ok (m := xa)).2 rfl),
    bind_ok_eq ((getAccountInfo_ok (m := xm)).2 rfl), bind_ok_eq ((getAccountInfo_ok (m := om)).2 rfl),
    bind_ok_eq ((getAccountInfo_ok (m := v)).2 rfl), bind_ok_eq ((getAccountInfo_ok (m := sp)).2 rfl),
    bind_ok_eq ((getAccountInfo_ok (m := tp)).2 rfl),
    bind_ok_eq ((assertAccountRole_SW (u := ())).2 ⟨c.signer, c.u_w⟩),
    bind_ok_eq ((assertAccountAddress_ok (u := ())).2 c.xm_key),
    bind_ok_eq ((assertAccountAddress_ok (u := ())).2 c.om_key),
    bind_ok_eq ((assertAccountAddress_ok (u := ())).2 c.tp_key),
    bind_ok_eq ((assertAccountAddress_ok (u := ())).2 c.sp_key),
    bind_ok_eq ((assertAccountRole_W (u := ())).2 c.st_w),
    bind_ok_eq ((assertAccountOwner_ok (u := ())).2 p.prog),
    bind_ok_eq v1,
    bind_ok_eq ((assertAccountRole_W (u := ())).2 c.pw_w),
    bind_ok_eq ((assertAccountOwner_ok (u := ())).2 hpw)]
  simp only
  rw [bind_ok_eq (assertAccountSeeds_ok.2 (show findProgramAddress x.cr (pendingWithdrawSeedsRaw u.key [i])
      PROGRAM_ID = some (pw.key, b) from hr)),
    bind_ok_eq x1,
    bind_ok_eq ((ensure_eq_ok (u := ())).2 (by rw [x2]; change ¬ balance L xa.key < _; omega)),
    bind_ok_eq ((assertAccountOwner_ok (u := ())).2 (by rw [c.xm_key]; exact p.mint.prog)),
    bind_ok_eq ((assertAccountRole_W (u := ())).2 c.xm_w),
    bind_ok_eq (assertTokenMintData_ok.2 (by rw [c.xm_key]; exact decode_mint p.mint.len p.mint.init)),
    bind_ok_eq ((ensure_eq_ok (u := ())).2 (by
      have h1 := p.mint.flag; have h2 := p.m_auth
      simp [tokenMintAt, h1, h2])),
    bind_ok_eq ((ensure_eq_ok (u := ())).2 (by have h1 := p.mint.freeze; simp [tokenMintAt, h1])),
    bind_ok_eq ((assertAccountOwner_ok (u := ())).2 (by rw [c.om_key]; exact hom.prog)),
    bind_ok_eq (assertTokenMintData_ok.2 (by rw [c.om_key]; exact decode_mint hom.len hom.init)),
    bind_ok_eq (assertStateData_ok.2 ⟨rfl, by rw [p.acc.len], p.acc.tag⟩),
    bind_ok_eq ((verifyStateAddress_ok (b := stBump _) (u := ())).2 d1),
    bind_ok_eq ((verifyVaultAddress_ok (b := stVaultBump _) (u := ())).2 (by rw [c.om_key]; exact d3)),
    bind_ok_eq (okOr_eq_ok.2 hn)]
  simp only [bind_ok_eq hsd, v2, c.xm_key]
  rfl

/-- Everything of a Withdraw after its checks, for a pool. -/
theorem processWithdraw_eval {x : Ctx} {L : Ledger} {accs : List Meta} {i : UInt8}
    {u st pw oa v om sp tp : Meta} (c : WithdrawCall accs u st pw oa v om sp tp)
    (p : Pool x.cr L st.key v.key) (hpw : (L pw.key).owner = PROGRAM_ID) (hr : RecAcc x.cr pw.key (L pw.key))
    (ho : recOwner L pw.key = u.key) (hi : recIndex L pw.key = i)
    (hoa : TokenOk L oa.key ORCA_MINT_ID u.key) (hom : (L ORCA_MINT_ID).owner = SPL_TOKEN_PROGRAM_ID) :
    processWithdraw x L accs i =
      (ensure (¬ x.now.toInt < recTime L pw.key) (.custom .CoolDownPeriodStillActive) >>= fun _ =>
       ensure (¬ escrow L st.key < recAmount L pw.key) (.custom .InsufficientEscrow) >>= fun _ =>
       cpiTokenTransfer ⟨accs, [st.key]⟩ L v.key oa.key st.key (readU64 (L pw.key).data 40) >>= fun L1 =>
       closeProgramAccount L1 pw.key u.key >>= fun L2 =>
       assertStateData L2 st >>= fun sd =>
       okOr (checkedSubU64 (stEscrow sd) (readU64 (L pw.key).data 40)) (.custom .InsufficientEscrow) >>= fun e =>
       .ok (L2.setData st.key (setStEscrow sd e), [(Event.Withdraw e (readU64 (L pw.key).data 40)
         (stCoolDown ((L2.setData st.key (setStEscrow sd e)) st.key).data) i).serialize])) := by
  obtain ⟨rest, rfl⟩ := c.accs_eq
  obtain ⟨toa, o1, _⟩ := makeOwner_of (L := L) (ta := oa) (ow := u) (mi := om) (w := true) (Or.inl c.oa_w)
    hoa.prog hoa.len (Or.inl hoa.state) hoa.owner (by rw [hoa.mint, c.om_key])
  obtain ⟨tv, v1, _⟩ := makeOwner_of (L := L) (ta := v) (ow := st) (mi := om) (w := true) (Or.inl c.v_w)
    p.v_tok.prog p.v_tok.len p.v_tok.state p.v_owner (by rw [p.v_mint, c.om_key])
  obtain ⟨d1, d2⟩ := findProgramAddress_some p.acc.addr
  obtain ⟨d3, d4⟩ := findProgramAddress_some p.v_addr
  have hra := hr.addr
  change RecordAddr x.cr (recOwner L pw.key) (recIndex L pw.key) _ _ at hra
  rw [ho, hi] at hra
  obtain ⟨d5, d6⟩ := findProgramAddress_some hra
  have hsd : signerPda x.cr stateSeedsRaw (stBump (L st.key).data) = .ok st.key :=
    signerPda_ok.2 ⟨d1, d1 ▸ d2⟩
  unfold processWithdraw
  rw [bind_ok_eq ((getAccountInfo_ok (m := u)).2 rfl), bind_ok_eq ((getAccountInfo_ok (m := st)).2 rfl),
    bind_ok_eq ((getAccountInfo_ok (m := pw)).2 rfl), bind_ok_eq ((getAccountInfo_ok (m := oa)).2 rfl),
    bind_ok_eq ((getAccountInfo_ok (m := v)).2 rfl), bind_ok_eq ((getAccountInfo_ok (m := om)).2 rfl),
    bind_ok_eq ((getAccountInfo_ok (m := sp)).2 rfl), bind_ok_eq ((getAccountInfo_ok (m := tp)).2 rfl),
    bind_ok_eq ((assertAccountRole_SW (u := ())).2 ⟨c.signer, c.u_w⟩),
    bind_ok_eq ((assertAccountAddress_ok (u := ())).2 c.om_key),
    bind_ok_eq ((assertAccountOwner_ok (u := ())).2 (by rw [c.om_key]; exact hom)),
    bind_ok_eq ((assertAccountRole_W (u := ())).2 c.st_w),
    bind_ok_eq ((assertAccountOwner_ok (u := ())).2 p.prog),
    bind_ok_eq (assertStateData_ok.2 ⟨rfl, by rw [p.acc.len], p.acc.tag⟩),
    bind_ok_eq ((verifyStateAddress_ok (b := stBump _) (u := ())).2 d1),
    bind_ok_eq ((verifyVaultAddress_ok (b := stVaultBump _) (u := ())).2 (by rw [c.om_key]; exact d3)),
    bind_ok_eq ((assertAccountRole_W (u := ())).2 c.pw_w),
    bind_ok_eq ((assertAccountOwner_ok (u := ())).2 hpw),
    bind_ok_eq (assertPendingWithdrawData_ok.2 ⟨rfl, by rw [hr.len], hr.tag⟩),
    bind_ok_eq ((verifyPendingWithdrawAddress_ok (b := pwBump _) (u := ())).2 d5),
    bind_ok_eq o1, bind_ok_eq v1,
    bind_ok_eq ((assertAccountAddress_ok (u := ())).2 c.sp_key),
    bind_ok_eq ((assertAccountAddress_ok (u := ())).2 c.tp_key)]
  simp only [bind_ok_eq hsd]
  rfl

end Xorca
