import Verif.Lemmas.Errors
import Verif.Lemmas.Inv
/-
What a failed call tells about the ledger, error by error.
-/
namespace Xorca
open Spec

theorem convertOrcaToXorca_err {a n s : UInt64} {e : Err} :
    convertOrcaToXorca a n s = .error e ↔
      (s.toNat ≠ 0 ∧ n.toNat ≠ 0 ∧
        (2 ^ 128 ≤ a.toNat * (s.toNat + 100) ∨ 2 ^ 64 ≤ a.toNat * (s.toNat + 100) / (n.toNat + 100))) ∧
      .custom .ArithmeticError = e := by
  rw [convertOrcaToXorca_eq]
  split
  · next h => simp only [reduceCtorEq, false_iff, not_and]; intro h1; omega
  · next h =>
    rw [not_or] at h
    split
    · next h2 => simp only [Except.error.injEq]; exact ⟨fun h3 => ⟨⟨h.1, h.2, h2⟩, h3⟩, fun h3 => h3.2⟩
    · next h2 => simp only [reduceCtorEq, false_iff, not_and]; intro h1; exact absurd h1.2.2 h2

theorem convertXorcaToOrca_err {a n s : UInt64} {e : Err} :
    convertXorcaToOrca a n s = .error e ↔
      (s.toNat = 0 ∨ n.toNat = 0 ∨
        2 ^ 128 ≤ a.toNat * (n.toNat + 100) ∨ 2 ^ 64 ≤ a.toNat * (n.toNat + 100) / (s.toNat + 100)) ∧
      .custom .ArithmeticError = e := by
  rw [convertXorcaToOrca_eq]
  split
  · next h =>
    simp only [Except.error.injEq]
    exact ⟨fun h3 => ⟨by rcases h with h | h; exact Or.inl h; exact Or.inr (Or.inl h), h3⟩, fun h3 => h3.2⟩
  · next h =>
    rw [not_or] at h
    split
    · next h2 =>
      simp only [Except.error.injEq]
      exact ⟨fun h3 => ⟨Or.inr (Or.inr h2), h3⟩, fun h3 => h3.2⟩
    · next h2 =>
      simp only [reduceCtorEq, false_iff, not_and]
      intro h1
      rcases h1 with h1 | h1 | h1
      · exact absurd h1 h.1
      · exact absurd h1 h.2
      · exact absurd h1 h2

theorem createAccountSecure_no {x : Ctx} {c : Caller} {L : Ledger} {a b o : Pubkey} {n : Nat} {e : Err}
    (he : ∀ c, e ≠ .cpi c) : (createAccountSecure x c L a b n o = .error e) = False :=
  createAccountSecure_cpi.no he

theorem setByte0_err {d : Bytes} {v : UInt8} {e : Err} :
    setByte0 d v = .error e ↔ d = [] ∧ .panicked = e := by
  cases d <;> simp [setByte0]

theorem createPendingWithdrawSecure_no {x : Ctx} {c : Caller} {L : Ledger} {a b : Pubkey} {e : Err}
    (he : ∀ c, e ≠ .cpi c) (hp : e ≠ .panicked) :
    (createPendingWithdrawSecure x c L a b = .error e) = False := by
  simp only [eq_iff_iff, iff_false]
  intro h
  unfold createPendingWithdrawSecure at h
  simp only [bind_eq_err, createAccountSecure_no he, setByte0_err, reduceCtorEq, and_false, or_false,
    exists_false, false_or] at h
  obtain ⟨_, _, _, h⟩ := h
  exact hp h.symm

theorem closeProgramAccount_err {L : Ledger} {a b : Pubkey} {e : Err} :
    closeProgramAccount L a b = .error e ↔ (L a).data = [] ∧ .panicked = e := by
  unfold closeProgramAccount
  simp only [bind_eq_err, setByte0_err, reduceCtorEq, and_false, or_false, exists_false]

theorem createStateBorsh_no {x : Ctx} {c : Caller} {L : Ledger} {a b : Pubkey} {s : State} {e : Err}
    (he : ∀ c, e ≠ .cpi c) (hd : e ≠ .invalidAccountData) :
    (createStateBorsh x c L a b s = .error e) = False := by
  simp only [eq_iff_iff, iff_false]
  intro h
  unfold createStateBorsh at h
  simp only [bind_eq_err, createAccountSecure_no he, ensure_eq_err, reduceCtorEq, and_false, or_false,
    exists_false, false_or] at h
  obtain ⟨_, _, h⟩ := h
  exact hd h.2.symm

theorem ataCreatePda_cpi {x : Ctx} {L : Ledger} {a b : Pubkey} : CpiOnly (ataCreatePda x L a b) := by
  unfold ataCreatePda
  exact .ite systemCreateAccount_cpi (.ite
    (.bind (.ok _) fun _ => .bind systemAllocate_cpi fun _ => systemAssign_cpi)
    (.bind systemTransfer_cpi fun _ => .bind systemAllocate_cpi fun _ => systemAssign_cpi))

theorem cpiCreateAtaIdempotent_err {x : Ctx} {c : Caller} {L : Ledger} {a b w m : Pubkey} {e : Err}
    (h : cpiCreateAtaIdempotent x c L a b w m = .error e) :
    (∃ c, e = .cpi c) ∨ (e = .panicked ∧
      findProgramAddress x.cr (vaultSeedsRaw w SPL_TOKEN_PROGRAM_ID m) ASSOCIATED_TOKEN_PROGRAM_ID = none) := by
  unfold cpiCreateAtaIdempotent at h
  rw [bind_eq_err] at h
  rcases h with h | ⟨_, _, h⟩
  · exact Or.inl (CpiOnly.ensure _ _ e h)
  rw [bind_eq_err] at h
  rcases h with h | ⟨_, _, h⟩
  · exact Or.inl (CpiOnly.ensure _ _ e h)
  rw [bind_eq_err] at h
  rcases h with h | ⟨_, _, h⟩
  · rw [okOr_eq_err] at h; exact Or.inr ⟨h.2.symm, h.1⟩
  · left
    revert h
    refine CpiOnly.bind (.ensure _ _) (fun _ => .ite ?_ ?_) e
    · exact .bind unpackTokenAccount_cpi fun _ => .bind (.ensure _ _) fun _ => .bind (.ensure _ _) fun _ => .ok _
    · exact .bind (.ensure _ _) fun _ => .bind (.ensure _ _) fun _ => .bind unpackMint_cpi fun _ =>
        .bind ataCreatePda_cpi fun _ => .ok _

theorem cpiCreateAtaIdempotent_no {x : Ctx} {c : Caller} {L : Ledger} {a b w m : Pubkey} {e : Err}
    (he : ∀ c, e ≠ .cpi c) (hp : e ≠ .panicked) : (cpiCreateAtaIdempotent x c L a b w m = .error e) = False := by
  simp only [eq_iff_iff, iff_false]
  intro h
  rcases cpiCreateAtaIdempotent_err h with ⟨c, h⟩ | h
  · exact he c h
  · exact hp h.1

/-- Rewrites `process… = .error e`, for a concrete `e`, to the ways in which it can arise. -/
syntax "run_err" " at " ident : tactic
macro_rules
  | `(tactic| run_err at $h) => `(tactic| simp only [bind_eq_err, exists_unit, getAccountInfo_ok,
    getAccountInfo_err, assertAccountRole_SW, assertAccountRole_W, assertAccountRole_SW_err,
    assertAccountRole_W_err, assertAccountAddress_err, assertAccountOwner_err, ensure_eq_err,
    assertAccountAddress_ok, makeOwnerTokenAccountAssertions_ok, ensure_eq_ok, assertAccountOwner_ok,
    assertAccountSeeds_ok, assertAccountSeeds_err, assertPendingWithdrawData_ok, assertPendingWithdrawData_err,
    verifyPendingWithdrawAddress_ok, verifyPendingWithdrawAddress_err,
    assertTokenMintData_ok, assertTokenMintData_err, assertStateData_ok, assertStateData_err,
    verifyStateAddress_ok, verifyStateAddress_err, verifyVaultAddress_ok,
    verifyVaultAddress_err, okOr_eq_ok, okOr_eq_err, makeOwner_no, cpiTransfer_no, cpiMintTo_no, cpiBurn_no,
    createPendingWithdrawSecure_no, closeProgramAccount_err, createStateBorsh_no, cpiCreateAtaIdempotent_no,
    signerPda_ok, signerPda_err, convertOrcaToXorca_err, convertXorcaToOrca_err, Err.custom.injEq,
    reduceCtorEq, and_false, false_and, false_or, or_false, and_true, exists_false, ne_eq, not_false_eq_true,
    implies_true, true_implies] at $h:ident)

/-- The checks that a Stake has passed when it computes the amount to mint. -/
structure StakeChecked (x : Ctx) (L : Ledger) (accs : List Meta) (a : UInt64) (s v oa xa xm st om tp : Meta) :
    Prop where
  accs_eq : ∃ rest, accs = s :: v :: oa :: xa :: xm :: st :: om :: tp :: rest
  signer : s.isSigner = true
  st_prog : (L st.key).owner = PROGRAM_ID
  st_len : 2048 ≤ (L st.key).data.length
  st_disc : readU8 (L st.key).data 0 = 1
  st_addr : st.key = deriveAddress x.cr stateSeedsRaw (readU8 (L st.key).data 6) PROGRAM_ID
  v_addr : v.key = deriveAddress x.cr (vaultSeedsRaw st.key SPL_TOKEN_PROGRAM_ID ORCA_MINT_ID)
    (readU8 (L st.key).data 7) ASSOCIATED_TOKEN_PROGRAM_ID
  v_prog : (L v.key).owner = SPL_TOKEN_PROGRAM_ID
  funds : a.toNat ≤ balance L oa.key

theorem stakeChecked_of {x : Ctx} {L : Ledger} {accs : List Meta} {a : UInt64} {s v oa xa xm st om tp : Meta}
    {toa txa tv : TokenAccount} {tm : TokenMint}
    (h0 : accs[0]? = some s) (h1 : accs[1]? = some v) (h2 : accs[2]? = some oa) (h3 : accs[3]? = some xa)
    (h4 : accs[4]? = some xm) (h5 : accs[5]? = some st) (h6 : accs[6]? = some om) (h7 : accs[7]? = some tp)
    (hs : s.isSigner = true) (ho : om.key = ORCA_MINT_ID)
    (hx : xm.key = XORCA_MINT_ID) (hod : decodeTokenAccount (L oa.key).data = some toa)
    (_hxd : decodeTokenAccount (L xa.key).data = some txa)
    (hf : ¬ toa.amount.toNat < a.toNat) (hm : decodeTokenMint (L xm.key).data = some tm)
    (stp : (L st.key).owner = PROGRAM_ID) (stl : 2048 ≤ (L st.key).data.length)
    (std : readU8 (L st.key).data 0 = 1)
    (sta : st.key = deriveAddress x.cr stateSeedsRaw (stBump (L st.key).data) PROGRAM_ID)
    (va : v.key = deriveAddress x.cr (vaultSeedsRaw st.key SPL_TOKEN_PROGRAM_ID om.key)
      (stVaultBump (L st.key).data) ASSOCIATED_TOKEN_PROGRAM_ID)
    (vp : (L v.key).owner = SPL_TOKEN_PROGRAM_ID) (vd : decodeTokenAccount (L v.key).data = some tv) :
    StakeChecked x L accs a s v oa xa xm st om tp ∧ tv.amount.toNat = balance L v.key ∧
      (stEscrow (L st.key).data).toNat = escrow L st.key ∧ tm.supply.toNat = supply L XORCA_MINT_ID := by
  obtain ⟨_, _, _, e1⟩ := decoded_fields hod
  obtain ⟨_, _, _, e2⟩ := decoded_fields vd
  obtain ⟨_, e3, _⟩ := decoded_mint_fields hm
  refine ⟨⟨list8_of_getElem? h0 h1 h2 h3 h4 h5 h6 h7, hs, stp, stl, std, sta, ?_, vp, ?_⟩, ?_, rfl, ?_⟩
  · rw [ho] at va; exact va
  · rw [balance, ← e1]; omega
  · rw [e2]; rfl
  · rw [e3, hx]; rfl

theorem checkedSubU64_none {a b : UInt64} : checkedSubU64 a b = none ↔ a.toNat < b.toNat := by
  unfold checkedSubU64; split <;> simp <;> omega
theorem checkedAddU64_none {a b : UInt64} : checkedAddU64 a b = none ↔ 2 ^ 64 ≤ a.toNat + b.toNat := by
  unfold checkedAddU64; split <;> simp <;> omega
theorem checkedAddI64_none {a b : Int64} :
    checkedAddI64 a b = none ↔ ¬ (-2 ^ 63 ≤ a.toInt + b.toInt ∧ a.toInt + b.toInt < 2 ^ 63) := by
  unfold checkedAddI64; split <;> simp <;> omega

theorem stake_fail_backing {x : Ctx} {L : Ledger} {accs : List Meta} {a : UInt64}
    (h : processStake x L accs a = .error (.custom .InsufficientVaultBacking)) :
    ∃ s v oa xa xm st om tp, StakeChecked x L accs a s v oa xa xm st om tp ∧
      balance L v.key < escrow L st.key := by
  unfold processStake at h
  run_err at h
  obtain ⟨s, h0, v, h1, oa, h2, xa, h3, xm, h4, st, h5, om, h6, tp, h7, ⟨hs, hsw⟩, ho, hx, ht, toa,
    ⟨ow, op, od, oo, omi⟩,
    hf, txa, ⟨xaw, xap, xad, xao, xam⟩, xmw, xmp, tm, hm, omp, stp, sd, ⟨rfl, stl, std⟩, sta, va, tv,
    ⟨vw, vp, vd, vo, vm⟩, hb⟩ := h
  obtain ⟨c, e1, e2, e3⟩ := stakeChecked_of h0 h1 h2 h3 h4 h5 h6 h7 hs ho hx od xad hf hm stp stl std sta va vp vd
  rw [checkedSubU64_none] at hb
  exact ⟨s, v, oa, xa, xm, st, om, tp, c, by omega⟩

theorem stake_fail_arith {x : Ctx} {L : Ledger} {accs : List Meta} {a : UInt64}
    (h : processStake x L accs a = .error (.custom .ArithmeticError)) :
    ∃ s v oa xa xm st om tp, StakeChecked x L accs a s v oa xa xm st om tp ∧
      escrow L st.key ≤ balance L v.key ∧ supply L XORCA_MINT_ID ≠ 0 ∧ backing L v.key st.key ≠ 0 ∧
      (2 ^ 128 ≤ a.toNat * (supply L XORCA_MINT_ID + 100) ∨
        2 ^ 64 ≤ mintFor a.toNat (backing L v.key st.key) (supply L XORCA_MINT_ID)) := by
  unfold processStake at h
  run_err at h
  obtain ⟨s, h0, v, h1, oa, h2, xa, h3, xm, h4, st, h5, om, h6, tp, h7, ⟨hs, hsw⟩, ho, hx, ht, toa,
    ⟨ow, op, od, oo, omi⟩,
    hf, txa, ⟨xaw, xap, xad, xao, xam⟩, xmw, xmp, tm, hm, omp, stp, sd, ⟨rfl, stl, std⟩, sta, va, tv,
    ⟨vw, vp, vd, vo, vm⟩, n, hn, h8, h9, h10⟩ := h
  obtain ⟨c, e1, e2, e3⟩ := stakeChecked_of h0 h1 h2 h3 h4 h5 h6 h7 hs ho hx od xad hf hm stp stl std sta va vp vd
  rw [checkedSubU64_eq_some] at hn
  have e4 : n.toNat = backing L v.key st.key := by rw [backing]; omega
  rw [e3] at h8 h10
  rw [e4] at h9 h10
  refine ⟨s, v, oa, xa, xm, st, om, tp, c, by omega, h8, h9, ?_⟩
  rw [mintFor, if_neg (by omega)]
  exact h10

theorem stake_fail_dust {x : Ctx} {L : Ledger} {accs : List Meta} {a : UInt64}
    (h : processStake x L accs a = .error (.custom .InsufficientStakeAmount)) :
    ∃ s v oa xa xm st om tp, StakeChecked x L accs a s v oa xa xm st om tp ∧
      escrow L st.key ≤ balance L v.key ∧
      mintFor a.toNat (backing L v.key st.key) (supply L XORCA_MINT_ID) = 0 := by
  unfold processStake at h
  run_err at h
  obtain ⟨s, h0, v, h1, oa, h2, xa, h3, xm, h4, st, h5, om, h6, tp, h7, ⟨hs, hsw⟩, ho, hx, ht, toa,
    ⟨ow, op, od, oo, omi⟩,
    hf, txa, ⟨xaw, xap, xad, xao, xam⟩, xmw, xmp, tm, hm, omp, stp, sd, ⟨rfl, stl, std⟩, sta, va, tv,
    ⟨vw, vp, vd, vo, vm⟩, n, hn, m, hm2, hz⟩ := h
  obtain ⟨c, e1, e2, e3⟩ := stakeChecked_of h0 h1 h2 h3 h4 h5 h6 h7 hs ho hx od xad hf hm stp stl std sta va vp vd
  rw [checkedSubU64_eq_some] at hn
  have e4 : n.toNat = backing L v.key st.key := by rw [backing]; omega
  have hc := convertOrcaToXorca_ok hm2
  rw [not_not, u64_eq_zero_iff] at hz
  rw [e4, e3, hz] at hc
  exact ⟨s, v, oa, xa, xm, st, om, tp, c, by omega, hc.symm⟩

/-- The checks that an Unstake has passed when it computes the redemption. -/
structure UnstakeChecked (x : Ctx) (L : Ledger) (accs : List Meta) (a : UInt64) (i : UInt8)
    (u st pw xa xm om v sp tp : Meta) : Prop where
  accs_eq : ∃ rest, accs = u :: st :: pw :: xa :: xm :: om :: v :: sp :: tp :: rest
  signer : u.isSigner = true
  st_prog : (L st.key).owner = PROGRAM_ID
  st_len : 2048 ≤ (L st.key).data.length
  st_disc : readU8 (L st.key).data 0 = 1
  st_addr : st.key = deriveAddress x.cr stateSeedsRaw (readU8 (L st.key).data 6) PROGRAM_ID
  v_addr : v.key = deriveAddress x.cr (vaultSeedsRaw st.key SPL_TOKEN_PROGRAM_ID ORCA_MINT_ID)
    (readU8 (L st.key).data 7) ASSOCIATED_TOKEN_PROGRAM_ID
  v_prog : (L v.key).owner = SPL_TOKEN_PROGRAM_ID
  pw_prog : (L pw.key).owner = SYSTEM_PROGRAM_ID
  pw_addr : ∃ b, RecordAddr x.cr u.key i pw.key b
  funds : a.toNat ≤ balance L xa.key

theorem unstakeChecked_of {x : Ctx} {L : Ledger} {accs : List Meta} {a : UInt64} {i : UInt8}
    {u st pw xa xm om v sp tp : Meta} {txa tv : TokenAccount} {tm : TokenMint} {b : UInt8}
    (h0 : accs[0]? = some u) (h1 : accs[1]? = some st) (h2 : accs[2]? = some pw) (h3 : accs[3]? = some xa)
    (h4 : accs[4]? = some xm) (h5 : accs[5]? = some om) (h6 : accs[6]? = some v) (h7 : accs[7]? = some sp)
    (h8 : accs[8]? = some tp)
    (hs : u.isSigner = true) (ho : om.key = ORCA_MINT_ID)
    (hx : xm.key = XORCA_MINT_ID)
    (hxd : decodeTokenAccount (L xa.key).data = some txa)
    (hf : ¬ txa.amount.toNat < a.toNat) (hm : decodeTokenMint (L xm.key).data = some tm)
    (stp : (L st.key).owner = PROGRAM_ID) (stl : 2048 ≤ (L st.key).data.length)
    (std : readU8 (L st.key).data 0 = 1)
    (sta : st.key = deriveAddress x.cr stateSeedsRaw (stBump (L st.key).data) PROGRAM_ID)
    (va : v.key = deriveAddress x.cr (vaultSeedsRaw st.key SPL_TOKEN_PROGRAM_ID om.key)
      (stVaultBump (L st.key).data) ASSOCIATED_TOKEN_PROGRAM_ID)
    (vp : (L v.key).owner = SPL_TOKEN_PROGRAM_ID) (vd : decodeTokenAccount (L v.key).data = some tv)
    (pp : (L pw.key).owner = SYSTEM_PROGRAM_ID)
    (hb : findProgramAddress x.cr (pendingWithdrawSeedsRaw u.key [i]) PROGRAM_ID = some (pw.key, b)) :
    UnstakeChecked x L accs a i u st pw xa xm om v sp tp ∧ tv.amount.toNat = balance L v.key ∧
      (stEscrow (L st.key).data).toNat = escrow L st.key ∧ tm.supply.toNat = supply L XORCA_MINT_ID := by
  obtain ⟨_, _, _, e1⟩ := decoded_fields hxd
  obtain ⟨_, _, _, e2⟩ := decoded_fields vd
  obtain ⟨_, e3, _⟩ := decoded_mint_fields hm
  refine ⟨⟨list9_of_getElem? h0 h1 h2 h3 h4 h5 h6 h7 h8, hs, stp, stl, std, sta, ?_, vp, pp, ⟨b, hb⟩, ?_⟩, ?_, rfl, ?_⟩
  · rw [ho] at va; exact va
  · rw [balance, ← e1]; omega
  · rw [e2]; rfl
  · rw [e3, hx]; rfl

theorem unstake_fail_backing {x : Ctx} {L : Ledger} {accs : List Meta} {a : UInt64} {i : UInt8}
    (h : processUnstake x L accs a i = .error (.custom .InsufficientVaultBacking)) :
    ∃ u st pw xa xm om v sp tp, UnstakeChecked x L accs a i u st pw xa xm om v sp tp ∧
      balance L v.key < escrow L st.key := by
  unfold processUnstake at h
  run_err at h
  obtain ⟨u, h0, st, h1, pw, h2, xa, h3, xm, h4, om, h5, v, h6, sp, h7, tp, h8, ⟨hs, hsw⟩, hx, ho, ht, hsp,
    stw, stp, tv, ⟨_, vp, vd, vo, vm⟩, pww, pwp, b, hb, txa, ⟨xaw, xap, xad, xao, xam⟩, hfunds, xmp, xmw,
    tm, hm, hauth, hfreeze, omp, tom, hom, sd, ⟨rfl, stl, std⟩, sta, va, hbk⟩ := h
  obtain ⟨c, e1, e2, e3⟩ := unstakeChecked_of h0 h1 h2 h3 h4 h5 h6 h7 h8 hs ho hx xad hfunds hm stp stl std sta va
    vp vd pwp hb
  rw [checkedSubU64_none] at hbk
  exact ⟨u, st, pw, xa, xm, om, v, sp, tp, c, by omega⟩

theorem unstake_fail_dust {x : Ctx} {L : Ledger} {accs : List Meta} {a : UInt64} {i : UInt8}
    (h : processUnstake x L accs a i = .error (.custom .InsufficientUnstakeAmount)) :
    ∃ u st pw xa xm om v sp tp, UnstakeChecked x L accs a i u st pw xa xm om v sp tp ∧
      escrow L st.key ≤ balance L v.key ∧ supply L XORCA_MINT_ID ≠ 0 ∧ backing L v.key st.key ≠ 0 ∧
      redeemFor a.toNat (backing L v.key st.key) (supply L XORCA_MINT_ID) = 0 := by
  unfold processUnstake at h
  run_err at h
  obtain ⟨u, h0, st, h1, pw, h2, xa, h3, xm, h4, om, h5, v, h6, sp, h7, tp, h8, ⟨hs, hsw⟩, hx, ho, ht, hsp,
    stw, stp, tv, ⟨_, vp, vd, vo, vm⟩, pww, pwp, b, hb, txa, ⟨xaw, xap, xad, xao, xam⟩, hfunds, xmp, xmw,
    tm, hm, hauth, hfreeze, omp, tom, hom, sd, ⟨rfl, stl, std⟩, sta, va, n, hn, w, hw, hz⟩ := h
  obtain ⟨c, e1, e2, e3⟩ := unstakeChecked_of h0 h1 h2 h3 h4 h5 h6 h7 h8 hs ho hx xad hfunds hm stp stl std sta va
    vp vd pwp hb
  rw [checkedSubU64_eq_some] at hn
  have e4 : n.toNat = backing L v.key st.key := by rw [backing]; omega
  obtain ⟨hs0, hn0, hw1⟩ := convertXorcaToOrca_ok hw
  rw [not_not, u64_eq_zero_iff] at hz
  rw [e4, e3, hz] at hw1
  exact ⟨u, st, pw, xa, xm, om, v, sp, tp, c, by omega, by omega, by omega, hw1.symm⟩

theorem unstake_fail_arith {x : Ctx} {L : Ledger} {accs : List Meta} {a : UInt64} {i : UInt8}
    (h : processUnstake x L accs a i = .error (.custom .ArithmeticError)) :
    ∃ u st pw xa xm om v sp tp, UnstakeChecked x L accs a i u st pw xa xm om v sp tp ∧
      escrow L st.key ≤ balance L v.key ∧
      ((supply L XORCA_MINT_ID = 0 ∨ backing L v.key st.key = 0 ∨
        2 ^ 128 ≤ a.toNat * (backing L v.key st.key + 100) ∨
        2 ^ 64 ≤ redeemFor a.toNat (backing L v.key st.key) (supply L XORCA_MINT_ID)) ∨
      (a.toNat ≤ supply L XORCA_MINT_ID ∧
        2 ^ 64 ≤ escrow L st.key + redeemFor a.toNat (backing L v.key st.key) (supply L XORCA_MINT_ID))) := by
  unfold processUnstake at h
  run_err at h
  obtain ⟨u, h0, st, h1, pw, h2, xa, h3, xm, h4, om, h5, v, h6, sp, h7, tp, h8, ⟨hs, hsw⟩, hx, ho, ht, hsp,
    stw, stp, tv, ⟨_, vp, vd, vo, vm⟩, pww, pwp, b, hb, txa, ⟨xaw, xap, xad, xao, xam⟩, hfunds, xmp, xmw,
    tm, hm, hauth, hfreeze, omp, tom, hom, sd, ⟨rfl, stl, std⟩, sta, va, n, hn, h⟩ := h
  obtain ⟨c, e1, e2, e3⟩ := unstakeChecked_of h0 h1 h2 h3 h4 h5 h6 h7 h8 hs ho hx xad hfunds hm stp stl std sta va
    vp vd pwp hb
  rw [checkedSubU64_eq_some] at hn
  have e4 : n.toNat = backing L v.key st.key := by rw [backing]; omega
  refine ⟨u, st, pw, xa, xm, om, v, sp, tp, c, by omega, ?_⟩
  rw [e4, e3] at h
  rcases h with h | ⟨w, hw, hz, L1, hL1, sd1, ⟨rfl, _, _⟩, hov⟩
  · exact Or.inl h
  · right
    rw [cpiBurn_ok] at hL1
    have be := splBurn_eff hL1.2.2
    obtain ⟨r, _, hr⟩ := be.supply
    rw [hx] at hr
    have n1 : st.key ≠ xa.key := fun h => token_ne_program (by rw [← stp, h, xap])
    have n2 : st.key ≠ xm.key := fun h => token_ne_program (by rw [← stp, h, xmp])
    obtain ⟨_, _, hw1⟩ := convertXorcaToOrca_ok hw
    rw [be.frame.data_other (by simp [n1, n2]), checkedAddU64_none, e2, hw1, e4, e3] at hov
    refine ⟨?_, hov⟩
    rw [supply]; omega

theorem unstake_fail_clock {x : Ctx} {L : Ledger} {accs : List Meta} {a : UInt64} {i : UInt8}
    (h : processUnstake x L accs a i = .error (.custom .CoolDownOverflow)) :
    ∃ u st pw xa xm om v sp tp, UnstakeChecked x L accs a i u st pw xa xm om v sp tp ∧
      ¬ (-2 ^ 63 ≤ x.now.toInt + coolDown L st.key ∧ x.now.toInt + coolDown L st.key < 2 ^ 63) := by
  unfold processUnstake at h
  run_err at h
  obtain ⟨u, h0, st, h1, pw, h2, xa, h3, xm, h4, om, h5, v, h6, sp, h7, tp, h8, ⟨hs, hsw⟩, hx, ho, ht, hsp,
    stw, stp, tv, ⟨_, vp, vd, vo, vm⟩, pww, pwp, b, hb, txa, ⟨xaw, xap, xad, xao, xam⟩, hfunds, xmp, xmw,
    tm, hm, hauth, hfreeze, omp, tom, hom, sd, ⟨rfl, stl, std⟩, sta, va, n, hn, w, hw, hz, L1, hL1, sd1,
    ⟨rfl, st1l, _⟩, e, he, pda, hpda, L3, hL3, hov⟩ := h
  obtain ⟨c, e1, e2, e3⟩ := unstakeChecked_of h0 h1 h2 h3 h4 h5 h6 h7 h8 hs ho hx xad hfunds hm stp stl std sta va
    vp vd pwp hb
  rw [cpiBurn_ok] at hL1
  have be := splBurn_eff hL1.2.2
  have n1 : st.key ≠ xa.key := fun h => token_ne_program (by rw [← stp, h, xap])
  have n2 : st.key ≠ xm.key := fun h => token_ne_program (by rw [← stp, h, xmp])
  rw [checkedAddI64_none, Ledger.setData_same] at hov
  refine ⟨u, st, pw, xa, xm, om, v, sp, tp, c, ?_⟩
  have : (stCoolDown (setStEscrow (L1 st.key).data e)) = readI64 (L st.key).data 16 := by
    change readI64 (writeAt (L1 st.key).data 8 (u64le e)) 16 = _
    rw [readI64_writeAt_apart (by simp; omega) (by simp [Apart]), be.frame.data_other (by simp [n1, n2])]
  rw [this] at hov
  exact hov

/-- The checks that a Withdraw has passed when it compares the clock. -/
structure WithdrawChecked (x : Ctx) (L : Ledger) (accs : List Meta) (i : UInt8)
    (u st pw oa v om sp tp : Meta) : Prop where
  accs_eq : ∃ rest, accs = u :: st :: pw :: oa :: v :: om :: sp :: tp :: rest
  signer : u.isSigner = true
  st_prog : (L st.key).owner = PROGRAM_ID
  st_len : 2048 ≤ (L st.key).data.length
  st_disc : readU8 (L st.key).data 0 = 1
  st_addr : st.key = deriveAddress x.cr stateSeedsRaw (readU8 (L st.key).data 6) PROGRAM_ID
  pw_rec : IsRecord L pw.key
  pw_addr : pw.key = deriveAddress x.cr (pendingWithdrawSeedsRaw u.key [i]) (readU8 (L pw.key).data 6) PROGRAM_ID
  oa_prog : (L oa.key).owner = SPL_TOKEN_PROGRAM_ID
  v_prog : (L v.key).owner = SPL_TOKEN_PROGRAM_ID

theorem withdrawChecked_of {x : Ctx} {L : Ledger} {accs : List Meta} {i : UInt8}
    {u st pw oa v om sp tp : Meta}
    (h0 : accs[0]? = some u) (h1 : accs[1]? = some st) (h2 : accs[2]? = some pw) (h3 : accs[3]? = some oa)
    (h4 : accs[4]? = some v) (h5 : accs[5]? = some om) (h6 : accs[6]? = some sp) (h7 : accs[7]? = some tp)
    (hs : u.isSigner = true)
    (stp : (L st.key).owner = PROGRAM_ID) (stl : 2048 ≤ (L st.key).data.length)
    (std : readU8 (L st.key).data 0 = 1)
    (sta : st.key = deriveAddress x.cr stateSeedsRaw (stBump (L st.key).data) PROGRAM_ID)
    (pp : (L pw.key).owner = PROGRAM_ID) (pl : 1024 ≤ (L pw.key).data.length)
    (pd : readU8 (L pw.key).data 0 = 2)
    (pa : pw.key = deriveAddress x.cr (pendingWithdrawSeedsRaw u.key [i]) (pwBump (L pw.key).data) PROGRAM_ID)
    (op : (L oa.key).owner = SPL_TOKEN_PROGRAM_ID) (vp : (L v.key).owner = SPL_TOKEN_PROGRAM_ID) :
    WithdrawChecked x L accs i u st pw oa v om sp tp :=
  ⟨list8_of_getElem? h0 h1 h2 h3 h4 h5 h6 h7, hs, stp, stl, std, sta, ⟨pp, pl, pd⟩, pa, op, vp⟩

theorem withdraw_fail_clock {x : Ctx} {L : Ledger} {accs : List Meta} {i : UInt8}
    (h : processWithdraw x L accs i = .error (.custom .CoolDownPeriodStillActive)) :
    ∃ u st pw oa v om sp tp, WithdrawChecked x L accs i u st pw oa v om sp tp ∧
      x.now.toInt < recTime L pw.key := by
  unfold processWithdraw at h
  run_err at h
  obtain ⟨u, h0, st, h1, pw, h2, oa, h3, v, h4, om, h5, sp, h6, tp, h7, ⟨hs, hsw⟩, ho, omp, stw, stp, sd,
    ⟨rfl, stl, std⟩, sta, va, pww, pwp, pd, ⟨rfl, pwl, pwd⟩, pwa, toa, ⟨oaw, oap, oad, oao, oam⟩, tv,
    ⟨vw, vp, vd, vo, vm⟩, hsp, ht, hc⟩ := h
  exact ⟨u, st, pw, oa, v, om, sp, tp,
    withdrawChecked_of h0 h1 h2 h3 h4 h5 h6 h7 hs stp stl std sta pwp pwl pwd pwa oap vp, not_not.1 hc⟩

theorem splTransfer_frame {L L' : Ledger} {src dst auth : Pubkey} {n : UInt64}
    (h : splTransfer L src dst auth n = .ok L') : DataFrame L L' [src, dst] := by
  by_cases hne : src = dst
  · unfold splTransfer at h
    simp only [bind_eq_ok, exists_unit, ensure_eq_ok, if_pos hne, Except.ok.injEq] at h
    obtain ⟨_, _, _, _, _, _, _, _, _, _, _, rfl⟩ := h
    exact ⟨fun _ => rfl, fun _ => rfl, fun _ _ => rfl⟩
  · exact (splTransfer_eff hne h).frame

theorem closeProgramAccount_data {L L' : Ledger} {a b k : Pubkey} (h : closeProgramAccount L a b = .ok L')
    (hk : k ≠ a) : (L' k).data = (L k).data := by
  unfold closeProgramAccount at h
  simp only [bind_eq_ok, Except.ok.injEq] at h
  obtain ⟨d, _, rfl⟩ := h
  rw [Ledger.set_other _ _ hk, Ledger.setData_other _ _ hk, Ledger.setLamports_other _ _ hk]
  simp [Ledger.setData_data, hk]

theorem withdraw_fail_escrow {x : Ctx} {L : Ledger} {accs : List Meta} {i : UInt8}
    (h : processWithdraw x L accs i = .error (.custom .InsufficientEscrow)) :
    ∃ u st pw oa v om sp tp, WithdrawChecked x L accs i u st pw oa v om sp tp ∧
      escrow L st.key < recAmount L pw.key := by
  unfold processWithdraw at h
  run_err at h
  obtain ⟨u, h0, st, h1, pw, h2, oa, h3, v, h4, om, h5, sp, h6, tp, h7, ⟨hs, hsw⟩, ho, omp, stw, stp, sd,
    ⟨rfl, stl, std⟩, sta, va, pww, pwp, pd, ⟨rfl, pwl, pwd⟩, pwa, toa, ⟨oaw, oap, oad, oao, oam⟩, tv,
    ⟨vw, vp, vd, vo, vm⟩, hsp, ht, hc, h⟩ := h
  refine ⟨u, st, pw, oa, v, om, sp, tp,
    withdrawChecked_of h0 h1 h2 h3 h4 h5 h6 h7 hs stp stl std sta pwp pwl pwd pwa oap vp, ?_⟩
  rcases h with h | ⟨h, pda, _, L1, hL1, L2, hL2, sd2, ⟨rfl, _, _⟩, hb⟩
  · exact not_not.1 h
  · rw [cpiTokenTransfer_ok] at hL1
    have n1 : st.key ≠ pw.key := fun h => by rw [h, pwd] at std; exact absurd std (by decide)
    have n2 : st.key ≠ oa.key := fun h => token_ne_program (by rw [← stp, h, oap])
    have n3 : st.key ≠ v.key := fun h => token_ne_program (by rw [← stp, h, vp])
    rw [closeProgramAccount_data hL2 n1, (splTransfer_frame hL1.2.2).data_other (by simp [n2, n3]),
      checkedSubU64_none] at hb
    exact hb

/-! ### Panics -/

theorem stake_no_panic {x : Ctx} {L : Ledger} {accs : List Meta} {a : UInt64}
    (h : processStake x L accs a = .error .panicked) : False := by
  unfold processStake at h
  run_err at h

theorem set_no_panic {x : Ctx} {L : Ledger} {accs : List Meta} {u : StateUpdateInstruction}
    (h : processSet x L accs u = .error .panicked) : False := by
  unfold processSet at h
  cases u <;> run_err at h

theorem systemTransfer_data {L L' : Ledger} {a b : Pubkey} {n : UInt64} (h : systemTransfer L a b n = .ok L')
    (k : Pubkey) : (L' k).data = (L k).data := by
  unfold systemTransfer at h
  simp only [bind_eq_ok, exists_unit, ensure_eq_ok, okOr_eq_ok, Except.ok.injEq] at h
  obtain ⟨_, _, _, v, _, rfl⟩ := h
  simp

theorem systemAssign_data {L L' : Ledger} {a o : Pubkey} (h : systemAssign L a o = .ok L')
    (k : Pubkey) : (L' k).data = (L k).data := by
  unfold systemAssign at h
  split at h
  · cases h; rfl
  · simp only [bind_eq_ok, exists_unit, ensure_eq_ok, Except.ok.injEq] at h
    obtain ⟨_, rfl⟩ := h
    by_cases hk : k = a
    · subst hk; simp
    · rw [Ledger.set_other _ _ hk]

theorem createAccountSecure_data {x : Ctx} {c : Caller} {L L' : Ledger} {a b o : Pubkey} {n : Nat}
    (hb : (L b).owner = SYSTEM_PROGRAM_ID)
    (h : createAccountSecure x c L a b n o = .ok L') : (L' b).data.length = n := by
  have key : ∀ L1 L2 L3, systemAllocate L1 b n = .ok L2 → systemAssign L2 b o = .ok L3 →
      (L3 b).data.length = n := by
    intro L1 L2 L3 h1 h2
    rw [systemAllocate_ok] at h1
    rw [systemAssign_data h2, ← h1.2.2]
    simp
  unfold createAccountSecure at h
  rw [if_neg (by simp [hb])] at h
  simp only at h
  split at h
  · rw [cpiCreateAccount_ok] at h
    have h := h.2.2
    unfold systemCreateAccount at h
    simp only [bind_eq_ok, exists_unit, ensure_eq_ok] at h
    obtain ⟨_, L1, h1, L2, h2, h3⟩ := h
    rw [systemTransfer_data h3]
    exact key _ _ _ h1 h2
  · generalize (if (x.rentMin n).toNat ≤ (L b).lamports.toNat then (0 : UInt64)
      else x.rentMin n - (L b).lamports) = t at h
    by_cases ht : 0 < t.toNat
    · simp only [if_pos ht, bind_eq_ok, cpiAllocate_ok, cpiAssign_ok] at h
      obtain ⟨L1, _, L2, h2, h3⟩ := h
      exact key _ _ _ h2.2.2 h3.2.2
    · simp only [if_neg ht, bind_eq_ok, cpiAllocate_ok, cpiAssign_ok] at h
      obtain ⟨L1, _, L2, h2, h3⟩ := h
      exact key _ _ _ h2.2.2 h3.2.2

theorem createPendingWithdrawSecure_no_panic {x : Ctx} {c : Caller} {L : Ledger} {a b : Pubkey}
    (hb : (L b).owner = SYSTEM_PROGRAM_ID) (h : createPendingWithdrawSecure x c L a b = .error .panicked) :
    False := by
  unfold createPendingWithdrawSecure at h
  simp only [bind_eq_err, createAccountSecure_cpi.no (e := .panicked) (by simp), setByte0_err, reduceCtorEq,
    and_false, or_false, exists_false, false_or] at h
  obtain ⟨L1, h1, h2, _⟩ := h
  have := createAccountSecure_data hb h1
  rw [h2] at this
  simp [PENDING_WITHDRAW_LEN] at this

theorem unstake_panic {x : Ctx} {L : Ledger} {accs : List Meta} {a : UInt64} {i : UInt8}
    (h : processUnstake x L accs a i = .error .panicked) :
    ∃ u : Meta, accs[0]? = some u ∧ findProgramAddress x.cr (pendingWithdrawSeedsRaw u.key [i]) PROGRAM_ID = none := by
  unfold processUnstake at h
  run_err at h
  obtain ⟨u, h0, st, h1, pw, h2, xa, h3, xm, h4, om, h5, v, h6, sp, h7, tp, h8, ⟨hs, hsw⟩, hx, ho, ht, hsp,
    stw, stp, tv, ⟨_, vp, vd, vo, vm⟩, pww, pwp, h⟩ := h
  rcases h with h | ⟨b, hb, txa, ⟨xaw, xap, xad, xao, xam⟩, hfunds, xmp, xmw,
    tm, hm, hauth, hfreeze, omp, tom, hom, sd, ⟨rfl, stl, std⟩, sta, va, n, hn, w, hw, hz, L1, hL1, sd1,
    ⟨rfl, st1l, _⟩, e, he, pda, hpda, h⟩
  · exact ⟨u, h0, h⟩
  · rw [cpiBurn_ok] at hL1
    refine (createPendingWithdrawSecure_no_panic ?_ h).elim
    rw [Ledger.setData_owner, (splBurn_eff hL1.2.2).frame.owner, pwp]

theorem withdraw_no_panic {x : Ctx} {L : Ledger} {accs : List Meta} {i : UInt8}
    (h : processWithdraw x L accs i = .error .panicked) : False := by
  unfold processWithdraw at h
  run_err at h
  obtain ⟨u, h0, st, h1, pw, h2, oa, h3, v, h4, om, h5, sp, h6, tp, h7, ⟨hs, hsw⟩, ho, omp, stw, stp, sd,
    ⟨rfl, stl, std⟩, sta, va, pww, pwp, pd, ⟨rfl, pwl, pwd⟩, pwa, toa, ⟨oaw, oap, oad, oao, oam⟩, tv,
    ⟨vw, vp, vd, vo, vm⟩, hsp, ht, hc, h, pda, _, L1, hL1, h⟩ := h
  rw [cpiTokenTransfer_ok] at hL1
  have n2 : pw.key ≠ oa.key := fun h => token_ne_program (by rw [← pwp, h, oap])
  have n3 : pw.key ≠ v.key := fun h => token_ne_program (by rw [← pwp, h, vp])
  rw [(splTransfer_frame hL1.2.2).data_other (by simp [n2, n3])] at h
  rw [h] at pwl
  simp at pwl

theorem initialize_panic {x : Ctx} {L : Ledger} {accs : List Meta} {c : Int64}
    (h : processInitialize x L accs c = .error .panicked) :
    ∃ st : Meta, accs[2]? = some st ∧ (findProgramAddress x.cr stateSeedsRaw PROGRAM_ID = none ∨
      findProgramAddress x.cr (vaultSeedsRaw st.key SPL_TOKEN_PROGRAM_ID ORCA_MINT_ID)
        ASSOCIATED_TOKEN_PROGRAM_ID = none) := by
  unfold processInitialize at h
  run_err at h
  obtain ⟨p, h0, au, h1, st, h2, v, h3, xm, h4, om, h5, sp, h6, tp, h7, ap, h8, _, _, _, h⟩ := h
  rcases h with h | ⟨b, hb, _, _, _, tm, _, _, _, _, _, _, _, _, _, tm2, _, hom, _, _, _, _, _, _, _, h⟩
  · exact ⟨st, h2, Or.inl h⟩
  rw [hom] at h
  rcases h with h | ⟨vb, hvb, h⟩
  · exact ⟨st, h2, Or.inr h⟩
  rcases h with h | ⟨vb', hvb', _, pda, _, L1, _, h⟩
  · exact ⟨st, h2, Or.inr h⟩
  rcases cpiCreateAtaIdempotent_err h with ⟨c, h⟩ | h
  · cases h
  · exact ⟨st, h2, Or.inr h.2⟩

end Xorca
