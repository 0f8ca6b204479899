import Verif.Lemmas.DemoCalls
import Verif.Lemmas.Exec
/-
C01, C02, C14, C15, C16, C23, C25, C27, C29: what each instruction did when it succeeded.
The accounts are named by their position in the call.
-/
namespace Xorca.Props

open Spec

variable {x : Ctx} {L L' : Ledger} {logs : List Bytes} {rest : List Meta}

/-! ### C16, C01: Stake -/

/-- Stake: the exact change of every account. -/
theorem C16_stake_effects {s v oa xa xm st om tp : Meta} {a : UInt64}
    (h : Runs x L (s :: v :: oa :: xa :: xm :: st :: om :: tp :: rest) (.Stake a) L' logs)
    (hs : SignersOk x.cr L (s :: v :: oa :: xa :: xm :: st :: om :: tp :: rest)) :
    -- who signs and whose accounts are used
    s.isSigner = true ∧ ownerOf L oa.key = s.key ∧ mintOf L oa.key = ORCA_MINT_ID ∧
    ownerOf L xa.key = s.key ∧ mintOf L xa.key = XORCA_MINT_ID ∧
    ownerOf L v.key = st.key ∧ mintOf L v.key = ORCA_MINT_ID ∧
    -- amounts
    balance L' oa.key + a.toNat = balance L oa.key ∧
    balance L' v.key = balance L v.key + a.toNat ∧
    (∃ m, balance L' xa.key = balance L xa.key + m ∧
      supply L' XORCA_MINT_ID = supply L XORCA_MINT_ID + m) ∧
    -- nothing else
    SameExcept 64 8 (L v.key).data (L' v.key).data ∧
    SameExcept 64 8 (L xa.key).data (L' xa.key).data ∧
    SameExcept 36 8 (L XORCA_MINT_ID).data (L' XORCA_MINT_ID).data ∧
    mintOf L' oa.key = mintOf L oa.key ∧ ownerOf L' oa.key = ownerOf L oa.key ∧
    (∀ k, (L' k).owner = (L k).owner ∧ (L' k).lamports = (L k).lamports) ∧
    L' st.key = L st.key ∧
    (∀ k, k ∉ [oa.key, v.key, xa.key, XORCA_MINT_ID] → L' k = L k) := by
  obtain ⟨L1, m, r⟩ := h.stake
  have e := r.eff hs
  obtain ⟨w1, a1, a2⟩ := e.oa_data
  obtain ⟨w2, b1, b2⟩ := e.v_data
  obtain ⟨w3, c1, c2⟩ := e.xa_data
  obtain ⟨w4, d1, d2⟩ := e.xm_data
  have l2 := e.v_ok.len
  have l3 := e.xa_ok.len
  have l4 := e.xm_ok.len
  refine ⟨r.signer, r.oa_owner, r.oa_mint, r.xa_owner, r.xa_mint, r.v_owner, r.v_mint, ?_, ?_,
    ⟨m.toNat, ?_, ?_⟩, ?_, ?_, ?_, a1.mint, a1.owner, fun k => ⟨e.frame.owner k, e.frame.lamports k⟩, ?_,
    e.frame.other⟩
  · rw [balance_of_amountSet a1, a2]
  · rw [balance_of_writeAt (by omega) b1, b2]
  · rw [balance_of_writeAt (by omega) c1, c2]
  · rw [supply_of_writeAt (by omega) d1, d2]
  · rw [b1, ← u64le_length w2]; exact sameExcept_writeAt (by simp; omega)
  · rw [c1, ← u64le_length w3]; exact sameExcept_writeAt (by simp; omega)
  · rw [d1, ← u64le_length w4]; exact sameExcept_writeAt (by simp; omega)
  · exact e.frame.other _ (by simp [e.st_ne])

example := C16_stake_effects (x := Demo.ctx 1002) Demo.run4 Demo.signers4

/-- Stake mints exactly the amount of the published formula, to the staker and to the supply. -/
theorem C01_exact_mint_amount {s v oa xa xm st om tp : Meta} {a : UInt64}
    (h : Runs x L (s :: v :: oa :: xa :: xm :: st :: om :: tp :: rest) (.Stake a) L' logs)
    (hs : SignersOk x.cr L (s :: v :: oa :: xa :: xm :: st :: om :: tp :: rest)) :
    let N := balance L v.key - escrow L st.key
    let S := supply L XORCA_MINT_ID
    let minted := mintFor a.toNat N S
    escrow L st.key ≤ balance L v.key ∧
    supply L' XORCA_MINT_ID = S + minted ∧ balance L' xa.key = balance L xa.key + minted ∧ 0 < minted := by
  obtain ⟨L1, m, r⟩ := h.stake
  have e := r.eff hs
  obtain ⟨w3, c1, c2⟩ := e.xa_data
  obtain ⟨w4, d1, d2⟩ := e.xm_data
  have l3 := e.xa_ok.len
  have l4 := e.xm_ok.len
  have hm := r.minted
  have hp := u64_ne_zero_iff.1 r.minted_pos
  simp only [backing] at hm
  refine ⟨r.solvent, ?_, ?_, ?_⟩
  · rw [supply_of_writeAt (by omega) d1, d2, hm]
  · rw [balance_of_writeAt (by omega) c1, c2, hm]
  · rw [← hm]; omega

/-- 300000 ORCA units staked into a pool of 1500000 backing 1000000 xORCA. -/
example : supply Demo.L4 XORCA_MINT_ID = 1000000 + mintFor 300000 1500000 1000000 ∧
    mintFor 300000 1500000 1000000 = 200006 ∧ balance Demo.L4 Demo.UX = balance Demo.L3 Demo.UX + 200006 := by
  decide +kernel
example := C01_exact_mint_amount (x := Demo.ctx 1002) Demo.run4 Demo.signers4

/-! ### C15, C02: Unstake -/

/-- Unstake: the exact change of every account. -/
theorem C15_unstake_effects {u st pw xa xm om v sp tp : Meta} {a : UInt64} {i : UInt8}
    (h : Runs x L (u :: st :: pw :: xa :: xm :: om :: v :: sp :: tp :: rest) (.Unstake a i) L' logs)
    (hs : SignersOk x.cr L (u :: st :: pw :: xa :: xm :: om :: v :: sp :: tp :: rest)) :
    -- who signs, whose accounts are used, where the record goes
    u.isSigner = true ∧ ownerOf L xa.key = u.key ∧ mintOf L xa.key = XORCA_MINT_ID ∧
    (∃ b, RecordAddr x.cr u.key i pw.key b) ∧
    -- amounts
    balance L' xa.key + a.toNat = balance L xa.key ∧
    supply L' XORCA_MINT_ID + a.toNat = supply L XORCA_MINT_ID ∧
    L' v.key = L v.key ∧
    -- the new record
    ((L pw.key).owner = SYSTEM_PROGRAM_ID ∧ (L pw.key).data = []) ∧
    IsRecord L' pw.key ∧ (L' pw.key).data.length = 1024 ∧
    recOwner L' pw.key = u.key ∧ recIndex L' pw.key = i ∧
    escrow L' st.key = escrow L st.key + recAmount L' pw.key ∧
    recTime L' pw.key = x.now.toInt + coolDown L st.key ∧
    -- nothing else
    SameExcept 8 8 (L st.key).data (L' st.key).data ∧
    SameExcept 36 8 (L XORCA_MINT_ID).data (L' XORCA_MINT_ID).data ∧
    mintOf L' xa.key = mintOf L xa.key ∧ ownerOf L' xa.key = ownerOf L xa.key ∧
    (∀ k, k ≠ pw.key → (L' k).owner = (L k).owner) ∧
    (∀ k, k ∉ [pw.key, u.key] → (L' k).lamports = (L k).lamports) ∧
    (∀ k, k ∉ [pw.key, xa.key, XORCA_MINT_ID, st.key] → (L' k).data = (L k).data) := by
  obtain ⟨L1, L3, w, e', ts, b, r⟩ := h.unstake
  have e := (r.eff hs).1
  obtain ⟨w1, a1, a2⟩ := e.xa_data
  obtain ⟨w4, d1, d2⟩ := e.xm_data
  obtain ⟨l, n1, n2⟩ := e.pw_new
  have l4 := e.xm_ok.len
  have l5 := r.st_len
  obtain ⟨f1, f2, f3, f4, f5, f6⟩ := recordBytes_fields b i u.key w ts
  have hesc : Spec.escrow L' st.key = e'.toNat := escrow_of_writeAt (by omega) e.st_data
  have hamt : recAmount L' pw.key = w.toNat := by rw [recAmount, n1]; simp only; rw [f5]
  have hv : L' v.key = L v.key := by
    apply account_ext
    · by_cases hvu : v.key = u.key
      · have h1 := e.paid
        rcases e.payer with hp | hp
        · rw [← hvu, r.v_prog] at hp; exact absurd hp token_ne_system
        · rw [hvu, ← UInt64.toNat_inj]; omega
      · exact e.lamports _ (by simp [e.pw_ne.2.2.2.symm, hvu])
    · exact e.owner _ e.pw_ne.2.2.2.symm
    · exact e.data _ (by simp [e.pw_ne.2.2.2.symm, e.v_ne, e.st_ne.2.2.2.symm])
  refine ⟨r.signer, r.xa_owner, r.xa_mint, ⟨b, r.pw_find⟩, ?_, ?_, hv, ⟨r.pw_prog, by rw [e.pw_fresh]⟩, ?_, ?_,
    ?_, ?_, ?_, ?_, ?_, ?_, a1.mint, a1.owner, e.owner, e.lamports, e.data⟩
  · rw [balance_of_amountSet a1, a2]
  · rw [supply_of_writeAt (by omega) d1, d2]
  · rw [IsRecord, n1]; exact ⟨rfl, by rw [recordBytes_length], f1⟩
  · rw [n1, recordBytes_length]
  · rw [recOwner, n1]; exact f4
  · rw [recIndex, n1]; exact f3
  · rw [hesc, hamt, e.escrow]
  · rw [recTime, n1]; simp only; rw [f6, e.maturity]
  · rw [e.st_data, ← u64le_length e']; exact sameExcept_writeAt (by simp; omega)
  · rw [d1, ← u64le_length w4]; exact sameExcept_writeAt (by simp; omega)

example := C15_unstake_effects (x := Demo.ctx 1003) Demo.run5 Demo.signers5

/-- Unstake sets aside exactly the amount of the published formula. -/
theorem C02_exact_redemption_amount {u st pw xa xm om v sp tp : Meta} {a : UInt64} {i : UInt8}
    (h : Runs x L (u :: st :: pw :: xa :: xm :: om :: v :: sp :: tp :: rest) (.Unstake a i) L' logs)
    (hs : SignersOk x.cr L (u :: st :: pw :: xa :: xm :: om :: v :: sp :: tp :: rest)) :
    let N := balance L v.key - escrow L st.key
    let S := supply L XORCA_MINT_ID
    escrow L st.key ≤ balance L v.key ∧ S ≠ 0 ∧ N ≠ 0 ∧
    recAmount L' pw.key = a.toNat * (N + 100) / (S + 100) ∧
    escrow L' st.key = escrow L st.key + a.toNat * (N + 100) / (S + 100) ∧
    0 < recAmount L' pw.key := by
  have hc := C15_unstake_effects h hs
  obtain ⟨L1, L3, w, e', ts, b, r⟩ := h.unstake
  have e := (r.eff hs).1
  obtain ⟨l, n1, n2⟩ := e.pw_new
  obtain ⟨f1, f2, f3, f4, f5, f6⟩ := recordBytes_fields b i u.key w ts
  have hamt : recAmount L' pw.key = w.toNat := by rw [recAmount, n1]; simp only; rw [f5]
  have hw := r.amount
  have hp := u64_ne_zero_iff.1 r.amount_pos
  simp only [redeemFor, backing] at hw
  refine ⟨r.solvent, r.supply_pos, r.backing_pos, by rw [hamt, hw], ?_, by omega⟩
  rw [hc.2.2.2.2.2.2.2.2.2.2.2.2.1, hamt, hw]

example : recAmount Demo.L5 Demo.R255 = 600000 * (1800000 + 100) / (1200006 + 100) ∧
    recAmount Demo.L5 Demo.R255 = 899970 ∧ recTime Demo.L5 Demo.R255 = 1003 + 100 := by decide +kernel
example := C02_exact_redemption_amount (x := Demo.ctx 1003) Demo.run5 Demo.signers5

/-! ### C14: Withdraw -/

/-- Withdraw: the exact change of every account. -/
theorem C14_withdraw_effects {u st pw oa v om sp tp : Meta} {i : UInt8}
    (h : Runs x L (u :: st :: pw :: oa :: v :: om :: sp :: tp :: rest) (.Withdraw i) L' logs)
    (hs : SignersOk x.cr L (u :: st :: pw :: oa :: v :: om :: sp :: tp :: rest)) :
    -- who signs, what is read
    u.isSigner = true ∧ ownerOf L oa.key = u.key ∧ mintOf L oa.key = ORCA_MINT_ID ∧
    IsRecord L pw.key ∧ recTime L pw.key ≤ x.now.toInt ∧
    -- amounts
    balance L' oa.key = balance L oa.key + recAmount L pw.key ∧
    balance L' v.key + recAmount L pw.key = balance L v.key ∧
    escrow L' st.key + recAmount L pw.key = escrow L st.key ∧
    -- the record is destroyed, its rent goes to the unstaker
    L' pw.key = ⟨0, SYSTEM_PROGRAM_ID, []⟩ ∧
    (L' u.key).lamports = (L u.key).lamports + (L pw.key).lamports ∧
    -- nothing else
    SameExcept 8 8 (L st.key).data (L' st.key).data ∧
    SameExcept 64 8 (L oa.key).data (L' oa.key).data ∧
    mintOf L' v.key = mintOf L v.key ∧ ownerOf L' v.key = ownerOf L v.key ∧
    (XORCA_MINT_ID ≠ pw.key → supply L' XORCA_MINT_ID = supply L XORCA_MINT_ID) ∧
    (∀ k, k ≠ pw.key → (L' k).owner = (L k).owner) ∧
    (∀ k, k ∉ [pw.key, u.key] → (L' k).lamports = (L k).lamports) ∧
    (∀ k, k ∉ [pw.key, oa.key, v.key, st.key] → (L' k).data = (L k).data) := by
  obtain ⟨L1, L2, e', r⟩ := h.withdraw
  have e := (r.eff hs).1
  obtain ⟨w1, a1, a2⟩ := e.v_data
  obtain ⟨w2, b1, b2⟩ := e.oa_data
  have l2 := e.oa_ok.len
  have l5 := r.st_len
  have hsup : XORCA_MINT_ID ≠ pw.key → supply L' XORCA_MINT_ID = supply L XORCA_MINT_ID := by
    intro h4
    by_cases h1 : XORCA_MINT_ID = v.key
    · rw [h1, supply, supply, readU64, readU64, slice_eq_of_slice_eq a1.head (by omega) (by omega)]
    by_cases h2 : XORCA_MINT_ID = oa.key
    · rw [h2, supply, supply, b1, readU64_writeAt_apart (by simp; omega) (by simp [Apart])]
    by_cases h3 : XORCA_MINT_ID = st.key
    · rw [h3, supply, supply, e.st_data, readU64_writeAt_apart (by simp; omega) (by simp [Apart])]
    · rw [supply, supply, e.data _ (by simp [h1, h2, h3, h4])]
  refine ⟨r.signer, r.oa_owner, r.oa_mint, ⟨r.pw_prog, r.pw_len, r.pw_disc⟩, r.mature, ?_, ?_, ?_, e.pw_closed,
    e.refund, ?_, ?_, a1.mint, a1.owner, hsup, e.owner, e.lamports, e.data⟩
  · rw [balance_of_writeAt (by omega) b1, b2]
  · rw [balance_of_amountSet a1, a2]
  · rw [escrow_of_writeAt (by omega) e.st_data, e.escrow]
  · rw [e.st_data, ← u64le_length e']; exact sameExcept_writeAt (by simp; omega)
  · rw [b1, ← u64le_length w2]; exact sameExcept_writeAt (by simp; omega)

example : balance Demo.L9 Demo.UO = balance Demo.L8 Demo.UO + 899970 := by decide +kernel
example := C14_withdraw_effects (x := Demo.ctx 1103) Demo.run9 Demo.signers9

/-! ### C23: Set -/

/-- Set of the cool-down: signed by the stored authority; only that field changes. -/
theorem C23_set_cool_down {a st : Meta} {c : Int64}
    (h : Runs x L (a :: st :: rest) (.Set (.UpdateCoolDownPeriod c)) L' logs) :
    a.isSigner = true ∧ a.key = authority L st.key ∧
    (L st.key).owner = PROGRAM_ID ∧ readU8 (L st.key).data 0 = 1 ∧
    0 ≤ c.toInt ∧ coolDown L' st.key = c.toInt ∧
    SameExcept 16 8 (L st.key).data (L' st.key).data ∧
    (L' st.key).owner = (L st.key).owner ∧ (L' st.key).lamports = (L st.key).lamports ∧
    (∀ k, k ≠ st.key → L' k = L k) ∧ logs = [] := by
  obtain ⟨r, h1, rfl, h3⟩ := h.set_coolDown
  have l := r.st_len
  refine ⟨r.signer, r.auth, r.st_prog, r.st_disc, h1, ?_, ?_, by simp, by simp,
    fun k hk => Ledger.setData_other _ _ hk, h3⟩
  · rw [coolDown]; simp only [Ledger.setData_same]; rw [readI64_writeAt_same (by omega)]
  · simp only [Ledger.setData_same]; rw [← i64le_length c]; exact sameExcept_writeAt (by simp; omega)

example : coolDown Demo.L6 Demo.ST = 100 ∧ coolDown Demo.L7 Demo.ST = 50 := by decide +kernel
example := C23_set_cool_down Demo.run7

/-- Set of the authority: signed by the stored authority; only that field changes. -/
theorem C23_set_authority {a st : Meta} {n : Pubkey}
    (h : Runs x L (a :: st :: rest) (.Set (.UpdateUpdateAuthority n)) L' logs) :
    a.isSigner = true ∧ a.key = authority L st.key ∧
    (L st.key).owner = PROGRAM_ID ∧ readU8 (L st.key).data 0 = 1 ∧
    authority L' st.key = n ∧
    SameExcept 24 32 (L st.key).data (L' st.key).data ∧
    (L' st.key).owner = (L st.key).owner ∧ (L' st.key).lamports = (L st.key).lamports ∧
    (∀ k, k ≠ st.key → L' k = L k) := by
  obtain ⟨r, rfl, h3⟩ := h.set_authority
  have l := r.st_len
  refine ⟨r.signer, r.auth, r.st_prog, r.st_disc, ?_, ?_, by simp, by simp,
    fun k hk => Ledger.setData_other _ _ hk⟩
  · rw [authority]; simp only [Ledger.setData_same]; rw [readKey_writeAt_same (by omega)]
  · simp only [Ledger.setData_same]; rw [← n.len]; exact sameExcept_writeAt (by rw [n.len]; omega)

example : authority Demo.L7 Demo.ST = Demo.US ∧ authority Demo.L8 Demo.ST = Demo.AU := by decide +kernel
example := C23_set_authority Demo.run8

/-! ### C25, C27: Initialize -/

/-- Initialize: signed by the deployer and the new authority; the state and the vault are created with
exactly the requested contents; nothing else changes but the payer's lamports. -/
theorem C25_initialize_effects {p au st v xm om sp tp ap : Meta} {c : Int64}
    (h : Runs x L (p :: au :: st :: v :: xm :: om :: sp :: tp :: ap :: rest) (.Initialize c) L' logs)
    (hs : SignersOk x.cr L (p :: au :: st :: v :: xm :: om :: sp :: tp :: ap :: rest)) :
    p.isSigner = true ∧ p.key = DEPLOYER_ADDRESS ∧ au.isSigner = true ∧ 0 ≤ c.toInt ∧
    -- the addresses
    ∃ b vb, StateAddr x.cr st.key b ∧ VaultAddr x.cr st.key v.key vb ∧
    -- nothing was there before
    (L st.key).owner = SYSTEM_PROGRAM_ID ∧ (L st.key).data = [] ∧
    (L v.key).owner = SYSTEM_PROGRAM_ID ∧ (L v.key).data = [] ∧
    -- the state: tag, padding, bumps, zero escrow, cool-down, authority, padding
    (L' st.key).owner = PROGRAM_ID ∧
    (L' st.key).data = [1] ++ List.replicate 5 0 ++ [b, vb] ++ leBytes 8 0 ++ i64le c ++ au.key.bytes ++
      List.replicate 1992 0 ∧
    -- the vault: an empty ORCA account owned by the state, without delegate or close authority
    (L' v.key).owner = SPL_TOKEN_PROGRAM_ID ∧
    (L' v.key).data = ORCA_MINT_ID.bytes ++ st.key.bytes ++ List.replicate 44 0 ++ [1] ++
      List.replicate 56 0 ∧
    -- rent
    (x.rentMin 2048).toNat ≤ (L' st.key).lamports.toNat ∧ (x.rentMin 165).toNat ≤ (L' v.key).lamports.toNat ∧
    (L' p.key).owner = (L p.key).owner ∧ (L' p.key).data = (L p.key).data ∧
    (∀ k, k ∉ [p.key, st.key, v.key] → L' k = L k) ∧ logs = [] := by
  obtain ⟨L1, b, vb, r⟩ := h.init
  have e := r.eff hs
  obtain ⟨l, n1, n2⟩ := e.st_new
  obtain ⟨m, m1, m2⟩ := e.v_new
  obtain ⟨q, q1, q2⟩ := e.paid
  refine ⟨r.signer, r.deployer, r.au_signer, r.cool, b, vb, r.st_find, r.v_find, r.st_sys, r.st_empty,
    r.v_sys, ?_, by rw [n1], ?_, by rw [m1], ?_, ?_, ?_, by rw [q1], by rw [q1], e.other, r.log⟩
  · rw [e.v_fresh]
  · rw [n1]
    simp only [initialStateBytes, State.serialize, AccountDiscriminator.toU8, List.append_assoc]
    rfl
  · rw [m1]; rfl
  · rw [n1]; simp only; omega
  · rw [m1]; simp only; omega

example := C25_initialize_effects (x := Demo.ctx 1000) Demo.run1 Demo.signers1

/-- Initialize accepts the xORCA mint only with zero supply, six decimals, the state as mint authority and
no freeze authority; and leaves it as it is. -/
theorem C27_fresh_safe_mint {p au st v xm om sp tp ap : Meta} {c : Int64}
    (h : Runs x L (p :: au :: st :: v :: xm :: om :: sp :: tp :: ap :: rest) (.Initialize c) L' logs)
    (hs : SignersOk x.cr L (p :: au :: st :: v :: xm :: om :: sp :: tp :: ap :: rest)) :
    xm.key = XORCA_MINT_ID ∧ om.key = ORCA_MINT_ID ∧
    (L XORCA_MINT_ID).owner = SPL_TOKEN_PROGRAM_ID ∧ (L ORCA_MINT_ID).owner = SPL_TOKEN_PROGRAM_ID ∧
    supply L XORCA_MINT_ID = 0 ∧
    -- mint authority: present and the state account
    readU32 (L XORCA_MINT_ID).data 0 = 1 ∧ readKey (L XORCA_MINT_ID).data 4 = st.key ∧
    -- decimals
    readU8 (L XORCA_MINT_ID).data 44 = 6 ∧ readU8 (L ORCA_MINT_ID).data 44 = 6 ∧
    -- freeze authority: absent
    readU32 (L XORCA_MINT_ID).data 46 = 0 ∧
    (L' XORCA_MINT_ID).data = (L XORCA_MINT_ID).data ∧ (L' XORCA_MINT_ID).owner = SPL_TOKEN_PROGRAM_ID := by
  obtain ⟨L1, b, vb, r⟩ := h.init
  have e := r.eff hs
  have hx : (L' XORCA_MINT_ID).data = (L XORCA_MINT_ID).data ∧
      (L' XORCA_MINT_ID).owner = (L XORCA_MINT_ID).owner := by
    by_cases h1 : XORCA_MINT_ID = p.key
    · obtain ⟨q, q1, q2⟩ := e.paid
      rw [h1, q1]; exact ⟨rfl, rfl⟩
    · rw [e.other]
      · exact ⟨rfl, rfl⟩
      · have n1 : XORCA_MINT_ID ≠ st.key := fun h => token_ne_system (by rw [← r.st_sys, ← h, r.xm_prog])
        have n2 : XORCA_MINT_ID ≠ v.key := fun h => token_ne_system (by rw [← r.v_sys, ← h, r.xm_prog])
        simp [h1, n1, n2]
  exact ⟨r.xm_key, r.om_key, r.xm_prog, r.om_prog, r.xm_supply, r.xm_flag, r.xm_auth, r.xm_decimals,
    r.om_decimals, r.xm_freeze, hx.1, by rw [hx.2, r.xm_prog]⟩

example := C27_fresh_safe_mint (x := Demo.ctx 1000) Demo.run1 Demo.signers1

/-! ### C29: events -/

/-- The Stake event: exact bytes, from the accounts after the call. -/
theorem C29_stake_event {s v oa xa xm st om tp : Meta} {a : UInt64}
    (h : Runs x L (s :: v :: oa :: xa :: xm :: st :: om :: tp :: rest) (.Stake a) L' logs)
    (hs : SignersOk x.cr L (s :: v :: oa :: xa :: xm :: st :: om :: tp :: rest)) :
    logs = [[0] ++ leBytes 8 a.toNat ++ leBytes 8 (balance L' v.key) ++ leBytes 8 (escrow L' st.key) ++
      leBytes 8 (supply L' XORCA_MINT_ID) ++
      leBytes 8 (balance L' xa.key - balance L xa.key)] := by
  obtain ⟨L1, m, r⟩ := h.stake
  have e := r.eff hs
  obtain ⟨w2, b1, b2⟩ := e.v_data
  obtain ⟨w3, c1, c2⟩ := e.xa_data
  obtain ⟨w4, d1, d2⟩ := e.xm_data
  have l2 := e.v_ok.len
  have l3 := e.xa_ok.len
  have l4 := e.xm_ok.len
  have hst : L' st.key = L st.key := e.frame.other _ (by simp [e.st_ne])
  have t1 : (readU64 (L v.key).data 64 + a).toNat = w2.toNat := by
    have := w2.toNat_lt
    rw [UInt64.toNat_add, Nat.mod_eq_of_lt] <;> rw [balance] at b2 <;> omega
  have t2 : (readU64 (L XORCA_MINT_ID).data 36 + m).toNat = w4.toNat := by
    have := w4.toNat_lt
    rw [UInt64.toNat_add, Nat.mod_eq_of_lt] <;> rw [supply] at d2 <;> omega
  rw [r.log, balance_of_writeAt (by omega) b1, supply_of_writeAt (by omega) d1,
    balance_of_writeAt (by omega) c1, ← t1, ← t2, c2, Nat.add_sub_cancel_left, escrow, hst]
  rfl

example := C29_stake_event (x := Demo.ctx 1002) Demo.run4 Demo.signers4

/-- The Unstake event: exact bytes, from the accounts after the call. -/
theorem C29_unstake_event {u st pw xa xm om v sp tp : Meta} {a : UInt64} {i : UInt8}
    (h : Runs x L (u :: st :: pw :: xa :: xm :: om :: v :: sp :: tp :: rest) (.Unstake a i) L' logs)
    (hs : SignersOk x.cr L (u :: st :: pw :: xa :: xm :: om :: v :: sp :: tp :: rest)) :
    logs = [[1] ++ leBytes 8 a.toNat ++ leBytes 8 (balance L' v.key) ++ leBytes 8 (escrow L' st.key) ++
      leBytes 8 (supply L' XORCA_MINT_ID) ++ leBytes 8 (recAmount L' pw.key) ++
      i64le (Int64.ofInt (coolDown L' st.key)) ++ [recIndex L' pw.key]] := by
  obtain ⟨L1, L3, w, e', ts, b, r⟩ := h.unstake
  obtain ⟨e, hl⟩ := r.eff hs
  obtain ⟨l, n1, n2⟩ := e.pw_new
  obtain ⟨f1, f2, f3, f4, f5, f6⟩ := recordBytes_fields b i u.key w ts
  obtain ⟨w4, d1, d2⟩ := e.xm_data
  have l4 := e.xm_ok.len
  have l5 := r.st_len
  have t2 : (readU64 (L XORCA_MINT_ID).data 36 - a).toNat = w4.toNat := by
    rw [supply] at d2
    rw [u64_sub_toNat (by omega)]; omega
  have hb : balance L' v.key = balance L v.key := by
    rw [balance, e.data _ (by simp [e.st_ne.2.2.2.symm, e.pw_ne.2.2.2.symm, e.v_ne])]; rfl
  have hc : coolDown L' st.key = (readI64 (L st.key).data 16).toInt := by
    rw [coolDown, e.st_data, readI64_writeAt_apart (by simp; omega) (by simp [Apart])]
  rw [hl, hb, escrow_of_writeAt (by omega) e.st_data, supply_of_writeAt (by omega) d1, ← t2, hc, recAmount,
    recIndex, n1]
  simp only [f3, f5, Int64.ofInt_toInt]
  rfl

example := C29_unstake_event (x := Demo.ctx 1003) Demo.run5 Demo.signers5
example : Demo.logs5 = [[1] ++ leBytes 8 600000 ++ leBytes 8 1800000 ++ leBytes 8 899970 ++ leBytes 8 600006 ++
    leBytes 8 899970 ++ leBytes 8 100 ++ [255]] := by decide +kernel

/-- The Withdraw event: exact bytes, from the accounts after the call and the record before it. -/
theorem C29_withdraw_event {u st pw oa v om sp tp : Meta} {i : UInt8}
    (h : Runs x L (u :: st :: pw :: oa :: v :: om :: sp :: tp :: rest) (.Withdraw i) L' logs)
    (hs : SignersOk x.cr L (u :: st :: pw :: oa :: v :: om :: sp :: tp :: rest)) :
    logs = [[2] ++ leBytes 8 (escrow L' st.key) ++ leBytes 8 (balance L' oa.key - balance L oa.key) ++
      i64le (Int64.ofInt (coolDown L' st.key)) ++ [i]] := by
  obtain ⟨L1, L2, e', r⟩ := h.withdraw
  obtain ⟨e, hl⟩ := r.eff hs
  obtain ⟨w2, b1, b2⟩ := e.oa_data
  have l2 := e.oa_ok.len
  have l5 := r.st_len
  have hc : coolDown L' st.key = (readI64 (L st.key).data 16).toInt := by
    rw [coolDown, e.st_data, readI64_writeAt_apart (by simp; omega) (by simp [Apart])]
  rw [hl, escrow_of_writeAt (by omega) e.st_data, hc, balance_of_writeAt (by omega) b1, b2,
    Nat.add_sub_cancel_left, Int64.ofInt_toInt]
  rfl

example := C29_withdraw_event (x := Demo.ctx 1103) Demo.run9 Demo.signers9

/-- The authority-change event: the new authority as stored after the call, and the previous one. -/
theorem C29_set_authority_event {a st : Meta} {n : Pubkey}
    (h : Runs x L (a :: st :: rest) (.Set (.UpdateUpdateAuthority n)) L' logs) :
    logs = [[3] ++ (authority L' st.key).bytes ++ (authority L st.key).bytes] := by
  rw [(C23_set_authority h).2.2.2.2.1, h.set_authority.2.2]
  rfl

example := C29_set_authority_event Demo.run8

end Xorca.Props
