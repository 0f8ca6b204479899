import Verif.Lemmas.Roles
import Verif.Lemmas.DemoCalls
/-
C66: what every successful call has checked, in any ledger, reachable or not.

Several of these checks are redundant in reachable ledgers.  The theorems here do not assume reachability, so they fail
if any of the checks is dropped.
-/
namespace Xorca
open Spec

variable {x : Ctx} {L L' : Ledger} {accs : List Meta} {logs : List Bytes}

namespace Spec

/-- A token account of mint `m` and owner `o` as the program checks it. -/
def Holds (L : Ledger) (k m o : Pubkey) : Prop :=
  (L k).owner = SPL_TOKEN_PROGRAM_ID ∧ 165 ≤ (L k).data.length ∧ mintOf L k = m ∧ ownerOf L k = o

/-- A state account as the program checks it: owned by the program, long enough, tagged, and at the address that
belongs to the bump stored in it. -/
def StateChecked (cr : Crypto) (L : Ledger) (k : Pubkey) : Prop :=
  (L k).owner = PROGRAM_ID ∧ 2048 ≤ (L k).data.length ∧ readU8 (L k).data 0 = 1 ∧
    k = cr.sha256 (stateHashed (readU8 (L k).data 6))

/-- The vault address belongs to the vault bump stored in the state account. -/
def VaultChecked (cr : Crypto) (L : Ledger) (st v : Pubkey) : Prop :=
  v = cr.sha256 (vaultHashed st (readU8 (L st).data 7))

end Spec

theorem state_checked {k : Pubkey} {b : UInt8} {cr : Crypto} (h : k = deriveAddress cr stateSeedsRaw b PROGRAM_ID) :
    k = cr.sha256 (stateHashed b) := by
  rw [h]; rfl

theorem vault_checked {st v : Pubkey} {b : UInt8} {cr : Crypto}
    (h : v = deriveAddress cr (vaultSeedsRaw st SPL_TOKEN_PROGRAM_ID ORCA_MINT_ID) b ASSOCIATED_TOKEN_PROGRAM_ID) :
    v = cr.sha256 (vaultHashed st b) := by
  rw [h, deriveAddress, vaultHashed]
  congr 1
  simp [vaultSeedsRaw, pdaMarker, PDA_MARKER]

theorem record_checked {u k : Pubkey} {i b : UInt8} {cr : Crypto}
    (h : k = deriveAddress cr (pendingWithdrawSeedsRaw u [i]) b PROGRAM_ID) : k = cr.sha256 (recordHashed u i b) := by
  rw [h, deriveAddress, recordHashed]
  congr 1

/-- What a successful Stake has checked. -/
theorem C66_stake_checks {a : UInt64} (h : Runs x L accs (.Stake a) L' logs) :
    ∃ s v oa xa xm st om tp rest, accs = s :: v :: oa :: xa :: xm :: st :: om :: tp :: rest ∧
      (s.isSigner = true ∧ s.isWritable = true ∧ v.isWritable = true ∧ oa.isWritable = true ∧ xa.isWritable = true ∧
        xm.isWritable = true) ∧
      (xm.key = XORCA_MINT_ID ∧ om.key = ORCA_MINT_ID ∧ tp.key = SPL_TOKEN_PROGRAM_ID) ∧
      (L XORCA_MINT_ID).owner = SPL_TOKEN_PROGRAM_ID ∧ (L ORCA_MINT_ID).owner = SPL_TOKEN_PROGRAM_ID ∧
      Holds L oa.key ORCA_MINT_ID s.key ∧ Holds L xa.key XORCA_MINT_ID s.key ∧
      StateChecked x.cr L st.key ∧ x.cr.onCurve st.key = false ∧ VaultChecked x.cr L st.key v.key ∧
      Holds L v.key ORCA_MINT_ID st.key ∧
      a.toNat ≤ balance L oa.key ∧ escrow L st.key ≤ balance L v.key ∧
      0 < mintFor a.toNat (balance L v.key - escrow L st.key) (supply L XORCA_MINT_ID) := by
  obtain ⟨s, v, oa, xa, xm, st, om, tp, L1, m, r⟩ := processStake_run h.dispatch
  obtain ⟨rest, he⟩ := r.accs_eq
  have hm := r.minted
  have hp : m.toNat ≠ 0 := u64_ne_zero_iff.1 r.minted_pos
  exact ⟨s, v, oa, xa, xm, st, om, tp, rest, he, ⟨r.signer, r.s_w, r.v_w, r.oa_w, r.xa_w, r.xm_w⟩,
    ⟨r.xm_key, r.om_key, r.tp_key⟩, r.xm_prog, r.om_prog, ⟨r.oa_prog, r.oa_len, r.oa_mint, r.oa_owner⟩,
    ⟨r.xa_prog, r.xa_len, r.xa_mint, r.xa_owner⟩, ⟨r.st_prog, r.st_len, r.st_disc, state_checked r.st_addr⟩, r.st_pda,
    vault_checked r.v_addr, ⟨r.v_prog, r.v_len, r.v_mint, r.v_owner⟩, r.funds, r.solvent,
    by unfold backing at hm; omega⟩

example := C66_stake_checks Demo.run4

/-- What a successful Unstake has checked. -/
theorem C66_unstake_checks {a : UInt64} {i : UInt8} (h : Runs x L accs (.Unstake a i) L' logs) :
    ∃ u st pw xa xm om v sp tp rest, accs = u :: st :: pw :: xa :: xm :: om :: v :: sp :: tp :: rest ∧
      (u.isSigner = true ∧ u.isWritable = true ∧ st.isWritable = true ∧ pw.isWritable = true ∧ xa.isWritable = true ∧
        xm.isWritable = true) ∧
      (xm.key = XORCA_MINT_ID ∧ om.key = ORCA_MINT_ID ∧ sp.key = SYSTEM_PROGRAM_ID ∧ tp.key = SPL_TOKEN_PROGRAM_ID) ∧
      ((L XORCA_MINT_ID).owner = SPL_TOKEN_PROGRAM_ID ∧ readU32 (L XORCA_MINT_ID).data 0 ≠ 0 ∧
        readKey (L XORCA_MINT_ID).data 4 = st.key ∧ readU32 (L XORCA_MINT_ID).data 46 = 0) ∧
      ((L ORCA_MINT_ID).owner = SPL_TOKEN_PROGRAM_ID ∧ 82 ≤ (L ORCA_MINT_ID).data.length) ∧
      Holds L xa.key XORCA_MINT_ID u.key ∧
      StateChecked x.cr L st.key ∧ VaultChecked x.cr L st.key v.key ∧ Holds L v.key ORCA_MINT_ID st.key ∧
      ((L pw.key).owner = SYSTEM_PROGRAM_ID ∧ ∃ b, RecordAddr x.cr u.key i pw.key b) ∧
      a.toNat ≤ balance L xa.key ∧ escrow L st.key ≤ balance L v.key ∧
      0 < redeemFor a.toNat (balance L v.key - escrow L st.key) (supply L XORCA_MINT_ID) ∧
      supply L XORCA_MINT_ID ≠ 0 ∧ balance L v.key ≠ escrow L st.key ∧
      a.toNat * (balance L v.key - escrow L st.key + 100) < 2 ^ 128 := by
  obtain ⟨u, st, pw, xa, xm, om, v, sp, tp, L1, L3, w, e, ts, b, r⟩ := processUnstake_run h.dispatch
  obtain ⟨rest, he⟩ := r.accs_eq
  have hm := r.amount
  have hp : w.toNat ≠ 0 := u64_ne_zero_iff.1 r.amount_pos
  have hb := r.backing_pos
  have hf := r.fits
  unfold backing at hm hb hf
  exact ⟨u, st, pw, xa, xm, om, v, sp, tp, rest, he, ⟨r.signer, r.u_w, r.st_w, r.pw_w, r.xa_w, r.xm_w⟩,
    ⟨r.xm_key, r.om_key, r.sp_key, r.tp_key⟩, ⟨r.xm_prog, r.xm_flag, r.xm_auth, r.xm_freeze⟩, ⟨r.om_prog, r.om_len⟩,
    ⟨r.xa_prog, r.xa_len, r.xa_mint, r.xa_owner⟩, ⟨r.st_prog, r.st_len, r.st_disc, state_checked r.st_addr⟩,
    vault_checked r.v_addr, ⟨r.v_prog, r.v_len, r.v_mint, r.v_owner⟩, ⟨r.pw_prog, b, r.pw_find⟩, r.funds, r.solvent,
    by omega, r.supply_pos, by omega, hf⟩

example := C66_unstake_checks Demo.run5

/-- What a successful Withdraw has checked. -/
theorem C66_withdraw_checks {i : UInt8} (h : Runs x L accs (.Withdraw i) L' logs) :
    ∃ u st pw oa v om sp tp rest, accs = u :: st :: pw :: oa :: v :: om :: sp :: tp :: rest ∧
      (u.isSigner = true ∧ u.isWritable = true ∧ st.isWritable = true ∧ pw.isWritable = true ∧ oa.isWritable = true ∧
        v.isWritable = true) ∧
      (om.key = ORCA_MINT_ID ∧ sp.key = SYSTEM_PROGRAM_ID ∧ tp.key = SPL_TOKEN_PROGRAM_ID) ∧
      (L ORCA_MINT_ID).owner = SPL_TOKEN_PROGRAM_ID ∧
      StateChecked x.cr L st.key ∧ x.cr.onCurve st.key = false ∧ VaultChecked x.cr L st.key v.key ∧
      Holds L v.key ORCA_MINT_ID st.key ∧ Holds L oa.key ORCA_MINT_ID u.key ∧
      ((L pw.key).owner = PROGRAM_ID ∧ 1024 ≤ (L pw.key).data.length ∧ readU8 (L pw.key).data 0 = 2 ∧
        pw.key = x.cr.sha256 (recordHashed u.key i (readU8 (L pw.key).data 6))) ∧
      recTime L pw.key ≤ x.now.toInt ∧ recAmount L pw.key ≤ escrow L st.key := by
  obtain ⟨u, st, pw, oa, v, om, sp, tp, L1, L2, e, r⟩ := processWithdraw_run h.dispatch
  obtain ⟨rest, he⟩ := r.accs_eq
  exact ⟨u, st, pw, oa, v, om, sp, tp, rest, he, ⟨r.signer, r.u_w, r.st_w, r.pw_w, r.oa_w, r.v_w⟩,
    ⟨r.om_key, r.sp_key, r.tp_key⟩, r.om_prog, ⟨r.st_prog, r.st_len, r.st_disc, state_checked r.st_addr⟩, r.st_pda,
    vault_checked r.v_addr, ⟨r.v_prog, r.v_len, r.v_mint, r.v_owner⟩, ⟨r.oa_prog, r.oa_len, r.oa_mint, r.oa_owner⟩,
    ⟨r.pw_prog, r.pw_len, r.pw_disc, record_checked r.pw_addr⟩, r.mature, r.enough⟩

example := C66_withdraw_checks Demo.run9

/-- What a successful Set has checked. -/
theorem C66_set_checks {d : StateUpdateInstruction} (h : Runs x L accs (.Set d) L' logs) :
    ∃ a st rest, accs = a :: st :: rest ∧
      a.isSigner = true ∧ a.isWritable = true ∧ st.isWritable = true ∧ StateChecked x.cr L st.key ∧
      a.key = authority L st.key ∧ ∀ c, d = .UpdateCoolDownPeriod c → 0 ≤ c.toInt := by
  cases d with
  | UpdateCoolDownPeriod c =>
    obtain ⟨a, st, r, hc, _⟩ := processSet_coolDown_run h.dispatch
    obtain ⟨rest, he⟩ := r.accs_eq
    exact ⟨a, st, rest, he, r.signer, r.a_w, r.st_w, ⟨r.st_prog, r.st_len, r.st_disc, state_checked r.st_addr⟩, r.auth,
      fun c' e => by cases e; exact hc⟩
  | UpdateUpdateAuthority k =>
    obtain ⟨a, st, r, _⟩ := processSet_authority_run h.dispatch
    obtain ⟨rest, he⟩ := r.accs_eq
    exact ⟨a, st, rest, he, r.signer, r.a_w, r.st_w, ⟨r.st_prog, r.st_len, r.st_disc, state_checked r.st_addr⟩, r.auth,
      fun c' e => by cases e⟩

example := C66_set_checks Demo.run7

/-- What a successful Initialize has checked. -/
theorem C66_initialize_checks {c : Int64} (h : Runs x L accs (.Initialize c) L' logs) :
    ∃ p au st v xm om sp tp ap rest, accs = p :: au :: st :: v :: xm :: om :: sp :: tp :: ap :: rest ∧
      (p.isSigner = true ∧ p.isWritable = true ∧ au.isSigner = true ∧ au.isWritable = true ∧ st.isWritable = true ∧
        v.isWritable = true) ∧
      (p.key = DEPLOYER_ADDRESS ∧ xm.key = XORCA_MINT_ID ∧ om.key = ORCA_MINT_ID ∧ sp.key = SYSTEM_PROGRAM_ID ∧
        tp.key = SPL_TOKEN_PROGRAM_ID ∧ ap.key = ASSOCIATED_TOKEN_PROGRAM_ID) ∧
      ((L XORCA_MINT_ID).owner = SPL_TOKEN_PROGRAM_ID ∧ 82 ≤ (L XORCA_MINT_ID).data.length ∧
        readU32 (L XORCA_MINT_ID).data 0 = 1 ∧ readKey (L XORCA_MINT_ID).data 4 = st.key ∧ supply L XORCA_MINT_ID = 0 ∧
        readU8 (L XORCA_MINT_ID).data 44 = 6 ∧ readU32 (L XORCA_MINT_ID).data 46 = 0 ∧
        readKey (L XORCA_MINT_ID).data 50 = DEFAULT_PUBKEY) ∧
      ((L ORCA_MINT_ID).owner = SPL_TOKEN_PROGRAM_ID ∧ 82 ≤ (L ORCA_MINT_ID).data.length ∧
        readU8 (L ORCA_MINT_ID).data 44 = 6) ∧
      (∃ b, StateAddr x.cr st.key b) ∧ (L st.key).owner = SYSTEM_PROGRAM_ID ∧ (L st.key).data = [] ∧
      (∃ b, VaultAddr x.cr st.key v.key b) ∧ (L v.key).owner = SYSTEM_PROGRAM_ID ∧ 0 ≤ c.toInt := by
  obtain ⟨p, au, st, v, xm, om, sp, tp, ap, L1, b, vb, r⟩ := processInitialize_run h.dispatch
  obtain ⟨rest, he⟩ := r.accs_eq
  exact ⟨p, au, st, v, xm, om, sp, tp, ap, rest, he, ⟨r.signer, r.p_w, r.au_signer, r.au_w, r.st_w, r.v_w⟩,
    ⟨r.deployer, r.xm_key, r.om_key, r.sp_key, r.tp_key, r.ap_key⟩,
    ⟨r.xm_prog, r.xm_len, r.xm_flag, r.xm_auth, r.xm_supply, r.xm_decimals, r.xm_freeze, r.xm_freezeKey⟩,
    ⟨r.om_prog, r.om_len, r.om_decimals⟩, ⟨b, r.st_find⟩, r.st_sys, r.st_empty, ⟨vb, r.v_find⟩, r.v_sys, r.cool⟩

example := C66_initialize_checks Demo.run1

end Xorca
