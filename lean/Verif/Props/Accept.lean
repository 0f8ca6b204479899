import Verif.Lemmas.AcceptAux
import Verif.Declared
import Verif.Lemmas.DemoCalls
import Verif.Props.Init
import Verif.Props.Errors
import Verif.Lemmas.ClientCodec
import Verif.Lemmas.Client
import Verif.Client.Instructions
/-
C57: the published account table is enforced.  C58: exactly which calls are accepted.
-/
namespace Xorca
open Spec

variable {cr : Crypto} {x : Ctx} {L L' : Ledger} {accs : List Meta} {logs : List Bytes}

/-! ### C57: the account table is enforced -/

/-- A successful call has, at each position, an account with the declared flags, the declared address where
that is a constant, and the declared owning program. -/
theorem C57_account_table_enforced {ix : Instruction} (h : Runs x L accs ix L' logs) :
    (∀ (i : Nat) w s, (declared ix)[i]? = some (w, s) → ∃ m : Meta, accs[i]? = some m ∧
      (w = true → m.isWritable = true) ∧ (s = true → m.isSigner = true)) ∧
    (∀ (i : Nat) k, (fixedKeys ix)[i]? = some (some k) → ∃ m : Meta, accs[i]? = some m ∧ m.key = k) ∧
    (∀ (i : Nat) p, (owningProgram ix)[i]? = some (some p) → ∃ m : Meta, accs[i]? = some m ∧ (L m.key).owner = p) := by
  have hd := h.dispatch
  cases ix with
  | Stake a =>
    obtain ⟨s, v, oa, xa, xm, st, om, tp, L1, m, r⟩ := processStake_run hd
    obtain ⟨rest, rfl⟩ := r.accs_eq
    have hx : (L xm.key).owner = SPL_TOKEN_PROGRAM_ID := by rw [r.xm_key]; exact r.xm_prog
    have ho : (L om.key).owner = SPL_TOKEN_PROGRAM_ID := by rw [r.om_key]; exact r.om_prog
    refine ⟨fun i w s hi => ?_, fun i k hi => ?_, fun i k hi => ?_⟩
    · rcases i with _|_|_|_|_|_|_|_|i <;> simp [declared] at hi <;> obtain ⟨rfl, rfl⟩ := hi <;>
        simp [r.signer, r.s_w, r.v_w, r.oa_w, r.xa_w, r.xm_w]
    · rcases i with _|_|_|_|_|_|_|_|i <;> simp [fixedKeys] at hi <;> subst hi <;>
        simp [r.xm_key, r.om_key, r.tp_key]
    · rcases i with _|_|_|_|_|_|_|_|i <;> simp [owningProgram] at hi <;> subst hi <;>
        simp [r.v_prog, r.oa_prog, r.xa_prog, hx, ho, r.st_prog]
  | Unstake a i0 =>
    obtain ⟨u, st, pw, xa, xm, om, v, sp, tp, L1, L3, w, e', ts, b, r⟩ := processUnstake_run hd
    obtain ⟨rest, rfl⟩ := r.accs_eq
    have hx : (L xm.key).owner = SPL_TOKEN_PROGRAM_ID := by rw [r.xm_key]; exact r.xm_prog
    have ho : (L om.key).owner = SPL_TOKEN_PROGRAM_ID := by rw [r.om_key]; exact r.om_prog
    refine ⟨fun i w s hi => ?_, fun i k hi => ?_, fun i k hi => ?_⟩
    · rcases i with _|_|_|_|_|_|_|_|_|i <;> simp [declared] at hi <;> obtain ⟨rfl, rfl⟩ := hi <;>
        simp [r.signer, r.u_w, r.st_w, r.pw_w, r.xa_w, r.xm_w]
    · rcases i with _|_|_|_|_|_|_|_|_|i <;> simp [fixedKeys] at hi <;> subst hi <;>
        simp [r.xm_key, r.om_key, r.tp_key, r.sp_key]
    · rcases i with _|_|_|_|_|_|_|_|_|i <;> simp [owningProgram] at hi <;> subst hi <;>
        simp [r.v_prog, r.xa_prog, hx, ho, r.st_prog, r.pw_prog]
  | Withdraw i0 =>
    obtain ⟨u, st, pw, oa, v, om, sp, tp, L1, L2, e', r⟩ := processWithdraw_run hd
    obtain ⟨rest, rfl⟩ := r.accs_eq
    have ho : (L om.key).owner = SPL_TOKEN_PROGRAM_ID := by rw [r.om_key]; exact r.om_prog
    refine ⟨fun i w s hi => ?_, fun i k hi => ?_, fun i k hi => ?_⟩
    · rcases i with _|_|_|_|_|_|_|_|i <;> simp [declared] at hi <;> obtain ⟨rfl, rfl⟩ := hi <;>
        simp [r.signer, r.u_w, r.st_w, r.pw_w, r.oa_w, r.v_w]
    · rcases i with _|_|_|_|_|_|_|_|i <;> simp [fixedKeys] at hi <;> subst hi <;>
        simp [r.om_key, r.tp_key, r.sp_key]
    · rcases i with _|_|_|_|_|_|_|_|i <;> simp [owningProgram] at hi <;> subst hi <;>
        simp [r.v_prog, r.oa_prog, ho, r.st_prog, r.pw_prog]
  | Initialize c =>
    obtain ⟨p, au, st, v, xm, om, sp, tp, ap, L1, b, vb, r⟩ := processInitialize_run hd
    obtain ⟨rest, rfl⟩ := r.accs_eq
    have hx : (L xm.key).owner = SPL_TOKEN_PROGRAM_ID := by rw [r.xm_key]; exact r.xm_prog
    have ho : (L om.key).owner = SPL_TOKEN_PROGRAM_ID := by rw [r.om_key]; exact r.om_prog
    refine ⟨fun i w s hi => ?_, fun i k hi => ?_, fun i k hi => ?_⟩
    · rcases i with _|_|_|_|_|_|_|_|_|i <;> simp [declared] at hi <;> obtain ⟨rfl, rfl⟩ := hi <;>
        simp [r.signer, r.p_w, r.au_signer, r.au_w, r.st_w, r.v_w]
    · rcases i with _|_|_|_|_|_|_|_|_|i <;> simp [fixedKeys] at hi <;> subst hi <;>
        simp [r.deployer, r.xm_key, r.om_key, r.tp_key, r.sp_key, r.ap_key]
    · rcases i with _|_|_|_|_|_|_|_|_|i <;> simp [owningProgram] at hi <;> subst hi <;>
        simp [r.st_sys, r.v_sys, hx, ho]
  | Set u =>
    have key : ∃ a st, SetRun x L accs a st := by
      cases u with
      | UpdateCoolDownPeriod c =>
        obtain ⟨a, st, r, -⟩ := processSet_coolDown_run hd
        exact ⟨a, st, r⟩
      | UpdateUpdateAuthority k =>
        obtain ⟨a, st, r, -⟩ := processSet_authority_run hd
        exact ⟨a, st, r⟩
    obtain ⟨a, st, r⟩ := key
    obtain ⟨rest, rfl⟩ := r.accs_eq
    refine ⟨fun i w s hi => ?_, fun i k hi => ?_, fun i k hi => ?_⟩
    · rcases i with _|_|i <;> simp [declared] at hi <;> obtain ⟨rfl, rfl⟩ := hi <;>
        simp [r.signer, r.a_w, r.st_w]
    · rcases i with _|_|i <;> simp [fixedKeys] at hi
    · rcases i with _|_|i <;> simp [owningProgram] at hi <;> subst hi <;> simp [r.st_prog]

/-- The clients set exactly the declared flags. -/
theorem C57_clients_set_declared_flags (ix : Instruction) :
    match ix with
    | .Stake _ => ∀ k : Client.StakeKeys, k.metas.map (fun m => (m.isWritable, m.isSigner)) = declared ix
    | .Unstake .. => ∀ k : Client.UnstakeKeys, k.metas.map (fun m => (m.isWritable, m.isSigner)) = declared ix
    | .Withdraw _ => ∀ k : Client.WithdrawKeys, k.metas.map (fun m => (m.isWritable, m.isSigner)) = declared ix
    | .Initialize _ => ∀ k : Client.InitializeKeys, k.metas.map (fun m => (m.isWritable, m.isSigner)) = declared ix
    | .Set _ => ∀ k : Client.SetKeys, k.metas.map (fun m => (m.isWritable, m.isSigner)) = declared ix := by
  cases ix <;> exact fun _ => rfl

example := C57_account_table_enforced Demo.run5

/-! ### C58: exactly which calls are accepted

In a reachable state, for accounts that are what they are passed as (well-formed token accounts and mints),
the conditions are complete: each of them is needed, and together they suffice. -/

/-- Stake. -/
theorem C58_stake_accepted_iff {s v oa xa xm st om tp : Meta} {rest : List Meta} {a : UInt64} {m1 o1 m2 o2 : Pubkey}
    (hr : Reachable cr L) (hx : x.cr = cr)
    (hsig : SignersOk cr L (s :: v :: oa :: xa :: xm :: st :: om :: tp :: rest))
    (hoa : TokenOk L oa.key m1 o1) (hxa : TokenOk L xa.key m2 o2) :
    Succeeds x L (s :: v :: oa :: xa :: xm :: st :: om :: tp :: rest) (.Stake a) ↔
      StakeCall (s :: v :: oa :: xa :: xm :: st :: om :: tp :: rest) s v oa xa xm st om tp ∧
      Initialised cr L st.key ∧ (∃ b, VaultAddr cr st.key v.key b) ∧
      (m1 = ORCA_MINT_ID ∧ o1 = s.key) ∧ (m2 = XORCA_MINT_ID ∧ o2 = s.key) ∧ NotMultisig L s.key ∧
      a.toNat ≤ balance L oa.key ∧
      0 < mintFor a.toNat (backing L v.key st.key) (supply L XORCA_MINT_ID) ∧
      balance L v.key + a.toNat < 2 ^ 64 ∧
      balance L xa.key + mintFor a.toNat (backing L v.key st.key) (supply L XORCA_MINT_ID) < 2 ^ 64 ∧
      readU8 (L v.key).data 108 = 1 ∧ (L ORCA_MINT_ID).owner = SPL_TOKEN_PROGRAM_ID := by
  subst hx
  rw [succeeds_iff]
  constructor
  · rintro ⟨L', logs, h⟩
    obtain ⟨L1, m, r⟩ := h.stake
    have e := r.eff hsig
    obtain ⟨v', p⟩ := hr.inv.poolOf r.st_prog r.st_disc
    have hv := p.vault_eq r.v_addr
    obtain ⟨L1', t, -⟩ := e.transfer
    obtain ⟨w2, -, b2⟩ := e.v_data
    obtain ⟨w3, -, c2⟩ := e.xa_data
    have := w2.toNat_lt
    have := w3.toNat_lt
    have hp := u64_ne_zero_iff.1 r.minted_pos
    have hm := r.minted
    refine ⟨⟨r.accs_eq, r.signer, r.s_w, r.v_w, r.oa_w, r.xa_w, r.xm_w, r.xm_key, r.om_key, r.tp_key⟩,
      ⟨⟨_, p.acc.addr⟩, p.prog, p.acc.tag⟩, ⟨_, hv ▸ p.v_addr⟩, ⟨hoa.mint.symm.trans r.oa_mint, hoa.owner.symm.trans r.oa_owner⟩,
      ⟨hxa.mint.symm.trans r.xa_mint, hxa.owner.symm.trans r.xa_owner⟩, t.multisig, r.funds, by omega, by omega, by omega,
      e.v_ok.state, r.om_prog⟩
  · rintro ⟨hc, hi, ⟨b, hv⟩, ⟨rfl, rfl⟩, ⟨rfl, rfl⟩, hms, ha, hm, hf1, hf2, hth, hom⟩
    exact succeeds_iff.1 (C47_stake_succeeds hr rfl hsig hi hv hc hoa hxa hms ha hm hf1 hf2 hth hom)

/-- The demo's first Stake; one unit more than the user holds is not accepted. -/
example : Succeeds (Demo.ctx 1001) Demo.L1 Demo.stakeAccs (.Stake 1000000) ∧
    ¬ Succeeds (Demo.ctx 1001) Demo.L1 Demo.stakeAccs (.Stake 10000001) :=
  ⟨succeeds_iff.2 ⟨_, _, Demo.run2⟩, fun h => by
    have := ((C58_stake_accepted_iff Demo.reach1 rfl Demo.signers2 Demo.uo_ok1 Demo.ux_ok1).1 h).2.2.2.2.2.2.1
    revert this
    decide +kernel⟩

/-- Unstake. -/
theorem C58_unstake_accepted_iff {u st pw xa xm om v sp tp : Meta} {rest : List Meta} {a : UInt64} {i : UInt8}
    {m1 o1 : Pubkey} (hr : Reachable cr L) (hx : x.cr = cr)
    (hsig : SignersOk cr L (u :: st :: pw :: xa :: xm :: om :: v :: sp :: tp :: rest))
    (hxa : TokenOk L xa.key m1 o1) (hom : MintOk L ORCA_MINT_ID) (hu : Blank (L u.key)) :
    Succeeds x L (u :: st :: pw :: xa :: xm :: om :: v :: sp :: tp :: rest) (.Unstake a i) ↔
      UnstakeCall (u :: st :: pw :: xa :: xm :: om :: v :: sp :: tp :: rest) u st pw xa xm om v sp tp ∧
      Initialised cr L st.key ∧ (∃ b, VaultAddr cr st.key v.key b) ∧
      (∃ b, RecordAddr cr u.key i pw.key b) ∧ Blank (L pw.key) ∧ (m1 = XORCA_MINT_ID ∧ o1 = u.key) ∧
      (x.rentMin 1024).toNat ≤ (L u.key).lamports.toNat + (L pw.key).lamports.toNat ∧
      0 < a.toNat ∧ a.toNat ≤ balance L xa.key ∧ a.toNat ≤ supply L XORCA_MINT_ID ∧
      a.toNat * (backing L v.key st.key + 100) < 2 ^ 128 ∧ x.now.toInt + coolDown L st.key < 2 ^ 63 := by
  subst hx
  rw [succeeds_iff]
  constructor
  · rintro ⟨L', logs, h⟩
    obtain ⟨L1, L3, w, e', ts, b, r⟩ := h.unstake
    have e := (r.eff hsig).1
    obtain ⟨v', p⟩ := hr.inv.poolOf r.st_prog r.st_disc
    have hv := p.vault_eq r.v_addr
    have hpaid := e.paid
    have h0 : 0 < a.toNat := by
      by_contra hn
      have hw := r.amount
      have : a.toNat = 0 := by omega
      rw [this] at hw
      simp [redeemFor] at hw
      exact u64_ne_zero_iff.1 r.amount_pos (by simpa using hw)
    obtain ⟨q, -, hq⟩ := e.xm_data
    have hts := ts.toInt_lt
    have hmat := e.maturity
    refine ⟨⟨r.accs_eq, r.signer, r.u_w, r.st_w, r.pw_w, r.xa_w, r.xm_w, r.xm_key, r.om_key, r.sp_key, r.tp_key⟩,
      ⟨⟨_, p.acc.addr⟩, p.prog, p.acc.tag⟩, ⟨_, hv ▸ p.v_addr⟩, ⟨b, r.pw_find⟩, ⟨r.pw_prog, by rw [e.pw_fresh]⟩,
      ⟨hxa.mint.symm.trans r.xa_mint, hxa.owner.symm.trans r.xa_owner⟩, by omega, h0, r.funds, by omega, r.fits, by omega⟩
  · rintro ⟨hc, hi, ⟨b, hv⟩, ⟨b', hpw⟩, hfree, ⟨rfl, rfl⟩, hrent, h0, ha, has, hfit, hclk⟩
    exact succeeds_iff.1 (C48_unstake_succeeds hr rfl hsig hi hv hc hpw hfree hxa hu hrent h0 ha has hfit hclk hom)

/-- The demo's first Unstake; index 0 with the address of index 255 is not accepted. -/
example : Succeeds (Demo.ctx 1003) Demo.L4 (Demo.unstakeAccs Demo.R255) (.Unstake 600000 255) ∧
    ¬ Succeeds (Demo.ctx 1003) Demo.L4 (Demo.unstakeAccs Demo.R255) (.Unstake 600000 0) :=
  ⟨succeeds_iff.2 ⟨_, _, Demo.run5⟩, fun h => by
    obtain ⟨b, hb⟩ := ((C58_unstake_accepted_iff Demo.reach4 rfl Demo.signers5 Demo.ux_ok4 Demo.orca_ok4
      Demo.us_blank4).1 h).2.2.2.1
    exact absurd (recordAddr_unique hb Demo.r0_addr).1 (by decide +kernel)⟩

/-- Withdraw.  (That another user's record is not accepted rests on SHA-256 not mapping the two address
preimages to the same value.) -/
theorem C58_withdraw_accepted_iff {u st pw oa v om sp tp : Meta} {rest : List Meta} {i : UInt8} {m1 o1 : Pubkey}
    (hr : Reachable cr L) (hx : x.cr = cr)
    (hsig : SignersOk cr L (u :: st :: pw :: oa :: v :: om :: sp :: tp :: rest))
    (hoa : TokenOk L oa.key m1 o1)
    (hcl : ¬ Clash cr (recordHashed u.key i (readU8 (L pw.key).data 6))
      (recordHashed (recOwner L pw.key) (recIndex L pw.key) (readU8 (L pw.key).data 6))) :
    Succeeds x L (u :: st :: pw :: oa :: v :: om :: sp :: tp :: rest) (.Withdraw i) ↔
      WithdrawCall (u :: st :: pw :: oa :: v :: om :: sp :: tp :: rest) u st pw oa v om sp tp ∧
      Initialised cr L st.key ∧ (∃ b, VaultAddr cr st.key v.key b) ∧
      IsRecord L pw.key ∧ recOwner L pw.key = u.key ∧ recIndex L pw.key = i ∧
      recTime L pw.key ≤ x.now.toInt ∧ (m1 = ORCA_MINT_ID ∧ o1 = u.key) ∧
      balance L oa.key + recAmount L pw.key < 2 ^ 64 ∧
      readU8 (L v.key).data 108 = 1 ∧ (L ORCA_MINT_ID).owner = SPL_TOKEN_PROGRAM_ID := by
  subst hx
  rw [succeeds_iff]
  constructor
  · rintro ⟨L', logs, h⟩
    obtain ⟨L1, L2, e', r⟩ := h.withdraw
    have e := (r.eff hsig).1
    obtain ⟨v', p⟩ := hr.inv.poolOf r.st_prog r.st_disc
    have hv := p.vault_eq r.v_addr
    have hrec : IsRecord L pw.key := ⟨r.pw_prog, r.pw_len, r.pw_disc⟩
    have ha := recordAddr_hash (hr.inv.isRec hrec).addr
    have hb : pw.key = x.cr.sha256 (recordHashed u.key i (readU8 (L pw.key).data 6)) := by
      rw [← derive_record]; exact r.pw_addr
    obtain ⟨h1, h2, -⟩ := (record_hash_inj (hb.symm.trans ha)).resolve_right hcl
    obtain ⟨w2, -, b2⟩ := e.oa_data
    have := w2.toNat_lt
    refine ⟨⟨r.accs_eq, r.signer, r.u_w, r.st_w, r.pw_w, r.oa_w, r.v_w, r.om_key, r.sp_key, r.tp_key⟩,
      ⟨⟨_, p.acc.addr⟩, p.prog, p.acc.tag⟩, ⟨_, hv ▸ p.v_addr⟩, hrec, h1.symm, h2.symm, r.mature,
      ⟨hoa.mint.symm.trans r.oa_mint, hoa.owner.symm.trans r.oa_owner⟩, by omega, e.v_ok.state, r.om_prog⟩
  · rintro ⟨hc, hi, ⟨b, hv⟩, hrec, ho, rfl, hmat, ⟨rfl, rfl⟩, hf, hth, hom⟩
    exact succeeds_iff.1 (C21_matured_withdrawal_succeeds hr rfl hsig hi hv hc hrec ho hmat hoa hf hth hom)

/-- The demo's Withdraw; a second earlier it is not accepted. -/
example : Succeeds (Demo.ctx 1103) Demo.L8 (Demo.withdrawAccs Demo.R255) (.Withdraw 255) ∧
    ¬ Succeeds (Demo.ctx 1102) Demo.L8 (Demo.withdrawAccs Demo.R255) (.Withdraw 255) :=
  ⟨succeeds_iff.2 ⟨_, _, Demo.run9⟩, fun h => by
    have := ((C58_withdraw_accepted_iff Demo.reach8 rfl Demo.signers9 Demo.uo_ok8
      (fun h => h.1 (by decide +kernel))).1 h).2.2.2.2.2.2.1
    revert this
    decide +kernel⟩

/-- Set. -/
theorem C58_set_accepted_iff {au st : Meta} {rest : List Meta} {u : StateUpdateInstruction}
    (hr : Reachable cr L) (hx : x.cr = cr) :
    Succeeds x L (au :: st :: rest) (.Set u) ↔
      SetCall (au :: st :: rest) au st ∧ Initialised cr L st.key ∧ au.key = authority L st.key ∧
      (∀ c, u = .UpdateCoolDownPeriod c → 0 ≤ c.toInt) := by
  subst hx
  constructor
  · intro h
    obtain ⟨L', logs, h⟩ := succeeds_iff.1 h
    have key : SetRun x L (au :: st :: rest) au st ∧ (∀ c, u = .UpdateCoolDownPeriod c → 0 ≤ c.toInt) := by
      cases u with
      | UpdateCoolDownPeriod c =>
        obtain ⟨r, h1, -⟩ := h.set_coolDown
        exact ⟨r, fun c' hc => by cases hc; exact h1⟩
      | UpdateUpdateAuthority k => exact ⟨h.set_authority.1, fun c' hc => by cases hc⟩
    obtain ⟨r, hc⟩ := key
    obtain ⟨v', p⟩ := hr.inv.poolOf r.st_prog r.st_disc
    exact ⟨⟨r.accs_eq, r.signer, r.a_w, r.st_w⟩, ⟨⟨_, p.acc.addr⟩, p.prog, p.acc.tag⟩, r.auth, hc⟩
  · rintro ⟨hc, hi, ha, hcool⟩ data hd
    rw [entry_eq hd]
    obtain ⟨v', p⟩ := hr.inv.ofInitialised hi
    refine (set_refused (x := x) (u := u) hc p.prog (by rw [p.acc.len]) p.acc.tag ?_).2 ha hcool
    exact (findProgramAddress_some p.acc.addr).1

/-- The demo's Sets; once the authority has moved the old one is refused. -/
example : Succeeds (Demo.ctx 1006) Demo.L7 Demo.setAccs (.Set (.UpdateUpdateAuthority Demo.AU)) ∧
    ¬ Succeeds (Demo.ctx 1007) Demo.L8 Demo.setAccs (.Set (.UpdateUpdateAuthority Demo.US)) :=
  ⟨succeeds_iff.2 ⟨_, _, Demo.run8⟩, fun h => by
    have := ((C58_set_accepted_iff Demo.reach8 rfl).1 h).2.2.1
    revert this
    decide +kernel⟩

/-- Initialize. -/
theorem C58_initialize_accepted_iff {p au st v xm om sp tp ap : Meta} {rest : List Meta} {c : Int64}
    (hx : x.cr = cr) (hsig : SignersOk cr L (p :: au :: st :: v :: xm :: om :: sp :: tp :: ap :: rest))
    (hp : Blank (L p.key)) (hxm : MintOk L XORCA_MINT_ID) (hom : MintOk L ORCA_MINT_ID)
    (hf1 : readU32 (L ORCA_MINT_ID).data 0 = 0 ∨ readU32 (L ORCA_MINT_ID).data 0 = 1)
    (hf2 : readU32 (L ORCA_MINT_ID).data 46 = 0 ∨ readU32 (L ORCA_MINT_ID).data 46 = 1) :
    Succeeds x L (p :: au :: st :: v :: xm :: om :: sp :: tp :: ap :: rest) (.Initialize c) ↔
      InitCall (p :: au :: st :: v :: xm :: om :: sp :: tp :: ap :: rest) p au st v xm om sp tp ap ∧
      (∃ b, StateAddr cr st.key b) ∧ (∃ b, VaultAddr cr st.key v.key b) ∧ st.key ≠ v.key ∧
      Blank (L st.key) ∧ Blank (L v.key) ∧ FreshMint L st.key ∧ readU8 (L ORCA_MINT_ID).data 44 = 6 ∧
      0 ≤ c.toInt ∧
      ((x.rentMin 2048).toNat - (L st.key).lamports.toNat) +
        (max 1 (x.rentMin 165).toNat - (L v.key).lamports.toNat) ≤ (L p.key).lamports.toNat := by
  subst hx
  constructor
  · intro h
    obtain ⟨L', logs, h⟩ := succeeds_iff.1 h
    obtain ⟨L1, b, vb, r⟩ := h.init
    have e := r.eff hsig
    obtain ⟨q, q1, q2⟩ := e.paid
    refine ⟨⟨r.accs_eq, r.signer, r.p_w, r.au_signer, r.au_w, r.st_w, r.v_w, r.deployer, r.xm_key, r.om_key, r.sp_key,
      r.tp_key, r.ap_key⟩, ⟨b, r.st_find⟩, ⟨vb, r.v_find⟩, e.st_ne_v, ⟨r.st_sys, r.st_empty⟩, ⟨r.v_sys, by rw [e.v_fresh]⟩,
      ⟨hxm, r.xm_flag, r.xm_auth, r.xm_supply, r.xm_decimals, r.xm_freeze, r.xm_freezeKey⟩, r.om_decimals, r.cool, by omega⟩
  · rintro ⟨hc, ⟨b, hst⟩, ⟨vb, hv⟩, hne, bst, bv, hfm, hdec, hcool, hrent⟩
    exact C55_initialize_succeeds rfl hsig hc hst hv hne bst bv hp hfm ⟨hom, hdec, hf1, hf2⟩ hcool hrent

/-- The demo's Initialize; a second one is not accepted. -/
example : Succeeds (Demo.ctx 1000) Demo.L0 Demo.initAccs (.Initialize 100) ∧
    ¬ Succeeds (Demo.ctx 1000) Demo.L1 Demo.initAccs (.Initialize 100) :=
  ⟨succeeds_iff.2 ⟨_, _, Demo.run1⟩, fun h => by
    have := ((C58_initialize_accepted_iff rfl (Demo.signersOk (by decide +kernel)) (by decide +kernel)
      (by decide +kernel) (by decide +kernel) (Or.inr (by decide +kernel)) (Or.inl (by decide +kernel))).1 h).2.2.2.2.1
    revert this
    decide +kernel⟩

end Xorca
