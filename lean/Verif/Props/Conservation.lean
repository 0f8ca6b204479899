import Verif.Lemmas.DemoCalls
import Verif.Lemmas.Sums
import Verif.Lemmas.Prefund
/-
C22, C33, C34, C35, C38, C44: nothing is created, lost or touched that should not be.
-/
namespace Xorca
open Spec

variable {cr : Crypto} {x : Ctx} {L L' : Ledger} {accs : List Meta} {logs : List Bytes}

/-! ### C22: prefunding -/

/-- Lamports sent in advance to the record address do not stop an Unstake and do not change what it does:
same logs, same owners and data everywhere, and the record ends up with at least the rent. -/
theorem C22_prefunding_harmless {ix : UInt8} {a : UInt64} {pw : Meta} {l : UInt64}
    (h : Runs x L accs (.Unstake a ix) L' logs) (hs : SignersOk x.cr L accs) (hpw : accs[2]? = some pw)
    (hl : (L pw.key).lamports.toNat ≤ l.toNat) :
    ∃ M', Runs x (L.set pw.key { L pw.key with lamports := l }) accs (.Unstake a ix) M' logs ∧
      (∀ k, (M' k).owner = (L' k).owner ∧ (M' k).data = (L' k).data) ∧
      (M' pw.key).lamports.toNat = max (x.rentMin 1024).toNat l.toNat := by
  obtain ⟨M', h1, h2, h3⟩ := processUnstake_prefund hs hpw hl h.dispatch
  obtain ⟨d, hd, _⟩ := h
  exact ⟨M', ⟨d, hd, (entry_eq hd).trans h1⟩, h2, h3⟩

/-- Someone sends 5000000 lamports to the address of the record first. -/
example := C22_prefunding_harmless (x := Demo.ctx 1003) (l := 5000000) Demo.run5 Demo.signers5 rfl (by decide +kernel)

/-! ### C34: bystanders -/

/-- A successful call changes only the accounts at the positions listed in `touched`, and these were given
as writable. -/
theorem C34_only_listed_accounts {ix : Instruction} (h : Runs x L accs ix L' logs)
    (hs : SignersOk x.cr L accs) :
    (∀ k, (∀ j ∈ touched ix, ∀ m, accs[j]? = some m → m.key ≠ k) → L' k = L k) ∧
    ∀ j ∈ touched ix, ∃ m, accs[j]? = some m ∧ m.isWritable = true := by
  have hd := h.dispatch
  cases ix with
  | Stake a =>
    obtain ⟨s, v, oa, xa, xm, st, om, tp, L1, m, r⟩ := processStake_run hd
    have f := r.eff hs
    obtain ⟨rest, rfl⟩ := r.accs_eq
    constructor
    · intro k hk
      simp [touched] at hk
      exact f.frame.other k (by
        simp only [List.mem_cons, List.not_mem_nil, or_false, not_or]
        rw [← r.xm_key]
        exact ⟨Ne.symm hk.2.1, Ne.symm hk.1, Ne.symm hk.2.2.1, Ne.symm hk.2.2.2⟩)
    · simp [touched, r.v_w, r.oa_w, r.xa_w, r.xm_w]
  | Unstake a i =>
    obtain ⟨u, st, pw, xa, xm, om, v, sp, tp, L1, L3, w, e, ts, b, r⟩ := processUnstake_run hd
    have f := (r.eff hs).1
    obtain ⟨rest, rfl⟩ := r.accs_eq
    constructor
    · intro k hk
      simp [touched] at hk
      obtain ⟨k0, k1, k2, k3, k4⟩ := hk
      apply account_ext
      · exact f.lamports k (by simp [Ne.symm k2, Ne.symm k0])
      · exact f.owner k (Ne.symm k2)
      · exact f.data k (by
          simp only [List.mem_cons, List.not_mem_nil, or_false, not_or]
          rw [← r.xm_key]
          exact ⟨Ne.symm k2, Ne.symm k3, Ne.symm k4, Ne.symm k1⟩)
    · simp [touched, r.u_w, r.st_w, r.pw_w, r.xa_w, r.xm_w]
  | Withdraw i =>
    obtain ⟨u, st, pw, oa, v, om, sp, tp, L1, L2, e, r⟩ := processWithdraw_run hd
    have f := (r.eff hs).1
    obtain ⟨rest, rfl⟩ := r.accs_eq
    constructor
    · intro k hk
      simp [touched] at hk
      obtain ⟨k0, k1, k2, k3, k4⟩ := hk
      apply account_ext
      · exact f.lamports k (by simp [Ne.symm k2, Ne.symm k0])
      · exact f.owner k (Ne.symm k2)
      · exact f.data k (by simp [Ne.symm k1, Ne.symm k2, Ne.symm k3, Ne.symm k4])
    · simp [touched, r.u_w, r.st_w, r.pw_w, r.oa_w, r.v_w]
  | Initialize c =>
    obtain ⟨p, au, st, v, xm, om, sp, tp, ap, L1, b, vb, r⟩ := processInitialize_run hd
    have f := r.eff hs
    obtain ⟨rest, rfl⟩ := r.accs_eq
    constructor
    · intro k hk
      simp [touched] at hk
      obtain ⟨k0, k1, k2⟩ := hk
      exact f.other k (by simp [Ne.symm k0, Ne.symm k1, Ne.symm k2])
    · simp [touched, r.p_w, r.st_w, r.v_w]
  | Set u =>
    have key : ∃ a st d, SetRun x L accs a st ∧ L' = L.setData st.key d := by
      cases u with
      | UpdateCoolDownPeriod c =>
        obtain ⟨a, st, r, _, h2, _⟩ := processSet_coolDown_run hd
        exact ⟨a, st, _, r, h2⟩
      | UpdateUpdateAuthority k =>
        obtain ⟨a, st, r, h2, _⟩ := processSet_authority_run hd
        exact ⟨a, st, _, r, h2⟩
    obtain ⟨a, st, d, r, rfl⟩ := key
    obtain ⟨rest, rfl⟩ := r.accs_eq
    constructor
    · intro k hk
      simp [touched] at hk
      exact L.setData_other _ (Ne.symm hk)
    · simp [touched, r.st_w]

example := C34_only_listed_accounts (x := Demo.ctx 1003) Demo.run5 Demo.signers5

/-- An account that the call does not list as writable is not changed at all. -/
theorem C34_bystanders_untouched {ix : Instruction} (h : Runs x L accs ix L' logs)
    (hs : SignersOk x.cr L accs) {k : Pubkey} (hk : ∀ m ∈ accs, m.isWritable = true → m.key ≠ k) :
    L' k = L k := by
  obtain ⟨h1, h2⟩ := C34_only_listed_accounts h hs
  apply h1
  intro j hj m hm
  obtain ⟨m', hm', hw⟩ := h2 j hj
  rw [hm] at hm'
  cases hm'
  exact hk m (List.mem_of_getElem? hm) hw

/-- The vault is not writable in an Unstake; the token account of the user's ORCA is not even listed. -/
example : Demo.L5 Demo.VA = Demo.L4 Demo.VA ∧ Demo.L5 Demo.UO = Demo.L4 Demo.UO :=
  ⟨C34_bystanders_untouched (x := Demo.ctx 1003) Demo.run5 Demo.signers5 (by decide +kernel),
    C34_bystanders_untouched (x := Demo.ctx 1003) Demo.run5 Demo.signers5 (by decide +kernel)⟩

/-! ### C33: tokens -/

/-- No instruction changes the total of any token other than xORCA; in particular not of ORCA.  `S` is any
set of accounts containing those of the call. -/
theorem C33_orca_conserved {ix : Instruction} (h : Runs x L accs ix L' logs) (hs : SignersOk x.cr L accs)
    {S : Finset Pubkey} (hS : ∀ m ∈ accs, m.key ∈ S) {m : Pubkey} (hm : m ≠ XORCA_MINT_ID) :
    totalTokens L' m S = totalTokens L m S := by
  have hd := h.dispatch
  unfold totalTokens
  cases ix with
  | Stake a =>
    obtain ⟨s, v, oa, xa, xm, st, om, tp, L1, w, r⟩ := processStake_run hd
    obtain ⟨rest, he⟩ := r.accs_eq
    have h1 := Finset.sum_congr (s₁ := S) rfl fun k _ => r.tokens hs m k
    simp only [Finset.sum_add_distrib, Finset.sum_ite_eq, hS oa (by simp [he]), hS v (by simp [he]), if_true,
      if_neg hm, ite_self, Finset.sum_const_zero] at h1
    omega
  | Unstake a i =>
    obtain ⟨u, st, pw, xa, xm, om, v, sp, tp, L1, L3, w, e, ts, b, r⟩ := processUnstake_run hd
    have h1 := Finset.sum_congr (s₁ := S) rfl fun k _ => r.tokens hs m k
    simp only [Finset.sum_add_distrib, if_neg hm, ite_self, Finset.sum_const_zero] at h1
    exact h1
  | Withdraw i =>
    obtain ⟨u, st, pw, oa, v, om, sp, tp, L1, L2, e, r⟩ := processWithdraw_run hd
    obtain ⟨rest, he⟩ := r.accs_eq
    have h1 := Finset.sum_congr (s₁ := S) rfl fun k _ => r.tokens hs m k
    simp only [Finset.sum_add_distrib, Finset.sum_ite_eq, hS oa (by simp [he]), hS v (by simp [he]),
      if_true] at h1
    omega
  | Initialize c =>
    obtain ⟨p, au, st, v, xm, om, sp, tp, ap, L1, b, vb, r⟩ := processInitialize_run hd
    exact Finset.sum_congr rfl fun k _ => (r.eff hs).tokens m k
  | Set u =>
    obtain ⟨a, st, d, r, rfl⟩ := processSet_run hd
    exact Finset.sum_congr rfl fun k _ => r.tokens d m k

example := C33_orca_conserved (x := Demo.ctx 1103) Demo.run9 Demo.signers9
  (S := {Demo.US, Demo.ST, Demo.R255, Demo.UO, Demo.VA, ORCA_MINT_ID, SYSTEM_PROGRAM_ID, SPL_TOKEN_PROGRAM_ID})
  (by decide +kernel) (m := ORCA_MINT_ID) (by decide +kernel)

/-- The total of xORCA changes exactly as the supply recorded in the mint does. -/
theorem C33_xorca_follows_supply {ix : Instruction} (h : Runs x L accs ix L' logs)
    (hs : SignersOk x.cr L accs) (hmint : MintOk L XORCA_MINT_ID)
    {S : Finset Pubkey} (hS : ∀ m ∈ accs, m.key ∈ S) :
    totalTokens L' XORCA_MINT_ID S + supply L XORCA_MINT_ID =
      totalTokens L XORCA_MINT_ID S + supply L' XORCA_MINT_ID := by
  have hd := h.dispatch
  have hml := hmint.len
  unfold totalTokens
  cases ix with
  | Stake a =>
    obtain ⟨s, v, oa, xa, xm, st, om, tp, L1, w, r⟩ := processStake_run hd
    obtain ⟨rest, he⟩ := r.accs_eq
    obtain ⟨w4, d1, d2⟩ := (r.eff hs).xm_data
    have h1 := Finset.sum_congr (s₁ := S) rfl fun k _ => r.tokens hs XORCA_MINT_ID k
    simp only [Finset.sum_add_distrib, Finset.sum_ite_eq, hS xa (by simp [he]), if_true,
      if_neg orca_ne_xorca.symm, ite_self, Finset.sum_const_zero] at h1
    rw [supply_of_writeAt (by omega) d1, d2]
    omega
  | Unstake a i =>
    obtain ⟨u, st, pw, xa, xm, om, v, sp, tp, L1, L3, w, e, ts, b, r⟩ := processUnstake_run hd
    obtain ⟨rest, he⟩ := r.accs_eq
    obtain ⟨w4, d1, d2⟩ := (r.eff hs).1.xm_data
    have h1 := Finset.sum_congr (s₁ := S) rfl fun k _ => r.tokens hs XORCA_MINT_ID k
    simp only [Finset.sum_add_distrib, Finset.sum_ite_eq, hS xa (by simp [he]), if_true] at h1
    rw [supply_of_writeAt (by omega) d1]
    change _ = ∑ k ∈ S, tokensOf L XORCA_MINT_ID k at h1
    omega
  | Withdraw i =>
    obtain ⟨u, st, pw, oa, v, om, sp, tp, L1, L2, e, r⟩ := processWithdraw_run hd
    have f := (r.eff hs).1
    have h1 := Finset.sum_congr (s₁ := S) rfl fun k _ => r.tokens hs XORCA_MINT_ID k
    simp only [Finset.sum_add_distrib, if_neg orca_ne_xorca.symm, ite_self, Finset.sum_const_zero] at h1
    have h2 : supply L' XORCA_MINT_ID = supply L XORCA_MINT_ID := by
      apply supply_of_data
      apply f.data
      simp only [List.mem_cons, List.not_mem_nil, or_false, not_or]
      refine ⟨?_, ?_, ?_, ?_⟩ <;> intro hh
      · exact token_ne_program (by rw [← hmint.prog, hh, r.pw_prog])
      · rw [hh, f.oa_ok.len] at hml; omega
      · rw [hh, f.v_ok.len] at hml; omega
      · exact token_ne_program (by rw [← hmint.prog, hh, r.st_prog])
    omega
  | Initialize c =>
    obtain ⟨p, au, st, v, xm, om, sp, tp, ap, L1, b, vb, r⟩ := processInitialize_run hd
    have f := r.eff hs
    have h1 := Finset.sum_congr (s₁ := S) rfl fun k _ => f.tokens XORCA_MINT_ID k
    have h2 : L' XORCA_MINT_ID = L XORCA_MINT_ID := by
      apply f.other
      simp only [List.mem_cons, List.not_mem_nil, or_false, not_or]
      refine ⟨?_, ?_, ?_⟩ <;> intro hh
      · rw [r.deployer] at hh; exact absurd hh (by decide)
      · exact token_ne_system (by rw [← hmint.prog, hh, r.st_sys])
      · exact token_ne_system (by rw [← hmint.prog, hh, r.v_sys])
    rw [h1, supply_of_data (L := L) (L' := L') (by rw [h2])]
  | Set u =>
    obtain ⟨a, st, d, r, rfl⟩ := processSet_run hd
    have h1 := Finset.sum_congr (s₁ := S) rfl fun k _ => r.tokens d XORCA_MINT_ID k
    have h2 : supply (L.setData st.key d) XORCA_MINT_ID = supply L XORCA_MINT_ID := by
      apply supply_of_data
      rw [Ledger.setData_other]
      intro hh; exact token_ne_program (by rw [← hmint.prog, hh, r.st_prog])
    rw [h1, h2]

example := C33_xorca_follows_supply (x := Demo.ctx 1002) Demo.run4 Demo.signers4 (by decide +kernel)
  (S := {Demo.US, Demo.VA, Demo.UO, Demo.UX, XORCA_MINT_ID, Demo.ST, ORCA_MINT_ID, SPL_TOKEN_PROGRAM_ID})
  (by decide +kernel)

/-! ### C35: lamports -/

/-- No instruction creates or destroys lamports, as long as the lamports around do not overflow 64 bits. -/
theorem C35_lamports_conserved {ix : Instruction} (h : Runs x L accs ix L' logs) (hs : SignersOk x.cr L accs)
    {S : Finset Pubkey} (hS : ∀ m ∈ accs, m.key ∈ S) (hfit : totalLamports L S < 2 ^ 64) :
    totalLamports L' S = totalLamports L S := by
  have hd := h.dispatch
  unfold totalLamports at hfit ⊢
  cases ix with
  | Stake a =>
    obtain ⟨s, v, oa, xa, xm, st, om, tp, L1, w, r⟩ := processStake_run hd
    exact Finset.sum_congr rfl fun k _ => by rw [(r.eff hs).frame.lamports k]
  | Unstake a i =>
    obtain ⟨u, st, pw, xa, xm, om, v, sp, tp, L1, L3, w, e, ts, b, r⟩ := processUnstake_run hd
    have f := (r.eff hs).1
    obtain ⟨rest, he⟩ := r.accs_eq
    obtain ⟨l, n1, n2⟩ := f.pw_new
    have hsum := sum_upd2 (f := fun k => (L k).lamports.toNat) (g := fun k => (L' k).lamports.toNat) (S := S)
      (hS pw (by simp [he])) (hS u (by simp [he])) f.pw_ne.1 (fun k k1 k2 => by
        rw [f.lamports k (by simp [k1, k2])])
    have hp := f.paid
    have hn : (L' pw.key).lamports = l := by rw [n1]
    rw [hn] at hsum
    omega
  | Withdraw i =>
    obtain ⟨u, st, pw, oa, v, om, sp, tp, L1, L2, e, r⟩ := processWithdraw_run hd
    have f := (r.eff hs).1
    obtain ⟨rest, he⟩ := r.accs_eq
    have hsum := sum_upd2 (f := fun k => (L k).lamports.toNat) (g := fun k => (L' k).lamports.toNat) (S := S)
      (hS pw (by simp [he])) (hS u (by simp [he])) f.pw_ne.2.2 (fun k k1 k2 => by
        rw [f.lamports k (by simp [k1, k2])])
    have hle := sum_two_le (f := fun k => (L k).lamports.toNat) (hS pw (by simp [he])) (hS u (by simp [he]))
      f.pw_ne.2.2
    have hp : (L' u.key).lamports.toNat = (L u.key).lamports.toNat + (L pw.key).lamports.toNat := by
      rw [f.refund, UInt64.toNat_add, Nat.mod_eq_of_lt (by omega)]
    have hn : (L' pw.key).lamports.toNat = 0 := by rw [f.pw_closed]; rfl
    omega
  | Initialize c =>
    obtain ⟨p, au, st, v, xm, om, sp, tp, ap, L1, b, vb, r⟩ := processInitialize_run hd
    have f := r.eff hs
    obtain ⟨rest, he⟩ := r.accs_eq
    obtain ⟨l1, n1, n2⟩ := f.st_new
    obtain ⟨l2, v1, v2⟩ := f.v_new
    obtain ⟨l3, p1, p2⟩ := f.paid
    have hsum := sum_upd3 (f := fun k => (L k).lamports.toNat) (g := fun k => (L' k).lamports.toNat) (S := S)
      (hS p (by simp [he])) (hS st (by simp [he])) (hS v (by simp [he])) f.p_ne.1 f.p_ne.2 f.st_ne_v
      (fun k k1 k2 k3 => by rw [f.other k (by simp [k1, k2, k3])])
    have e1 : (L' st.key).lamports = l1 := by rw [n1]
    have e2 : (L' v.key).lamports = l2 := by rw [v1]
    have e3 : (L' p.key).lamports = l3 := by rw [p1]
    rw [e1, e2, e3] at hsum
    omega
  | Set u =>
    obtain ⟨a, st, d, r, rfl⟩ := processSet_run hd
    exact Finset.sum_congr rfl fun k _ => by simp

example := C35_lamports_conserved (x := Demo.ctx 1103) Demo.run9 Demo.signers9
  (S := {Demo.US, Demo.ST, Demo.R255, Demo.UO, Demo.VA, ORCA_MINT_ID, SYSTEM_PROGRAM_ID, SPL_TOKEN_PROGRAM_ID})
  (by decide +kernel) (by decide +kernel)

/-- Withdraw gives all lamports of the record to the signer. -/
theorem C35_rent_refunded {u st pw : Meta} {rest : List Meta} {i : UInt8}
    (h : Runs x L (u :: st :: pw :: rest) (.Withdraw i) L' logs)
    (hs : SignersOk x.cr L (u :: st :: pw :: rest))
    (hfit : (L u.key).lamports.toNat + (L pw.key).lamports.toNat < 2 ^ 64) :
    (L' u.key).lamports.toNat = (L u.key).lamports.toNat + (L pw.key).lamports.toNat ∧
    L' pw.key = ⟨0, SYSTEM_PROGRAM_ID, []⟩ := by
  obtain ⟨u', st', pw', oa, v, om, sp, tp, L1, L2, e, r⟩ := processWithdraw_run h.dispatch
  have f := (r.eff hs).1
  obtain ⟨rest', he⟩ := r.accs_eq
  simp only [List.cons.injEq] at he
  obtain ⟨rfl, rfl, rfl, _⟩ := he
  exact ⟨by rw [f.refund, UInt64.toNat_add, Nat.mod_eq_of_lt (by omega)], f.pw_closed⟩

example := C35_rent_refunded (x := Demo.ctx 1103) Demo.run9 Demo.signers9 (by decide +kernel)

/-! ### C38: addresses -/

/-- Records of different users or with different indices have different addresses, unless the two byte
strings hashed for them are a SHA-256 collision. -/
theorem C38_record_addresses_differ {u u' k : Pubkey} {i i' b b' : UInt8}
    (h : RecordAddr cr u i k b) (h' : RecordAddr cr u' i' k b') :
    (u = u' ∧ i = i') ∨ Clash cr (recordHashed u i b) (recordHashed u' i' b') := by
  rcases record_hash_inj ((recordAddr_hash h).symm.trans (recordAddr_hash h')) with ⟨h, h3, _⟩ | h
  · exact Or.inl ⟨h, h3⟩
  · exact Or.inr h

/-- The addresses of the indices 0 and 255 of the demo user are different. -/
example : RecordAddr Demo.cr Demo.US 0 Demo.R0 252 ∧ RecordAddr Demo.cr Demo.US 255 Demo.R255 255 ∧ Demo.R0 ≠ Demo.R255 :=
  ⟨Demo.r0_addr, Demo.r255_addr, by decide +kernel⟩

/-- The state account, a record and the vault have different addresses, unless the two byte strings hashed for
them are a SHA-256 collision. -/
theorem C38_kinds_differ {u st k : Pubkey} {i b b' : UInt8} :
    (StateAddr cr k b → RecordAddr cr u i k b' → Clash cr (stateHashed b) (recordHashed u i b')) ∧
    (StateAddr cr k b → VaultAddr cr st k b' → Clash cr (stateHashed b) (vaultHashed st b')) ∧
    (RecordAddr cr u i k b → VaultAddr cr st k b' → Clash cr (recordHashed u i b) (vaultHashed st b')) := by
  have l1 : ∀ b, (stateHashed b).length = 59 := fun b => by
    simp [stateHashed, pdaMarker, Pubkey.len]
  have l2 : ∀ i b, (recordHashed u i b).length = 103 := fun i b => by
    simp [recordHashed, pdaMarker, Pubkey.len]
  have l3 : ∀ b, (vaultHashed st b).length = 150 := fun b => by
    simp [vaultHashed, pdaMarker, Pubkey.len]
  refine ⟨fun h h' => ⟨fun e => ?_, (stateAddr_hash h).symm.trans (recordAddr_hash h')⟩,
    fun h h' => ⟨fun e => ?_, (stateAddr_hash h).symm.trans (vaultAddr_hash h')⟩,
    fun h h' => ⟨fun e => ?_, (recordAddr_hash h).symm.trans (vaultAddr_hash h')⟩⟩
  · have := congrArg List.length e; rw [l1, l2] at this; omega
  · have := congrArg List.length e; rw [l1, l3] at this; omega
  · have := congrArg List.length e; rw [l2, l3] at this; omega

/-- So are the state, the vault and the records of the demo. -/
example : [Demo.ST, Demo.VA, Demo.R0, Demo.R255].Nodup := by decide +kernel

/-! ### C44: who moves what -/

/-- Once the pool exists: only a Stake raises the xORCA supply, only a Withdraw lowers the vault's balance,
and only a Set changes the authority or the cool-down period. -/
theorem C44_moved_only_by {e : Entry} {st v : Pubkey} {vb : UInt8} (ok : e.Ok cr) (hr : Reachable cr e.pre)
    (hi : Initialised cr e.pre st) (hv : VaultAddr cr st v vb) :
    (supply e.pre XORCA_MINT_ID < supply e.post XORCA_MINT_ID →
      ∃ x accs a logs, e.label = .call x accs (.Stake a) logs) ∧
    (balance e.post v < balance e.pre v → ∃ x accs i logs, e.label = .call x accs (.Withdraw i) logs) ∧
    (escrow e.pre st < escrow e.post st → ∃ x accs a i logs, e.label = .call x accs (.Unstake a i) logs) ∧
    (authority e.post st ≠ authority e.pre st ∨ coolDown e.post st ≠ coolDown e.pre st →
      ∃ x accs u logs, e.label = .call x accs (.Set u) logs) := by
  obtain ⟨v', p⟩ := hr.inv.ofInitialised hi
  obtain ⟨rfl, _⟩ := vaultAddr_unique hv p.v_addr
  refine ⟨?_, ?_, ?_, ?_⟩
  · intro h
    cases ok.move hr.inv p with
    | stake a hl _ _ _ => obtain ⟨x, accs, n, logs, h1, _⟩ := hl; exact ⟨x, accs, n, logs, h1⟩
    | unstake | withdraw | set | env => omega
  · intro h
    cases ok.move hr.inv p with
    | withdraw a hl _ _ _ => obtain ⟨x, accs, i, logs, m, h1, _⟩ := hl; exact ⟨x, accs, i, logs, h1⟩
    | unstake | stake | set | env => omega
  · intro h
    cases ok.move hr.inv p with
    | unstake a hl _ _ _ => obtain ⟨x, accs, a, i, logs, h1, _⟩ := hl; exact ⟨x, accs, a, i, logs, h1⟩
    | withdraw | stake | set | env => omega
  · intro h
    have inv := hr.inv
    have ls := p.acc.len
    have same : ∀ {L L' : Ledger}, (L' st).data = (L st).data →
        ¬ (authority L' st ≠ authority L st ∨ coolDown L' st ≠ coolDown L st) := by
      intro L L' hd; simp [authority, coolDown, hd]
    have wr : ∀ {L L' : Ledger} {w : UInt64}, (L st).data.length = 2048 →
        (L' st).data = writeAt (L st).data 8 (u64le w) →
        ¬ (authority L' st ≠ authority L st ∨ coolDown L' st ≠ coolDown L st) := by
      intro L L' w hl hd
      simp only [authority, coolDown, hd]
      rw [readKey_writeAt_apart (by simp; omega) (by simp [Apart]),
        readI64_writeAt_apart (by simp; omega) (by simp [Apart])]
      simp
    cases ok with
    | @env L L' s => exact absurd h (same (s.owned st p.prog p.acc.lam).2.1)
    | @call x accs ix logs L L' hcr hrent hs hrun =>
      subst hcr
      have hd := hrun.dispatch
      simp only at inv p h ls ⊢
      cases ix with
      | Set u => exact ⟨_, _, _, _, rfl⟩
      | Stake a =>
        obtain ⟨s, v, oa, xa, xm, st, om, tp, L1, m, r, f, q, q', i'⟩ := inv.stake hs hd
        obtain ⟨rfl, rfl, _⟩ := p.unique q
        exact absurd h (same (by rw [f.frame.other _ (by simp [f.st_ne])]))
      | Unstake a ixx =>
        obtain ⟨u, st, pw, xa, xm, om, v, sp, tp, L1, L3, w, e, ts, b, r, f, q, q', i'⟩ :=
          inv.unstake hrent hs hd
        obtain ⟨rfl, rfl, _⟩ := p.unique q
        exact absurd h (wr ls f.st_data)
      | Withdraw ixx =>
        obtain ⟨u, st, pw, oa, v, om, sp, tp, L1, L2, e, r, f, q, q', i'⟩ := inv.withdraw hs hd
        obtain ⟨rfl, rfl, _⟩ := p.unique q
        exact absurd h (wr ls f.st_data)
      | Initialize c =>
        obtain ⟨_, au, st, v, xm, om, sp, tp, ap, L1, b, vb, r, f, hbl, p', i', _⟩ :=
          inv.initialize hrent hs hd
        exact absurd (hbl _ p.prog) (not_allZero (o := 0) (by rw [p.acc.tag]; decide))

example : balance Demo.L9 Demo.VA < balance Demo.L8 Demo.VA := by decide +kernel
example := C44_moved_only_by Demo.ok9 (by rw [Demo.pre9]; exact Demo.reach8) (by rw [Demo.pre9]; exact Demo.init8)
  Demo.va_addr

end Xorca
