import Verif.Lemmas.OutsideTok
/-
Steps of the rest of the chain are environment steps, and calls of the program leave the ledger steady.
-/
namespace Xorca
open Spec

variable {cr : Crypto} {L L' : Ledger}

/-! ### Zeroed data -/

theorem allZero_u8 {d : Bytes} (h : AllZero d) (o : Nat) : readU8 d o = 0 := by
  by_contra hc; exact not_allZero hc h

theorem allZero_slice {d : Bytes} (h : AllZero d) {o n : Nat} (hl : o + n ≤ d.length) :
    slice d o n = List.replicate n 0 := by
  have e : (slice d o n).length = n := by simp only [slice, List.length_take, List.length_drop]; omega
  have := List.eq_replicate_of_mem (a := (0 : UInt8)) (l := slice d o n)
    (fun b hb => h b (List.mem_of_mem_drop (List.mem_of_mem_take hb)))
  rw [e] at this; exact this

theorem allZero_u32 {d : Bytes} (h : AllZero d) {o : Nat} (hl : o + 4 ≤ d.length) : readU32 d o = 0 := by
  unfold readU32; rw [allZero_slice h hl]; decide

theorem allZero_u64 {d : Bytes} (h : AllZero d) {o : Nat} (hl : o + 8 ≤ d.length) : readU64 d o = 0 := by
  unfold readU64; rw [allZero_slice h hl]; decide

theorem allZero_sound {a : Account} (h : AllZero a.data) : TokenSound a :=
  ⟨fun _ h1 _ => absurd (allZero_u8 h 108) h1, fun hl _ => allZero_u32 h (by omega)⟩

/-! ### Other programs -/

/-- What is to be shown about a step of others. -/
def Harmless (cr : Crypto) (L L' : Ledger) : Prop :=
  EnvStep cr L L' ∧ Steady cr L' ∧ (Accounted L → Accounted L')

theorem harmless_token {rent : Nat → UInt64} {sg : Pubkey → Bool} {ix : TokenIx} (hs : Steady cr L)
    (hrent : ∀ n, rent n ≠ 0) (hn : NotPool cr sg) (h : tokenExec rent sg L ix = .ok L') : Harmless cr L L' := by
  obtain ⟨h1, h2⟩ := fine_token hs hrent hn h
  exact ⟨(h1.env hs).1, (h1.env hs).2, h2⟩

theorem harmless_program {sg : Pubkey → Bool} {p : Pubkey} (hs : Steady cr L) (hp : p ≠ PROGRAM_ID)
    (hq : p ≠ SPL_TOKEN_PROGRAM_ID) (hn : NotPool cr sg) (h : ProgramRule sg p L L') : Harmless cr L L' := by
  have hprog : ∀ k, (L k).owner = PROGRAM_ID → Credited (L k) (L' k) := fun k hk => (h k).1 (by rw [hk]; exact hp.symm)
  have htok : ∀ k, (L k).owner = SPL_TOKEN_PROGRAM_ID → Credited (L k) (L' k) := fun k hk =>
    (h k).1 (by rw [hk]; exact hq.symm)
  -- an account that ends up with the token program or the program is unchanged or blank
  have hend : ∀ k, (L' k).owner ≠ p → Credited (L k) (L' k) ∨ AllZero (L' k).data := fun k hk => by
    by_cases ho : (L k).owner = p
    · rcases (h k).2 ho with h1 | h1
      · exact absurd h1 hk
      · exact Or.inr h1.1
    · exact Or.inl ((h k).1 ho)
  have hm := htok _ hs.mint.1
  have hm' : (L' XORCA_MINT_ID).owner = SPL_TOKEN_PROGRAM_ID ∧ (L' XORCA_MINT_ID).data.length = 82 ∧
      readU8 (L' XORCA_MINT_ID).data 45 = 1 ∧ (L' XORCA_MINT_ID).lamports ≠ 0 := by
    obtain ⟨m1, m2, m3, m4⟩ := hs.mint
    exact ⟨hm.1.trans m1, by rw [hm.2.1, m2], by rw [hm.2.1, m3], lamports_ne hm.2.2 m4⟩
  refine ⟨⟨?_, ?_, ?_, ?_, fun _ => Or.inr ⟨hm'.2.1, hm'.2.2.1⟩⟩, ⟨?_, hs.nobody, ?_, hm'⟩, ?_⟩
  · intro k ho _
    obtain ⟨h1, h2, h3⟩ := hprog k ho
    exact ⟨h1.trans ho, h2, h3⟩
  · intro k ho
    rcases hend k (by rw [ho]; exact hp.symm) with ⟨h1, h2, _⟩ | h1
    · exact Or.inr ⟨h1.symm.trans ho, h2⟩
    · exact Or.inl h1
  · intro k q
    obtain ⟨h1, h2, _⟩ := htok k q.prog
    unfold balance; rw [h2]
    exact ⟨h1.trans q.prog, q.len, fun _ _ _ _ => rfl, q.state, Nat.le_refl _⟩
  · intro q
    unfold supply; rw [hm.2.1]
    exact ⟨hm'.1, ⟨rfl, fun _ _ => rfl⟩, Nat.le_refl _⟩
  · intro k b hk
    by_cases ho : (L k).owner = p
    · rcases hs.state k b hk with h1 | h1
      · rcases (h k).2 ho with h2 | ⟨_, h2⟩
        · left; rw [h2, ← ho, h1]
        · have := h2 (by rw [← ho, h1])
          rw [hn k b hk] at this; exact absurd this (by decide)
      · exact absurd (ho.symm.trans h1) hp
    · rw [((h k).1 ho).1]; exact hs.state k b hk
  · intro k ho
    rcases hend k (by rw [ho]; exact hq.symm) with h1 | h1
    · exact h1.sound (hs.sound k (h1.1.symm.trans ho))
    · exact allZero_sound h1
  · refine Calm.books ⟨fun k => ?_, supply_of_data hm.2.1⟩
    by_cases hc : (L' k).owner = SPL_TOKEN_PROGRAM_ID
    · rcases hend k (by rw [hc]; exact hq.symm) with h1 | h1
      · exact Nat.le_of_eq (tokensOf_congr h1.1 h1.2.1)
      · unfold tokensOf
        split
        · next h2 =>
          unfold balance
          rw [allZero_u64 h1 (by omega)]; exact Nat.zero_le _
        · exact Nat.zero_le _
    · unfold tokensOf; rw [if_neg (fun h => hc h.1)]; exact Nat.zero_le _

theorem harmless_purge {k : Pubkey} (hs : Steady cr L) (h0 : (L k).lamports = 0) :
    Harmless cr L (L.set k ⟨0, SYSTEM_PROGRAM_ID, []⟩) := by
  have hsame : L.set k ⟨0, SYSTEM_PROGRAM_ID, []⟩ k = ⟨0, SYSTEM_PROGRAM_ID, []⟩ := by simp [Ledger.set]
  have hoth : ∀ j, j ≠ k → L.set k ⟨0, SYSTEM_PROGRAM_ID, []⟩ j = L j := fun j hj => by simp [Ledger.set, hj]
  generalize L.set k ⟨0, SYSTEM_PROGRAM_ID, []⟩ = L' at hsame hoth
  have hxm : XORCA_MINT_ID ≠ k := by rintro rfl; exact hs.mint.2.2.2 h0
  have hm' := hs.mint
  rw [← hoth _ hxm] at hm'
  refine ⟨⟨?_, ?_, ?_, ?_, fun _ => Or.inr ⟨hm'.2.1, hm'.2.2.1⟩⟩, ⟨?_, hs.nobody, ?_, hm'⟩, ?_⟩
  · intro j ho hl
    rw [hoth j (by rintro rfl; exact hl h0)]
    exact ⟨ho, rfl, Nat.le_refl _⟩
  · intro j ho
    by_cases hj : j = k
    · subst hj; rw [hsame] at ho; exact absurd ho system_ne_program
    · rw [hoth j hj] at ho ⊢; exact Or.inr ⟨ho, rfl⟩
  · intro j q
    have hj : j ≠ k := by
      rintro rfl
      exact (hs.sound j q.prog).paid q.len (by rcases q.state with h | h <;> rw [h] <;> decide) q.native h0
    unfold balance; rw [hoth j hj]
    exact ⟨q.prog, q.len, fun _ _ _ _ => rfl, q.state, Nat.le_refl _⟩
  · intro q
    unfold supply; rw [hoth _ hxm]
    exact ⟨q.prog, ⟨rfl, fun _ _ => rfl⟩, Nat.le_refl _⟩
  · intro j b hj
    by_cases hjk : j = k
    · subst hjk; left; rw [hsame]
    · rw [hoth j hjk]; exact hs.state j b hj
  · intro j ho
    by_cases hj : j = k
    · subst hj; rw [hsame] at ho; exact absurd ho.symm token_ne_system
    · rw [hoth j hj] at ho ⊢; exact hs.sound j ho
  · refine Calm.books ⟨fun j => ?_, supply_of_data (by rw [hoth _ hxm])⟩
    by_cases hj : j = k
    · subst hj
      rw [tokensOf_short (by rw [hsame]; decide)]; exact Nat.zero_le _
    · exact Nat.le_of_eq (tokensOf_congr (by rw [hoth j hj]) (by rw [hoth j hj]))

theorem harmless_outside (hs : Steady cr L) (h : Outside cr L L') : Harmless cr L L' := by
  cases h with
  | token h1 h2 h3 => exact harmless_token hs h1 h2 h3
  | program h1 h2 h3 h4 => exact harmless_program hs h1 h2 h3 h4
  | purge h => exact harmless_purge hs h

/-! ### Calls of the program -/

theorem AmountSet.sound {a a' : Account} {w : UInt64} (h : AmountSet a.data a'.data w)
    (hl : a.lamports.toNat ≤ a'.lamports.toNat) (hs : TokenSound a) : TokenSound a' := by
  refine ⟨?_, ?_⟩
  · rw [h.len, h.state, h.native]; exact fun a b c => lamports_ne hl (hs.paid a b c)
  · rw [h.len, h.mint, h.native]; exact hs.plain

theorem short_sound {a : Account} (h : a.data.length ≠ 165) : TokenSound a :=
  ⟨fun h' => absurd h' h, fun h' => absurd h' h⟩

theorem supply_write {d : Bytes} {w : UInt64} (hl : d.length = 82) :
    (writeAt d 36 (u64le w)).length = 82 ∧ readU8 (writeAt d 36 (u64le w)) 45 = readU8 d 45 := by
  have e := sameExcept_writeAt (d := d) (o := 36) (b := u64le w) (by simp; omega)
  exact ⟨e.1.trans hl, readU8_congr (e.2 45 (by simp))⟩

theorem steady_stake {x : Ctx} {accs : List Meta} {a : UInt64} {logs : List Bytes} (hs : Steady x.cr L)
    (hsig : SignersOk x.cr L accs) (h : processStake x L accs a = .ok (L', logs)) : Steady x.cr L' := by
  obtain ⟨s, v, oa, xa, xm, st, om, tp, L1, m, r⟩ := processStake_run h
  have e := r.eff hsig
  obtain ⟨w3, hw3, -⟩ := e.xm_data
  have ho : ∀ k, (L' k).owner = (L k).owner := e.frame.owner
  have hl : ∀ k, (L' k).lamports = (L k).lamports := e.frame.lamports
  have hd : ∀ k, k ∉ [oa.key, v.key, xa.key, XORCA_MINT_ID] → (L' k).data = (L k).data := fun k hk => by rw [e.frame.other k hk]
  obtain ⟨m1, m2, m3, m4⟩ := hs.mint
  have hm := supply_write (w := w3) m2
  refine ⟨fun k b hk => by rw [ho]; exact hs.state k b hk, hs.nobody, fun k hk => ?_,
    ⟨by rw [ho, m1], by rw [hw3]; exact hm.1, by rw [hw3, hm.2, m3], by rw [hl]; exact m4⟩⟩
  rw [ho] at hk
  have hll : (L k).lamports.toNat ≤ (L' k).lamports.toNat := by rw [hl]
  by_cases k1 : k = oa.key
  · subst k1; obtain ⟨w, hw, -⟩ := e.oa_data; exact hw.sound hll (hs.sound _ hk)
  by_cases k2 : k = v.key
  · subst k2; obtain ⟨w, hw, -⟩ := e.v_data
    have := amountSet_writeAt (d := (L v.key).data) (v := w) (by have := e.v_ok.len; omega)
    rw [← hw] at this; exact this.sound hll (hs.sound _ hk)
  by_cases k3 : k = xa.key
  · subst k3; obtain ⟨w, hw, -⟩ := e.xa_data
    have := amountSet_writeAt (d := (L xa.key).data) (v := w) (by have := e.xa_ok.len; omega)
    rw [← hw] at this; exact this.sound hll (hs.sound _ hk)
  by_cases k4 : k = XORCA_MINT_ID
  · subst k4; exact short_sound (by rw [hw3, hm.1]; decide)
  · exact Credited.sound ⟨ho k, hd k (by simp [k1, k2, k3, k4]), hll⟩ (hs.sound k hk)

theorem steady_unstake {x : Ctx} {accs : List Meta} {a : UInt64} {i : UInt8} {logs : List Bytes} (hs : Steady x.cr L)
    (hsig : SignersOk x.cr L accs) (h : processUnstake x L accs a i = .ok (L', logs)) : Steady x.cr L' := by
  obtain ⟨u, st, pw, xa, xm, om, v, sp, tp, L1, L3, w, e, ts, b, r⟩ := processUnstake_run h
  obtain ⟨f, -⟩ := r.eff hsig
  obtain ⟨w3, hw3, -⟩ := f.xm_data
  obtain ⟨l, hpw, -⟩ := f.pw_new
  obtain ⟨m1, m2, m3, m4⟩ := hs.mint
  have hm := supply_write (w := w3) m2
  have hll : ∀ k, (L k).owner = SPL_TOKEN_PROGRAM_ID → k ≠ pw.key → (L' k).lamports = (L k).lamports := by
    intro k hk hkp
    by_cases hu : k = u.key
    · subst hu
      rcases f.payer with h1 | h1
      · exact absurd (hk.symm.trans h1) token_ne_system
      · have := f.paid
        exact UInt64.toNat_inj.1 (by omega)
    · exact f.lamports k (by simp [hkp, hu])
  have hx := f.pw_ne.2.2.1.symm
  refine ⟨fun k b hk => ?_, hs.nobody, fun k hk => ?_,
    ⟨by rw [f.owner _ hx, m1], by rw [hw3]; exact hm.1, by rw [hw3, hm.2, m3], by rw [hll _ m1 hx]; exact m4⟩⟩
  · by_cases hkp : k = pw.key
    · subst hkp; right; rw [hpw]
    · rw [f.owner k hkp]; exact hs.state k b hk
  have hkp : k ≠ pw.key := by
    rintro rfl; rw [hpw] at hk; exact token_ne_program hk.symm
  rw [f.owner k hkp] at hk
  have hlk : (L k).lamports.toNat ≤ (L' k).lamports.toNat := by rw [hll k hk hkp]
  by_cases k1 : k = xa.key
  · subst k1; obtain ⟨w, hw, -⟩ := f.xa_data; exact hw.sound hlk (hs.sound _ hk)
  by_cases k4 : k = XORCA_MINT_ID
  · subst k4; exact short_sound (by rw [hw3, hm.1]; decide)
  have k5 : k ≠ st.key := by rintro rfl; exact token_ne_program (hk.symm.trans r.st_prog)
  exact Credited.sound ⟨f.owner k hkp, f.data k (by simp [hkp, k1, k4, k5]), hlk⟩ (hs.sound k hk)

theorem steady_withdraw {x : Ctx} {accs : List Meta} {i : UInt8} {logs : List Bytes} (hs : Steady x.cr L)
    (hfit : LamportsFit L accs) (hsig : SignersOk x.cr L accs) (h : processWithdraw x L accs i = .ok (L', logs)) :
    Steady x.cr L' := by
  obtain ⟨u, st, pw, oa, v, om, sp, tp, L1, L2, e, r⟩ := processWithdraw_run h
  obtain ⟨f, -⟩ := r.eff hsig
  obtain ⟨m1, m2, m3, m4⟩ := hs.mint
  have hpw := f.pw_closed
  have hll : ∀ k, k ≠ pw.key → (L k).lamports.toNat ≤ (L' k).lamports.toNat := by
    intro k hkp
    by_cases hu : k = u.key
    · subst hu
      obtain ⟨rest, hr⟩ := r.accs_eq
      have := hfit u (by rw [hr]; simp) pw (by rw [hr]; simp) hkp
      rw [f.refund, UInt64.toNat_add, Nat.mod_eq_of_lt this]
      omega
    · rw [f.lamports k (by simp [hkp, hu])]
  have hx : XORCA_MINT_ID ≠ pw.key := by
    intro h; rw [h] at m1; exact token_ne_program (m1.symm.trans r.pw_prog)
  have hxs : XORCA_MINT_ID ≠ st.key := by
    intro h; rw [h] at m1; exact token_ne_program (m1.symm.trans r.st_prog)
  have hxo : XORCA_MINT_ID ≠ oa.key := by
    intro h; rw [h] at m2; have := f.oa_ok.len; omega
  have hxv : XORCA_MINT_ID ≠ v.key := by
    intro h; rw [h] at m2; have := f.v_ok.len; omega
  have hxd : (L' XORCA_MINT_ID).data = (L XORCA_MINT_ID).data := f.data _ (by simp [hx, hxs, hxo, hxv])
  refine ⟨fun k b hk => ?_, hs.nobody, fun k hk => ?_,
    ⟨by rw [f.owner _ hx, m1], by rw [hxd, m2], by rw [hxd, m3], lamports_ne (hll _ hx) m4⟩⟩
  · by_cases hkp : k = pw.key
    · subst hkp; left; rw [hpw]
    · rw [f.owner k hkp]; exact hs.state k b hk
  have hkp : k ≠ pw.key := by
    rintro rfl; rw [hpw] at hk; exact token_ne_system hk.symm
  rw [f.owner k hkp] at hk
  by_cases k1 : k = v.key
  · subst k1; obtain ⟨w, hw, -⟩ := f.v_data; exact hw.sound (hll _ hkp) (hs.sound _ hk)
  by_cases k2 : k = oa.key
  · subst k2; obtain ⟨w, hw, -⟩ := f.oa_data
    have := amountSet_writeAt (d := (L oa.key).data) (v := w) (by have := f.oa_ok.len; omega)
    rw [← hw] at this; exact this.sound (hll _ hkp) (hs.sound _ hk)
  have k5 : k ≠ st.key := by rintro rfl; exact token_ne_program (hk.symm.trans r.st_prog)
  exact Credited.sound ⟨f.owner k hkp, f.data k (by simp [hkp, k1, k2, k5]), hll k hkp⟩ (hs.sound k hk)

theorem steady_set {x : Ctx} {accs : List Meta} {ins : StateUpdateInstruction} {logs : List Bytes} (hs : Steady x.cr L)
    (h : processSet x L accs ins = .ok (L', logs)) : Steady x.cr L' := by
  obtain ⟨a, st, d, r, rfl⟩ := processSet_run h
  have hne : ∀ k, (L k).owner = SPL_TOKEN_PROGRAM_ID → k ≠ st.key := by
    rintro k hk rfl; exact token_ne_program (hk.symm.trans r.st_prog)
  obtain ⟨m1, m2, m3, m4⟩ := hs.mint
  refine ⟨fun k b hk => by rw [Ledger.setData_owner]; exact hs.state k b hk, hs.nobody, fun k hk => ?_, ?_⟩
  · rw [Ledger.setData_owner] at hk
    rw [Ledger.setData_other _ _ (hne k hk)]; exact hs.sound k hk
  · rw [Ledger.setData_other _ _ (hne _ m1)]; exact hs.mint

theorem steady_initialize {x : Ctx} {accs : List Meta} {c : Int64} {logs : List Bytes} (hs : Steady x.cr L)
    (hsig : SignersOk x.cr L accs) (h : processInitialize x L accs c = .ok (L', logs)) : Steady x.cr L' := by
  obtain ⟨p, au, st, v, xm, om, sp, tp, ap, L1, b, vb, r⟩ := processInitialize_run h
  have f := r.eff hsig
  obtain ⟨l, hst, -⟩ := f.st_new
  obtain ⟨lv, hv, hlv⟩ := f.v_new
  obtain ⟨m1, m2, m3, m4⟩ := hs.mint
  -- an account of the token program is unchanged
  have hkeep : ∀ k, (L k).owner = SPL_TOKEN_PROGRAM_ID → L' k = L k := by
    intro k hk
    have k1 : k ≠ st.key := by rintro rfl; exact token_ne_system (hk.symm.trans r.st_sys)
    have k2 : k ≠ v.key := by rintro rfl; exact token_ne_system (hk.symm.trans r.v_sys)
    by_cases k3 : k = p.key
    · subst k3
      rcases f.payer with h1 | h1
      · exact absurd (hk.symm.trans h1) token_ne_system
      · exact h1
    · exact f.other k (by simp [k1, k2, k3])
  have howner : ∀ k, k ≠ st.key → k ≠ v.key → (L' k).owner = (L k).owner := by
    intro k k1 k2
    by_cases k3 : k = p.key
    · subst k3; obtain ⟨l, hp, -⟩ := f.paid; rw [hp]
    · rw [f.other k (by simp [k1, k2, k3])]
  refine ⟨fun k b' hk => ?_, hs.nobody, fun k hk => ?_, by rw [hkeep _ m1]; exact hs.mint⟩
  · have : k = st.key := (stateAddr_unique hk (b' := b) r.st_find).1
    subst this; right; rw [hst]
  · have k1 : k ≠ st.key := by rintro rfl; rw [hst] at hk; exact token_ne_program hk.symm
    by_cases k2 : k = v.key
    · subst k2
      obtain ⟨e1, e2, e3, e4, e5, e6, e7, e8⟩ := freshToken_fields ORCA_MINT_ID st.key
      rw [hv]
      refine ⟨fun _ _ _ h0 => ?_, fun _ _ => e7⟩
      simp only at h0
      rw [h0] at hlv
      have : (0 : UInt64).toNat = 0 := rfl
      omega
    · rw [howner k k1 k2] at hk
      rw [hkeep k hk]; exact hs.sound k hk

theorem steady_call {x : Ctx} {accs : List Meta} {ix : Instruction} {logs : List Bytes} (hs : Steady x.cr L)
    (hfit : LamportsFit L accs) (hsig : SignersOk x.cr L accs) (h : Runs x L accs ix L' logs) : Steady x.cr L' := by
  have hd := h.dispatch
  cases ix with
  | Stake n => exact steady_stake hs hsig hd
  | Unstake n i => exact steady_unstake hs hsig hd
  | Withdraw i => exact steady_withdraw hs hfit hsig hd
  | Set ins => exact steady_set hs hd
  | Initialize c => exact steady_initialize hs hsig hd

/-! ### Histories -/

theorem world_path {h : List Entry} (hs : Steady cr L) (hw : World cr L h L') :
    Path cr L h L' ∧ Steady cr L' ∧ ∀ e ∈ h, KeepsBooks e := by
  induction hw with
  | nil => exact ⟨.nil, hs, by simp⟩
  | @step h e _ hr ih =>
    obtain ⟨h1, h2, h3⟩ := ih
    cases hr with
    | @call x accs ix logs M M' hx hrent hsig hfit hrun =>
      subst hx
      refine ⟨.step h1 (.call rfl hrent hsig hrun), steady_call h2 hfit hsig hrun, fun e he => ?_⟩
      rcases List.mem_cons.1 he with rfl | he
      · intro hc; cases hc
      · exact h3 e he
    | @out M M' ho =>
      obtain ⟨o1, o2, o3⟩ := harmless_outside h2 ho
      refine ⟨.step h1 (.env o1), o2, fun e he => ?_⟩
      rcases List.mem_cons.1 he with rfl | he
      · exact fun _ => o3
      · exact h3 e he

end Xorca
