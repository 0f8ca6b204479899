import Verif.Lemmas.ClientCodec
import Verif.Lemmas.DemoCalls
import Verif.Lemmas.Inv
/-
Lemmas for `Props/AllBytes.lean`: the unused bytes of the accounts of the program.
-/
namespace Xorca
open Spec

/-- The bytes that neither a state nor a request uses are zero. -/
def Unused (d : Bytes) : Prop := ∀ i, 1 ≤ i ∧ i < 6 ∨ 56 ≤ i → readU8 d i = 0

theorem Unused.zero {d : Bytes} (h : AllZero d) : Unused d := by
  intro i _
  rw [readU8, List.getD_eq_getElem?_getD]
  cases hd : d[i]? with
  | none => rfl
  | some b => exact h b (List.mem_of_getElem? hd)

theorem Unused.same {d d' : Bytes} {o n : Nat} (h : SameExcept o n d d') (h6 : 6 ≤ o) (h56 : o + n ≤ 56) (hd : Unused d) :
    Unused d' := by
  intro i hi
  rw [← hd i hi, readU8, readU8, List.getD_eq_getElem?_getD, List.getD_eq_getElem?_getD, h.2 i (by omega)]

theorem Unused.framed {t : UInt8} {X : Bytes} {n : Nat} (h : X.length = 50) :
    Unused ([t] ++ List.replicate 5 0 ++ X ++ List.replicate n 0) := by
  intro i hi
  rw [readU8, List.getD_eq_getElem?_getD]
  rcases hi with hi | hi
  · rw [List.append_assoc, List.getElem?_append_left (by simp; omega), List.getElem?_append_right (by simp; omega),
      List.getElem?_replicate]
    split <;> rfl
  · rw [List.getElem?_append_right (by simp; omega), List.getElem?_replicate]
    split <;> rfl

theorem Unused.slice {d : Bytes} {o n : Nat} (h : Unused d) (ho : 1 ≤ o ∧ o + n ≤ 6 ∨ 56 ≤ o) (hl : o + n ≤ d.length) :
    Xorca.slice d o n = List.replicate n 0 := by
  refine List.eq_replicate_iff.2 ⟨slice_length hl, fun b hb => ?_⟩
  obtain ⟨j, hj, rfl⟩ := List.getElem_of_mem hb
  have hj' : j < n := by rw [slice_length hl] at hj; exact hj
  have := h (o + j) (by omega)
  rw [readU8, List.getD_eq_getElem?_getD, List.getElem?_eq_getElem (by omega)] at this
  simpa [Xorca.slice] using this

theorem Unused.record (b i : UInt8) (u : Pubkey) (w : UInt64) (ts : Int64) : Unused (recordBytes b i u w ts) := by
  have := Unused.framed (t := 2) (X := [b] ++ [i] ++ u.bytes ++ u64le w ++ i64le ts) (n := 968) (by simp [u.len])
  rw [recordBytes, PendingWithdraw.serialize]
  simpa only [List.append_assoc, AccountDiscriminator.toU8] using this

theorem Unused.state (b vb : UInt8) (c : Int64) (a : Pubkey) : Unused (initialStateBytes b vb c a) := by
  have := Unused.framed (t := 1) (X := [b] ++ [vb] ++ u64le 0 ++ i64le c ++ a.bytes) (n := 1992) (by simp [a.len])
  rw [initialStateBytes, State.serialize]
  simpa only [List.append_assoc, AccountDiscriminator.toU8] using this

theorem unused_step {cr : Crypto} {e : Entry} (ok : e.Ok cr) (inv : Inv cr e.pre)
    (h : ∀ k, (e.pre k).owner = PROGRAM_ID → Unused (e.pre k).data) :
    ∀ k, (e.post k).owner = PROGRAM_ID → Unused (e.post k).data := by
  cases ok with
  | @env L L' s =>
    intro k hk
    rcases s.given k hk with h1 | ⟨h1, h2⟩
    · exact .zero h1
    · exact h2 ▸ h k h1
  | @call x accs ix logs L L' hx hrent hs hrun =>
    subst hx
    intro k hk
    simp only at h hk ⊢ inv
    cases ix with
    | Stake a =>
      obtain ⟨s, v, oa, xa, xm, st, om, tp, L1, m, r, f, -⟩ := inv.stake hs hrun.dispatch
      have ho : (L k).owner = PROGRAM_ID := by rw [← f.frame.owner k]; exact hk
      rw [f.frame.other]
      · exact h k ho
      · simp only [List.mem_cons, List.not_mem_nil, or_false, not_or]
        refine ⟨?_, ?_, ?_, ?_⟩ <;> rintro rfl <;> apply token_ne_program
        · rw [← r.oa_prog, ho]
        · rw [← r.v_prog, ho]
        · rw [← r.xa_prog, ho]
        · rw [← r.xm_prog, ho]
    | Unstake a i =>
      obtain ⟨u, st, pw, xa, xm, om, v, sp, tp, L1, L3, w, e, ts, b, r, f, p, -⟩ := inv.unstake hrent hs hrun.dispatch
      by_cases hpw : k = pw.key
      · obtain ⟨l, hl, -⟩ := f.pw_new
        rw [hpw, hl]
        exact Unused.record _ _ _ _ _
      have ho : (L k).owner = PROGRAM_ID := by rw [← f.owner k hpw]; exact hk
      by_cases hst : k = st.key
      · have hlen := p.acc.len
        subst hst
        rw [f.st_data]
        exact .same (sameExcept_writeAt (by simp; omega)) (by omega) (by simp) (h _ ho)
      · rw [f.data]
        · exact h k ho
        · simp only [List.mem_cons, List.not_mem_nil, or_false, not_or]
          refine ⟨hpw, ?_, ?_, hst⟩ <;> rintro rfl
          · exact token_ne_program (by rw [← r.xa_prog, ho])
          · exact token_ne_program (by rw [← r.xm_prog, ho])
    | Withdraw i =>
      obtain ⟨u, st, pw, oa, v, om, sp, tp, L1, L2, e, r, f, p, -⟩ := inv.withdraw hs hrun.dispatch
      by_cases hpw : k = pw.key
      · rw [hpw, f.pw_closed]
        exact .zero (fun b hb => by cases hb)
      have ho : (L k).owner = PROGRAM_ID := by rw [← f.owner k hpw]; exact hk
      by_cases hst : k = st.key
      · have hlen := p.acc.len
        subst hst
        rw [f.st_data]
        exact .same (sameExcept_writeAt (by simp; omega)) (by omega) (by simp) (h _ ho)
      · rw [f.data]
        · exact h k ho
        · simp only [List.mem_cons, List.not_mem_nil, or_false, not_or]
          refine ⟨hpw, ?_, ?_, hst⟩ <;> rintro rfl
          · exact token_ne_program (by rw [← r.oa_prog, ho])
          · exact token_ne_program (by rw [← r.v_prog, ho])
    | Set u =>
      cases u with
      | UpdateCoolDownPeriod c =>
        obtain ⟨a, st, r, -, rfl, -⟩ := processSet_coolDown_run hrun.dispatch
        have hlen := r.st_len
        by_cases hst : k = st.key
        · subst hst
          rw [Ledger.setData_same]
          exact .same (sameExcept_writeAt (by simp; omega)) (by omega) (by simp) (h _ r.st_prog)
        · rw [Ledger.setData_other _ _ hst] at hk ⊢
          exact h k hk
      | UpdateUpdateAuthority n =>
        obtain ⟨a, st, r, rfl, -⟩ := processSet_authority_run hrun.dispatch
        have hlen := r.st_len
        have hn := n.len
        by_cases hst : k = st.key
        · subst hst
          rw [Ledger.setData_same]
          exact .same (sameExcept_writeAt (by omega)) (by omega) (by omega) (h _ r.st_prog)
        · rw [Ledger.setData_other _ _ hst] at hk ⊢
          exact h k hk
    | Initialize c =>
      obtain ⟨p, au, st, v, xm, om, sp, tp, ap, L1, b, vb, r, f, -⟩ := inv.initialize hrent hs hrun.dispatch
      by_cases hst : k = st.key
      · obtain ⟨l, hl, -⟩ := f.st_new
        rw [hst, hl]
        exact Unused.state _ _ _ _
      by_cases hv : k = v.key
      · obtain ⟨l, hl, -⟩ := f.v_new
        rw [hv, hl] at hk
        exact absurd hk token_ne_program
      by_cases hp : k = p.key
      · obtain ⟨l, hl, -⟩ := f.paid
        rw [hp, hl] at hk ⊢
        exact h _ hk
      · have := f.other k (by simp [hst, hv, hp])
        rw [this] at hk ⊢
        exact h k hk

theorem unused {cr : Crypto} {L : Ledger} (hr : Reachable cr L) : ∀ k, (L k).owner = PROGRAM_ID → Unused (L k).data := by
  obtain ⟨h, L0, hg, hp⟩ := hr
  induction hp with
  | nil => exact fun k hk => .zero (hg.blank k hk)
  | @step h e q ok ih => exact unused_step ok (Reachable.inv ⟨h, L0, hg, q⟩) ih

/-- What the examples use, evaluated together. -/
theorem Demo.figuresKept :
    (escrow L3 ST = escrow L4 ST ∧ coolDown L3 ST = coolDown L4 ST ∧ authority L3 ST = authority L4 ST) ∧
    IsRecord L6 R255 ∧ IsRecord L7 R255 ∧ recOwner L6 R255 = recOwner L7 R255 ∧ recIndex L6 R255 = recIndex L7 R255 ∧
    recAmount L6 R255 = recAmount L7 R255 ∧ recTime L6 R255 = recTime L7 R255 := by decide +kernel

end Xorca
