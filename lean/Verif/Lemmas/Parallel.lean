import Verif.Parallel
import Verif.Props.Local
import Verif.Props.Conservation
import Verif.Props.Invariants
import Verif.Props.Accept
/-
Helper lemmas for C108.
-/
namespace Xorca
open Spec

variable {cr : Crypto} {x : Ctx} {L L' M : Ledger} {accs accs' : List Meta} {js js' : List Job}

theorem Spec.Job.writes_iff {j : Job} {k : Pubkey} :
    j.writes k = true ↔ ∃ m ∈ j.locks, m.isWritable = true ∧ m.key = k := by
  simp [Job.writes]

theorem Spec.Job.Keeps.after {j : Job} (h : j.Keeps L) (hM : ∀ m ∈ j.locks, M m.key = L m.key) (k : Pubkey) :
    j.after M k = if j.writes k then j.after L k else M k := by
  unfold Job.after
  cases hr : j.run L with
  | none =>
    rw [h.fails M hM hr]
    simp only [Option.getD_none]
    split
    · next hw =>
      obtain ⟨m, hm, -, rfl⟩ := Job.writes_iff.1 hw
      exact hM m hm
    · rfl
  | some L' =>
    obtain ⟨M', e, hM'⟩ := h.same M hM L' hr
    rw [e]
    exact hM' k

/-- What one job of a batch leaves is nothing to another. -/
theorem agree_of_no_conflict {j j' : Job} (hc : ¬ Conflict j.locks j'.locks) (h : j.Keeps L)
    (hM : ∀ m ∈ j.locks, M m.key = L m.key) (hM' : ∀ m ∈ j'.locks, M m.key = L m.key) :
    ∀ m ∈ j'.locks, j.after M m.key = L m.key := by
  intro m hm
  rw [h.after hM, if_neg, hM' m hm]
  intro hw
  obtain ⟨n, hn, hw, e⟩ := Job.writes_iff.1 hw
  exact hc ⟨n, hn, m, hm, e, Or.inl hw⟩

theorem sequential_eq (hk : ∀ j ∈ js, j.Keeps L) (hp : js.Pairwise fun a b => ¬ Conflict a.locks b.locks)
    (hM : ∀ j ∈ js, ∀ m ∈ j.locks, M m.key = L m.key) (k : Pubkey) :
    sequential M js k = match js.find? fun j => j.writes k with
      | some j => j.after L k
      | none => M k := by
  induction js generalizing M with
  | nil => rfl
  | cons j js ih =>
    obtain ⟨hj, hp⟩ := List.pairwise_cons.1 hp
    have hkj := hk j (by simp)
    have e : sequential M (j :: js) = sequential (j.after M) js := rfl
    rw [e, ih (fun i hi => hk i (by simp [hi])) hp fun i hi => agree_of_no_conflict (hj i hi) hkj (hM j (by simp))
      (hM i (by simp [hi]))]
    rw [List.find?_cons]
    cases hw : j.writes k with
    | true =>
      have hn : js.find? (fun i => i.writes k) = none := by
        rw [List.find?_eq_none]
        intro i hi hw'
        obtain ⟨m, hm, w1, rfl⟩ := Job.writes_iff.1 hw
        obtain ⟨n, hn, w2, e⟩ := Job.writes_iff.1 hw'
        exact hj i hi ⟨m, hm, n, hn, e.symm, Or.inl w1⟩
      rw [hn]
      simp only
      rw [hkj.after (hM j (by simp)), if_pos hw]
    | false =>
      simp only
      split
      · rfl
      · rw [hkj.after (hM j (by simp)), if_neg (by simp [hw])]

theorem callJob_run {data : Bytes} {M : Ledger} : (callJob x accs data).run M =
    match entry x PROGRAM_ID M accs data with
    | .ok (L', _) => some L'
    | .error _ => none := rfl

theorem callJob_run_some {data : Bytes} {M M' : Ledger} :
    (callJob x accs data).run M = some M' ↔ ∃ ix logs, decodeIx data = some ix ∧ dispatch x M accs ix = .ok (M', logs) := by
  rw [callJob_run]
  cases hd : decodeIx data with
  | none =>
    have e : Instruction.deserialize data = none := by
      have := deserialize_decodeIx data
      rw [hd] at this
      simpa using this
    simp [entry, ensure, e, okOr, bind, Except.bind]
  | some ix =>
    rw [entry_eq hd]
    cases hr : dispatch x M accs ix with
    | error e => simp [hr]
    | ok r => obtain ⟨L1, logs⟩ := r; simp [hr]

theorem callJob_writes {data : Bytes} {k : Pubkey} :
    (callJob x accs data).writes k = true ↔ ∃ m ∈ accs, m.isWritable = true ∧ m.key = k := Job.writes_iff

/-- The program's calls keep to their locks. -/
theorem callJob_keeps {data : Bytes} (hs : SignersOk x.cr L accs) : (callJob x accs data).Keeps L := by
  constructor
  · intro M hM L' h
    obtain ⟨ix, logs, hd, he⟩ := callJob_run_some.1 h
    have hr : Runs x L accs ix L' logs := ⟨data, hd, by rw [entry_eq hd, he]⟩
    have hr' := (C92_depends_only_on_accounts (M := M) hr hM).dispatch
    refine ⟨_, callJob_run_some.2 ⟨ix, logs, hd, hr'⟩, fun k => ?_⟩
    by_cases hw : (callJob x accs data).writes k = true
    · obtain ⟨m, hm, -, rfl⟩ := callJob_writes.1 hw
      rw [if_pos ⟨m, hm, rfl⟩, if_pos hw]
    · have hnw : ∀ m ∈ accs, m.isWritable = true → m.key ≠ k := fun m hm w e => hw (callJob_writes.2 ⟨m, hm, w, e⟩)
      rw [if_neg hw]
      split
      · next hk =>
        obtain ⟨m, hm, rfl⟩ := hk
        rw [C34_bystanders_untouched hr hs hnw]
        exact (hM m hm).symm
      · rfl
  · intro M hM h
    cases hm : (callJob x accs data).run M with
    | none => rfl
    | some M' =>
      obtain ⟨ix, logs, hd, he⟩ := callJob_run_some.1 hm
      have hr : Runs x M accs ix M' logs := ⟨data, hd, by rw [entry_eq hd, he]⟩
      have hr' := (C92_depends_only_on_accounts (M := L) hr fun m hm => (hM m hm).symm).dispatch
      rw [callJob_run_some.2 ⟨ix, logs, hd, hr'⟩] at h
      cases h

theorem then_keeps {j j' : Job} (h : j.Keeps L) (h' : ∀ L1, j.run L = some L1 → j'.Keeps L1) : (j.then j').Keeps L := by
  have hw : ∀ k, (j.then j').writes k = (j.writes k || j'.writes k) := by
    intro k; simp [Job.then, Job.writes]
  have agree : ∀ M L1 M1 : Ledger, (∀ m ∈ (j.then j').locks, M m.key = L m.key) → j.run L = some L1 →
      (∀ k, M1 k = if j.writes k then L1 k else M k) → ∀ m ∈ j'.locks, M1 m.key = L1 m.key := by
    intro M L1 M1 hM hL hM1 m hm
    rw [hM1]
    split
    · rfl
    · next hn =>
      obtain ⟨L1', e, hL1⟩ := h.same L (fun _ _ => rfl) L1 hL
      rw [hL] at e
      cases e
      rw [hL1, if_neg hn]
      exact hM m (by simp [Job.then, hm])
  constructor
  · intro M hM L' hL
    simp only [Job.then, Option.bind_eq_some_iff] at hL
    obtain ⟨L1, e1, e2⟩ := hL
    obtain ⟨M1, f1, hM1⟩ := h.same M (fun m hm => hM m (by simp [Job.then, hm])) L1 e1
    obtain ⟨M2, f2, hM2⟩ := (h' L1 e1).same M1 (agree M L1 M1 hM e1 hM1) L' e2
    refine ⟨M2, by simp [Job.then, f1, f2], fun k => ?_⟩
    rw [hM2, hM1, hw]
    obtain ⟨L2, f3, hL2⟩ := (h' L1 e1).same L1 (fun _ _ => rfl) L' e2
    rw [e2] at f3
    cases f3
    have := hL2 k
    cases h1 : j'.writes k <;> cases h2 : j.writes k <;> simp [h1] at this ⊢
    exact this.symm
  · intro M hM hL
    simp only [Job.then, Option.bind_eq_none_iff] at hL ⊢
    intro M1 f1
    cases e1 : j.run L with
    | none => rw [h.fails M (fun m hm => hM m (by simp [Job.then, hm])) e1] at f1; cases f1
    | some L1 =>
      obtain ⟨M1', f1', hM1⟩ := h.same M (fun m hm => hM m (by simp [Job.then, hm])) L1 e1
      rw [f1] at f1'
      cases f1'
      exact (h' L1 e1).fails M1 (agree M L1 M1 hM e1 hM1) (hL L1 e1)

theorem no_conflict_symm {j i : Job} (h : ¬ Conflict j.locks i.locks) : ¬ Conflict i.locks j.locks := by
  intro ⟨m, hm, n, hn, e, w⟩
  exact h ⟨n, hn, m, hm, e.symm, w.symm⟩

theorem parallel_perm (hp : js.Pairwise fun j i => ¬ Conflict j.locks i.locks) (hperm : js'.Perm js) :
    parallel L js' = parallel L js := by
  funext k
  unfold parallel
  cases h : js.find? fun j => j.writes k with
  | none =>
    have h' : js'.find? (fun j => j.writes k) = none := by
      rw [List.find?_eq_none] at h ⊢
      exact fun j hj => h j (hperm.mem_iff.1 hj)
    rw [h']
  | some j =>
    cases h' : js'.find? fun j => j.writes k with
    | none =>
      rw [List.find?_eq_none] at h'
      exact absurd (List.find?_some h) (h' j (hperm.mem_iff.2 (List.mem_of_find?_eq_some h)))
    | some i =>
      have w : j.writes k = true := by simpa using List.find?_some h
      have w' : i.writes k = true := by simpa using List.find?_some h'
      have hj := List.mem_of_find?_eq_some h
      have hi := hperm.mem_iff.1 (List.mem_of_find?_eq_some h')
      by_cases e : i = j
      · rw [e]
      · exfalso
        obtain ⟨m, hm, w1, rfl⟩ := Job.writes_iff.1 w
        obtain ⟨n, hn, -, e'⟩ := Job.writes_iff.1 w'
        exact (haveI : Std.Symm fun j i : Job => ¬ Conflict j.locks i.locks := ⟨fun _ _ => no_conflict_symm⟩
          hp.forall hj hi (Ne.symm e)) ⟨m, hm, n, hn, e'.symm, Or.inl w1⟩

/-- Where the state is in the list, and whether it is locked for writing. -/
theorem state_listed {ix : Instruction} {logs : List Bytes} (hr : Reachable cr L) (hx : x.cr = cr)
    (h : Runs x L accs ix L' logs) :
    ∃ m ∈ accs, (∃ b, StateAddr cr m.key b) ∧ ((∀ a, ix ≠ .Stake a) → m.isWritable = true) := by
  have hd := h.dispatch
  cases ix with
  | Stake a =>
    obtain ⟨s, v, oa, xa, xm, st, om, tp, L1, w, r⟩ := processStake_run hd
    obtain ⟨rest, e⟩ := r.accs_eq
    obtain ⟨⟨hb, -⟩, -⟩ := C36_forged_state_rejected hr hx h (n := 5) rfl (m := st) (by rw [e]; rfl)
    exact ⟨st, by simp [e], hb, fun hn => absurd rfl (hn a)⟩
  | Unstake a i =>
    obtain ⟨u, st, pw, xa, xm, om, v, sp, tp, L1, L3, w, e', ts, b, r⟩ := processUnstake_run hd
    obtain ⟨rest, e⟩ := r.accs_eq
    obtain ⟨⟨hb, -⟩, -⟩ := C36_forged_state_rejected hr hx h (n := 1) rfl (m := st) (by rw [e]; rfl)
    exact ⟨st, by simp [e], hb, fun _ => r.st_w⟩
  | Withdraw i =>
    obtain ⟨u, st, pw, oa, v, om, sp, tp, L1, L2, e', r⟩ := processWithdraw_run hd
    obtain ⟨rest, e⟩ := r.accs_eq
    obtain ⟨⟨hb, -⟩, -⟩ := C36_forged_state_rejected hr hx h (n := 1) rfl (m := st) (by rw [e]; rfl)
    exact ⟨st, by simp [e], hb, fun _ => r.st_w⟩
  | Initialize c =>
    subst hx
    obtain ⟨p, au, st, v, xm, om, sp, tp, ap, L1, b, vb, r⟩ := processInitialize_run hd
    obtain ⟨rest, e⟩ := r.accs_eq
    exact ⟨st, by simp [e], ⟨_, r.st_find⟩, fun _ => r.st_w⟩
  | Set u =>
    obtain ⟨a, st, v, r, -⟩ := (hx ▸ hr.inv : Inv x.cr L).set hd
    obtain ⟨rest, e⟩ := r.accs_eq
    obtain ⟨⟨hb, -⟩, -⟩ := C36_forged_state_rejected hr hx h (n := 1) rfl (m := st) (by rw [e]; rfl)
    exact ⟨st, by simp [e], hb, fun _ => r.st_w⟩

end Xorca
