import Verif.Lemmas.Parallel
import Verif.Lemmas.DemoParallel
/-
C108: running calls at the same time under account locks changes nothing.
-/
namespace Xorca
open Spec

variable {cr : Crypto} {x y : Ctx} {L L' M M' : Ledger} {accs accs' a b : List Meta} {js js' : List Job}

/-- A call of the program keeps to the accounts listed for it: it succeeds or fails by them alone, what it writes depends on
them alone, and every account not listed as writable stays as it was. -/
theorem C108_calls_keep_locks {data : Bytes} (hs : SignersOk x.cr L accs) : (callJob x accs data).Keeps L :=
  callJob_keeps hs

/-- An Unstake. -/
example : Demo.jobUnstake.Keeps Demo.L4 ∧ Demo.jobUnstake.run Demo.L4 = some Demo.L5 :=
  ⟨C108_calls_keep_locks Demo.signers5, Demo.jobUnstake_run⟩

/-- So do several one after another, all or nothing. -/
theorem C108_transactions_keep_locks {j j' : Job} (h : j.Keeps L) (h' : ∀ L1, j.run L = some L1 → j'.Keeps L1) :
    (j.then j').Keeps L :=
  then_keeps h h'

/-- Two Unstakes in one transaction, under two indexes. -/
example : (Demo.jobUnstake.then (callJob (Demo.ctx 1003) (Demo.unstakeAccs Demo.R0) (1 :: u64le 1000 ++ [0]))).Keeps
    Demo.L4 :=
  C108_transactions_keep_locks (C108_calls_keep_locks Demo.signers5) fun L1 e => by
    rw [Demo.jobUnstake_run, Option.some.injEq] at e
    rw [← e]
    exact C108_calls_keep_locks Demo.signers6

/-- Jobs that keep to their locks, none of which may write what another lists, run at the same time: the outcome is that of
running them one after the other. -/
theorem C108_parallel_is_sequential (hk : ∀ j ∈ js, j.Keeps L)
    (hp : js.Pairwise fun j i => ¬ Conflict j.locks i.locks) : parallel L js = sequential L js := by
  funext k
  rw [sequential_eq hk hp (fun _ _ _ _ => rfl)]
  rfl

/-- An Unstake, and a transaction elsewhere that empties another account. -/
example : parallel Demo.L4 [Demo.jobUnstake, Demo.jobEmpty] = sequential Demo.L4 [Demo.jobUnstake, Demo.jobEmpty] ∧
    parallel Demo.L4 [Demo.jobUnstake, Demo.jobEmpty] Demo.UX = Demo.L5 Demo.UX ∧ Demo.L5 Demo.UX ≠ Demo.L4 Demo.UX ∧
    (parallel Demo.L4 [Demo.jobUnstake, Demo.jobEmpty] Demo.UO).data = [] :=
  ⟨C108_parallel_is_sequential Demo.jobs_keep Demo.jobs_apart, by
    have hw : Demo.jobUnstake.writes Demo.UX = true := by decide +kernel
    simp [parallel, hw, Job.after, Demo.jobUnstake_run], by decide +kernel, by
    have h1 : Demo.jobUnstake.writes Demo.UO = false := by decide +kernel
    have h2 : Demo.jobEmpty.writes Demo.UO = true := by decide +kernel
    simp only [parallel, List.find?_cons, h1, h2]
    simp [Job.after, Demo.jobEmpty]⟩

/-- The order makes no difference either. -/
theorem C108_any_order (hk : ∀ j ∈ js, j.Keeps L) (hp : js.Pairwise fun j i => ¬ Conflict j.locks i.locks)
    (hperm : js'.Perm js) : sequential L js' = parallel L js := by
  have hk' : ∀ j ∈ js', j.Keeps L := fun j hj => hk j (hperm.mem_iff.1 hj)
  rw [← C108_parallel_is_sequential hk' (hperm.symm.pairwise hp no_conflict_symm)]
  exact parallel_perm hp hperm

/-- The same two, the other one first. -/
example : sequential Demo.L4 [Demo.jobEmpty, Demo.jobUnstake] = parallel Demo.L4 [Demo.jobUnstake, Demo.jobEmpty] :=
  C108_any_order Demo.jobs_keep Demo.jobs_apart (List.Perm.swap _ _ _)

/-- Two successful calls of the program, from whichever ledgers, are never run at the same time: all share the state account,
which every instruction but Stake locks for writing, and two Stakes share the xORCA mint. -/
theorem C108_calls_conflict {ix ix' : Instruction} {logs logs' : List Bytes} (hr : Reachable cr L) (hx : x.cr = cr)
    (h : Runs x L accs ix L' logs) (hr' : Reachable cr M) (hy : y.cr = cr) (h' : Runs y M accs' ix' M' logs')
    (ha : ∀ m ∈ accs, ∃ n ∈ a, n.key = m.key ∧ (m.isWritable = true → n.isWritable = true))
    (hb : ∀ m ∈ accs', ∃ n ∈ b, n.key = m.key ∧ (m.isWritable = true → n.isWritable = true)) : Conflict a b := by
  have up : ∀ m ∈ accs, ∀ m' ∈ accs', m.key = m'.key → (m.isWritable = true ∨ m'.isWritable = true) → Conflict a b := by
    intro m hm m' hm' e w
    obtain ⟨n, hn, e1, w1⟩ := ha m hm
    obtain ⟨n', hn', e2, w2⟩ := hb m' hm'
    exact ⟨n, hn, n', hn', e1.trans (e.trans e2.symm), w.imp w1 w2⟩
  obtain ⟨m, hm, ⟨_, sa⟩, hw⟩ := state_listed hr hx h
  obtain ⟨m', hm', ⟨_, sb⟩, hw'⟩ := state_listed hr' hy h'
  by_cases hs : ∃ a, ix = .Stake a
  · by_cases hs' : ∃ a, ix' = .Stake a
    · obtain ⟨a1, rfl⟩ := hs
      obtain ⟨a2, rfl⟩ := hs'
      obtain ⟨s, v, oa, xa, xm, st, om, tp, L1, w, r⟩ := processStake_run h.dispatch
      obtain ⟨s', v', oa', xa', xm', st', om', tp', L1', w', r'⟩ := processStake_run h'.dispatch
      obtain ⟨rest, e⟩ := r.accs_eq
      obtain ⟨rest', e'⟩ := r'.accs_eq
      exact up xm (by simp [e]) xm' (by simp [e']) (r.xm_key.trans r'.xm_key.symm) (Or.inl r.xm_w)
    · exact up m hm m' hm' (stateAddr_unique sa sb).1 (Or.inr (hw' fun a e => hs' ⟨a, e⟩))
  · exact up m hm m' hm' (stateAddr_unique sa sb).1 (Or.inl (hw fun a e => hs ⟨a, e⟩))

/-- Two Stakes. -/
example : Conflict Demo.stakeAccs Demo.stakeAccs :=
  C108_calls_conflict Demo.reach1 rfl Demo.run2 Demo.reach3 rfl Demo.run4
    (fun m hm => ⟨m, hm, rfl, id⟩) fun m hm => ⟨m, hm, rfl, id⟩

end Xorca
