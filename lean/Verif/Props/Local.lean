import Verif.Lemmas.LocalInstr
import Verif.Lemmas.DemoCalls
/-
C92: what a call does depends only on the accounts it is given.
-/
namespace Xorca
open Spec

variable {x : Ctx} {L M L' : Ledger} {accs : List Meta} {ix : Instruction} {logs : List Bytes} {e : Err}

open Classical in
/-- A call that succeeds on one ledger succeeds on every other one that agrees with it on the listed accounts, logs the
same, leaves the same in the listed accounts and everything else alone. -/
theorem C92_depends_only_on_accounts (h : Runs x L accs ix L' logs) (hM : ∀ m ∈ accs, M m.key = L m.key) :
    Runs x M accs ix (fun k => if ∃ m ∈ accs, m.key = k then L' k else M k) logs := by
  have hd := h.dispatch
  obtain ⟨d, hd', _⟩ := h
  have hA : Agree (accs.map (·.key)) L M := by
    intro k hk
    obtain ⟨m, hm, rfl⟩ := List.mem_map.1 hk
    exact (hM m hm).symm
  have hr := dispatch_rel (x := x) (ix := ix) hA
  rw [hd] at hr
  generalize hq : dispatch x M accs ix = q at hr
  cases hr with
  | @ok _ o hr =>
    obtain ⟨M', logs'⟩ := o
    obtain ⟨rfl, ha⟩ := hr
    refine ⟨d, hd', (entry_eq hd').trans (hq.trans ?_)⟩
    congr 2
    funext k
    split
    · next hk =>
      obtain ⟨m, hm, rfl⟩ := hk
      exact (ha _ (List.mem_map_of_mem hm)).symm
    · next hk =>
      refine dispatch_frame hq fun hk' => hk ?_
      obtain ⟨m, hm, rfl⟩ := List.mem_map.1 hk'
      exact ⟨m, hm, rfl⟩

/-- A ledger with another account next to the ones of the call. -/
def Demo.otherL4 : Ledger := Demo.L4.set Demo.UO ⟨5, SYSTEM_PROGRAM_ID, [1, 2, 3]⟩

example := C92_depends_only_on_accounts (x := Demo.ctx 1003) (M := Demo.otherL4) Demo.run5 (by decide +kernel)

/-- A call that fails on one ledger fails with the same error on every other one that agrees with it on the listed
accounts. -/
theorem C92_failure_depends_only_on_accounts (h : Fails x L accs ix e) (hM : ∀ m ∈ accs, M m.key = L m.key) :
    Fails x M accs ix e := by
  obtain ⟨d, hd', h⟩ := h
  rw [entry_eq hd'] at h
  have hA : Agree (accs.map (·.key)) L M := by
    intro k hk
    obtain ⟨m, hm, rfl⟩ := List.mem_map.1 hk
    exact (hM m hm).symm
  have hr := dispatch_rel (x := x) (ix := ix) hA
  rw [h] at hr
  generalize hq : dispatch x M accs ix = q at hr
  cases hr with
  | err => exact ⟨d, hd', (entry_eq hd').trans hq⟩

/-- Unstaking more than one has. -/
example : Fails (Demo.ctx 1003) Demo.otherL4 (Demo.unstakeAccs Demo.R255) (.Unstake 6000000 255)
    (.custom .InsufficientFunds) :=
  C92_failure_depends_only_on_accounts (L := Demo.L4)
    (Demo.fails (1 :: u64le 6000000 ++ [255]) (by decide +kernel) (by decide +kernel))
    (by decide +kernel)

open Classical in
/-- Whatever happens to accounts that a call does not list may happen before or after it: the two orders end in the same
ledger. -/
theorem C92_elsewhere_commutes {f : Pubkey → Account → Account} (hf : ∀ m ∈ accs, ∀ a, f m.key a = a) :
    Runs x L accs ix L' logs → Runs x (fun k => f k (L k)) accs ix (fun k => f k (L' k)) logs := by
  intro h
  have h' := C92_depends_only_on_accounts (M := fun k => f k (L k)) h fun m hm => hf m hm _
  have e : (fun k => if ∃ m ∈ accs, m.key = k then L' k else f k (L k)) = fun k => f k (L' k) := by
    funext k
    split
    · next hk =>
      obtain ⟨m, hm, rfl⟩ := hk
      exact (hf m hm _).symm
    · next hk =>
      rw [dispatch_frame h.dispatch fun hk' => hk ?_]
      obtain ⟨m, hm, rfl⟩ := List.mem_map.1 hk'
      exact ⟨m, hm, rfl⟩
  rwa [e] at h'

/-- Emptying an unrelated account before or after an Unstake. -/
example := C92_elsewhere_commutes (x := Demo.ctx 1003) (L := Demo.L4) (accs := Demo.unstakeAccs Demo.R255)
  (ix := .Unstake 600000 255) (L' := Demo.L5) (logs := Demo.logs5)
  (f := fun k a => if k = Demo.UO then ⟨0, SYSTEM_PROGRAM_ID, []⟩ else a)
  (fun m hm a => by
    have : m.key ≠ Demo.UO := (by decide +kernel : ∀ m ∈ Demo.unstakeAccs Demo.R255, m.key ≠ Demo.UO) m hm
    simp [this]) Demo.run5

end Xorca
