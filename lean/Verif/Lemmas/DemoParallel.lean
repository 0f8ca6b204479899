import Verif.Lemmas.Parallel
import Verif.Lemmas.DemoCalls
/-
The batch of the examples of C108.
-/
namespace Xorca.Demo
open Spec

def jobUnstake : Job := callJob (ctx 1003) (unstakeAccs R255) (1 :: u64le 600000 ++ [255])
def jobEmpty : Job := ⟨[⟨UO, false, true⟩], fun L => some fun k => if k = UO then ⟨0, SYSTEM_PROGRAM_ID, []⟩ else L k⟩

theorem jobUnstake_run : jobUnstake.run L4 = some L5 := by
  have hd : decodeIx (1 :: u64le 600000 ++ [255]) = some (.Unstake 600000 255) := by decide +kernel
  unfold jobUnstake
  rw [callJob_run_some]
  exact ⟨_, _, hd, run5.dispatch⟩

theorem jobs_keep : ∀ j ∈ [jobUnstake, jobEmpty], j.Keeps L4 := by
  intro j hj
  simp only [List.mem_cons, List.not_mem_nil, or_false] at hj
  rcases hj with rfl | rfl
  · exact callJob_keeps signers5
  · refine ⟨fun M _ L' h => ⟨_, rfl, fun k => ?_⟩, fun M _ h => by cases h⟩
    cases h
    by_cases e : k = UO
    · subst e
      have : jobEmpty.writes UO = true := by decide +kernel
      simp [this]
    · have : ¬ jobEmpty.writes k = true := by
        intro w
        obtain ⟨m, hm, -, rfl⟩ := Job.writes_iff.1 w
        simp only [jobEmpty, List.mem_cons, List.not_mem_nil, or_false] at hm
        subst hm
        exact e rfl
      simp [this, e]

theorem jobs_apart : [jobUnstake, jobEmpty].Pairwise fun j i => ¬ Conflict j.locks i.locks := by
  have h : ∀ m ∈ unstakeAccs R255, m.key ≠ UO := by decide +kernel
  refine List.Pairwise.cons ?_ (List.pairwise_singleton _ _)
  intro i hi ⟨m, hm, n, hn, e, _⟩
  simp only [List.mem_cons, List.not_mem_nil, or_false] at hi
  subst hi
  simp only [jobEmpty, List.mem_cons, List.not_mem_nil, or_false] at hn
  subst hn
  exact h m hm e

end Xorca.Demo
