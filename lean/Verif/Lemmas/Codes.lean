import Verif.Lemmas.Fail
import Verif.Calls
/-
The program's own error codes, instruction by instruction.
-/
namespace Xorca
open Spec

variable {x : Ctx} {L : Ledger} {accs : List Meta}

theorem own_error {ix : Instruction} {e : ErrorCode} (h : dispatch x L accs ix = .error (.custom e)) :
    e ∈ commonErrors ++ ownErrors ix := by
  cases ix <;> simp only [dispatch] at h <;> simp only [commonErrors, ownErrors]
  · unfold processStake at h
    cases e <;> first | (simp; done) | (exfalso; run_err at h)
  · unfold processUnstake at h
    cases e <;> first | (simp; done) | (exfalso; run_err at h)
  · unfold processWithdraw at h
    cases e <;> first | (simp; done) | (exfalso; run_err at h)
  · unfold processInitialize at h
    cases e <;> first | (simp; done) | (exfalso; run_err at h)
  · next u =>
    unfold processSet at h
    cases u <;> cases e <;> first | (simp; done) | (exfalso; run_err at h)

theorem getAccountInfo_few {n : Nat} (h : accs.length ≤ n) :
    getAccountInfo accs n = .error (.custom .NotEnoughAccountKeys) := by
  unfold getAccountInfo; rw [if_pos h]

/-- Reading the accounts one after the other fails when there are too few. -/
theorem getAccountInfo_bind {α : Type} {n : Nat} {f : Meta → Res α}
    (h : ∀ m, n < accs.length → f m = .error (.custom .NotEnoughAccountKeys)) :
    (getAccountInfo accs n >>= f) = .error (.custom .NotEnoughAccountKeys) := by
  by_cases hn : accs.length ≤ n
  · rw [getAccountInfo_few hn]; rfl
  · have : getAccountInfo accs n = .ok accs[n] :=
      getAccountInfo_ok.2 (List.getElem?_eq_getElem (by omega))
    rw [this]
    exact h _ (by omega)

theorem few_accounts (ix : Instruction) (h : accs.length < accountsNeeded ix) :
    dispatch x L accs ix = .error (.custom .NotEnoughAccountKeys) := by
  cases ix <;> simp only [accountsNeeded] at h <;> simp only [dispatch]
  · unfold processStake
    iterate 8 refine getAccountInfo_bind fun _ _ => ?_
    omega
  · unfold processUnstake
    iterate 9 refine getAccountInfo_bind fun _ _ => ?_
    omega
  · unfold processWithdraw
    iterate 8 refine getAccountInfo_bind fun _ _ => ?_
    omega
  · unfold processInitialize
    iterate 9 refine getAccountInfo_bind fun _ _ => ?_
    omega
  · unfold processSet
    iterate 2 refine getAccountInfo_bind fun _ _ => ?_
    omega

theorem few_accounts_only {ix : Instruction}
    (h : dispatch x L accs ix = .error (.custom .NotEnoughAccountKeys)) : accs.length < accountsNeeded ix := by
  by_contra hn
  have hg : ∀ n, n < accountsNeeded ix → ¬ accs.length ≤ n := by intro n hn'; omega
  cases ix <;> simp only [dispatch] at h <;> simp only [accountsNeeded] at hg
  · unfold processStake at h
    run_err at h
    simp only [hg 0 (by decide), hg 1 (by decide), hg 2 (by decide), hg 3 (by decide), hg 4 (by decide),
      hg 5 (by decide), hg 6 (by decide), hg 7 (by decide), or_false, and_false, exists_false] at h
  · unfold processUnstake at h
    run_err at h
    simp only [hg 0 (by decide), hg 1 (by decide), hg 2 (by decide), hg 3 (by decide), hg 4 (by decide),
      hg 5 (by decide), hg 6 (by decide), hg 7 (by decide), hg 8 (by decide), or_false, and_false,
      exists_false] at h
  · unfold processWithdraw at h
    run_err at h
    simp only [hg 0 (by decide), hg 1 (by decide), hg 2 (by decide), hg 3 (by decide), hg 4 (by decide),
      hg 5 (by decide), hg 6 (by decide), hg 7 (by decide), or_false, and_false, exists_false] at h
  · unfold processInitialize at h
    run_err at h
    simp only [hg 0 (by decide), hg 1 (by decide), hg 2 (by decide), hg 3 (by decide), hg 4 (by decide),
      hg 5 (by decide), hg 6 (by decide), hg 7 (by decide), hg 8 (by decide), or_false, and_false,
      exists_false] at h
  · next u =>
    unfold processSet at h
    cases u <;>
    · run_err at h
      simp only [hg 0 (by decide), hg 1 (by decide), or_false, and_false, exists_false] at h

end Xorca
