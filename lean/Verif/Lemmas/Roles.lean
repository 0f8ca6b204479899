import Verif.Lemmas.Codes
import Verif.Client.Instructions
/-
Role checks, for account lists with the flags of the client builders.
-/
namespace Xorca
open Spec Client

variable {x : Ctx} {L : Ledger} {accs : List Meta}

theorem makeOwner_role {ta ow mi : Meta} {w : Bool} :
    makeOwnerTokenAccountAssertions L ta ow mi w = .error (.custom .InvalidAccountRole) ↔
      w = true ∧ ¬ ta.isWritable = true := by
  unfold makeOwnerTokenAccountAssertions assertTokenAccountData
  cases w
  · simp only [Bool.false_eq_true, if_false, bind_eq_err, assertAccountOwner_err, okOr_eq_err,
      ensure_eq_err, Err.custom.injEq, reduceCtorEq, and_false, or_false, exists_false, false_and]
  · simp only [if_true, bind_eq_err, assertAccountOwner_err, okOr_eq_err, assertAccountRole_W_err,
      ensure_eq_err, Err.custom.injEq, reduceCtorEq, and_false, or_false, exists_false, and_true, true_and]

theorem stake_roles {k : StakeKeys} {a : UInt64} (hp : Passed k.metas accs) :
    processStake x L accs a ≠ .error (.custom .InvalidAccountRole) := by
  intro h
  obtain ⟨m0, h0, -, s0, w0⟩ := hp 0 _ rfl
  obtain ⟨m1, h1, -, -, w1⟩ := hp 1 _ rfl
  obtain ⟨m2, h2, -, -, w2⟩ := hp 2 _ rfl
  obtain ⟨m3, h3, -, -, w3⟩ := hp 3 _ rfl
  obtain ⟨m4, h4, -, -, w4⟩ := hp 4 _ rfl
  simp only [AccountMeta.new, true_implies] at s0 w0 w1 w2 w3 w4
  unfold processStake at h
  run_err at h
  simp [makeOwner_role, h0, h1, h2, h3, h4, s0, w0, w1, w2, w3, w4] at h

theorem unstake_roles {k : UnstakeKeys} {a : UInt64} {i : UInt8} (hp : Passed k.metas accs) :
    processUnstake x L accs a i ≠ .error (.custom .InvalidAccountRole) := by
  intro h
  obtain ⟨m0, h0, -, s0, w0⟩ := hp 0 _ rfl
  obtain ⟨m1, h1, -, -, w1⟩ := hp 1 _ rfl
  obtain ⟨m2, h2, -, -, w2⟩ := hp 2 _ rfl
  obtain ⟨m3, h3, -, -, w3⟩ := hp 3 _ rfl
  obtain ⟨m4, h4, -, -, w4⟩ := hp 4 _ rfl
  simp only [AccountMeta.new, true_implies] at s0 w0 w1 w2 w3 w4
  unfold processUnstake at h
  run_err at h
  simp [makeOwner_role, h0, h1, h2, h3, h4, s0, w0, w1, w2, w3, w4] at h

theorem withdraw_roles {k : WithdrawKeys} {i : UInt8} (hp : Passed k.metas accs) :
    processWithdraw x L accs i ≠ .error (.custom .InvalidAccountRole) := by
  intro h
  obtain ⟨m0, h0, -, s0, w0⟩ := hp 0 _ rfl
  obtain ⟨m1, h1, -, -, w1⟩ := hp 1 _ rfl
  obtain ⟨m2, h2, -, -, w2⟩ := hp 2 _ rfl
  obtain ⟨m3, h3, -, -, w3⟩ := hp 3 _ rfl
  obtain ⟨m4, h4, -, -, w4⟩ := hp 4 _ rfl
  simp only [AccountMeta.new, true_implies] at s0 w0 w1 w2 w3 w4
  unfold processWithdraw at h
  run_err at h
  simp [makeOwner_role, h0, h1, h2, h3, h4, s0, w0, w1, w2, w3, w4] at h

theorem initialize_roles {k : InitializeKeys} {c : Int64} (hp : Passed k.metas accs) :
    processInitialize x L accs c ≠ .error (.custom .InvalidAccountRole) := by
  intro h
  obtain ⟨m0, h0, -, s0, w0⟩ := hp 0 _ rfl
  obtain ⟨m1, h1, -, s1, w1⟩ := hp 1 _ rfl
  obtain ⟨m2, h2, -, -, w2⟩ := hp 2 _ rfl
  obtain ⟨m3, h3, -, -, w3⟩ := hp 3 _ rfl
  simp only [AccountMeta.new, true_implies] at s0 w0 s1 w1 w2 w3
  unfold processInitialize at h
  run_err at h
  simp [h0, h1, h2, h3, s0, w0, s1, w1, w2, w3] at h

theorem set_roles {k : SetKeys} {u : StateUpdateInstruction} (hp : Passed k.metas accs) :
    processSet x L accs u ≠ .error (.custom .InvalidAccountRole) := by
  intro h
  obtain ⟨m0, h0, -, s0, w0⟩ := hp 0 _ rfl
  obtain ⟨m1, h1, -, -, w1⟩ := hp 1 _ rfl
  simp only [AccountMeta.new, true_implies] at s0 w0 w1
  unfold processSet at h
  cases u <;>
  · run_err at h
    simp [h0, h1, s0, w0, w1] at h

/-- The builders list as many accounts as the program reads. -/
theorem passed_length {built : List Meta} (hp : Passed built accs) : built.length ≤ accs.length := by
  by_contra hn
  have hb : accs.length < built.length := by omega
  obtain ⟨m, hm, -⟩ := hp _ _ (List.getElem?_eq_getElem hb)
  simp at hm

end Xorca
