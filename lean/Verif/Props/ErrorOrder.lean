import Verif.Lemmas.DemoCalls
import Verif.Lemmas.ErrorTable
/-
C96: the error table.  Every instruction makes the checks of `ErrorTable.lean` in the order given there.
-/
namespace Xorca
open Spec

variable {x : Ctx} {L L' : Ledger} {accs : List Meta} {logs : List Bytes} {ix : Instruction} {e : Err}

/-- The error that a call reports is the one of the first check that fails, whatever else is wrong. -/
theorem C96_first_failed_check_is_reported (h : FirstFails (checks x L ix accs) e) : FailsWith x L accs ix e := by
  intro data hd
  rw [entry_eq hd]
  exact dispatch_tab.fails e h

/-- Two things are wrong: the signer is not the authority, and the period is negative.  The first is reported. -/
example : FailsWith (Demo.ctx 1002) Demo.L3 [⟨Demo.AU, true, true⟩, ⟨Demo.ST, false, true⟩]
    (.Set (.UpdateCoolDownPeriod (-1))) (.custom .IncorrectAccountAddress) :=
  C96_first_failed_check_is_reported
    (.there (by decide +kernel) <| .there (by decide +kernel) <| .there (by decide +kernel) <| .there (by decide +kernel) <|
      .there (by decide +kernel) <| .here (by decide +kernel))
/-- The authority sets a negative period. -/
example : FailsWith (Demo.ctx 1002) Demo.L3 [⟨Demo.US, true, true⟩, ⟨Demo.ST, false, true⟩]
    (.Set (.UpdateCoolDownPeriod (-1))) (.custom .InvalidCoolDownPeriod) :=
  C96_first_failed_check_is_reported
    (.there (by decide +kernel) <| .there (by decide +kernel) <| .there (by decide +kernel) <| .there (by decide +kernel) <|
      .there (by decide +kernel) <| .there (by decide +kernel) <| .here fun h => by
        have := h _ rfl
        revert this
        decide +kernel)

/-- A call that passes these checks can fail only with an error of another program, or, for Unstake after the burn, with
the first late check that fails. -/
theorem C96_nothing_else_fails (h : AllHold (checks x L ix accs)) (hf : Fails x L accs ix e) :
    (∃ c, e = .cpi c) ∨ FirstFails (lateChecks x L ix accs) e :=
  (dispatch_tab.after h).only e hf.dispatch

/-- A late check that fails makes the call fail, with its error unless another program refuses before. -/
theorem C96_late_check_is_reported (h : AllHold (checks x L ix accs)) (hl : FirstFails (lateChecks x L ix accs) e)
    {data : Bytes} (hd : decodeIx data = some ix) :
    entry x PROGRAM_ID L accs data = .error e ∨ ∃ c, entry x PROGRAM_ID L accs data = .error (.cpi c) := by
  rw [entry_eq hd]
  exact (dispatch_tab.after h).fails e hl

/-- A call that succeeds has passed every check. -/
theorem C96_success_passes_all (h : Runs x L accs ix L' logs) :
    AllHold (checks x L ix accs) ∧ AllHold (lateChecks x L ix accs) := by
  have hd := h.dispatch
  have h1 : AllHold (checks x L ix accs) := by
    rcases allHold_or (checks x L ix accs) with h | ⟨e, h⟩
    · exact h
    · rw [dispatch_tab.fails e h] at hd; cases hd
  refine ⟨h1, ?_⟩
  rcases allHold_or (lateChecks x L ix accs) with h | ⟨e, h⟩
  · exact h
  · rcases (dispatch_tab.after h1).fails e h with k | ⟨c, k⟩ <;> rw [k] at hd <;> cases hd

example := C96_success_passes_all Demo.run5

/-- The converse reading: an error of the program's own tells which check was the first to fail. -/
theorem C96_error_names_the_check {c : ErrorCode} (hf : Fails x L accs ix (.custom c)) :
    FirstFails (checks x L ix accs ++ lateChecks x L ix accs) (.custom c) := by
  rcases allHold_or (checks x L ix accs) with h | ⟨e, h⟩
  · rcases C96_nothing_else_fails h hf with ⟨_, k⟩ | k
    · cases k
    · exact .append_right h k
  · have := dispatch_tab.fails e h
    rw [hf.dispatch] at this
    cases this
    exact h.append_left

/-- The clock is at its end: all checks before the burn hold, and the maturity overflows. -/
example : AllHold (checks (Demo.ctx 9223372036854775800) Demo.L4 (.Unstake 600000 255) (Demo.unstakeAccs Demo.R255)) ∧
    FirstFails (lateChecks (Demo.ctx 9223372036854775800) Demo.L4 (.Unstake 600000 255) (Demo.unstakeAccs Demo.R255))
      (.custom .CoolDownOverflow) := by
  have late : Fails (Demo.ctx 9223372036854775800) Demo.L4 (Demo.unstakeAccs Demo.R255) (.Unstake 600000 255)
      (.custom .CoolDownOverflow) := Demo.fails (1 :: u64le 600000 ++ [255]) (by decide +kernel) (by decide +kernel)
  have h : AllHold (checks (Demo.ctx 9223372036854775800) Demo.L4 (.Unstake 600000 255) (Demo.unstakeAccs Demo.R255)) := by
    rcases allHold_or (checks (Demo.ctx 9223372036854775800) Demo.L4 (.Unstake 600000 255)
      (Demo.unstakeAccs Demo.R255)) with h | ⟨e, h⟩
    · exact h
    · obtain ⟨d, h1, h2⟩ := late
      have := C96_first_failed_check_is_reported h d h1
      rw [h2] at this
      cases this
      have hm := h.mem
      simp [checks, Demo.unstakeAccs, unstakeChecks, signs, isAt, writable, ownedBy, tokenReads, contents, mintReads,
        stateReads, stateAddress, vaultAddress] at hm
  refine ⟨h, ?_⟩
  rcases C96_nothing_else_fails h late with ⟨_, k⟩ | k
  · cases k
  · exact k

end Xorca
