import Verif.Lemmas.WorkExact
import Verif.Lemmas.DemoWork
/-
What a call asks of the runtime: hashes for derived addresses, calls of other programs, and logged events.
-/
namespace Xorca
open Spec

variable {x : Ctx} {L : Ledger} {accs : List Meta} {data : Bytes} {ix : Instruction}

/-- `entryT` is `entry` with a record of what it does. -/
theorem C113_same_result (p : Pubkey) : (entryT x p L accs data).result = entry x p L accs data := by
  unfold entryT entry
  exact result_bind rfl fun _ => result_bind rfl fun ⟨_, _⟩ => result_dispatch _

/-- Every call, whether it succeeds or fails, whatever the accounts hold, makes at most `maxHashes` hashes, and calls other
programs at most so often and in this order; a call that is not understood does nothing at all. -/
theorem C113_work_bound :
    (decodeIx data = some ix → hashes (entryT x PROGRAM_ID L accs data).trace ≤ maxHashes ix ∧
      (callees (entryT x PROGRAM_ID L accs data).trace).Sublist (mayCall ix)) ∧
    (decodeIx data = none → (entryT x PROGRAM_ID L accs data).trace = []) ∧
    (∀ p, p ≠ PROGRAM_ID → (entryT x p L accs data).trace = []) := by
  refine ⟨fun hd => ?_, fun hd => ?_, fun p hp => ?_⟩
  · rw [entryT_eq hd]; exact within_dispatch ix
  · rw [entryT_none hd]
  · unfold entryT
    rw [show ensure (p = PROGRAM_ID) (.custom .IncorrectProgramId) = .error _ from if_neg hp]
    rfl

/-- What a successful call does, exactly. Stake, Withdraw and Set always do the same. Unstake searches the record's address,
and Initialize those of the state and, twice, of the vault; lamports sent ahead to the new account cost one or two calls of
the system program more. -/
theorem C113_work_of_success {L' : Ledger} {logs : List Bytes} (hd : decodeIx data = some ix)
    (h : entry x PROGRAM_ID L accs data = .ok (L', logs)) :
    let t := (entryT x PROGRAM_ID L accs data).trace
    match ix with
    | .Stake _ => hashes t = 3 ∧ callees t = [SPL_TOKEN_PROGRAM_ID, SPL_TOKEN_PROGRAM_ID]
    | .Withdraw _ => hashes t = 4 ∧ callees t = [SPL_TOKEN_PROGRAM_ID]
    | .Set _ => hashes t = 1 ∧ callees t = []
    | .Unstake _ i => ∀ u w, accs[0]? = some u → accs[2]? = some w →
      let n := creationCalls (L w.key).lamports (x.rentMin 1024)
      hashes t = tries x.cr (pendingWithdrawSeedsRaw u.key [i]) PROGRAM_ID + (2 + n) ∧
      callees t = SPL_TOKEN_PROGRAM_ID :: List.replicate n SYSTEM_PROGRAM_ID
    | .Initialize _ => ∀ s, accs[2]? = some s →
      let n := creationCalls (L s.key).lamports (x.rentMin 2048)
      hashes t = tries x.cr stateSeedsRaw PROGRAM_ID +
        (2 * tries x.cr (vaultSeedsRaw s.key SPL_TOKEN_PROGRAM_ID ORCA_MINT_ID) ASSOCIATED_TOKEN_PROGRAM_ID + n) ∧
      callees t = List.replicate n SYSTEM_PROGRAM_ID ++ [ASSOCIATED_TOKEN_PROGRAM_ID] := by
  rw [← C113_same_result, entryT_eq hd] at h
  rw [entryT_eq hd]
  cases ix with
  | Stake a => exact uses_stake a _ h
  | Unstake a i => exact fun u w hu hw => uses_unstake a i hu hw _ h
  | Withdraw i => exact uses_withdraw i _ h
  | Set u => exact uses_set u _ h
  | Initialize c => exact fun s hs => uses_initialize c hs _ h

/-- A failing call logs no event. A successful one logs exactly the events it reports, and does nothing afterwards. -/
theorem C113_log_last :
    (∀ e, entry x PROGRAM_ID L accs data = .error e → logged (entryT x PROGRAM_ID L accs data).trace = 0) ∧
    ∀ L' logs, entry x PROGRAM_ID L accs data = .ok (L', logs) →
      ∃ t, (entryT x PROGRAM_ID L accs data).trace = t ++ List.replicate logs.length Op.log ∧ logged t = 0 := by
  rw [← C113_same_result]
  cases hd : decodeIx data with
  | some ix =>
    rw [entryT_eq hd]
    exact ⟨(endsLogged_dispatch ix).1, fun L' logs h => (endsLogged_dispatch ix).2 _ h⟩
  | none =>
    rw [entryT_none hd]
    exact ⟨fun _ _ => rfl, fun _ _ h => by cases h⟩

/-- Once another program has been called, the only own errors that can still come are ArithmeticError and CoolDownOverflow, in
Unstake. All other checks come first. -/
theorem C113_late_errors {c : ErrorCode} (hd : decodeIx data = some ix)
    (h : entry x PROGRAM_ID L accs data = .error (.custom c))
    (hc : callees (entryT x PROGRAM_ID L accs data).trace ≠ []) : c ∈ lateErrors ix := by
  rw [← C113_same_result, entryT_eq hd] at h
  rw [entryT_eq hd] at hc
  exact late_dispatch ix _ h hc c rfl

/-- A successful Stake. -/
example : ∃ data, hashes (entryT (Demo.ctx 1001) PROGRAM_ID Demo.L1 Demo.stakeAccs data).trace = 3 ∧
    logged (entryT (Demo.ctx 1001) PROGRAM_ID Demo.L1 Demo.stakeAccs data).trace = Demo.logs2.length := by
  obtain ⟨data, hd, h⟩ := Demo.run2
  obtain ⟨t, h1, h2⟩ := C113_log_last.2 _ _ h
  refine ⟨data, (C113_work_of_success hd h).1, ?_⟩
  rw [h1, logged_append, h2]
  exact (Nat.zero_add _).trans List.count_replicate_self

/-- A successful Unstake, whose record has bump 252: four attempts, two checks, one signature. -/
example : ∃ data, hashes (entryT (Demo.ctx 1004) PROGRAM_ID Demo.L5 (Demo.unstakeAccs Demo.R0) data).trace = 7 ∧
    callees (entryT (Demo.ctx 1004) PROGRAM_ID Demo.L5 (Demo.unstakeAccs Demo.R0) data).trace =
      [SPL_TOKEN_PROGRAM_ID, SYSTEM_PROGRAM_ID] := by
  obtain ⟨data, hd, h⟩ := Demo.run6
  have w := C113_work_of_success hd h ⟨Demo.US, true, true⟩ ⟨Demo.R0, false, true⟩ rfl rfl
  have e1 : creationCalls (Demo.L5 Demo.R0).lamports ((Demo.ctx 1004).rentMin 1024) = 1 := by
    unfold creationCalls; rw [if_pos Demo.worked.2]
  have e2 : tries (Demo.ctx 1004).cr (pendingWithdrawSeedsRaw Demo.US [0]) PROGRAM_ID = 4 := by
    have := Demo.r0_addr
    unfold RecordAddr at this
    unfold tries
    rw [show findProgramAddress (Demo.ctx 1004).cr (pendingWithdrawSeedsRaw Demo.US [0]) PROGRAM_ID = some (Demo.R0, 252)
      from this]
    rfl
  dsimp only at w
  rw [e1, e2] at w
  exact ⟨data, w⟩

/-- An own error after two calls, and no log. -/
example : .CoolDownOverflow ∈ lateErrors (.Unstake 600000 255) ∧ logged Demo.tooLate.trace = 0 := by
  have h : entry (Demo.ctx 9223372036854775800) PROGRAM_ID Demo.L4 (Demo.unstakeAccs Demo.R255)
      (1 :: u64le 600000 ++ [255]) = .error (.custom .CoolDownOverflow) := by
    rw [← C113_same_result]; exact Demo.err_eq Demo.worked.1.1
  refine ⟨C113_late_errors (by decide +kernel) h ?_, C113_log_last.1 _ h⟩
  show callees Demo.tooLate.trace ≠ []
  rw [Demo.worked.1.2]
  decide +kernel

end Xorca
