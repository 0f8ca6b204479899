import Verif.Client.Errors
import Verif.Props.ErrorOrder
/-
C103: errors as the clients see them.
-/
namespace Xorca
open Spec Client

variable {x : Ctx} {L : Ledger} {accs : List Meta} {ix : Instruction} {err : Err} {i : Nat} {programs : List Pubkey}
  {codes : CpiError → Option Nat}

/-- Program and clients have the same text for every error, and no two errors have the same. -/
theorem C103_error_texts (e e' : ErrorCode) :
    rustErrorText e = programErrorText e ∧ jsErrorText e = programErrorText e ∧
    (programErrorText e = programErrorText e' → e = e') := by
  refine ⟨by cases e <;> rfl, by cases e <;> rfl, fun h => ?_⟩
  revert h
  cases e <;> cases e' <;> decide +kernel

/-- The Rust client turns a number into an error exactly if it is the code of that error. -/
theorem C103_error_of_code (n : Nat) (e : ErrorCode) :
    (rustErrorOf n = some e ↔ n = e.code) ∧ (rustErrorOf n = none ↔ n < 6000 ∨ 6019 < n) := by
  have key : ∀ n, n < 6000 ∨ 6019 < n → rustErrorOf n = none := by
    intro n hn
    unfold rustErrorOf
    split <;> first | omega | rfl
  have hr : ∀ e : ErrorCode, rustErrorOf e.code = some e := fun e => by cases e <;> rfl
  have inr : ∀ n, ¬ (n < 6000 ∨ 6019 < n) → ∃ e, n = ErrorCode.code e := by
    intro n hn
    have : n ∈ List.range' 6000 20 := by simp [List.mem_range'_1]; omega
    have all : ∀ m ∈ List.range' 6000 20, ∃ e, m = ErrorCode.code e := by
      intro m hm
      have : (rustErrorOf m).map ErrorCode.code = some m := by
        revert m; decide
      obtain ⟨e, -, h⟩ := Option.map_eq_some_iff.1 this
      exact ⟨e, h.symm⟩
    exact all n this
  constructor
  · constructor
    · intro h
      by_cases hn : n < 6000 ∨ 6019 < n
      · rw [key n hn] at h; cases h
      · obtain ⟨e', rfl⟩ := inr n hn
        rw [hr] at h; cases h; rfl
    · rintro rfl; exact hr e
  · constructor
    · intro h
      by_contra hn
      obtain ⟨e', rfl⟩ := inr n hn
      rw [hr] at h; cases h
    · exact key n

/-- Asked for one of the program's codes, the JS test answers yes exactly if the program itself failed with that error,
provided the called programs have no numbers that high. -/
theorem C103_js_code_identifies_error (hc : ∀ e c, codes e = some c → c < 6000) (hp : programs[i]? = some PROGRAM_ID)
    (e : ErrorCode) :
    jsIsXorcaStakingProgramError ⟨i, reported codes err⟩ programs (some (jsErrorCode e)) = true ↔ err = .custom e := by
  have hj : jsErrorCode e = e.code := by cases e <;> rfl
  have hge : 6000 ≤ e.code := by cases e <;> decide
  have hinj : ∀ e' : ErrorCode, e'.code = e.code ↔ e' = e := by
    intro e'
    constructor
    · intro h
      have := ((C103_error_of_code e.code e').1).2 h.symm
      rw [((C103_error_of_code e.code e).1).2 rfl] at this
      cases this; rfl
    · rintro rfl; rfl
  unfold jsIsXorcaStakingProgramError jsIsProgramError
  rw [hj]
  cases err with
  | custom e' => simp [reported, hp, hinj]
  | invalidAccountData => simp [reported]
  | panicked => simp [reported]
  | cpi c =>
    simp only [reported]
    cases h : codes c with
    | none => simp
    | some n =>
      have := hc c n h
      simp [hp]; omega

/-- So a recognised code names the first check that failed. -/
theorem C103_js_code_names_check (hc : ∀ e c, codes e = some c → c < 6000) (hp : programs[i]? = some PROGRAM_ID)
    {e : ErrorCode} (hf : Fails x L accs ix err)
    (h : jsIsXorcaStakingProgramError ⟨i, reported codes err⟩ programs (some (jsErrorCode e)) = true) :
    FirstFails (checks x L ix accs ++ lateChecks x L ix accs) (.custom e) := by
  rw [(C103_js_code_identifies_error hc hp e).1 h] at hf
  exact C96_error_names_the_check hf

/-- Without a code the test answers yes for numbered errors of called programs, too. -/
theorem C103_js_without_code (hp : programs[i]? = some PROGRAM_ID) :
    jsIsXorcaStakingProgramError ⟨i, reported codes err⟩ programs none = true ↔
      (∃ e, err = .custom e) ∨ ∃ e, err = .cpi e ∧ codes e ≠ none := by
  unfold jsIsXorcaStakingProgramError jsIsProgramError
  cases err with
  | custom e' => simp [reported, hp]
  | invalidAccountData => simp [reported]
  | panicked => simp [reported]
  | cpi c => simp only [reported]; cases h : codes c <;> simp [hp, h]

/-- If the failed instruction of the transaction was sent to another program, the answer is no whatever happened, also if
that program called this one and passed on its error. -/
theorem C103_js_other_program {p : Pubkey} (hp : programs[i]? = some p) (hne : p ≠ PROGRAM_ID) (r : Reported)
    (code : Option Nat) : jsIsXorcaStakingProgramError ⟨i, r⟩ programs code = false := by
  unfold jsIsXorcaStakingProgramError jsIsProgramError
  cases r <;> simp [hp, hne]

/-- The number of `AccountFrozen` in the token program. -/
example : let codes : CpiError → Option Nat := fun e => if e = .frozen then some 17 else none
    jsIsXorcaStakingProgramError ⟨1, reported codes (.custom .CoolDownOverflow)⟩ [SPL_TOKEN_PROGRAM_ID, PROGRAM_ID]
      (some 6017) = true ∧
    jsIsXorcaStakingProgramError ⟨1, reported codes (.cpi .frozen)⟩ [SPL_TOKEN_PROGRAM_ID, PROGRAM_ID]
      (some 6017) = false ∧
    jsIsXorcaStakingProgramError ⟨1, reported codes (.cpi .frozen)⟩ [SPL_TOKEN_PROGRAM_ID, PROGRAM_ID] none = true ∧
    jsIsXorcaStakingProgramError ⟨0, reported codes (.custom .CoolDownOverflow)⟩ [SPL_TOKEN_PROGRAM_ID, PROGRAM_ID]
      (some 6017) = false := by decide +kernel

/-- The call of C96 whose maturity overflows, in a transaction with this one instruction. -/
example : ∃ err, Fails (Demo.ctx 9223372036854775800) Demo.L4 (Demo.unstakeAccs Demo.R255) (.Unstake 600000 255) err ∧
    jsIsXorcaStakingProgramError ⟨0, reported (fun _ => some 1) err⟩ [PROGRAM_ID] (some (jsErrorCode .CoolDownOverflow)) =
      true :=
  ⟨.custom .CoolDownOverflow, Demo.fails (1 :: u64le 600000 ++ [255]) (by decide +kernel) (by decide +kernel),
    (C103_js_code_identifies_error (by simp) rfl _).2 rfl⟩

end Xorca
