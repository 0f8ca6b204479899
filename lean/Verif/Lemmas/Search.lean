import Verif.Demo
/-
Evaluation in the kernel of the addresses searched by the clients for one user.
-/
namespace Xorca.Demo

/-- The keys of the accounts that exist at some time on the main branch of the demo chain. -/
def used : List Pubkey :=
  [DEPLOYER_ADDRESS, US, AU, ORCA_MINT_ID, XORCA_MINT_ID, UO, UX, ST, VA, R255, R0]

/-- The record address of the user for index 200. -/
def R200 : Pubkey := ⟨[250, 33, 83, 17, 156, 171, 142, 114, 107, 9, 74, 214, 109, 195, 42, 167, 183, 227, 134, 219, 23,
  188, 67, 96, 237, 52, 178, 119, 66, 77, 24, 97], rfl⟩

/-- None of these accounts, except for index 0, and not `R200`, except for index 200. -/
def check (i : Nat) : Option (Pubkey × UInt8) → Bool
  | some (k, _) => (i == 0 && decide (k = R0)) || (decide (k ∉ used) && (i == 200) == decide (k = R200))
  | none => false

/-- The record address of the user for index `i`. -/
def search (i : Nat) : Option (Pubkey × UInt8) :=
  findProgramAddress Real.crypto [[112, 101, 110, 100, 105, 110, 103, 95, 119, 105, 116, 104, 100, 114, 97,
      119], US.bytes, [UInt8.ofNat i]] PROGRAM_ID

/-- The record address of the user for index `i` exists and passes the check. -/
def other (i : Nat) : Bool := check i (search i)

theorem check_spec {i : Nat} {o : Option (Pubkey × UInt8)} (h : check i o = true) :
    ∃ k b, o = some (k, b) ∧ ((i = 0 ∧ k = R0) ∨ (k ∉ used ∧ (i = 200 ↔ k = R200))) := by
  cases o with
  | none => cases h
  | some p =>
    refine ⟨p.1, p.2, rfl, ?_⟩
    unfold check at h
    rcases Bool.or_eq_true_iff.1 h with h | h
    · exact Or.inl ⟨by simpa using (Bool.and_eq_true_iff.1 h).1, of_decide_eq_true (Bool.and_eq_true_iff.1 h).2⟩
    · obtain ⟨h1, h2⟩ := Bool.and_eq_true_iff.1 h
      refine Or.inr ⟨of_decide_eq_true h1, ?_⟩
      have h3 := eq_of_beq h2
      by_cases hk : p.1 = R200
      · rw [decide_eq_true hk] at h3
        exact ⟨fun _ => hk, fun _ => eq_of_beq h3⟩
      · rw [decide_eq_false hk] at h3
        exact ⟨fun hi => (nomatch h3.symm.trans (beq_iff_eq.2 hi)), fun h => absurd h hk⟩

theorem other_0 : ∀ j ∈ List.range 15, other (0 + j) = true := by decide +kernel
theorem other_15 : ∀ j ∈ List.range 15, other (15 + j) = true := by decide +kernel
theorem other_30 : ∀ j ∈ List.range 15, other (30 + j) = true := by decide +kernel
theorem other_45 : ∀ j ∈ List.range 15, other (45 + j) = true := by decide +kernel
theorem other_60 : ∀ j ∈ List.range 15, other (60 + j) = true := by decide +kernel
theorem other_75 : ∀ j ∈ List.range 15, other (75 + j) = true := by decide +kernel
theorem other_90 : ∀ j ∈ List.range 15, other (90 + j) = true := by decide +kernel
theorem other_105 : ∀ j ∈ List.range 15, other (105 + j) = true := by decide +kernel
theorem other_120 : ∀ j ∈ List.range 15, other (120 + j) = true := by decide +kernel
theorem other_135 : ∀ j ∈ List.range 15, other (135 + j) = true := by decide +kernel
theorem other_150 : ∀ j ∈ List.range 15, other (150 + j) = true := by decide +kernel
theorem other_165 : ∀ j ∈ List.range 15, other (165 + j) = true := by decide +kernel
theorem other_180 : ∀ j ∈ List.range 15, other (180 + j) = true := by decide +kernel
theorem other_195 : ∀ j ∈ List.range 15, other (195 + j) = true := by decide +kernel
theorem other_210 : ∀ j ∈ List.range 15, other (210 + j) = true := by decide +kernel
theorem other_225 : ∀ j ∈ List.range 15, other (225 + j) = true := by decide +kernel
theorem other_240 : ∀ j ∈ List.range 15, other (240 + j) = true := by decide +kernel

theorem other_255 (i : Nat) (h : i < 255) : other i = true := by
  have key : ∀ j ∈ List.range 15, other (i / 15 * 15 + j) = true := by
    have h17 : i / 15 < 17 := by omega
    generalize i / 15 = q at h17
    match q with
    | 0 => exact other_0
    | 1 => exact other_15
    | 2 => exact other_30
    | 3 => exact other_45
    | 4 => exact other_60
    | 5 => exact other_75
    | 6 => exact other_90
    | 7 => exact other_105
    | 8 => exact other_120
    | 9 => exact other_135
    | 10 => exact other_150
    | 11 => exact other_165
    | 12 => exact other_180
    | 13 => exact other_195
    | 14 => exact other_210
    | 15 => exact other_225
    | 16 => exact other_240
    | n + 17 => omega
  have := key (i % 15) (by rw [List.mem_range]; omega)
  rwa [show i / 15 * 15 + i % 15 = i by omega] at this

theorem search_spec {i : Nat} (h : i < 255) :
    ∃ k b, search i = some (k, b) ∧ ((i = 0 ∧ k = R0) ∨ (k ∉ used ∧ (i = 200 ↔ k = R200))) :=
  check_spec (other_255 i h)

end Xorca.Demo
