import Verif.Lemmas.Serial
import Verif.Exec
/-
Instruction data by byte offsets.
-/
namespace Xorca
open Spec

/-- The derived Borsh decoder reads exactly these offsets. -/
theorem deserialize_decodeIx (d : Bytes) : (Instruction.deserialize d).map Prod.fst = decodeIx d := by
  unfold Instruction.deserialize decodeIx
  rw [getU8_eq]
  by_cases h0 : 1 ≤ d.length
  · rw [if_pos h0, if_neg (by omega)]
    simp only [getU64_eq, getI64_eq, getU8_eq, getStateUpdateInstruction, List.length_drop, readU64_drop,
      readI64_drop, readU8_drop, Nat.add_zero]
    by_cases t0 : readU8 d 0 = 0
    · simp only [if_pos t0]
      by_cases h : 9 ≤ d.length
      · rw [if_pos (by omega), if_pos h]; rfl
      · rw [if_neg (by omega), if_neg h]; rfl
    simp only [if_neg t0]
    by_cases t1 : readU8 d 0 = 1
    · simp only [if_pos t1]
      by_cases h : 10 ≤ d.length
      · rw [if_pos (by omega), if_pos h]
        simp only [bind, Option.bind, List.length_drop, readU8_drop, List.drop_drop]
        rw [if_pos (by omega)]; rfl
      · rw [if_neg h]
        by_cases h2 : 8 ≤ d.length - 1
        · rw [if_pos h2]
          simp only [bind, Option.bind, List.length_drop, readU8_drop, List.drop_drop]
          rw [if_neg (by omega)]; rfl
        · rw [if_neg h2]; rfl
    simp only [if_neg t1]
    by_cases t2 : readU8 d 0 = 2
    · simp only [if_pos t2]
      by_cases h : 2 ≤ d.length
      · rw [if_pos (by omega), if_pos h]; rfl
      · rw [if_neg (by omega), if_neg h]; rfl
    simp only [if_neg t2]
    by_cases t3 : readU8 d 0 = 3
    · simp only [if_pos t3]
      by_cases h : 9 ≤ d.length
      · rw [if_pos (by omega), if_pos h]; rfl
      · rw [if_neg (by omega), if_neg h]; rfl
    simp only [if_neg t3]
    by_cases t4 : readU8 d 0 = 4
    · simp only [if_pos t4]
      by_cases h : 2 ≤ d.length
      · rw [if_pos (by omega), if_neg (by omega)]
        simp only [getKey_eq, List.length_drop, readI64_drop, readKey_drop, List.drop_drop, Nat.add_zero]
        by_cases s0 : readU8 d 1 = 0
        · simp only [if_pos s0]
          by_cases h : 10 ≤ d.length
          · rw [if_pos (by omega), if_pos h]; rfl
          · rw [if_neg (by omega), if_neg h]; rfl
        simp only [if_neg s0]
        by_cases s1 : readU8 d 1 = 1
        · simp only [if_pos s1]
          by_cases h : 34 ≤ d.length
          · rw [if_pos (by omega), if_pos h]; rfl
          · rw [if_neg (by omega), if_neg h]; rfl
        simp only [if_neg s1]
        rfl
      · rw [if_neg (by omega), if_pos (by omega)]; rfl
    simp only [if_neg t4]
    rfl
  · rw [if_neg h0, if_pos (by omega)]; rfl

theorem deserialize_of_decodeIx {d : Bytes} {ix : Instruction} (h : decodeIx d = some ix) :
    ∃ r, Instruction.deserialize d = some (ix, r) := by
  rw [← deserialize_decodeIx, Option.map_eq_some_iff] at h
  obtain ⟨⟨i, r⟩, h1, rfl⟩ := h
  exact ⟨r, h1⟩

theorem deserialize_of_decodeIx_none {d : Bytes} (h : decodeIx d = none) :
    Instruction.deserialize d = none := by
  rw [← deserialize_decodeIx, Option.map_eq_none_iff] at h
  exact h

theorem entry_eq {x : Ctx} {L : Ledger} {accs : List Meta} {ix : Instruction} {data : Bytes}
    (h : decodeIx data = some ix) : entry x PROGRAM_ID L accs data = dispatch x L accs ix := by
  obtain ⟨r, h1⟩ := deserialize_of_decodeIx h
  unfold entry
  simp [h1, ensure, okOr, bind, Except.bind]

theorem Spec.Runs.dispatch {x : Ctx} {L : Ledger} {accs : List Meta} {ix : Instruction} {L' : Ledger}
    {logs : List Bytes} (h : Runs x L accs ix L' logs) : dispatch x L accs ix = .ok (L', logs) := by
  obtain ⟨d, h1, h2⟩ := h
  rw [entry_eq h1] at h2
  exact h2

theorem Spec.Fails.dispatch {x : Ctx} {L : Ledger} {accs : List Meta} {ix : Instruction} {e : Err}
    (h : Fails x L accs ix e) : dispatch x L accs ix = .error e := by
  obtain ⟨d, h1, h2⟩ := h
  rw [entry_eq h1] at h2
  exact h2

end Xorca
