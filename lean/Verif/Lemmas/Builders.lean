import Verif.Client.Builders
import Verif.Declared
import Verif.Lemmas.ClientCodec
/-
Lemmas about the instruction builders and parsers of the clients.
-/
namespace Xorca.Client
open Spec

theorem jsDecodeStateUpdate_eq (d : Bytes) : jsDecodeStateUpdate d =
    if d.length = 0 then none
    else if readU8 d 0 = 0 then if 9 ≤ d.length then some (.UpdateCoolDownPeriod (readI64 d 1)) else none
    else if readU8 d 0 = 1 then if 33 ≤ d.length then some (.UpdateUpdateAuthority (readKey d 1)) else none
    else none := by
  unfold jsDecodeStateUpdate
  rw [getU8_eq]
  by_cases h0 : d.length = 0
  · rw [if_neg (show ¬ 1 ≤ d.length from by omega), if_pos h0]; rfl
  rw [if_pos (show 1 ≤ d.length from by omega), if_neg h0]
  simp only [Option.bind_eq_bind, Option.bind_some, getI64_eq, getKey_eq, List.length_drop, readI64_drop,
    readKey_drop]
  by_cases h1 : readU8 d 0 = 0
  · rw [if_pos h1, if_pos h1]
    by_cases h : 9 ≤ d.length
    · rw [if_pos h, if_pos (show 8 ≤ d.length - 1 from by omega)]; rfl
    · rw [if_neg h, if_neg (show ¬ 8 ≤ d.length - 1 from by omega)]; rfl
  rw [if_neg h1, if_neg h1]
  by_cases h2 : readU8 d 0 = 1
  · rw [if_pos h2, if_pos h2]
    by_cases h : 33 ≤ d.length
    · rw [if_pos h, if_pos (show 32 ≤ d.length - 1 from by omega)]; rfl
    · rw [if_neg h, if_neg (show ¬ 32 ≤ d.length - 1 from by omega)]; rfl
  · rw [if_neg h2, if_neg h2]

theorem take_one_eq {d : Bytes} {b : UInt8} : d.take 1 = [b] ↔ d.length ≠ 0 ∧ readU8 d 0 = b := by
  cases d <;> simp [readU8]

theorem jsDecodeData_eq (k : Kind) (d : Bytes) (h0 : d.length ≠ 0) : jsDecodeData k d = match k with
    | .Stake => if 9 ≤ d.length then some (.Stake (readU64 d 1)) else none
    | .Unstake => if 10 ≤ d.length then some (.Unstake (readU64 d 1) (readU8 d 9)) else none
    | .Withdraw => if 2 ≤ d.length then some (.Withdraw (readU8 d 1)) else none
    | .Initialize => if 9 ≤ d.length then some (.Initialize (readI64 d 1)) else none
    | .Set => (jsDecodeStateUpdate (d.drop 1)).map .Set := by
  unfold jsDecodeData
  rw [getU8_eq, if_pos (show 1 ≤ d.length from by omega)]
  cases k
  · by_cases h : 9 ≤ d.length
    · simp [-List.drop_one, getU64_eq, readU64_drop, h, show 8 ≤ d.length - 1 from by omega]
    · simp [getU64_eq, h, show ¬ 8 ≤ d.length - 1 from by omega]
  · by_cases h : 10 ≤ d.length
    · simp [-List.drop_one, getU64_eq, getU8_eq, readU64_drop, readU8_drop, h, show 8 ≤ d.length - 1 from by omega,
        show 1 ≤ d.length - 9 from by omega]
    · by_cases h' : 8 ≤ d.length - 1
      · simp [getU64_eq, getU8_eq, h, h', show ¬ 1 ≤ d.length - 9 from by omega]
      · simp [getU64_eq, h, h']
  · by_cases h : 2 ≤ d.length
    · simp [-List.drop_one, getU8_eq, readU8_drop, h, show 1 ≤ d.length - 1 from by omega]
    · simp [getU8_eq, h, show ¬ 1 ≤ d.length - 1 from by omega]
  · by_cases h : 9 ≤ d.length
    · simp [-List.drop_one, getI64_eq, readI64_drop, h, show 8 ≤ d.length - 1 from by omega]
    · simp [getI64_eq, h, show ¬ 8 ≤ d.length - 1 from by omega]
  · simp only [Option.bind_eq_bind, Option.bind_some]
    cases jsDecodeStateUpdate (d.drop 1) <;> rfl

theorem js_set_eq (d : Bytes) (h0 : d.length ≠ 0) : (jsDecodeStateUpdate (d.drop 1)).map Instruction.Set =
    if d.length = 1 then none
    else if readU8 d 1 = 0 then
      if 10 ≤ d.length then some (.Set (.UpdateCoolDownPeriod (readI64 d 2))) else none
    else if readU8 d 1 = 1 then
      if 34 ≤ d.length then some (.Set (.UpdateUpdateAuthority (readKey d 2))) else none
    else none := by
  simp only [jsDecodeStateUpdate_eq, List.length_drop, readU8_drop, readI64_drop, readKey_drop, Nat.reduceAdd]
  by_cases h1 : d.length = 1
  · rw [if_pos (show d.length - 1 = 0 from by omega), if_pos h1]; rfl
  rw [if_neg (show ¬ d.length - 1 = 0 from by omega), if_neg h1]
  by_cases h2 : readU8 d 1 = 0
  · rw [if_pos h2, if_pos h2]
    by_cases h : 10 ≤ d.length
    · rw [if_pos h, if_pos (show 9 ≤ d.length - 1 from by omega)]; rfl
    · rw [if_neg h, if_neg (show ¬ 9 ≤ d.length - 1 from by omega)]; rfl
  rw [if_neg h2, if_neg h2]
  by_cases h3 : readU8 d 1 = 1
  · rw [if_pos h3, if_pos h3]
    by_cases h : 34 ≤ d.length
    · rw [if_pos h, if_pos (show 33 ≤ d.length - 1 from by omega)]; rfl
    · rw [if_neg h, if_neg (show ¬ 33 ≤ d.length - 1 from by omega)]; rfl
  · rw [if_neg h3, if_neg h3]; rfl

theorem jsKind_eq (d : Bytes) : jsKind d =
    if d.length = 0 then none
    else if readU8 d 0 = 0 then some .Stake
    else if readU8 d 0 = 1 then some .Unstake
    else if readU8 d 0 = 2 then some .Withdraw
    else if readU8 d 0 = 3 then some .Initialize
    else if readU8 d 0 = 4 then some .Set
    else none := by
  unfold jsKind jsIdentify
  by_cases h0 : d.length = 0
  · simp only [take_one_eq, h0, ne_eq, not_true_eq_false, false_and, if_false, if_true]
  · simp only [take_one_eq, ne_eq, h0, not_false_eq_true, true_and, if_false]
    repeat' split
    all_goals first | rfl | simp_all

/-- Identify, then decode: what the program decodes. -/
theorem jsData_eq (d : Bytes) : ((jsKind d).bind fun k => jsDecodeData k d) = decodeIx d := by
  rw [jsKind_eq]
  unfold decodeIx
  by_cases h0 : d.length = 0
  · rw [if_pos h0, if_pos h0]; rfl
  rw [if_neg h0, if_neg h0]
  repeat' split
  all_goals simp only [Option.bind_some, Option.bind_none, jsDecodeData_eq _ _ h0, js_set_eq _ h0]
  all_goals simp_all

theorem jsDecodeData_kind {k : Kind} {d : Bytes} {ix : Instruction} (h : jsDecodeData k d = some ix) :
    Kind.of ix = k := by
  by_cases h0 : d.length = 0
  · rw [List.length_eq_zero_iff.1 h0] at h; cases h
  rw [jsDecodeData_eq k d h0] at h
  cases k <;> simp only at h
  case Set => obtain ⟨u, -, rfl⟩ := Option.map_eq_some_iff.1 h; rfl
  all_goals split at h
  all_goals first | (obtain rfl := Option.some.inj h; rfl) | cases h

theorem jsCount_eq (ix : Instruction) : jsCount (Kind.of ix) = (declared ix).length := by cases ix <;> rfl

theorem rustPushes_eq (ix : Instruction) : rustPushes (Kind.of ix) = (declared ix).map Prod.swap := by
  cases ix <;> rfl

theorem jsWritable_eq (ix : Instruction) : jsWritable (Kind.of ix) = (declared ix).map Prod.fst := by
  cases ix <;> rfl

/-! ### Builders -/

section
variable {ρ : Type}

theorem lastOf_append {α β : Type} (f : α → Option β) (cs : List α) (c : α) :
    lastOf f (cs ++ [c]) = (f c).or (lastOf f cs) := by
  unfold lastOf
  rw [List.filterMap_append]
  cases h : f c with
  | none => simp [h]
  | some b => simp [h]

theorem snoc_induction {α : Type} {P : List α → Prop} (nil : P []) (snoc : ∀ l a, P l → P (l ++ [a]))
    (l : List α) : P l := by
  rw [← List.reverse_reverse l]
  induction l.reverse with
  | nil => exact nil
  | cons a t ih => rw [List.reverse_cons]; exact snoc _ _ ih

theorem run_append (b : Builder ρ) (cs : List (Setter ρ)) (c : Setter ρ) :
    b.run (cs ++ [c]) = (b.run cs).apply c := by
  simp [Builder.run, List.foldl_append]

theorem run_account (cs : List (Setter ρ)) (p : Nat) :
    (Builder.new.run cs).account p = lastOf (Setter.key? p) cs := by
  induction cs using snoc_induction with
  | nil => rfl
  | snoc cs c ih =>
    rw [run_append, lastOf_append, ← ih]
    cases c <;> simp only [Builder.apply, Setter.key?, Option.none_or]
    split <;> simp

theorem run_amount (cs : List (Setter ρ)) : (Builder.new.run cs).amount = lastOf Setter.amount? cs := by
  induction cs using snoc_induction with
  | nil => rfl
  | snoc cs c ih =>
    rw [run_append, lastOf_append, ← ih]
    cases c <;> simp [Builder.apply, Setter.amount?]

theorem run_index (cs : List (Setter ρ)) : (Builder.new.run cs).index = lastOf Setter.index? cs := by
  induction cs using snoc_induction with
  | nil => rfl
  | snoc cs c ih =>
    rw [run_append, lastOf_append, ← ih]
    cases c <;> simp [Builder.apply, Setter.index?]

theorem run_coolDown (cs : List (Setter ρ)) : (Builder.new.run cs).coolDown = lastOf Setter.coolDown? cs := by
  induction cs using snoc_induction with
  | nil => rfl
  | snoc cs c ih =>
    rw [run_append, lastOf_append, ← ih]
    cases c <;> simp [Builder.apply, Setter.coolDown?]

theorem run_update (cs : List (Setter ρ)) : (Builder.new.run cs).update = lastOf Setter.update? cs := by
  induction cs using snoc_induction with
  | nil => rfl
  | snoc cs c ih =>
    rw [run_append, lastOf_append, ← ih]
    cases c <;> simp [Builder.apply, Setter.update?]

theorem run_remaining (cs : List (Setter ρ)) : (Builder.new.run cs).remaining = cs.flatMap Setter.extras := by
  induction cs using snoc_induction with
  | nil => rfl
  | snoc cs c ih =>
    rw [run_append, List.flatMap_append, ← ih]
    cases c <;> simp [Builder.apply, Setter.extras]

theorem run_args (k : Kind) (cs : List (Setter ρ)) (ix : Instruction) :
    (Builder.new.run cs).args k = some ix ↔ Kind.of ix = k ∧ Given cs ix := by
  unfold Builder.args Given
  rw [run_amount, run_index, run_coolDown, run_update]
  cases k <;> cases ix <;> simp [Kind.of, Option.bind_eq_some_iff]

theorem namedMetas_some (f : Nat → Option Pubkey) (fs : List (Bool × Bool)) (p : Nat) (ms : List Meta) :
    namedMetas f p fs = some ms ↔ ∃ keys : List Pubkey, keys.length = fs.length ∧
      (∀ i, i < fs.length → f (p + i) = keys[i]?) ∧ ms = List.zipWith rustMeta keys fs := by
  induction fs generalizing p ms with
  | nil =>
    simp only [namedMetas, Option.some.injEq, List.length_nil, List.length_eq_zero_iff, Nat.not_lt_zero,
      false_imp_iff, implies_true, true_and]
    constructor
    · rintro rfl; exact ⟨[], rfl, rfl⟩
    · rintro ⟨keys, rfl, rfl⟩; rfl
  | cons a fs ih =>
    simp only [namedMetas, Option.bind_eq_bind, Option.bind_eq_some_iff, ih, Option.some.injEq]
    constructor
    · rintro ⟨key, hk, rest, ⟨keys, hl, hf, rfl⟩, rfl⟩
      refine ⟨key :: keys, by simp [hl], fun i hi => ?_, rfl⟩
      rcases i with _|i
      · simpa using hk
      · have := hf i (by simpa using hi)
        rw [show p + (i + 1) = p + 1 + i from by omega, this]; rfl
    · rintro ⟨keys, hl, hf, rfl⟩
      cases keys with
      | nil => simp at hl
      | cons key keys =>
        refine ⟨key, by simpa using hf 0 (by simp), _, ⟨keys, by simpa using hl, fun i hi => ?_, rfl⟩, rfl⟩
        have := hf (i + 1) (by simpa using hi)
        rw [show p + 1 + i = p + (i + 1) from by omega, this]; rfl

theorem rustMeta_eq (k : Pubkey) (p : Bool × Bool) : rustMeta k p = ⟨k, p.1, p.2⟩ := by
  obtain ⟨s, w⟩ := p
  cases w <;> rfl

theorem zipWith_rustMeta (keys : List Pubkey) (fs : List (Bool × Bool)) :
    List.zipWith rustMeta keys (fs.map Prod.swap) = List.zipWith (fun k f => ⟨k, f.2, f.1⟩) keys fs := by
  rw [List.zipWith_map_right]
  congr 1
  funext k f
  rw [rustMeta_eq]; rfl

end

end Xorca.Client
