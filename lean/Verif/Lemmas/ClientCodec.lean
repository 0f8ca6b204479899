import Verif.Lemmas.IxCodec
import Verif.Client.Codec
import Verif.Client.Instructions
/-
Encoding and decoding in the clients.
-/
namespace Xorca
open Spec Client

/-! ### Readers undo writers -/

theorem getU8_cons (b : UInt8) (r : Bytes) : getU8 (b :: r) = some (b, r) := rfl

theorem getBytes_append {a r : Bytes} {n : Nat} (h : a.length = n) : getBytes n (a ++ r) = some (a, r) := by
  subst h; simp [getBytes]

theorem getU64_append (v : UInt64) (r : Bytes) : getU64 (u64le v ++ r) = some (v, r) := by
  simp [getU64, getBytes_append (u64le_length v)]
theorem getI64_append (v : Int64) (r : Bytes) : getI64 (i64le v ++ r) = some (v, r) := by
  simp [getI64, getBytes_append (i64le_length v)]
theorem getKey_append (k : Pubkey) (r : Bytes) : getKey (k.bytes ++ r) = some (k, r) := by
  simp [getKey, getBytes_append k.len, Pubkey.ofBytes_bytes]

theorem deserialize_encode (ix : Instruction) (r : Bytes) :
    Instruction.deserialize (encode ix ++ r) = some (ix, r) := by
  cases ix with
  | Stake a => simp [encode, encodeArgs, discriminatorOf, Instruction.deserialize, getU8_cons, getU64_append]
  | Unstake a i =>
    simp [encode, encodeArgs, discriminatorOf, Instruction.deserialize, getU8_cons, getU64_append]
  | Withdraw i => simp [encode, encodeArgs, discriminatorOf, Instruction.deserialize, getU8_cons]
  | Initialize c =>
    simp [encode, encodeArgs, discriminatorOf, Instruction.deserialize, getU8_cons, getI64_append]
  | Set u =>
    cases u <;> simp [encode, encodeArgs, encodeStateUpdate, discriminatorOf, Instruction.deserialize,
      getStateUpdateInstruction, getU8_cons, getI64_append, getKey_append]

theorem decodeIx_encode (ix : Instruction) (r : Bytes) : decodeIx (encode ix ++ r) = some ix := by
  rw [← deserialize_decodeIx, deserialize_encode]; rfl

theorem decodeEvent_serialize (e : Event) (r : Bytes) : decodeEvent (e.serialize ++ r) = some e := by
  cases e <;> simp [decodeEvent, Event.serialize, getU8_cons, getU64_append, getI64_append, getKey_append]

/-! ### Accounts -/

theorem toU8_le (a : AccountDiscriminator) : a.toU8 ≤ 3 := by cases a <;> decide
theorem discOf_eq_some {b : UInt8} {a : AccountDiscriminator} : discOf b = some a ↔ a.toU8 = b := by
  unfold discOf
  constructor
  · intro h
    split at h
    · cases h; symm; assumption
    split at h
    · cases h; symm; assumption
    split at h
    · cases h; symm; assumption
    split at h
    · cases h; symm; assumption
    · cases h
  · rintro rfl; cases a <;> rfl

/-! ### Re-encoding what was read -/

theorem slice_append_slice {d : Bytes} {a b : Nat} : slice d 0 a ++ slice d a b = slice d 0 (a + b) := by
  simp only [slice, List.drop_zero]
  rw [← List.take_add]

theorem toU8_slice {d : Bytes} {a : AccountDiscriminator} (h : 1 ≤ d.length) (ha : discOf (readU8 d 0) = some a) :
    [a.toU8] = slice d 0 1 := by
  rw [discOf_eq_some.1 ha]
  cases d with
  | nil => simp at h
  | cons b r => rfl

theorem u8_slice {d : Bytes} {o : Nat} (h : o + 1 ≤ d.length) : [readU8 d o] = slice d o 1 := by
  simp only [readU8, slice, List.getD]
  rw [List.getElem?_eq_getElem (by omega), List.drop_eq_getElem_cons (i := o) (l := d) (by omega)]
  rfl

theorem u64_slice {d : Bytes} {o : Nat} (h : o + 8 ≤ d.length) : u64le (readU64 d o) = slice d o 8 :=
  u64le_leU64 (slice_length h)
theorem i64_slice {d : Bytes} {o : Nat} (h : o + 8 ≤ d.length) : i64le (readI64 d o) = slice d o 8 :=
  i64le_leI64 (slice_length h)
theorem key_slice {d : Bytes} {o : Nat} (h : o + 32 ≤ d.length) : (readKey d o).bytes = slice d o 32 :=
  Pubkey.bytes_ofBytes (slice_length h)

theorem stateAt_serialize {d : Bytes} {a : AccountDiscriminator} (h : 2048 ≤ d.length)
    (ha : discOf (readU8 d 0) = some a) : (stateAt d a).serialize = d.take 2048 := by
  have e : (stateAt d a).serialize = slice d 0 1 ++ slice d 1 5 ++ slice d 6 1 ++ slice d 7 1 ++ slice d 8 8 ++
      slice d 16 8 ++ slice d 24 32 ++ slice d 56 1992 := by
    rw [← toU8_slice (by omega) ha, ← u8_slice (o := 6) (by omega), ← u8_slice (o := 7) (by omega),
      ← u64_slice (o := 8) (by omega), ← i64_slice (o := 16) (by omega), ← key_slice (o := 24) (by omega)]
    rfl
  rw [e]
  iterate 7 rw [slice_append_slice]
  rw [slice_zero]

theorem pendingWithdrawAt_serialize {d : Bytes} {a : AccountDiscriminator} (h : 1024 ≤ d.length)
    (ha : discOf (readU8 d 0) = some a) : (pendingWithdrawAt d a).serialize = d.take 1024 := by
  have e : (pendingWithdrawAt d a).serialize = slice d 0 1 ++ slice d 1 5 ++ slice d 6 1 ++ slice d 7 1 ++
      slice d 8 32 ++ slice d 40 8 ++ slice d 48 8 ++ slice d 56 968 := by
    rw [← toU8_slice (by omega) ha, ← u8_slice (o := 6) (by omega), ← u8_slice (o := 7) (by omega),
      ← u64_slice (o := 40) (by omega), ← i64_slice (o := 48) (by omega), ← key_slice (o := 8) (by omega)]
    rfl
  rw [e]
  iterate 7 rw [slice_append_slice]
  rw [slice_zero]

end Xorca
