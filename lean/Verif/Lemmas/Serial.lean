import Verif.Lemmas.Codec
/-
Byte-level facts about the serialised structs.
-/
namespace Xorca

theorem slice_append_left {a b : Bytes} {o n : Nat} (h : o + n ≤ a.length) :
    slice (a ++ b) o n = slice a o n := by
  simp only [slice]
  rw [List.drop_append_of_le_length (by omega), List.take_append_of_le_length (by simp; omega)]

theorem slice_append_right {a b : Bytes} {o n : Nat} (ho : o = a.length) (hn : n = b.length) :
    slice (a ++ b) o n = b := by
  subst ho hn; simp [slice]

theorem writeAt_append_left {a b c : Bytes} {o : Nat} (h : o + c.length ≤ a.length) :
    writeAt (a ++ b) o c = writeAt a o c ++ b := by
  simp only [writeAt]
  rw [List.take_append_of_le_length (by omega), List.drop_append_of_le_length (by omega)]
  simp [List.append_assoc]

theorem writeAt_append_right {a b c : Bytes} {o : Nat} (ho : o = a.length) (hn : c.length = b.length) :
    writeAt (a ++ b) o c = a ++ c := by
  subst ho; simp [writeAt, hn]

theorem readU8_append_left {a b : Bytes} {o : Nat} (h : o + 1 ≤ a.length) :
    readU8 (a ++ b) o = readU8 a o := by
  rw [readU8_eq_slice, readU8_eq_slice, slice_append_left h]
theorem readU8_append_right {a : Bytes} {b : UInt8} {o : Nat} (ho : o = a.length) :
    readU8 (a ++ [b]) o = b := by
  rw [readU8_eq_slice, slice_append_right ho (by simp)]; rfl
theorem readU64_append_left {a b : Bytes} {o : Nat} (h : o + 8 ≤ a.length) :
    readU64 (a ++ b) o = readU64 a o := by rw [readU64, readU64, slice_append_left h]
theorem readU64_append_right {a : Bytes} {v : UInt64} {o : Nat} (ho : o = a.length) :
    readU64 (a ++ u64le v) o = v := by rw [readU64, slice_append_right ho (by simp), leU64_u64le]
theorem readI64_append_left {a b : Bytes} {o : Nat} (h : o + 8 ≤ a.length) :
    readI64 (a ++ b) o = readI64 a o := by rw [readI64, readI64, slice_append_left h]
theorem readI64_append_right {a : Bytes} {v : Int64} {o : Nat} (ho : o = a.length) :
    readI64 (a ++ i64le v) o = v := by rw [readI64, slice_append_right ho (by simp), leI64_i64le]
theorem readKey_append_left {a b : Bytes} {o : Nat} (h : o + 32 ≤ a.length) :
    readKey (a ++ b) o = readKey a o := by rw [readKey, readKey, slice_append_left h]
theorem readKey_append_right {a : Bytes} {v : Pubkey} {o : Nat} (ho : o = a.length) :
    readKey (a ++ v.bytes) o = v := by
  rw [readKey, slice_append_right ho v.len.symm, Pubkey.ofBytes_bytes]

/-- Fields of a serialised record. -/
theorem PendingWithdraw.serialize_fields {p : PendingWithdraw} (h1 : p.padding1.length = 5) :
    readU8 p.serialize 0 = p.discriminator.toU8 ∧ slice p.serialize 1 5 = p.padding1 ∧
    readU8 p.serialize 6 = p.bump ∧ readU8 p.serialize 7 = p.withdrawIndex ∧
    readKey p.serialize 8 = p.unstaker ∧ readU64 p.serialize 40 = p.withdrawableOrcaAmount ∧
    readI64 p.serialize 48 = p.withdrawableTimestamp ∧ slice p.serialize 56 p.padding2.length = p.padding2 := by
  have hu := p.unstaker.len
  unfold PendingWithdraw.serialize
  refine ⟨?_, ?_, ?_, ?_, ?_, ?_, ?_, ?_⟩
  · iterate 7 rw [readU8_append_left (by simp)]
    rfl
  · iterate 6 rw [slice_append_left (by simp [h1, hu])]
    rw [slice_append_right (by simp) h1.symm]
  · iterate 5 rw [readU8_append_left (by simp [h1, hu])]
    rw [readU8_append_right (by simp [h1])]
  · iterate 4 rw [readU8_append_left (by simp [h1, hu])]
    rw [readU8_append_right (by simp [h1])]
  · iterate 3 rw [readKey_append_left (by simp [h1, hu])]
    rw [readKey_append_right (by simp [h1])]
  · iterate 2 rw [readU64_append_left (by simp [h1, hu])]
    rw [readU64_append_right (by simp [h1, hu])]
  · iterate 1 rw [readI64_append_left (by simp [h1, hu])]
    rw [readI64_append_right (by simp [h1, hu])]
  · rw [slice_append_right (by simp [h1, hu]) rfl]

theorem PendingWithdraw.serialize_length {p : PendingWithdraw} (h1 : p.padding1.length = 5)
    (h2 : p.padding2.length = 968) : p.serialize.length = 1024 := by
  simp [PendingWithdraw.serialize, h1, h2, p.unstaker.len]

/-- Fields of a serialised pool state. -/
theorem State.serialize_fields {p : State} (h1 : p.padding1.length = 5) :
    readU8 p.serialize 0 = p.discriminator.toU8 ∧ slice p.serialize 1 5 = p.padding1 ∧
    readU8 p.serialize 6 = p.bump ∧ readU8 p.serialize 7 = p.vaultBump ∧
    readU64 p.serialize 8 = p.escrowedOrcaAmount ∧ readI64 p.serialize 16 = p.coolDownPeriodS ∧
    readKey p.serialize 24 = p.updateAuthority ∧ slice p.serialize 56 p.padding2.length = p.padding2 := by
  have hu := p.updateAuthority.len
  unfold State.serialize
  refine ⟨?_, ?_, ?_, ?_, ?_, ?_, ?_, ?_⟩
  · iterate 7 rw [readU8_append_left (by simp)]
    rfl
  · iterate 6 rw [slice_append_left (by simp [h1, hu])]
    rw [slice_append_right (by simp) h1.symm]
  · iterate 5 rw [readU8_append_left (by simp [h1, hu])]
    rw [readU8_append_right (by simp [h1])]
  · iterate 4 rw [readU8_append_left (by simp [h1, hu])]
    rw [readU8_append_right (by simp [h1])]
  · iterate 3 rw [readU64_append_left (by simp [h1, hu])]
    rw [readU64_append_right (by simp [h1])]
  · iterate 2 rw [readI64_append_left (by simp [h1, hu])]
    rw [readI64_append_right (by simp [h1])]
  · iterate 1 rw [readKey_append_left (by simp [h1, hu])]
    rw [readKey_append_right (by simp [h1])]
  · rw [slice_append_right (by simp [h1, hu]) rfl]

/-- The in-place writes of `Unstake` on a zeroed record with its tag give the serialised record. -/
theorem record_writes {d0 b0 i0 b i : UInt8} {p1 p2 k0 a0 t0 : Bytes} {u : Pubkey} {w : UInt64} {ts : Int64}
    (h1 : p1.length = 5) (hk : k0.length = 32) (ha : a0.length = 8) (ht : t0.length = 8) :
    setPwTimestamp (setPwAmount (setPwUnstaker (setPwIndex (setPwBump
      ([d0] ++ p1 ++ [b0] ++ [i0] ++ k0 ++ a0 ++ t0 ++ p2) b) i) u) w) ts =
      [d0] ++ p1 ++ [b] ++ [i] ++ u.bytes ++ u64le w ++ i64le ts ++ p2 := by
  have hu := u.len
  simp only [setPwTimestamp, setPwAmount, setPwUnstaker, setPwIndex, setPwBump, pwOff_2, pwOff_3, pwOff_4,
    pwOff_5, pwOff_6]
  have e1 : writeAt ([d0] ++ p1 ++ [b0] ++ [i0] ++ k0 ++ a0 ++ t0 ++ p2) 6 [b] =
      [d0] ++ p1 ++ [b] ++ [i0] ++ k0 ++ a0 ++ t0 ++ p2 := by
    iterate 5 rw [writeAt_append_left (by simp [h1, hk, ha, ht])]
    rw [writeAt_append_right (by simp [h1]) (by simp)]
  have e2 : writeAt ([d0] ++ p1 ++ [b] ++ [i0] ++ k0 ++ a0 ++ t0 ++ p2) 7 [i] =
      [d0] ++ p1 ++ [b] ++ [i] ++ k0 ++ a0 ++ t0 ++ p2 := by
    iterate 4 rw [writeAt_append_left (by simp [h1, hk, ha, ht])]
    rw [writeAt_append_right (by simp [h1]) (by simp)]
  have e3 : writeAt ([d0] ++ p1 ++ [b] ++ [i] ++ k0 ++ a0 ++ t0 ++ p2) 8 u.bytes =
      [d0] ++ p1 ++ [b] ++ [i] ++ u.bytes ++ a0 ++ t0 ++ p2 := by
    iterate 3 rw [writeAt_append_left (by simp [h1, hk, ha, hu, ht])]
    rw [writeAt_append_right (by simp [h1]) (by simp [hk, hu])]
  have e4 : writeAt ([d0] ++ p1 ++ [b] ++ [i] ++ u.bytes ++ a0 ++ t0 ++ p2) 40 (u64le w) =
      [d0] ++ p1 ++ [b] ++ [i] ++ u.bytes ++ u64le w ++ t0 ++ p2 := by
    iterate 2 rw [writeAt_append_left (by simp [h1, ha, hu, ht])]
    rw [writeAt_append_right (by simp [h1, hu]) (by simp [ha])]
  have e5 : writeAt ([d0] ++ p1 ++ [b] ++ [i] ++ u.bytes ++ u64le w ++ t0 ++ p2) 48 (i64le ts) =
      [d0] ++ p1 ++ [b] ++ [i] ++ u.bytes ++ u64le w ++ i64le ts ++ p2 := by
    iterate 1 rw [writeAt_append_left (by simp [h1, ht, hu])]
    rw [writeAt_append_right (by simp [h1, hu]) (by simp [ht])]
  rw [e1, e2, e3, e4, e5]

end Xorca
