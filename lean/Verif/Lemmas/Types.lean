import Verif.Client.Types
import Verif.Lemmas.Accounts
import Verif.Lemmas.Token
/-
Lemmas about the generated type modules of the clients.
-/
namespace Xorca
open Client

theorem getU32_append (v : UInt32) (r : Bytes) : getU32 (u32le v ++ r) = some (v, r) := by
  simp [getU32, getBytes_append (u32le_length v)]

theorem getBool_cons (b : Bool) (r : Bytes) : getBool (boolByte b :: r) = some (b, r) := by cases b <;> rfl
theorem jsGetBool_cons (b : Bool) (r : Bytes) : jsGetBool (boolByte b :: r) = some (b, r) := by cases b <;> rfl
theorem getTokenAccountState_cons (s : TokenAccountState) (r : Bytes) :
    getTokenAccountState (s.toU8 :: r) = some (s, r) := by cases s <;> rfl

theorem jsU32_some {v : Int} {b : Bytes} : jsU32 v = some b ↔ ∃ w : UInt32, (w.toNat : Int) = v ∧ b = u32le w := by
  unfold jsU32
  constructor
  · intro h
    split at h
    · next hv =>
      cases h
      refine ⟨_, ?_, rfl⟩
      rw [UInt32.toNat_ofNat_of_lt' (by change v.toNat < 2 ^ 32; omega)]
      omega
    · cases h
  · rintro ⟨w, rfl, rfl⟩
    have := w.toNat_lt
    rw [if_pos (by omega)]
    simp

theorem jsU8_toNat (v : UInt8) : jsU8 v.toNat = some [v] := jsU8_some.2 ⟨v, rfl, rfl⟩
theorem jsU32_toNat (v : UInt32) : jsU32 v.toNat = some (u32le v) := jsU32_some.2 ⟨v, rfl, rfl⟩
theorem jsU64_toNat (v : UInt64) : jsU64 v.toNat = some (u64le v) := jsU64_some.2 ⟨v, rfl, rfl⟩
theorem jsI64_toInt (v : Int64) : jsI64 v.toInt = some (i64le v) := jsI64_some.2 ⟨v, rfl, rfl⟩

theorem TokenMint.decode_serialize (m : TokenMint) (r : Bytes) : decodeTokenMint (m.serialize ++ r) = some m := by
  simp only [decodeTokenMint, TokenMint.serialize, List.append_assoc, List.cons_append, List.nil_append, getU32_append,
    getKey_append, getU64_append, getU8_cons, getBool_cons, Option.bind_eq_bind, Option.bind_some]

theorem TokenMint.jsDecode_serialize (m : TokenMint) (r : Bytes) : jsDecodeTokenMint (m.serialize ++ r) = some m := by
  simp only [jsDecodeTokenMint, TokenMint.serialize, List.append_assoc, List.cons_append, List.nil_append, getU32_append,
    getKey_append, getU64_append, getU8_cons, jsGetBool_cons, Option.bind_eq_bind, Option.bind_some]

theorem TokenAccount.decode_serialize (t : TokenAccount) (r : Bytes) :
    decodeTokenAccount (t.serialize ++ r) = some t := by
  simp only [decodeTokenAccount, TokenAccount.serialize, List.append_assoc, List.cons_append, List.nil_append,
    getU32_append, getKey_append, getU64_append, getTokenAccountState_cons, Option.bind_eq_bind, Option.bind_some]

theorem jsDecodeTokenMint_eq (d : Bytes) :
    jsDecodeTokenMint d = if 82 ≤ d.length then some (tokenMintAt d (readU8 d 45 == 1)) else none := by
  unfold jsDecodeTokenMint
  have hb : ∀ (d : Bytes) {α : Type} (f : Bool × Bytes → Option α), (jsGetBool d >>= f) =
      if 1 ≤ d.length then f (readU8 d 0 == 1, d.drop 1) else none := by
    intro d α f
    cases d <;> rfl
  simp only [bind_getKey, bind_getU64, bind_getU32, bind_getU8, hb, List.length_drop, Nat.reduceAdd, Nat.sub_sub,
    readKey_drop, readU64_drop, readU32_drop, readU8_drop, ite_none_ite_none]
  have hp : (4 ≤ d.length ∧ 32 ≤ d.length - 4 ∧ 8 ≤ d.length - 36 ∧ 1 ≤ d.length - 44 ∧
    1 ≤ d.length - 45 ∧ 4 ≤ d.length - 46 ∧ 32 ≤ d.length - 50) ↔ 82 ≤ d.length := by omega
  simp only [hp]
  rfl

theorem u32le_leU32 {b : Bytes} (h : b.length = 4) : u32le (leU32 b) = b := by
  have hb := leNat_lt b
  rw [h] at hb
  simp only [u32le, leU32]
  rw [UInt32.toNat_ofNat_of_lt' (by simpa using hb), ← h, leBytes_leNat]

theorem u32_slice {d : Bytes} {o : Nat} (h : o + 4 ≤ d.length) : u32le (readU32 d o) = slice d o 4 :=
  u32le_leU32 (slice_length h)

theorem tokenStateOf_toU8 {b : UInt8} {s : TokenAccountState} (h : tokenStateOf b = some s) : s.toU8 = b := by
  rcases tokenStateOf_eq.1 h with ⟨rfl, rfl⟩ | ⟨rfl, rfl⟩ | ⟨rfl, rfl⟩ <;> rfl

theorem boolOf_byte {b : UInt8} {s : Bool} (h : boolOf b = some s) : boolByte s = b := by
  unfold boolOf at h
  split at h
  · next e => cases h; exact e.symm
  · split at h
    · next e => cases h; exact e.symm
    · cases h

theorem tokenMintAt_serialize {d : Bytes} {b : Bool} (h : 82 ≤ d.length) (hb : boolByte b = readU8 d 45) :
    (tokenMintAt d b).serialize = d.take 82 := by
  have e : (tokenMintAt d b).serialize = slice d 0 4 ++ slice d 4 32 ++ slice d 36 8 ++ slice d 44 1 ++ slice d 45 1 ++
      slice d 46 4 ++ slice d 50 32 := by
    rw [← u8_slice (o := 44) (by omega), ← u8_slice (o := 45) (by omega), ← hb, ← u32_slice (o := 0) (by omega),
      ← u32_slice (o := 46) (by omega), ← u64_slice (o := 36) (by omega), ← key_slice (o := 4) (by omega),
      ← key_slice (o := 50) (by omega)]
    rfl
  rw [e]
  iterate 6 rw [slice_append_slice]
  rw [slice_zero]

theorem tokenAccountAt_serialize {d : Bytes} {s : TokenAccountState} (h : 165 ≤ d.length)
    (hb : s.toU8 = readU8 d 108) : (tokenAccountAt d s).serialize = d.take 165 := by
  have e : (tokenAccountAt d s).serialize = slice d 0 32 ++ slice d 32 32 ++ slice d 64 8 ++ slice d 72 4 ++
      slice d 76 32 ++ slice d 108 1 ++ slice d 109 4 ++ slice d 113 8 ++ slice d 121 8 ++ slice d 129 4 ++
      slice d 133 32 := by
    rw [← u8_slice (o := 108) (by omega), ← hb, ← u32_slice (o := 72) (by omega), ← u32_slice (o := 109) (by omega),
      ← u32_slice (o := 129) (by omega), ← u64_slice (o := 64) (by omega), ← u64_slice (o := 113) (by omega),
      ← u64_slice (o := 121) (by omega), ← key_slice (o := 0) (by omega), ← key_slice (o := 32) (by omega),
      ← key_slice (o := 76) (by omega), ← key_slice (o := 133) (by omega)]
    rfl
  rw [e]
  iterate 10 rw [slice_append_slice]
  rw [slice_zero]

end Xorca
