import Verif.Layout
/-
Reading back what the Borsh readers and the in-place views see.
-/
namespace Xorca

theorem slice_zero {d : Bytes} {n : Nat} : slice d 0 n = d.take n := by simp [slice]

theorem slice_drop {d : Bytes} {o p n : Nat} : slice (d.drop p) o n = slice d (p + o) n := by
  simp [slice]

theorem readU64_drop {d : Bytes} {p o : Nat} : readU64 (d.drop p) o = readU64 d (p + o) := by
  simp [readU64, slice_drop]
theorem readI64_drop {d : Bytes} {p o : Nat} : readI64 (d.drop p) o = readI64 d (p + o) := by
  simp [readI64, slice_drop]
theorem readU32_drop {d : Bytes} {p o : Nat} : readU32 (d.drop p) o = readU32 d (p + o) := by
  simp [readU32, slice_drop]
theorem readKey_drop {d : Bytes} {p o : Nat} : readKey (d.drop p) o = readKey d (p + o) := by
  simp [readKey, slice_drop]
theorem readU8_drop {d : Bytes} {p o : Nat} : readU8 (d.drop p) o = readU8 d (p + o) := by
  simp [readU8, List.getD, List.getElem?_drop]

/-! Readers as length test plus offset read. -/

theorem getBytes_eq (n : Nat) (d : Bytes) :
    getBytes n d = if n ≤ d.length then some (slice d 0 n, d.drop n) else none := by
  simp [getBytes, slice_zero]

theorem getU64_eq (d : Bytes) : getU64 d = if 8 ≤ d.length then some (readU64 d 0, d.drop 8) else none := by
  simp only [getU64, getBytes_eq]; split <;> rfl
theorem getI64_eq (d : Bytes) : getI64 d = if 8 ≤ d.length then some (readI64 d 0, d.drop 8) else none := by
  simp only [getI64, getBytes_eq]; split <;> rfl
theorem getU32_eq (d : Bytes) : getU32 d = if 4 ≤ d.length then some (readU32 d 0, d.drop 4) else none := by
  simp only [getU32, getBytes_eq]; split <;> rfl
theorem getKey_eq (d : Bytes) : getKey d = if 32 ≤ d.length then some (readKey d 0, d.drop 32) else none := by
  simp only [getKey, getBytes_eq]; split <;> rfl
theorem getU8_eq (d : Bytes) : getU8 d = if 1 ≤ d.length then some (readU8 d 0, d.drop 1) else none := by
  cases d <;> simp [getU8, readU8]

/-- The tags accepted for a token account state. -/
def tokenStateOf (b : UInt8) : Option TokenAccountState :=
  if b = 0 then some .Uninitialized else if b = 1 then some .Initialized else if b = 2 then some .Frozen
  else none

theorem getTokenAccountState_eq (d : Bytes) :
    getTokenAccountState d = if 1 ≤ d.length then (tokenStateOf (readU8 d 0)).map (·, d.drop 1) else none := by
  unfold getTokenAccountState tokenStateOf
  rw [getU8_eq]
  by_cases h : 1 ≤ d.length
  · simp only [if_pos h]; repeat' split
    all_goals simp
  · simp only [if_neg h]

def boolOf (b : UInt8) : Option Bool := if b = 0 then some false else if b = 1 then some true else none

theorem getBool_eq (d : Bytes) :
    getBool d = if 1 ≤ d.length then (boolOf (readU8 d 0)).map (·, d.drop 1) else none := by
  cases d with
  | nil => simp [getBool]
  | cons b d =>
    simp only [getBool, List.length_cons, Nat.le_add_left, if_true, readU8, List.getD_cons_zero, boolOf,
      List.drop_succ_cons, List.drop_zero]
    repeat' split
    all_goals simp

def discOf (b : UInt8) : Option AccountDiscriminator :=
  if b = 0 then some .Uninitialized else if b = 1 then some .State else if b = 2 then some .PendingWithdraw
  else if b = 3 then some .Closed else none

theorem getDiscriminator_eq (d : Bytes) :
    getDiscriminator d = if 1 ≤ d.length then (discOf (readU8 d 0)).map (·, d.drop 1) else none := by
  unfold getDiscriminator discOf
  rw [getU8_eq]
  by_cases h : 1 ≤ d.length
  · simp only [if_pos h]; repeat' split
    all_goals simp
  · simp only [if_neg h]

/-! Token structs by offset. -/

/-- The fields of a token account at their byte offsets. -/
def tokenAccountAt (d : Bytes) (st : TokenAccountState) : TokenAccount where
  mint := readKey d 0
  owner := readKey d 32
  amount := readU64 d 64
  delegateFlag := readU32 d 72
  delegate := readKey d 76
  state := st
  isNativeFlag := readU32 d 109
  nativeAmount := readU64 d 113
  delegateAmount := readU64 d 121
  closeAuthorityFlag := readU32 d 129
  closeAuthority := readKey d 133

theorem bind_getKey {α : Type} (d : Bytes) (f : Pubkey × Bytes → Option α) :
    (getKey d >>= f) = if 32 ≤ d.length then f (readKey d 0, d.drop 32) else none := by
  rw [getKey_eq]; split <;> rfl
theorem bind_getU64 {α : Type} (d : Bytes) (f : UInt64 × Bytes → Option α) :
    (getU64 d >>= f) = if 8 ≤ d.length then f (readU64 d 0, d.drop 8) else none := by
  rw [getU64_eq]; split <;> rfl
theorem bind_getI64 {α : Type} (d : Bytes) (f : Int64 × Bytes → Option α) :
    (getI64 d >>= f) = if 8 ≤ d.length then f (readI64 d 0, d.drop 8) else none := by
  rw [getI64_eq]; split <;> rfl
theorem bind_getU32 {α : Type} (d : Bytes) (f : UInt32 × Bytes → Option α) :
    (getU32 d >>= f) = if 4 ≤ d.length then f (readU32 d 0, d.drop 4) else none := by
  rw [getU32_eq]; split <;> rfl
theorem bind_getU8 {α : Type} (d : Bytes) (f : UInt8 × Bytes → Option α) :
    (getU8 d >>= f) = if 1 ≤ d.length then f (readU8 d 0, d.drop 1) else none := by
  rw [getU8_eq]; split <;> rfl
theorem bind_getBytes {α : Type} (n : Nat) (d : Bytes) (f : Bytes × Bytes → Option α) :
    (getBytes n d >>= f) = if n ≤ d.length then f (slice d 0 n, d.drop n) else none := by
  rw [getBytes_eq]; split <;> rfl
theorem bind_getTokenAccountState {α : Type} (d : Bytes) (f : TokenAccountState × Bytes → Option α) :
    (getTokenAccountState d >>= f) =
      if 1 ≤ d.length then (tokenStateOf (readU8 d 0)).bind fun s => f (s, d.drop 1) else none := by
  rw [getTokenAccountState_eq]
  split
  · cases tokenStateOf (readU8 d 0) <;> rfl
  · rfl
theorem bind_getBool {α : Type} (d : Bytes) (f : Bool × Bytes → Option α) :
    (getBool d >>= f) =
      if 1 ≤ d.length then (boolOf (readU8 d 0)).bind fun s => f (s, d.drop 1) else none := by
  rw [getBool_eq]
  split
  · cases boolOf (readU8 d 0) <;> rfl
  · rfl
theorem bind_getDiscriminator {α : Type} (d : Bytes) (f : AccountDiscriminator × Bytes → Option α) :
    (getDiscriminator d >>= f) =
      if 1 ≤ d.length then (discOf (readU8 d 0)).bind fun s => f (s, d.drop 1) else none := by
  rw [getDiscriminator_eq]
  split
  · cases discOf (readU8 d 0) <;> rfl
  · rfl

theorem ite_none_ite_none {α : Type} {p q : Prop} [Decidable p] [Decidable q] {a : Option α} :
    (if p then (if q then a else none) else none) = if p ∧ q then a else none := by
  by_cases hp : p <;> by_cases hq : q <;> simp [hp, hq]

theorem bind_ite_none {α β : Type} {q : Prop} [Decidable q] {o : Option α} {f : α → Option β} :
    (o.bind fun s => if q then f s else none) = if q then o.bind f else none := by
  by_cases hq : q <;> simp [hq]

theorem decodeTokenAccount_eq (d : Bytes) :
    decodeTokenAccount d =
      if 165 ≤ d.length then (tokenStateOf (readU8 d 108)).map (tokenAccountAt d) else none := by
  unfold decodeTokenAccount
  simp only [bind_getKey, bind_getU64, bind_getU32, bind_getTokenAccountState, 
    List.length_drop, Nat.reduceAdd, Nat.sub_sub, readKey_drop, readU64_drop, readU32_drop, readU8_drop,
    ite_none_ite_none, bind_ite_none]
  have hp : (32 ≤ d.length ∧ 32 ≤ d.length - 32 ∧ 8 ≤ d.length - 64 ∧ 4 ≤ d.length - 72 ∧
    32 ≤ d.length - 76 ∧ 1 ≤ d.length - 108 ∧ 4 ≤ d.length - 109 ∧ 8 ≤ d.length - 113 ∧
    8 ≤ d.length - 121 ∧ 4 ≤ d.length - 129 ∧ 32 ≤ d.length - 133) ↔ 165 ≤ d.length := by omega
  simp only [hp]
  split
  · cases tokenStateOf (readU8 d 108) <;> rfl
  · rfl

/-- The fields of a mint at their byte offsets. -/
def tokenMintAt (d : Bytes) (b : Bool) : TokenMint where
  mintAuthorityFlag := readU32 d 0
  mintAuthority := readKey d 4
  supply := readU64 d 36
  decimals := readU8 d 44
  isInitialized := b
  freezeAuthorityFlag := readU32 d 46
  freezeAuthority := readKey d 50

theorem decodeTokenMint_eq (d : Bytes) :
    decodeTokenMint d = if 82 ≤ d.length then (boolOf (readU8 d 45)).map (tokenMintAt d) else none := by
  unfold decodeTokenMint
  simp only [bind_getKey, bind_getU64, bind_getU32, bind_getU8, bind_getBool, 
    List.length_drop, Nat.reduceAdd, Nat.sub_sub, readKey_drop, readU64_drop, readU32_drop, readU8_drop,
    ite_none_ite_none, bind_ite_none]
  have hp : (4 ≤ d.length ∧ 32 ≤ d.length - 4 ∧ 8 ≤ d.length - 36 ∧ 1 ≤ d.length - 44 ∧
    1 ≤ d.length - 45 ∧ 4 ≤ d.length - 46 ∧ 32 ≤ d.length - 50) ↔ 82 ≤ d.length := by omega
  simp only [hp]
  split
  · cases boolOf (readU8 d 45) <;> rfl
  · rfl

/-- The `State` struct read at the in-memory offsets. -/
def stateAt (d : Bytes) (disc : AccountDiscriminator) : State where
  discriminator := disc
  padding1 := slice d (stateOff 1) 5
  bump := stBump d
  vaultBump := stVaultBump d
  escrowedOrcaAmount := stEscrow d
  coolDownPeriodS := stCoolDown d
  updateAuthority := stAuthority d
  padding2 := slice d (stateOff 7) 1992

@[simp] theorem stateOff_0 : stateOff 0 = 0 := rfl
@[simp] theorem stateOff_1 : stateOff 1 = 1 := rfl
@[simp] theorem stateOff_2 : stateOff 2 = 6 := rfl
@[simp] theorem stateOff_3 : stateOff 3 = 7 := rfl
@[simp] theorem stateOff_4 : stateOff 4 = 8 := rfl
@[simp] theorem stateOff_5 : stateOff 5 = 16 := rfl
@[simp] theorem stateOff_6 : stateOff 6 = 24 := rfl
@[simp] theorem stateOff_7 : stateOff 7 = 56 := rfl
@[simp] theorem pwOff_0 : pwOff 0 = 0 := rfl
@[simp] theorem pwOff_1 : pwOff 1 = 1 := rfl
@[simp] theorem pwOff_2 : pwOff 2 = 6 := rfl
@[simp] theorem pwOff_3 : pwOff 3 = 7 := rfl
@[simp] theorem pwOff_4 : pwOff 4 = 8 := rfl
@[simp] theorem pwOff_5 : pwOff 5 = 40 := rfl
@[simp] theorem pwOff_6 : pwOff 6 = 48 := rfl
@[simp] theorem pwOff_7 : pwOff 7 = 56 := rfl

theorem State.deserialize_eq (d : Bytes) :
    State.deserialize d = if 2048 ≤ d.length then (discOf (readU8 d 0)).map (stateAt d) else none := by
  unfold State.deserialize
  simp only [bind_getKey, bind_getU64, bind_getI64, bind_getU8, bind_getBytes, bind_getDiscriminator,
    List.length_drop, Nat.reduceAdd, Nat.sub_sub, readKey_drop, readU64_drop, readI64_drop, readU8_drop,
    slice_drop, ite_none_ite_none, bind_ite_none]
  have hp : (1 ≤ d.length ∧ 5 ≤ d.length - 1 ∧ 1 ≤ d.length - 6 ∧ 1 ≤ d.length - 7 ∧ 8 ≤ d.length - 8 ∧
    8 ≤ d.length - 16 ∧ 32 ≤ d.length - 24 ∧ 1992 ≤ d.length - 56) ↔ 2048 ≤ d.length := by omega
  simp only [hp]
  split
  · cases discOf (readU8 d 0) <;> rfl
  · rfl

/-- The `PendingWithdraw` struct read at the in-memory offsets. -/
def pendingWithdrawAt (d : Bytes) (disc : AccountDiscriminator) : PendingWithdraw where
  discriminator := disc
  padding1 := slice d (pwOff 1) 5
  bump := pwBump d
  withdrawIndex := pwIndex d
  unstaker := pwUnstaker d
  withdrawableOrcaAmount := pwAmount d
  withdrawableTimestamp := pwTimestamp d
  padding2 := slice d (pwOff 7) 968

theorem PendingWithdraw.deserialize_eq (d : Bytes) :
    PendingWithdraw.deserialize d =
      if 1024 ≤ d.length then (discOf (readU8 d 0)).map (pendingWithdrawAt d) else none := by
  unfold PendingWithdraw.deserialize
  simp only [bind_getKey, bind_getU64, bind_getI64, bind_getU8, bind_getBytes, bind_getDiscriminator,
    List.length_drop, Nat.reduceAdd, Nat.sub_sub, readKey_drop, readU64_drop, readI64_drop, readU8_drop,
    slice_drop, ite_none_ite_none, bind_ite_none]
  have hp : (1 ≤ d.length ∧ 5 ≤ d.length - 1 ∧ 1 ≤ d.length - 6 ∧ 1 ≤ d.length - 7 ∧ 32 ≤ d.length - 8 ∧
    8 ≤ d.length - 40 ∧ 8 ≤ d.length - 48 ∧ 968 ≤ d.length - 56) ↔ 1024 ≤ d.length := by omega
  simp only [hp]
  split
  · cases discOf (readU8 d 0) <;> rfl
  · rfl

/-! ### Reading after writing -/

/-- Disjointness of a read `[o, o+n)` and a write `[off, off+m)`. -/
def Apart (o n off m : Nat) : Prop := o + n ≤ off ∨ off + m ≤ o

instance (o n off m : Nat) : Decidable (Apart o n off m) := by unfold Apart; infer_instance

theorem slice_writeAt_apart {d : Bytes} {off o n : Nat} {b : Bytes} (h : off + b.length ≤ d.length)
    (ha : Apart o n off b.length) : slice (writeAt d off b) o n = slice d o n :=
  ha.elim (slice_writeAt_before h) (slice_writeAt_after h)

theorem readU8_writeAt_apart {d : Bytes} {off o : Nat} {b : Bytes} (h : off + b.length ≤ d.length)
    (ha : Apart o 1 off b.length) : readU8 (writeAt d off b) o = readU8 d o := by
  rw [readU8_eq_slice, readU8_eq_slice, slice_writeAt_apart h ha]
theorem readU64_writeAt_apart {d : Bytes} {off o : Nat} {b : Bytes} (h : off + b.length ≤ d.length)
    (ha : Apart o 8 off b.length) : readU64 (writeAt d off b) o = readU64 d o := by
  rw [readU64, readU64, slice_writeAt_apart h ha]
theorem readI64_writeAt_apart {d : Bytes} {off o : Nat} {b : Bytes} (h : off + b.length ≤ d.length)
    (ha : Apart o 8 off b.length) : readI64 (writeAt d off b) o = readI64 d o := by
  rw [readI64, readI64, slice_writeAt_apart h ha]
theorem readU32_writeAt_apart {d : Bytes} {off o : Nat} {b : Bytes} (h : off + b.length ≤ d.length)
    (ha : Apart o 4 off b.length) : readU32 (writeAt d off b) o = readU32 d o := by
  rw [readU32, readU32, slice_writeAt_apart h ha]
theorem readKey_writeAt_apart {d : Bytes} {off o : Nat} {b : Bytes} (h : off + b.length ≤ d.length)
    (ha : Apart o 32 off b.length) : readKey (writeAt d off b) o = readKey d o := by
  rw [readKey, readKey, slice_writeAt_apart h ha]

theorem readU64_writeAt_same {d : Bytes} {off : Nat} {v : UInt64} (h : off + 8 ≤ d.length) :
    readU64 (writeAt d off (u64le v)) off = v := by
  have := slice_writeAt_same (d := d) (off := off) (b := u64le v) (by simpa using h)
  rw [u64le_length] at this
  rw [readU64, this, leU64_u64le]
theorem readI64_writeAt_same {d : Bytes} {off : Nat} {v : Int64} (h : off + 8 ≤ d.length) :
    readI64 (writeAt d off (i64le v)) off = v := by
  have := slice_writeAt_same (d := d) (off := off) (b := i64le v) (by simpa using h)
  rw [i64le_length] at this
  rw [readI64, this, leI64_i64le]
theorem readU32_writeAt_same {d : Bytes} {off : Nat} {v : UInt32} (h : off + 4 ≤ d.length) :
    readU32 (writeAt d off (u32le v)) off = v := by
  have := slice_writeAt_same (d := d) (off := off) (b := u32le v) (by simpa using h)
  rw [u32le_length] at this
  rw [readU32, this, leU32_u32le]
theorem readKey_writeAt_same {d : Bytes} {off : Nat} {k : Pubkey} (h : off + 32 ≤ d.length) :
    readKey (writeAt d off k.bytes) off = k := by
  have := slice_writeAt_same (d := d) (off := off) (b := k.bytes) (by rw [k.len]; exact h)
  rw [k.len] at this
  rw [readKey, this, Pubkey.ofBytes_bytes]
theorem readU8_writeAt_same {d : Bytes} {off : Nat} {v : UInt8} (h : off + 1 ≤ d.length) :
    readU8 (writeAt d off [v]) off = v := by
  have := slice_writeAt_same (d := d) (off := off) (b := [v]) (by simpa using h)
  rw [readU8_eq_slice]
  simp only [List.length_singleton] at this
  rw [this]; rfl

end Xorca
