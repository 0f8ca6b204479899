/-
Basic vocabulary of the model: bytes, machine integers, public keys, results.
Nothing in this file is specific to xORCA except `ErrorCode`.
-/
namespace Xorca

/-- Byte strings (`&[u8]`, account data, instruction data). -/
abbrev Bytes := List UInt8

/-- `pinocchio::pubkey::Pubkey = [u8; 32]`. -/
structure Pubkey where
  bytes : Bytes
  len : bytes.length = 32
deriving DecidableEq

theorem Pubkey.ext_bytes {a b : Pubkey} (h : a.bytes = b.bytes) : a = b := by
  cases a; cases b; cases h; rfl

/-- First 32 bytes of `b`, zero padded (padding never happens on the guarded reads of the code). -/
def Pubkey.ofBytes (b : Bytes) : Pubkey :=
  ⟨(b ++ List.replicate 32 0).take 32, by simp⟩

theorem Pubkey.ofBytes_bytes (k : Pubkey) : Pubkey.ofBytes k.bytes = k := by
  apply Pubkey.ext_bytes
  have h := k.len
  simp only [Pubkey.ofBytes]
  rw [List.take_append_of_le_length (by omega), List.take_of_length_le (by omega)]

theorem Pubkey.bytes_ofBytes {b : Bytes} (h : b.length = 32) : (Pubkey.ofBytes b).bytes = b := by
  simp only [Pubkey.ofBytes]
  rw [List.take_append_of_le_length (by omega), List.take_of_length_le (by omega)]

/-! ### Little endian integers -/

/-- Little-endian value of a byte string. -/
def leNat : Bytes → Nat
  | [] => 0
  | b :: bs => b.toNat + 256 * leNat bs

/-- `k` little-endian bytes of `n`. -/
def leBytes : Nat → Nat → Bytes
  | 0, _ => []
  | k + 1, n => UInt8.ofNat (n % 256) :: leBytes k (n / 256)

@[simp] theorem leBytes_length (k n : Nat) : (leBytes k n).length = k := by
  induction k generalizing n with
  | zero => rfl
  | succ k ih => simp [leBytes, ih]

theorem leNat_lt (b : Bytes) : leNat b < 256 ^ b.length := by
  induction b with
  | nil => simp [leNat]
  | cons x xs ih =>
    have hx := UInt8.toNat_lt x
    simp only [leNat, List.length_cons, Nat.pow_succ]
    omega

theorem leNat_leBytes (k n : Nat) (h : n < 256 ^ k) : leNat (leBytes k n) = n := by
  induction k generalizing n with
  | zero => simp at h; subst h; rfl
  | succ k ih =>
    have h' : n / 256 < 256 ^ k := by
      rw [Nat.pow_succ] at h; omega
    simp only [leBytes, leNat, ih _ h']
    have : (UInt8.ofNat (n % 256)).toNat = n % 256 := by
      simp [UInt8.toNat_ofNat']
    rw [this]; omega

theorem leBytes_leNat (b : Bytes) : leBytes b.length (leNat b) = b := by
  induction b with
  | nil => rfl
  | cons x xs ih =>
    have hx := UInt8.toNat_lt x
    simp only [leNat, List.length_cons, leBytes]
    have h1 : (x.toNat + 256 * leNat xs) % 256 = x.toNat := by omega
    have h2 : (x.toNat + 256 * leNat xs) / 256 = leNat xs := by omega
    rw [h1, h2, ih]
    simp

/-- Borsh / native encoding of a `u64`. -/
def u64le (v : UInt64) : Bytes := leBytes 8 v.toNat
/-- Borsh / native encoding of an `i64` (two's complement). -/
def i64le (v : Int64) : Bytes := u64le v.toUInt64
/-- Borsh / native encoding of a `u32`. -/
def u32le (v : UInt32) : Bytes := leBytes 4 v.toNat

@[simp] theorem u64le_length (v : UInt64) : (u64le v).length = 8 := by simp [u64le]
@[simp] theorem i64le_length (v : Int64) : (i64le v).length = 8 := by simp [i64le]
@[simp] theorem u32le_length (v : UInt32) : (u32le v).length = 4 := by simp [u32le]

def leU64 (b : Bytes) : UInt64 := UInt64.ofNat (leNat b)
def leI64 (b : Bytes) : Int64 := (leU64 b).toInt64
def leU32 (b : Bytes) : UInt32 := UInt32.ofNat (leNat b)

@[simp] theorem leU64_u64le (v : UInt64) : leU64 (u64le v) = v := by
  have h := UInt64.toNat_lt v
  simp only [leU64, u64le]
  rw [leNat_leBytes _ _ (by simpa using h)]
  simp

@[simp] theorem leI64_i64le (v : Int64) : leI64 (i64le v) = v := by
  simp [leI64, i64le]

@[simp] theorem leU32_u32le (v : UInt32) : leU32 (u32le v) = v := by
  have h := UInt32.toNat_lt v
  simp only [leU32, u32le]
  rw [leNat_leBytes _ _ (by simpa using h)]
  simp

theorem u64le_leU64 {b : Bytes} (h : b.length = 8) : u64le (leU64 b) = b := by
  have hb := leNat_lt b
  rw [h] at hb
  simp only [u64le, leU64]
  rw [UInt64.toNat_ofNat_of_lt' (by simpa using hb), ← h, leBytes_leNat]

theorem i64le_leI64 {b : Bytes} (h : b.length = 8) : i64le (leI64 b) = b := by
  simp only [i64le, leI64, UInt64.toUInt64_toInt64]; exact u64le_leU64 h

/-! ### Slices of byte buffers -/

/-- `&data[off .. off + n]`. -/
def slice (d : Bytes) (off n : Nat) : Bytes := (d.drop off).take n

/-- `data[off .. off + b.len()].copy_from_slice(b)` (used only when in range). -/
def writeAt (d : Bytes) (off : Nat) (b : Bytes) : Bytes :=
  d.take off ++ b ++ d.drop (off + b.length)

theorem slice_length {d : Bytes} {off n : Nat} (h : off + n ≤ d.length) : (slice d off n).length = n := by
  simp [slice]; omega

theorem writeAt_length {d : Bytes} {off : Nat} {b : Bytes} (h : off + b.length ≤ d.length) :
    (writeAt d off b).length = d.length := by
  simp [writeAt]; omega

theorem slice_writeAt_same {d : Bytes} {off : Nat} {b : Bytes} (h : off + b.length ≤ d.length) :
    slice (writeAt d off b) off b.length = b := by
  simp only [slice, writeAt, List.append_assoc]
  have h1 : (d.take off).length = off := by simp; omega
  rw [List.drop_append_of_le_length (by omega)]
  rw [List.drop_of_length_le (by omega)]
  simp

theorem slice_writeAt_before {d : Bytes} {off o n : Nat} {b : Bytes}
    (h : off + b.length ≤ d.length) (ho : o + n ≤ off) :
    slice (writeAt d off b) o n = slice d o n := by
  simp only [slice]
  apply List.ext_getElem?
  intro i
  simp only [List.getElem?_take, List.getElem?_drop, writeAt, List.append_assoc]
  split
  · rw [List.getElem?_append_left (by simp; omega), List.getElem?_take]
    rw [if_pos (by omega)]
  · rfl

theorem slice_writeAt_after {d : Bytes} {off o n : Nat} {b : Bytes}
    (h : off + b.length ≤ d.length) (ho : off + b.length ≤ o) :
    slice (writeAt d off b) o n = slice d o n := by
  simp only [slice]
  apply List.ext_getElem?
  intro i
  simp only [List.getElem?_take, List.getElem?_drop, writeAt, List.append_assoc]
  split
  · have h1 : (d.take off).length = off := by simp; omega
    rw [List.getElem?_append_right (by omega), h1]
    rw [List.getElem?_append_right (by omega), List.getElem?_drop]
    congr 1; omega
  · rfl

/-- Byte at offset `off` (only read below a length guard in the code). -/
def readU8 (d : Bytes) (off : Nat) : UInt8 := d.getD off 0
def readU64 (d : Bytes) (off : Nat) : UInt64 := leU64 (slice d off 8)
def readI64 (d : Bytes) (off : Nat) : Int64 := leI64 (slice d off 8)
def readU32 (d : Bytes) (off : Nat) : UInt32 := leU32 (slice d off 4)
def readKey (d : Bytes) (off : Nat) : Pubkey := Pubkey.ofBytes (slice d off 32)

theorem readU8_eq_slice (d : Bytes) (off : Nat) : readU8 d off = (slice d off 1).getD 0 0 := by
  simp [readU8, slice, List.getD]

/-! ### Checked arithmetic -/

/-- `u64::checked_add`. -/
def checkedAddU64 (a b : UInt64) : Option UInt64 :=
  if a.toNat + b.toNat < 2 ^ 64 then some (UInt64.ofNat (a.toNat + b.toNat)) else none

/-- `u64::checked_sub`. -/
def checkedSubU64 (a b : UInt64) : Option UInt64 :=
  if b.toNat ≤ a.toNat then some (UInt64.ofNat (a.toNat - b.toNat)) else none

/-- `i64::checked_add`. -/
def checkedAddI64 (a b : Int64) : Option Int64 :=
  if -(2 ^ 63) ≤ a.toInt + b.toInt ∧ a.toInt + b.toInt < 2 ^ 63 then
    some (Int64.ofInt (a.toInt + b.toInt)) else none

/-- `u128::checked_add`; a `u128` is a `Nat` that is kept below `2^128`. -/
def checkedAddU128 (a b : Nat) : Option Nat := if a + b < 2 ^ 128 then some (a + b) else none
/-- `u128::checked_mul`. -/
def checkedMulU128 (a b : Nat) : Option Nat := if a * b < 2 ^ 128 then some (a * b) else none
/-- `u128::checked_div`. -/
def checkedDivU128 (a b : Nat) : Option Nat := if b = 0 then none else some (a / b)
/-- `u64::try_from(u128)`. -/
def u64OfU128 (a : Nat) : Option UInt64 := if a < 2 ^ 64 then some (UInt64.ofNat a) else none

theorem checkedAddU64_eq_some {a b c : UInt64} :
    checkedAddU64 a b = some c ↔ c.toNat = a.toNat + b.toNat := by
  have hc := UInt64.toNat_lt c
  unfold checkedAddU64
  split
  next h =>
    constructor
    · intro e; cases e; exact UInt64.toNat_ofNat_of_lt' h
    · intro e; rw [← e]; simp
  next h =>
    constructor
    · intro e; cases e
    · intro e; omega

theorem checkedSubU64_eq_some {a b c : UInt64} :
    checkedSubU64 a b = some c ↔ a.toNat = b.toNat + c.toNat := by
  have hc := UInt64.toNat_lt c
  have ha := UInt64.toNat_lt a
  unfold checkedSubU64
  split
  next h =>
    constructor
    · intro e; cases e
      rw [UInt64.toNat_ofNat_of_lt' (by change _ < 2 ^ 64; omega)]; omega
    · intro e
      have : a.toNat - b.toNat = c.toNat := by omega
      rw [this]; simp
  next h =>
    constructor
    · intro e; cases e
    · intro e; omega

theorem checkedAddI64_eq_some {a b c : Int64} :
    checkedAddI64 a b = some c ↔ c.toInt = a.toInt + b.toInt := by
  have h1 := Int64.toInt_lt c
  have h2 := Int64.le_toInt c
  unfold checkedAddI64
  split
  next h =>
    constructor
    · intro e; cases e; exact Int64.toInt_ofInt_of_le h.1 h.2
    · intro e; rw [← e]; simp
  next h =>
    constructor
    · intro e; cases e
    · intro e; exact absurd (by rw [← e]; exact ⟨h2, h1⟩) h

/-! ### Errors and results -/

/-- `solana-program/src/error.rs:4-63`. -/
inductive ErrorCode
  | UnknownInstructionDiscriminator
  | IncorrectProgramId
  | InvalidAccountRole
  | NotEnoughAccountKeys
  | IncorrectOwner
  | InvalidSeeds
  | IncorrectAccountAddress
  | InvalidAccountData
  | ArithmeticError
  | InsufficientFunds
  | StateAccountAlreadyInitialized
  | CoolDownPeriodStillActive
  | EmitEventError
  | InvalidCoolDownPeriod
  | InsufficientStakeAmount
  | InsufficientUnstakeAmount
  | InsufficientEscrow
  | CoolDownOverflow
  | InsufficientVaultBacking
  | UnauthorizedDeployerAccess
deriving DecidableEq, Repr

/-- `e as u32`, `solana-program/src/error.rs:4-69`: discriminants start at 6000. -/
def ErrorCode.code : ErrorCode → Nat
  | .UnknownInstructionDiscriminator => 6000
  | .IncorrectProgramId => 6001
  | .InvalidAccountRole => 6002
  | .NotEnoughAccountKeys => 6003
  | .IncorrectOwner => 6004
  | .InvalidSeeds => 6005
  | .IncorrectAccountAddress => 6006
  | .InvalidAccountData => 6007
  | .ArithmeticError => 6008
  | .InsufficientFunds => 6009
  | .StateAccountAlreadyInitialized => 6010
  | .CoolDownPeriodStillActive => 6011
  | .EmitEventError => 6012
  | .InvalidCoolDownPeriod => 6013
  | .InsufficientStakeAmount => 6014
  | .InsufficientUnstakeAmount => 6015
  | .InsufficientEscrow => 6016
  | .CoolDownOverflow => 6017
  | .InsufficientVaultBacking => 6018
  | .UnauthorizedDeployerAccess => 6019

/-- Errors raised by the runtime, the system program, the SPL token program or the
associated-token program during a CPI.  External: the names are descriptive only. -/
inductive CpiError
  | missingAccount | privilegeEscalation | notEnoughSigners | invalidSeeds
  | accountInUse | invalidArgument | negativeLamports | externalLamportSpend
  | invalidOwner | invalidAccountData | uninitialized | frozen | insufficientFunds
  | mintMismatch | ownerMismatch | fixedSupply | overflow | nativeNotSupported
  | cannotFreeze | nonZeroBalance | unbalancedInstruction | readonlyModified
deriving DecidableEq, Repr

/-- `ProgramError`, plus an explicit value for a panic. -/
inductive Err
  | custom (e : ErrorCode)
  | invalidAccountData
  | cpi (e : CpiError)
  | panicked
deriving DecidableEq, Repr

abbrev Res (α : Type) := Except Err α

/-- `if !c { return Err(e) }`. -/
def ensure (c : Prop) [Decidable c] (e : Err) : Res Unit := if c then .ok () else .error e

/-- `opt.ok_or(e)?`. -/
def okOr {α : Type} (o : Option α) (e : Err) : Res α :=
  match o with
  | some a => .ok a
  | none => .error e

theorem bind_eq_ok {α β : Type} {x : Res α} {f : α → Res β} {b : β} :
    (x >>= f) = .ok b ↔ ∃ a, x = .ok a ∧ f a = .ok b := by
  cases x with
  | error e => simp [bind, Except.bind]
  | ok a => simp [bind, Except.bind]

theorem bind_eq_err {α β : Type} {x : Res α} {f : α → Res β} {e : Err} :
    (x >>= f) = .error e ↔ x = .error e ∨ ∃ a, x = .ok a ∧ f a = .error e := by
  cases x with
  | error e => simp [bind, Except.bind]
  | ok a => simp [bind, Except.bind]

theorem ensure_eq_ok {c : Prop} [Decidable c] {e : Err} {u : Unit} : ensure c e = .ok u ↔ c := by
  unfold ensure; split <;> simp [*]

theorem ensure_eq_err {c : Prop} [Decidable c] {e e' : Err} :
    ensure c e = .error e' ↔ ¬ c ∧ e = e' := by
  unfold ensure; split <;> simp [*]

theorem okOr_eq_ok {α : Type} {o : Option α} {e : Err} {a : α} : okOr o e = .ok a ↔ o = some a := by
  cases o <;> simp [okOr]

theorem okOr_eq_err {α : Type} {o : Option α} {e e' : Err} :
    okOr o e = .error e' ↔ o = none ∧ e = e' := by
  cases o <;> simp [okOr]

theorem exists_unit {p : Unit → Prop} : (∃ u, p u) ↔ p () :=
  ⟨fun ⟨_, h⟩ => h, fun h => ⟨(), h⟩⟩

end Xorca
