import Verif.Entrypoint
/-
The memory block through which the runtime and the program exchange accounts (`entrypoint!` at
`solana-program/src/entrypoint.rs:10-14`).  Not code of `/repo`: the runtime's serialisation of the parameters of an
instruction and `pinocchio::entrypoint::deserialize` (pinocchio 0.9.1) are transcribed from their documented layout.
-/
namespace Xorca

/-- Bytes up to the next multiple of 8. -/
def pad8 (n : Nat) : Nat := (8 - n % 8) % 8

/-- Room behind the data for growth, `MAX_PERMITTED_DATA_INCREASE`. -/
def GROWTH : Nat := 10240

/-! ### The runtime writes -/

/-- A flag as a byte. -/
def flagByte (b : Bool) : UInt8 := if b then 1 else 0

/-- An account that did not occur before: marker 255, three flags, four bytes for the program's use, key, owner, lamports,
length, data, room for growth, padding, rent epoch. -/
def putAccount (executable : Bool) (epoch : UInt64) (m : Meta) (a : Account) : Bytes :=
  [255, flagByte m.isSigner, flagByte m.isWritable, flagByte executable, 0, 0, 0, 0] ++ m.key.bytes ++ a.owner.bytes ++
    u64le a.lamports ++ u64le (UInt64.ofNat a.data.length) ++ a.data ++
    List.replicate (GROWTH + pad8 a.data.length) 0 ++ u64le epoch

/-- An account that occurred before, at index `i`: the index and seven bytes. -/
def putDuplicate (i : Nat) : Bytes := UInt8.ofNat i :: List.replicate 7 0

/-- All accounts; `seen` are those before. -/
def putAccounts (exec : Pubkey → Bool) (epoch : UInt64) (L : Ledger) : List Meta → List Meta → Bytes
  | _, [] => []
  | seen, m :: ms =>
    (match seen.findIdx? (fun s => s.key = m.key) with
      | some i => putDuplicate i
      | none => putAccount (exec m.key) epoch m (L m.key)) ++ putAccounts exec epoch L (seen ++ [m]) ms

/-- The block: number of accounts, accounts, length of the instruction data, instruction data, program id. -/
def putInput (exec : Pubkey → Bool) (epoch : UInt64) (L : Ledger) (ms : List Meta) (data : Bytes) (programId : Pubkey) : Bytes :=
  u64le (UInt64.ofNat ms.length) ++ putAccounts exec epoch L [] ms ++ u64le (UInt64.ofNat data.length) ++ data ++
    programId.bytes

/-! ### The program reads

`AccountInfo` is a pointer to the account in the block, here its position. -/

/-- `AccountInfo::key`. -/
def infoKey (b : Bytes) (p : Nat) : Pubkey := readKey b (p + 8)
/-- `AccountInfo::is_signer`. -/
def infoSigner (b : Bytes) (p : Nat) : Bool := readU8 b (p + 1) != 0
/-- `AccountInfo::is_writable`. -/
def infoWritable (b : Bytes) (p : Nat) : Bool := readU8 b (p + 2) != 0
/-- `AccountInfo::owner`. -/
def infoOwner (b : Bytes) (p : Nat) : Pubkey := readKey b (p + 40)
/-- `AccountInfo::lamports`. -/
def infoLamports (b : Bytes) (p : Nat) : UInt64 := readU64 b (p + 72)
/-- `AccountInfo::data_len`. -/
def infoLen (b : Bytes) (p : Nat) : Nat := (readU64 b (p + 80)).toNat
/-- The bytes behind `AccountInfo::data_ptr`. -/
def infoData (b : Bytes) (p : Nat) : Bytes := slice b (p + 88) (infoLen b p)
/-- The entry of the account list. -/
def infoMeta (b : Bytes) (p : Nat) : Meta := ⟨infoKey b p, infoSigner b p, infoWritable b p⟩
/-- The contents. -/
def infoAccount (b : Bytes) (p : Nat) : Account := ⟨infoLamports b p, infoOwner b p, infoData b p⟩

/-- `MAX_TX_ACCOUNTS`: further accounts are skipped. -/
def MAX_TX_ACCOUNTS : Nat := 254

/-- `align_pointer!`: up to a multiple of 8. -/
def alignUp (p : Nat) : Nat := (p + 7) / 8 * 8

/-- Next position behind the account at `p`: behind header, room for growth, rent epoch and data, aligned. -/
def nextPos (b : Bytes) (p : Nat) : Nat := alignUp (p + (88 + 10240 + 8) + infoLen b p)

/-- The loop over the accounts: `n` are left, `seen` the pointers so far.  A byte other than 255 is the index of an
earlier account. -/
def getAccounts (b : Bytes) : Nat → Nat → List Nat → Option (List Nat × Nat)
  | 0, p, seen => some (seen, p)
  | n + 1, p, seen =>
    if readU8 b p = 255 then
      getAccounts b n (nextPos b p) (if seen.length < MAX_TX_ACCOUNTS then seen ++ [p] else seen)
    else if seen.length < MAX_TX_ACCOUNTS then
      match seen[(readU8 b p).toNat]? with
      | some q => getAccounts b n (p + 8) (seen ++ [q])
      | none => none
    else getAccounts b n (p + 8) seen

/-- `deserialize`: the account pointers, the instruction data and the program id. -/
def getInput (b : Bytes) : Option (List Nat × Bytes × Pubkey) :=
  match getAccounts b (readU64 b 0).toNat 8 [] with
  | none => none
  | some (ps, p) => some (ps, slice b (p + 8) (readU64 b p).toNat, readKey b (p + 8 + (readU64 b p).toNat))

/-- The accounts as the program sees them. -/
def inputLedger (b : Bytes) (ps : List Nat) : Ledger := fun k =>
  match ps.find? (fun p => infoKey b p = k) with
  | some p => infoAccount b p
  | none => ⟨0, SYSTEM_PROGRAM_ID, []⟩

/-! ### The program writes, the runtime reads back -/

/-- Owner, lamports, length and data of the account at `p` are overwritten. -/
def storeAccount (b : Bytes) (p : Nat) (a : Account) : Bytes :=
  writeAt (writeAt (writeAt (writeAt b (p + 40) a.owner.bytes) (p + 72) (u64le a.lamports)) (p + 80)
    (u64le (UInt64.ofNat a.data.length))) (p + 88) a.data

/-- All accounts, through all pointers. -/
def storeAll (b : Bytes) (L : Ledger) (ps : List Nat) : Bytes :=
  ps.foldl (fun b p => storeAccount b p (L (infoKey b p))) b

/-- The runtime walks over the block with the lengths it wrote, refuses an account that grew by more than `GROWTH`, and
takes over the others. -/
def readBack (b : Bytes) (L : Ledger) : List Meta → Nat → List Meta → Ledger → Option Ledger
  | _, _, [], R => some R
  | seen, p, m :: ms, R =>
    match seen.findIdx? (fun s => s.key = m.key) with
    | some _ => readBack b L (seen ++ [m]) (p + 8) ms R
    | none =>
      if (L m.key).data.length + GROWTH < infoLen b p then none
      else readBack b L (seen ++ [m])
        (p + 88 + (L m.key).data.length + (GROWTH + pad8 (L m.key).data.length) + 8) ms (R.set m.key (infoAccount b p))

/-- A call by way of the block: the runtime writes it, the program reads it, runs and writes the accounts back, and the
runtime takes them over. -/
def entryByBlock (x : Ctx) (exec : Pubkey → Bool) (epoch : UInt64) (programId : Pubkey) (L : Ledger) (ms : List Meta)
    (data : Bytes) : Res Outcome :=
  let b := putInput exec epoch L ms data programId
  match getInput b with
  | none => .error .panicked
  | some (ps, d, pid) =>
    match entry x pid (inputLedger b ps) (ps.map (infoMeta b)) d with
    | .error e => .error e
    | .ok (M, logs) =>
      match readBack (storeAll b M ps) L [] 8 ms L with
      | none => .error (.cpi .invalidArgument)
      | some L' => .ok (L', logs)

end Xorca
