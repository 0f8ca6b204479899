import Verif.Runtime
/-
Independent vocabulary for the property statements: plain arithmetic and byte offsets, no program
helpers.  Token accounts and mints: SPL token layout.  Pool state and withdrawal records: the offsets
published by the clients' generated decoders.
-/
namespace Xorca.Spec

/-- xORCA due for `a` ORCA when the pool holds `n` non-escrowed ORCA against `s` xORCA. -/
def mintFor (a n s : Nat) : Nat := if s = 0 ∨ n = 0 then a else a * (s + 100) / (n + 100)

/-- ORCA due for `x` xORCA when the pool holds `n` non-escrowed ORCA against `s` xORCA. -/
def redeemFor (x n s : Nat) : Nat := x * (n + 100) / (s + 100)

/-! ### Token accounts and mints -/

/-- Balance of a token account. -/
def balance (L : Ledger) (k : Pubkey) : Nat := (readU64 (L k).data 64).toNat
/-- Mint of a token account. -/
def mintOf (L : Ledger) (k : Pubkey) : Pubkey := readKey (L k).data 0
/-- Token owner of a token account. -/
def ownerOf (L : Ledger) (k : Pubkey) : Pubkey := readKey (L k).data 32
/-- Supply of a mint. -/
def supply (L : Ledger) (k : Pubkey) : Nat := (readU64 (L k).data 36).toNat

/-! ### The pool state -/

/-- ORCA reserved for open withdrawals. -/
def escrow (L : Ledger) (st : Pubkey) : Nat := (readU64 (L st).data 8).toNat
/-- Cool-down period in seconds. -/
def coolDown (L : Ledger) (st : Pubkey) : Int := (readI64 (L st).data 16).toInt
/-- Key allowed to change the settings. -/
def authority (L : Ledger) (st : Pubkey) : Pubkey := readKey (L st).data 24

/-- ORCA of the vault that backs the xORCA supply. -/
def backing (L : Ledger) (vault st : Pubkey) : Nat := balance L vault - escrow L st

/-! ### Withdrawal records -/

/-- An open withdrawal record: owned by the program, full size, tagged 2. -/
def IsRecord (L : Ledger) (k : Pubkey) : Prop :=
  (L k).owner = PROGRAM_ID ∧ 1024 ≤ (L k).data.length ∧ readU8 (L k).data 0 = 2
/-- Index chosen at the unstake. -/
def recIndex (L : Ledger) (k : Pubkey) : UInt8 := readU8 (L k).data 7
/-- Key that unstaked. -/
def recOwner (L : Ledger) (k : Pubkey) : Pubkey := readKey (L k).data 8
/-- ORCA to be paid. -/
def recAmount (L : Ledger) (k : Pubkey) : Nat := (readU64 (L k).data 40).toNat
/-- Time from which it can be paid. -/
def recTime (L : Ledger) (k : Pubkey) : Int := (readI64 (L k).data 48).toInt

/-! ### Addresses

Seeds are written out here, independently of the program's seed functions. -/

/-- `k` (with bump `b`) is the pool's state address: derived by the program from `"state"`. -/
def StateAddr (cr : Crypto) (k : Pubkey) (b : UInt8) : Prop :=
  findProgramAddress cr [[115, 116, 97, 116, 101]] PROGRAM_ID = some (k, b)
/-- `k` is the address of the withdrawal record of user `u` with index `i`: derived by the program
from `"pending_withdraw"`, the user and the index. -/
def RecordAddr (cr : Crypto) (u : Pubkey) (i : UInt8) (k : Pubkey) (b : UInt8) : Prop :=
  findProgramAddress cr [[112, 101, 110, 100, 105, 110, 103, 95, 119, 105, 116, 104, 100, 114, 97, 119],
    u.bytes, [i]] PROGRAM_ID = some (k, b)
/-- `v` is the associated ORCA token account of `st`. -/
def VaultAddr (cr : Crypto) (st v : Pubkey) (b : UInt8) : Prop :=
  findProgramAddress cr [st.bytes, SPL_TOKEN_PROGRAM_ID.bytes, ORCA_MINT_ID.bytes]
    ASSOCIATED_TOKEN_PROGRAM_ID = some (v, b)

/-! ### Signatures -/

/-- All bytes are zero. -/
def AllZero (d : Bytes) : Prop := ∀ b ∈ d, b = 0

/-- What the runtime guarantees about the signers of a call.  Nobody holds a key for an address derived
from seeds, and other programs sign only for addresses derived by themselves; so no signer is
(1) an account in which the program has stored something, (2) the state address, (3) the vault address,
or (4) its own withdrawal record address. -/
def SignersOk (cr : Crypto) (L : Ledger) (accounts : List Meta) : Prop :=
  ∀ m ∈ accounts, m.isSigner = true →
    ((L m.key).owner = PROGRAM_ID → AllZero (L m.key).data) ∧
    (∀ b, ¬ StateAddr cr m.key b) ∧
    (∀ st b b', StateAddr cr st b → ¬ VaultAddr cr st m.key b') ∧
    (∀ i b, ¬ RecordAddr cr m.key i m.key b)

end Xorca.Spec
