import Verif.Layout
/-
Program derived addresses.
-/
namespace Xorca

/-- The two cryptographic primitives used for address derivation, kept abstract. -/
structure Crypto where
  /-- SHA-256 of the concatenated seeds. -/
  sha256 : Bytes → Pubkey
  /-- Whether 32 bytes decode to a point of the ed25519 curve. -/
  onCurve : Pubkey → Bool

/-- `pinocchio_pubkey::derive_address(seeds, Some(bump), program_id)`: hash without a curve check. -/
def deriveAddress (cr : Crypto) (seeds : List Bytes) (bump : UInt8) (programId : Pubkey) : Pubkey :=
  cr.sha256 (seeds.flatten ++ [bump] ++ programId.bytes ++ PDA_MARKER)

/-- `create_program_address` of the Solana runtime on `seeds ++ [bump]`: fails on the curve.
(The limits of 16 seeds and 32 bytes per seed hold for every call of the program.) -/
def createProgramAddress (cr : Crypto) (seeds : List Bytes) (bump : UInt8) (programId : Pubkey) :
    Option Pubkey :=
  let k := deriveAddress cr seeds bump programId
  if cr.onCurve k then none else some k

/-- Search of `find_program_address`, trying bumps `n, n-1, …, 1`. -/
def findFrom (cr : Crypto) (seeds : List Bytes) (programId : Pubkey) : Nat → Option (Pubkey × UInt8)
  | 0 => none
  | n + 1 =>
    match createProgramAddress cr seeds (UInt8.ofNat (n + 1)) programId with
    | some k => some (k, UInt8.ofNat (n + 1))
    | none => findFrom cr seeds programId n

/-- `find_program_address`: bumps 255 down to 1; `none` is the runtime's panic. -/
def findProgramAddress (cr : Crypto) (seeds : List Bytes) (programId : Pubkey) :
    Option (Pubkey × UInt8) :=
  findFrom cr seeds programId 255

/-- `solana-program/src/pda.rs:10-12`. -/
def stateSeedsRaw : List Bytes := [SEED_STATE]
/-- `solana-program/src/pda.rs:20-25`. -/
def pendingWithdrawSeedsRaw (unstaker : Pubkey) (withdrawIndex : Bytes) : List Bytes :=
  [SEED_PENDING_WITHDRAW, unstaker.bytes, withdrawIndex]
/-- `solana-program/src/pda.rs:39-45`. -/
def vaultSeedsRaw (state tokenProgram orcaMint : Pubkey) : List Bytes :=
  [state.bytes, tokenProgram.bytes, orcaMint.bytes]

end Xorca
