import Verif.Client.Codec
/-
Errors as the clients see them: texts, numbers, and the JS test for an error of the program.
-/
namespace Xorca.Client

/-- The texts of `solana-program/src/error.rs:4-63`. -/
def programErrorText : ErrorCode → String
  | .UnknownInstructionDiscriminator => "Unknown instruction discriminator"
  | .IncorrectProgramId => "Incorrect program id"
  | .InvalidAccountRole => "Invalid account role"
  | .NotEnoughAccountKeys => "Not enough account keys"
  | .IncorrectOwner => "Incorrect owner"
  | .InvalidSeeds => "Invalid seeds"
  | .IncorrectAccountAddress => "Invalid account address"
  | .InvalidAccountData => "Invalid account data"
  | .ArithmeticError => "Arithmetic error"
  | .InsufficientFunds => "Insufficient funds error"
  | .StateAccountAlreadyInitialized => "State account already initialized"
  | .CoolDownPeriodStillActive => "Cool down period still active"
  | .EmitEventError => "Event serialization failed"
  | .InvalidCoolDownPeriod => "Invalid cooldown period: must be non-negative"
  | .InsufficientStakeAmount => "Stake amount too small to mint any xORCA"
  | .InsufficientUnstakeAmount => "Unstake amount too small to receive any ORCA"
  | .InsufficientEscrow => "Insufficient escrow to cover withdraw amount"
  | .CoolDownOverflow => "Cooldown timestamp overflowed"
  | .InsufficientVaultBacking => "Insufficient vault backing (vault < escrow)"
  | .UnauthorizedDeployerAccess => "Unauthorized deployer access"

/-- `Display` of the Rust client's error (`rust-client/src/generated/errors/xorca_staking_program.rs:15-77`). -/
def rustErrorText : ErrorCode → String
  | .UnknownInstructionDiscriminator => "Unknown instruction discriminator"
  | .IncorrectProgramId => "Incorrect program id"
  | .InvalidAccountRole => "Invalid account role"
  | .NotEnoughAccountKeys => "Not enough account keys"
  | .IncorrectOwner => "Incorrect owner"
  | .InvalidSeeds => "Invalid seeds"
  | .IncorrectAccountAddress => "Invalid account address"
  | .InvalidAccountData => "Invalid account data"
  | .ArithmeticError => "Arithmetic error"
  | .InsufficientFunds => "Insufficient funds error"
  | .StateAccountAlreadyInitialized => "State account already initialized"
  | .CoolDownPeriodStillActive => "Cool down period still active"
  | .EmitEventError => "Event serialization failed"
  | .InvalidCoolDownPeriod => "Invalid cooldown period: must be non-negative"
  | .InsufficientStakeAmount => "Stake amount too small to mint any xORCA"
  | .InsufficientUnstakeAmount => "Unstake amount too small to receive any ORCA"
  | .InsufficientEscrow => "Insufficient escrow to cover withdraw amount"
  | .CoolDownOverflow => "Cooldown timestamp overflowed"
  | .InsufficientVaultBacking => "Insufficient vault backing (vault < escrow)"
  | .UnauthorizedDeployerAccess => "Unauthorized deployer access"

/-- `js-client/src/generated/errors/xorcaStakingProgram.ts:getXorcaStakingProgramErrorMessage`, outside of production
bundles. -/
def jsErrorText : ErrorCode → String
  | .ArithmeticError => "Arithmetic error"
  | .CoolDownOverflow => "Cooldown timestamp overflowed"
  | .CoolDownPeriodStillActive => "Cool down period still active"
  | .EmitEventError => "Event serialization failed"
  | .IncorrectAccountAddress => "Invalid account address"
  | .IncorrectOwner => "Incorrect owner"
  | .IncorrectProgramId => "Incorrect program id"
  | .InsufficientEscrow => "Insufficient escrow to cover withdraw amount"
  | .InsufficientFunds => "Insufficient funds error"
  | .InsufficientStakeAmount => "Stake amount too small to mint any xORCA"
  | .InsufficientUnstakeAmount => "Unstake amount too small to receive any ORCA"
  | .InsufficientVaultBacking => "Insufficient vault backing (vault < escrow)"
  | .InvalidAccountData => "Invalid account data"
  | .InvalidAccountRole => "Invalid account role"
  | .InvalidCoolDownPeriod => "Invalid cooldown period: must be non-negative"
  | .InvalidSeeds => "Invalid seeds"
  | .NotEnoughAccountKeys => "Not enough account keys"
  | .StateAccountAlreadyInitialized => "State account already initialized"
  | .UnauthorizedDeployerAccess => "Unauthorized deployer access"
  | .UnknownInstructionDiscriminator => "Unknown instruction discriminator"

/-- `XorcaStakingProgramError::from_u32`, derived with `FromPrimitive`. -/
def rustErrorOf (n : Nat) : Option ErrorCode :=
  match n with
  | 0x1770 => some .UnknownInstructionDiscriminator
  | 0x1771 => some .IncorrectProgramId
  | 0x1772 => some .InvalidAccountRole
  | 0x1773 => some .NotEnoughAccountKeys
  | 0x1774 => some .IncorrectOwner
  | 0x1775 => some .InvalidSeeds
  | 0x1776 => some .IncorrectAccountAddress
  | 0x1777 => some .InvalidAccountData
  | 0x1778 => some .ArithmeticError
  | 0x1779 => some .InsufficientFunds
  | 0x177A => some .StateAccountAlreadyInitialized
  | 0x177B => some .CoolDownPeriodStillActive
  | 0x177C => some .EmitEventError
  | 0x177D => some .InvalidCoolDownPeriod
  | 0x177E => some .InsufficientStakeAmount
  | 0x177F => some .InsufficientUnstakeAmount
  | 0x1780 => some .InsufficientEscrow
  | 0x1781 => some .CoolDownOverflow
  | 0x1782 => some .InsufficientVaultBacking
  | 0x1783 => some .UnauthorizedDeployerAccess
  | _ => none

/-- What the runtime reports for a failed instruction: `InstructionError::Custom(code)` or an error of its own. -/
inductive Reported
  | custom (code : Nat)
  | builtin
deriving DecidableEq

/-- How the failure of a call is reported.  `codes` are the numbers that the called programs use for their errors, and
`none` for errors that have no number.  The error of a called program is reported as the error of the caller. -/
def reported (codes : CpiError → Option Nat) : Err → Reported
  | .custom e => .custom e.code
  | .invalidAccountData => .builtin
  | .cpi e => match codes e with
    | some c => .custom c
    | none => .builtin
  | .panicked => .builtin

/-- The error of a transaction: which of its instructions failed, and how. -/
structure TxError where
  index : Nat
  error : Reported

/-- `isProgramError` of `@solana/kit`. -/
def jsIsProgramError (e : TxError) (programs : List Pubkey) (program : Pubkey) (code : Option Nat) : Bool :=
  match e.error with
  | .builtin => false
  | .custom c => match programs[e.index]? with
    | none => false
    | some p => p = program && (match code with
      | none => true
      | some c' => c = c')

/-- `js-client/src/generated/errors/xorcaStakingProgram.ts:isXorcaStakingProgramError`; `programs` are the programs of
the instructions of the transaction. -/
def jsIsXorcaStakingProgramError (e : TxError) (programs : List Pubkey) (code : Option Nat) : Bool :=
  jsIsProgramError e programs PROGRAM_ID code

end Xorca.Client
