import Verif.Event
/-
Decoding of events and account kinds in the clients, and their error tables.
-/
namespace Xorca.Client

/-- Derived `BorshDeserialize` of `rust-client/src/generated/types/event.rs`; the JS decoder
(`js-client/src/generated/types/event.ts:getEventDecoder`) reads the same fields in the same order.  Bytes
after the event are ignored. -/
def decodeEvent (d : Bytes) : Option Event := do
  let (tag, d) ← getU8 d
  if tag = 0 then do
    let (orcaStakeAmount, d) ← getU64 d
    let (vaultOrcaAmount, d) ← getU64 d
    let (vaultEscrowedOrcaAmount, d) ← getU64 d
    let (xorcaMintSupply, d) ← getU64 d
    let (xorcaToMint, _) ← getU64 d
    some (.Stake orcaStakeAmount vaultOrcaAmount vaultEscrowedOrcaAmount xorcaMintSupply xorcaToMint)
  else if tag = 1 then do
    let (xorcaUnstakeAmount, d) ← getU64 d
    let (vaultOrcaAmount, d) ← getU64 d
    let (vaultEscrowedOrcaAmount, d) ← getU64 d
    let (xorcaMintSupply, d) ← getU64 d
    let (withdrawableOrcaAmount, d) ← getU64 d
    let (coolDownPeriodS, d) ← getI64 d
    let (withdrawIndex, _) ← getU8 d
    some (.Unstake xorcaUnstakeAmount vaultOrcaAmount vaultEscrowedOrcaAmount xorcaMintSupply
      withdrawableOrcaAmount coolDownPeriodS withdrawIndex)
  else if tag = 2 then do
    let (vaultEscrowedOrcaAmount, d) ← getU64 d
    let (withdrawableOrcaAmount, d) ← getU64 d
    let (coolDownPeriodS, d) ← getI64 d
    let (withdrawIndex, _) ← getU8 d
    some (.Withdraw vaultEscrowedOrcaAmount withdrawableOrcaAmount coolDownPeriodS withdrawIndex)
  else if tag = 3 then do
    let (newAuthority, d) ← getKey d
    let (setBy, _) ← getKey d
    some (.UpdateAuthoritySet newAuthority setBy)
  else none

/-- `js-client/src/generated/programs/xorcaStakingProgram.ts:identifyXorcaStakingProgramAccount`. -/
inductive AccountKind
  | PendingWithdraw | State
deriving DecidableEq, Repr

/-- `js-client/src/generated/programs/xorcaStakingProgram.ts:29-46`. -/
def jsIdentifyAccount (d : Bytes) : Option AccountKind :=
  if d.take 1 = [AccountDiscriminator.PendingWithdraw.toU8] then some .PendingWithdraw
  else if d.take 1 = [AccountDiscriminator.State.toU8] then some .State
  else none

/-- `rust-client/src/generated/errors/xorca_staking_program.rs:11-73`: `e as u32`. -/
def rustErrorCode : ErrorCode → Nat
  | .UnknownInstructionDiscriminator => 0x1770
  | .IncorrectProgramId => 0x1771
  | .InvalidAccountRole => 0x1772
  | .NotEnoughAccountKeys => 0x1773
  | .IncorrectOwner => 0x1774
  | .InvalidSeeds => 0x1775
  | .IncorrectAccountAddress => 0x1776
  | .InvalidAccountData => 0x1777
  | .ArithmeticError => 0x1778
  | .InsufficientFunds => 0x1779
  | .StateAccountAlreadyInitialized => 0x177A
  | .CoolDownPeriodStillActive => 0x177B
  | .EmitEventError => 0x177C
  | .InvalidCoolDownPeriod => 0x177D
  | .InsufficientStakeAmount => 0x177E
  | .InsufficientUnstakeAmount => 0x177F
  | .InsufficientEscrow => 0x1780
  | .CoolDownOverflow => 0x1781
  | .InsufficientVaultBacking => 0x1782
  | .UnauthorizedDeployerAccess => 0x1783

/-- `js-client/src/generated/errors/xorcaStakingProgram.ts:17-56`. -/
def jsErrorCode : ErrorCode → Nat
  | .UnknownInstructionDiscriminator => 0x1770
  | .IncorrectProgramId => 0x1771
  | .InvalidAccountRole => 0x1772
  | .NotEnoughAccountKeys => 0x1773
  | .IncorrectOwner => 0x1774
  | .InvalidSeeds => 0x1775
  | .IncorrectAccountAddress => 0x1776
  | .InvalidAccountData => 0x1777
  | .ArithmeticError => 0x1778
  | .InsufficientFunds => 0x1779
  | .StateAccountAlreadyInitialized => 0x177a
  | .CoolDownPeriodStillActive => 0x177b
  | .EmitEventError => 0x177c
  | .InvalidCoolDownPeriod => 0x177d
  | .InsufficientStakeAmount => 0x177e
  | .InsufficientUnstakeAmount => 0x177f
  | .InsufficientEscrow => 0x1780
  | .CoolDownOverflow => 0x1781
  | .InsufficientVaultBacking => 0x1782
  | .UnauthorizedDeployerAccess => 0x1783

end Xorca.Client
