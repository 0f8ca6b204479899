import Verif.Client.Accounts
import Verif.Client.Instructions
/-
The generated type modules of the clients: token accounts, mints, events and instruction data, with the JS encoders that
take integers of any size.
-/
namespace Xorca

/-- Derived `BorshSerialize` of `TokenAccountState` (`rust-client/src/generated/types/token_account_state.rs`). -/
def TokenAccountState.toU8 : TokenAccountState → UInt8
  | .Uninitialized => 0
  | .Initialized => 1
  | .Frozen => 2

/-- Borsh `bool`. -/
def boolByte (b : Bool) : UInt8 := if b then 1 else 0

/-- Derived `BorshSerialize` of `TokenMint` (`rust-client/src/generated/types/token_mint.rs:12-29`). -/
def TokenMint.serialize (m : TokenMint) : Bytes :=
  u32le m.mintAuthorityFlag ++ m.mintAuthority.bytes ++ u64le m.supply ++ [m.decimals] ++ [boolByte m.isInitialized] ++
    u32le m.freezeAuthorityFlag ++ m.freezeAuthority.bytes

/-- Derived `BorshSerialize` of `TokenAccount` (`rust-client/src/generated/types/token_account.rs`). -/
def TokenAccount.serialize (t : TokenAccount) : Bytes :=
  t.mint.bytes ++ t.owner.bytes ++ u64le t.amount ++ u32le t.delegateFlag ++ t.delegate.bytes ++ [t.state.toU8] ++
    u32le t.isNativeFlag ++ u64le t.nativeAmount ++ u64le t.delegateAmount ++ u32le t.closeAuthorityFlag ++
    t.closeAuthority.bytes

namespace Client

/-- `getU32Encoder()`. -/
def jsU32 (v : Int) : Option Bytes := if 0 ≤ v ∧ v < 2 ^ 32 then some (u32le (UInt32.ofNat v.toNat)) else none

/-- `getBooleanDecoder()`: any byte is accepted, only 1 is `true`. -/
def jsGetBool (d : Bytes) : Option (Bool × Bytes) := (getU8 d).map fun (b, r) => (b == 1, r)

/-- `js-client/src/generated/types/tokenMint.ts:TokenMintArgs`. -/
structure TokenMintArgs where
  mintAuthorityFlag : Int
  mintAuthority : Pubkey
  supply : Int
  decimals : Int
  isInitialized : Bool
  freezeAuthorityFlag : Int
  freezeAuthority : Pubkey

/-- `js-client/src/generated/types/tokenMint.ts:getTokenMintEncoder`. -/
def jsEncodeTokenMint (a : TokenMintArgs) : Option Bytes := do
  let mintAuthorityFlag ← jsU32 a.mintAuthorityFlag
  let supply ← jsU64 a.supply
  let decimals ← jsU8 a.decimals
  let freezeAuthorityFlag ← jsU32 a.freezeAuthorityFlag
  some (mintAuthorityFlag ++ a.mintAuthority.bytes ++ supply ++ decimals ++ [boolByte a.isInitialized] ++
    freezeAuthorityFlag ++ a.freezeAuthority.bytes)

/-- `js-client/src/generated/types/tokenMint.ts:getTokenMintDecoder`. -/
def jsDecodeTokenMint (d : Bytes) : Option TokenMint := do
  let (mintAuthorityFlag, d) ← getU32 d
  let (mintAuthority, d) ← getKey d
  let (supply, d) ← getU64 d
  let (decimals, d) ← getU8 d
  let (isInitialized, d) ← jsGetBool d
  let (freezeAuthorityFlag, d) ← getU32 d
  let (freezeAuthority, _) ← getKey d
  some { mintAuthorityFlag, mintAuthority, supply, decimals, isInitialized, freezeAuthorityFlag, freezeAuthority }

/-- `js-client/src/generated/types/tokenAccount.ts:TokenAccountArgs`. -/
structure TokenAccountArgs where
  mint : Pubkey
  owner : Pubkey
  amount : Int
  delegateFlag : Int
  delegate : Pubkey
  state : TokenAccountState
  isNativeFlag : Int
  nativeAmount : Int
  delegateAmount : Int
  closeAuthorityFlag : Int
  closeAuthority : Pubkey

/-- `js-client/src/generated/types/tokenAccount.ts:getTokenAccountEncoder`; the enum encoder writes the number of the
variant. -/
def jsEncodeTokenAccount (a : TokenAccountArgs) : Option Bytes := do
  let amount ← jsU64 a.amount
  let delegateFlag ← jsU32 a.delegateFlag
  let isNativeFlag ← jsU32 a.isNativeFlag
  let nativeAmount ← jsU64 a.nativeAmount
  let delegateAmount ← jsU64 a.delegateAmount
  let closeAuthorityFlag ← jsU32 a.closeAuthorityFlag
  some (a.mint.bytes ++ a.owner.bytes ++ amount ++ delegateFlag ++ a.delegate.bytes ++
    [a.state.toU8] ++ isNativeFlag ++ nativeAmount ++
    delegateAmount ++ closeAuthorityFlag ++ a.closeAuthority.bytes)

/-- `js-client/src/generated/types/event.ts:EventArgs`. -/
inductive EventArgs
  | Stake (orcaStakeAmount vaultOrcaAmount vaultEscrowedOrcaAmount xorcaMintSupply xorcaToMint : Int)
  | Unstake (xorcaUnstakeAmount vaultOrcaAmount vaultEscrowedOrcaAmount xorcaMintSupply withdrawableOrcaAmount
      coolDownPeriodS withdrawIndex : Int)
  | Withdraw (vaultEscrowedOrcaAmount withdrawableOrcaAmount coolDownPeriodS withdrawIndex : Int)
  | UpdateAuthoritySet (newAuthority setBy : Pubkey)

/-- `js-client/src/generated/types/event.ts:getEventEncoder`: the number of the variant, then the struct. -/
def jsEncodeEvent : EventArgs → Option Bytes
  | .Stake orcaStakeAmount vaultOrcaAmount vaultEscrowedOrcaAmount xorcaMintSupply xorcaToMint => do
    let orcaStakeAmount ← jsU64 orcaStakeAmount
    let vaultOrcaAmount ← jsU64 vaultOrcaAmount
    let vaultEscrowedOrcaAmount ← jsU64 vaultEscrowedOrcaAmount
    let xorcaMintSupply ← jsU64 xorcaMintSupply
    let xorcaToMint ← jsU64 xorcaToMint
    some ([0] ++ orcaStakeAmount ++ vaultOrcaAmount ++ vaultEscrowedOrcaAmount ++ xorcaMintSupply ++ xorcaToMint)
  | .Unstake xorcaUnstakeAmount vaultOrcaAmount vaultEscrowedOrcaAmount xorcaMintSupply withdrawableOrcaAmount
      coolDownPeriodS withdrawIndex => do
    let xorcaUnstakeAmount ← jsU64 xorcaUnstakeAmount
    let vaultOrcaAmount ← jsU64 vaultOrcaAmount
    let vaultEscrowedOrcaAmount ← jsU64 vaultEscrowedOrcaAmount
    let xorcaMintSupply ← jsU64 xorcaMintSupply
    let withdrawableOrcaAmount ← jsU64 withdrawableOrcaAmount
    let coolDownPeriodS ← jsI64 coolDownPeriodS
    let withdrawIndex ← jsU8 withdrawIndex
    some ([1] ++ xorcaUnstakeAmount ++ vaultOrcaAmount ++ vaultEscrowedOrcaAmount ++ xorcaMintSupply ++
      withdrawableOrcaAmount ++ coolDownPeriodS ++ withdrawIndex)
  | .Withdraw vaultEscrowedOrcaAmount withdrawableOrcaAmount coolDownPeriodS withdrawIndex => do
    let vaultEscrowedOrcaAmount ← jsU64 vaultEscrowedOrcaAmount
    let withdrawableOrcaAmount ← jsU64 withdrawableOrcaAmount
    let coolDownPeriodS ← jsI64 coolDownPeriodS
    let withdrawIndex ← jsU8 withdrawIndex
    some ([2] ++ vaultEscrowedOrcaAmount ++ withdrawableOrcaAmount ++ coolDownPeriodS ++ withdrawIndex)
  | .UpdateAuthoritySet newAuthority setBy => some ([3] ++ newAuthority.bytes ++ setBy.bytes)

/-- `js-client/src/generated/types/stateUpdateInstruction.ts:StateUpdateInstructionArgs`. -/
inductive StateUpdateArgs
  | UpdateCoolDownPeriod (newCoolDownPeriodS : Int)
  | UpdateUpdateAuthority (newAuthority : Pubkey)

/-- `js-client/src/generated/types/stateUpdateInstruction.ts:getStateUpdateInstructionEncoder`. -/
def jsEncodeStateUpdate : StateUpdateArgs → Option Bytes
  | .UpdateCoolDownPeriod newCoolDownPeriodS => do
    let newCoolDownPeriodS ← jsI64 newCoolDownPeriodS
    some ([0] ++ newCoolDownPeriodS)
  | .UpdateUpdateAuthority newAuthority => some ([1] ++ newAuthority.bytes)

/-- The `…InstructionDataArgs` types of `js-client/src/generated/instructions/*.ts`. -/
inductive IxArgs
  | Stake (orcaStakeAmount : Int)
  | Unstake (xorcaUnstakeAmount withdrawIndex : Int)
  | Withdraw (withdrawIndex : Int)
  | Initialize (coolDownPeriodS : Int)
  | Set (instructionData : StateUpdateArgs)

/-- The `get…InstructionDataEncoder` functions of `js-client/src/generated/instructions/*.ts`. -/
def jsEncodeIx : IxArgs → Option Bytes
  | .Stake orcaStakeAmount => do
    let orcaStakeAmount ← jsU64 orcaStakeAmount
    some ([0] ++ orcaStakeAmount)
  | .Unstake xorcaUnstakeAmount withdrawIndex => do
    let xorcaUnstakeAmount ← jsU64 xorcaUnstakeAmount
    let withdrawIndex ← jsU8 withdrawIndex
    some ([1] ++ xorcaUnstakeAmount ++ withdrawIndex)
  | .Withdraw withdrawIndex => do
    let withdrawIndex ← jsU8 withdrawIndex
    some ([2] ++ withdrawIndex)
  | .Initialize coolDownPeriodS => do
    let coolDownPeriodS ← jsI64 coolDownPeriodS
    some ([3] ++ coolDownPeriodS)
  | .Set instructionData => do
    let instructionData ← jsEncodeStateUpdate instructionData
    some ([4] ++ instructionData)

/-! ### Exact values as arguments -/

/-- The JS arguments with the values of a mint. -/
def TokenMintArgs.of (m : TokenMint) : TokenMintArgs :=
  ⟨m.mintAuthorityFlag.toNat, m.mintAuthority, m.supply.toNat, m.decimals.toNat, m.isInitialized,
    m.freezeAuthorityFlag.toNat, m.freezeAuthority⟩

/-- The JS arguments with the values of a token account. -/
def TokenAccountArgs.of (t : TokenAccount) : TokenAccountArgs :=
  ⟨t.mint, t.owner, t.amount.toNat, t.delegateFlag.toNat, t.delegate, t.state, t.isNativeFlag.toNat,
    t.nativeAmount.toNat, t.delegateAmount.toNat, t.closeAuthorityFlag.toNat, t.closeAuthority⟩

/-- The JS arguments with the values of an event. -/
def EventArgs.of : Event → EventArgs
  | .Stake a b c d e => .Stake a.toNat b.toNat c.toNat d.toNat e.toNat
  | .Unstake a b c d e f g => .Unstake a.toNat b.toNat c.toNat d.toNat e.toNat f.toInt g.toNat
  | .Withdraw a b c d => .Withdraw a.toNat b.toNat c.toInt d.toNat
  | .UpdateAuthoritySet a b => .UpdateAuthoritySet a b

/-- The JS arguments with the values of a state update. -/
def StateUpdateArgs.of : StateUpdateInstruction → StateUpdateArgs
  | .UpdateCoolDownPeriod c => .UpdateCoolDownPeriod c.toInt
  | .UpdateUpdateAuthority k => .UpdateUpdateAuthority k

/-- The JS arguments with the values of an instruction. -/
def IxArgs.of : Instruction → IxArgs
  | .Stake a => .Stake a.toNat
  | .Unstake a i => .Unstake a.toNat i.toNat
  | .Withdraw i => .Withdraw i.toNat
  | .Initialize c => .Initialize c.toInt
  | .Set u => .Set (.of u)

end Client
end Xorca
