import Verif.Layout
/-
Events and instruction data: Borsh enums of the program.
-/
namespace Xorca

/-- `solana-program/src/event.rs:7-34`. -/
inductive Event
  | Stake (orcaStakeAmount vaultOrcaAmount vaultEscrowedOrcaAmount xorcaMintSupply xorcaToMint : UInt64)
  | Unstake (xorcaUnstakeAmount vaultOrcaAmount vaultEscrowedOrcaAmount xorcaMintSupply
      withdrawableOrcaAmount : UInt64) (coolDownPeriodS : Int64) (withdrawIndex : UInt8)
  | Withdraw (vaultEscrowedOrcaAmount withdrawableOrcaAmount : UInt64) (coolDownPeriodS : Int64)
      (withdrawIndex : UInt8)
  | UpdateAuthoritySet (newAuthority setBy : Pubkey)
deriving DecidableEq

/-- `borsh::to_vec(self)`, `solana-program/src/event.rs:46-52`: tag byte, then the fields in order. -/
def Event.serialize : Event → Bytes
  | .Stake a b c d e => [0] ++ u64le a ++ u64le b ++ u64le c ++ u64le d ++ u64le e
  | .Unstake a b c d e f g =>
    [1] ++ u64le a ++ u64le b ++ u64le c ++ u64le d ++ u64le e ++ i64le f ++ [g]
  | .Withdraw a b c d => [2] ++ u64le a ++ u64le b ++ i64le c ++ [d]
  | .UpdateAuthoritySet a b => [3] ++ a.bytes ++ b.bytes

/-- `solana-program/src/instructions/mod.rs:84-87`. -/
inductive StateUpdateInstruction
  | UpdateCoolDownPeriod (newCoolDownPeriodS : Int64)
  | UpdateUpdateAuthority (newAuthority : Pubkey)
deriving DecidableEq

/-- `solana-program/src/instructions/mod.rs:20-70`. -/
inductive Instruction
  | Stake (orcaStakeAmount : UInt64)
  | Unstake (xorcaUnstakeAmount : UInt64) (withdrawIndex : UInt8)
  | Withdraw (withdrawIndex : UInt8)
  | Initialize (coolDownPeriodS : Int64)
  | Set (instructionData : StateUpdateInstruction)
deriving DecidableEq

/-- Derived `BorshDeserialize` of `StateUpdateInstruction`. -/
def getStateUpdateInstruction (d : Bytes) : Option (StateUpdateInstruction × Bytes) :=
  match getU8 d with
  | none => none
  | some (tag, d) =>
    if tag = 0 then (getI64 d).map fun (v, r) => (.UpdateCoolDownPeriod v, r)
    else if tag = 1 then (getKey d).map fun (k, r) => (.UpdateUpdateAuthority k, r)
    else none

/-- `Instruction::deserialize(&mut data)`: the instruction and the unread rest, which the caller
ignores (`entrypoint.rs:24-26`). -/
def Instruction.deserialize (d : Bytes) : Option (Instruction × Bytes) :=
  match getU8 d with
  | none => none
  | some (tag, d) =>
    if tag = 0 then (getU64 d).map fun (a, r) => (.Stake a, r)
    else if tag = 1 then do
      let (a, d) ← getU64 d
      let (i, d) ← getU8 d
      some (.Unstake a i, d)
    else if tag = 2 then (getU8 d).map fun (i, r) => (.Withdraw i, r)
    else if tag = 3 then (getI64 d).map fun (c, r) => (.Initialize c, r)
    else if tag = 4 then (getStateUpdateInstruction d).map fun (u, r) => (.Set u, r)
    else none

end Xorca
