import Verif.Event
import Verif.Runtime
/-
Instructions as built by the generated clients: data bytes and account lists.

Rust: `rust-client/src/generated/instructions/*.rs` (`instruction_with_remaining_accounts`; the `Cpi`
variants push the same list).  JS: `js-client/src/generated/instructions/*.ts`.
-/
namespace Xorca.Client

/-! ### Data -/

/-- Derived `BorshSerialize` of `rust-client/src/generated/types/state_update_instruction.rs:13-25`;
the same bytes as `js-client/src/generated/types/stateUpdateInstruction.ts:getStateUpdateInstructionEncoder`. -/
def encodeStateUpdate : StateUpdateInstruction → Bytes
  | .UpdateCoolDownPeriod newCoolDownPeriodS => [0] ++ i64le newCoolDownPeriodS
  | .UpdateUpdateAuthority newAuthority => [1] ++ newAuthority.bytes

/-- `STAKE_DISCRIMINATOR` … `SET_DISCRIMINATOR` of the clients. -/
def discriminatorOf : Instruction → UInt8
  | .Stake _ => 0
  | .Unstake .. => 1
  | .Withdraw _ => 2
  | .Initialize _ => 3
  | .Set _ => 4

/-- `borsh::to_vec(&args)` for the `…InstructionArgs` structs. -/
def encodeArgs : Instruction → Bytes
  | .Stake orcaStakeAmount => u64le orcaStakeAmount
  | .Unstake xorcaUnstakeAmount withdrawIndex => u64le xorcaUnstakeAmount ++ [withdrawIndex]
  | .Withdraw withdrawIndex => [withdrawIndex]
  | .Initialize coolDownPeriodS => i64le coolDownPeriodS
  | .Set u => encodeStateUpdate u

/-- `data.append(&mut args)`. -/
def encode (ix : Instruction) : Bytes := [discriminatorOf ix] ++ encodeArgs ix

/-- `js-client/src/generated/programs/xorcaStakingProgram.ts:identifyXorcaStakingProgramInstruction`:
number of the instruction kind, from the first byte. -/
def jsIdentify (d : Bytes) : Option Nat :=
  if d.take 1 = [0] then some 0
  else if d.take 1 = [1] then some 1
  else if d.take 1 = [2] then some 2
  else if d.take 1 = [3] then some 3
  else if d.take 1 = [4] then some 4
  else none

/-! ### Accounts -/

/-- `AccountMeta::new(key, is_signer)`. -/
def AccountMeta.new (key : Pubkey) (isSigner : Bool) : Meta := ⟨key, isSigner, true⟩
/-- `AccountMeta::new_readonly(key, is_signer)`. -/
def AccountMeta.newReadonly (key : Pubkey) (isSigner : Bool) : Meta := ⟨key, isSigner, false⟩

/-- `rust-client/src/generated/instructions/stake.rs`. -/
structure StakeKeys where
  stakerAccount : Pubkey
  vaultAccount : Pubkey
  stakerOrcaAta : Pubkey
  stakerXorcaAta : Pubkey
  xorcaMintAccount : Pubkey
  stateAccount : Pubkey
  orcaMintAccount : Pubkey
  tokenProgramAccount : Pubkey

/-- `rust-client/src/generated/instructions/stake.rs:Stake::instruction_with_remaining_accounts`. -/
def StakeKeys.metas (a : StakeKeys) : List Meta :=
  [AccountMeta.new a.stakerAccount true, AccountMeta.new a.vaultAccount false,
   AccountMeta.new a.stakerOrcaAta false, AccountMeta.new a.stakerXorcaAta false,
   AccountMeta.new a.xorcaMintAccount false, AccountMeta.newReadonly a.stateAccount false,
   AccountMeta.newReadonly a.orcaMintAccount false, AccountMeta.newReadonly a.tokenProgramAccount false]

/-- `rust-client/src/generated/instructions/unstake.rs`. -/
structure UnstakeKeys where
  unstakerAccount : Pubkey
  stateAccount : Pubkey
  pendingWithdrawAccount : Pubkey
  unstakerXorcaAta : Pubkey
  xorcaMintAccount : Pubkey
  orcaMintAccount : Pubkey
  vaultAccount : Pubkey
  systemProgramAccount : Pubkey
  tokenProgramAccount : Pubkey

/-- `rust-client/src/generated/instructions/unstake.rs:Unstake::instruction_with_remaining_accounts`. -/
def UnstakeKeys.metas (a : UnstakeKeys) : List Meta :=
  [AccountMeta.new a.unstakerAccount true, AccountMeta.new a.stateAccount false,
   AccountMeta.new a.pendingWithdrawAccount false, AccountMeta.new a.unstakerXorcaAta false,
   AccountMeta.new a.xorcaMintAccount false, AccountMeta.newReadonly a.orcaMintAccount false,
   AccountMeta.newReadonly a.vaultAccount false, AccountMeta.newReadonly a.systemProgramAccount false,
   AccountMeta.newReadonly a.tokenProgramAccount false]

/-- `rust-client/src/generated/instructions/withdraw.rs`. -/
structure WithdrawKeys where
  unstakerAccount : Pubkey
  stateAccount : Pubkey
  pendingWithdrawAccount : Pubkey
  unstakerOrcaAta : Pubkey
  vaultAccount : Pubkey
  orcaMintAccount : Pubkey
  systemProgramAccount : Pubkey
  tokenProgramAccount : Pubkey

/-- `rust-client/src/generated/instructions/withdraw.rs:Withdraw::instruction_with_remaining_accounts`. -/
def WithdrawKeys.metas (a : WithdrawKeys) : List Meta :=
  [AccountMeta.new a.unstakerAccount true, AccountMeta.new a.stateAccount false,
   AccountMeta.new a.pendingWithdrawAccount false, AccountMeta.new a.unstakerOrcaAta false,
   AccountMeta.new a.vaultAccount false, AccountMeta.newReadonly a.orcaMintAccount false,
   AccountMeta.newReadonly a.systemProgramAccount false, AccountMeta.newReadonly a.tokenProgramAccount false]

/-- `rust-client/src/generated/instructions/initialize.rs:14-33`. -/
structure InitializeKeys where
  payerAccount : Pubkey
  updateAuthorityAccount : Pubkey
  stateAccount : Pubkey
  vaultAccount : Pubkey
  xorcaMintAccount : Pubkey
  orcaMintAccount : Pubkey
  systemProgramAccount : Pubkey
  tokenProgramAccount : Pubkey
  associatedTokenProgramAccount : Pubkey

/-- `rust-client/src/generated/instructions/initialize.rs:41-83`. -/
def InitializeKeys.metas (a : InitializeKeys) : List Meta :=
  [AccountMeta.new a.payerAccount true, AccountMeta.new a.updateAuthorityAccount true,
   AccountMeta.new a.stateAccount false, AccountMeta.new a.vaultAccount false,
   AccountMeta.newReadonly a.xorcaMintAccount false, AccountMeta.newReadonly a.orcaMintAccount false,
   AccountMeta.newReadonly a.systemProgramAccount false, AccountMeta.newReadonly a.tokenProgramAccount false,
   AccountMeta.newReadonly a.associatedTokenProgramAccount false]

/-- `rust-client/src/generated/instructions/set.rs:14-20`. -/
structure SetKeys where
  updateAuthorityAccount : Pubkey
  stateAccount : Pubkey

/-- `rust-client/src/generated/instructions/set.rs:28-42`. -/
def SetKeys.metas (a : SetKeys) : List Meta :=
  [AccountMeta.new a.updateAuthorityAccount true, AccountMeta.new a.stateAccount false]

/-- What the runtime hands to the program for a list of metas: the same keys in the same order; a key
that the transaction lists elsewhere with more rights keeps them; remaining accounts follow. -/
def Passed (built accs : List Meta) : Prop :=
  ∀ (i : Nat) (b : Meta), built[i]? = some b → ∃ m, accs[i]? = some m ∧ m.key = b.key ∧
    (b.isSigner = true → m.isSigner = true) ∧ (b.isWritable = true → m.isWritable = true)

end Xorca.Client
