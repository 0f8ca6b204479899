import Verif.Entrypoint
/-
The instructions once more, now with a record of what they ask of the runtime: hashes for derived addresses, calls of other
programs, and logged events, in the order in which they happen, also when the call fails in the end.

Left out: reads of the clock and of the rent (at most one of each), text messages of failing checks, and the work that
the called programs do themselves.
-/
namespace Xorca

/-- What is counted. -/
inductive Op
  /-- One hash for a derived address: `derive_address`, one attempt of `find_program_address`, or the runtime's derivation of
  a signer in `invoke_signed`. -/
  | hash
  /-- A call of another program. -/
  | call (program : Pubkey)
  /-- `sol_log_data`. -/
  | log
deriving DecidableEq

/-- A computation that may fail, and what it did until then. -/
structure Traced (α : Type) where
  result : Res α
  trace : List Op

namespace Traced

/-- First `p`, then `f`, unless `p` fails. -/
def andThen {α β : Type} (p : Traced α) (f : α → Traced β) : Traced β :=
  match p.result with
  | .ok a => ⟨(f a).result, p.trace ++ (f a).trace⟩
  | .error e => ⟨.error e, p.trace⟩

instance : Monad Traced where
  pure a := ⟨.ok a, []⟩
  bind := andThen

end Traced

/-- A step that asks nothing of the runtime. -/
def plainly {α : Type} (r : Res α) : Traced α := ⟨r, []⟩

/-- A step with one hash. -/
def hashing {α : Type} (r : Res α) : Traced α := ⟨r, [.hash]⟩

/-- `invoke()`. -/
def calling {α : Type} (program : Pubkey) (r : Res α) : Traced α := ⟨r, [.call program]⟩

/-- `invoke_signed()`: the runtime derives the signer, then calls. -/
def callingSigned {α : Type} (program : Pubkey) (r : Res α) : Traced α := ⟨r, [.hash, .call program]⟩

/-- The signer of the following `callingSigned`, which has the hash; if it cannot be derived, the hash was made in vain. -/
def signer (cr : Crypto) (seeds : List Bytes) (bump : UInt8) : Traced Pubkey :=
  match signerPda cr seeds bump with
  | .ok k => ⟨.ok k, []⟩
  | .error e => ⟨.error e, [.hash]⟩

/-- The number of bumps that `find_program_address` tries, beginning with `n`. -/
def attempts (cr : Crypto) (seeds : List Bytes) (programId : Pubkey) : Nat → Nat
  | 0 => 0
  | n + 1 =>
    match createProgramAddress cr seeds (UInt8.ofNat (n + 1)) programId with
    | some _ => 1
    | none => 1 + attempts cr seeds programId n

/-- `find_program_address`. -/
def searching (cr : Crypto) (seeds : List Bytes) (programId : Pubkey) : Traced (Pubkey × UInt8) :=
  ⟨okOr (findProgramAddress cr seeds programId) .panicked, List.replicate (attempts cr seeds programId 255) .hash⟩

/-- `solana-program/src/event.rs:46-51`. -/
def emitting (e : Event) : Traced (List Bytes) := ⟨.ok [e.serialize], [.log]⟩

/-! ### Utilities -/

/-- `solana-program/src/assertions/account.rs:74-92`. -/
def assertAccountSeedsT (cr : Crypto) (account : Meta) (programId : Pubkey) (seeds : List Bytes) : Traced UInt8 := do
  let (address, bump) ← searching cr seeds programId
  plainly (ensure (account.key = address) (.custom .InvalidSeeds))
  return bump

/-- `solana-program/src/util/account.rs:30-86`. -/
def createAccountSecureT (x : Ctx) (c : Caller) (L : Ledger) (funder newAccount : Pubkey) (space : Nat)
    (owner : Pubkey) : Traced Ledger :=
  if (L newAccount).owner ≠ SYSTEM_PROGRAM_ID then plainly (.ok L)
  else
    let requiredLamports := x.rentMin space
    let currentLamports := (L newAccount).lamports
    if currentLamports = 0 then
      callingSigned SYSTEM_PROGRAM_ID (cpiCreateAccount c L funder newAccount requiredLamports space owner)
    else do
      let lamportsToTransfer : UInt64 :=
        if requiredLamports.toNat ≤ currentLamports.toNat then 0 else requiredLamports - currentLamports
      let L1 ← if 0 < lamportsToTransfer.toNat then
          callingSigned SYSTEM_PROGRAM_ID (cpiSystemTransfer c L funder newAccount lamportsToTransfer)
        else plainly (.ok L)
      let L2 ← callingSigned SYSTEM_PROGRAM_ID (cpiAllocate c L1 newAccount space)
      callingSigned SYSTEM_PROGRAM_ID (cpiAssign c L2 newAccount owner)

/-- `solana-program/src/util/account.rs:89-98`. -/
def createPendingWithdrawSecureT (x : Ctx) (c : Caller) (L : Ledger) (funder newAccount : Pubkey) : Traced Ledger := do
  let L1 ← createAccountSecureT x c L funder newAccount PENDING_WITHDRAW_LEN PROGRAM_ID
  let d ← plainly (setByte0 (L1 newAccount).data AccountDiscriminator.PendingWithdraw.toU8)
  return L1.setData newAccount d

/-- `solana-program/src/util/account.rs:100-118`. -/
def createStateBorshT (x : Ctx) (c : Caller) (L : Ledger) (funder newAccount : Pubkey) (s : State) : Traced Ledger := do
  let L1 ← createAccountSecureT x c L funder newAccount STATE_LEN PROGRAM_ID
  let ser := s.serialize
  plainly (ensure (ser.length ≤ (L1 newAccount).data.length) .invalidAccountData)
  return L1.setData newAccount (writeAt (L1 newAccount).data 0 ser)

/-! ### Instructions -/

/-- `solana-program/src/instructions/stake.rs:18-141`. -/
def processStakeT (x : Ctx) (L : Ledger) (accounts : List Meta) (orcaStakeAmount : UInt64) : Traced Outcome := do
  let stakerAccount ← plainly (getAccountInfo accounts 0)
  let vaultAccount ← plainly (getAccountInfo accounts 1)
  let stakerOrcaAta ← plainly (getAccountInfo accounts 2)
  let stakerXorcaAta ← plainly (getAccountInfo accounts 3)
  let xorcaMintAccount ← plainly (getAccountInfo accounts 4)
  let stateAccount ← plainly (getAccountInfo accounts 5)
  let orcaMintAccount ← plainly (getAccountInfo accounts 6)
  let tokenProgramAccount ← plainly (getAccountInfo accounts 7)
  plainly (assertAccountRole stakerAccount [.Signer, .Writable])
  plainly (assertAccountAddress orcaMintAccount ORCA_MINT_ID)
  plainly (assertAccountAddress xorcaMintAccount XORCA_MINT_ID)
  plainly (assertAccountAddress tokenProgramAccount SPL_TOKEN_PROGRAM_ID)
  let stakerOrcaAtaData ← plainly (makeOwnerTokenAccountAssertions L stakerOrcaAta stakerAccount orcaMintAccount true)
  plainly (ensure (¬ stakerOrcaAtaData.amount.toNat < orcaStakeAmount.toNat) (.custom .InsufficientFunds))
  let _ ← plainly (makeOwnerTokenAccountAssertions L stakerXorcaAta stakerAccount xorcaMintAccount true)
  plainly (assertAccountRole xorcaMintAccount [.Writable])
  plainly (assertAccountOwner L xorcaMintAccount SPL_TOKEN_PROGRAM_ID)
  let xorcaMintData ← plainly (assertTokenMintData L xorcaMintAccount)
  plainly (assertAccountOwner L orcaMintAccount SPL_TOKEN_PROGRAM_ID)
  plainly (assertAccountOwner L stateAccount PROGRAM_ID)
  let state ← plainly (assertStateData L stateAccount)
  hashing (verifyStateAddress x.cr stateAccount (stBump state))
  hashing (verifyVaultAddress x.cr stateAccount vaultAccount orcaMintAccount (stVaultBump state))
  let vaultAccountData ← plainly (makeOwnerTokenAccountAssertions L vaultAccount stateAccount orcaMintAccount true)
  let nonEscrowedOrcaAmount ← plainly (okOr (checkedSubU64 vaultAccountData.amount (stEscrow state))
    (.custom .InsufficientVaultBacking))
  let xorcaToMint ← plainly (convertOrcaToXorca orcaStakeAmount nonEscrowedOrcaAmount xorcaMintData.supply)
  plainly (ensure (xorcaToMint ≠ 0) (.custom .InsufficientStakeAmount))
  let L1 ← calling SPL_TOKEN_PROGRAM_ID (cpiTokenTransfer ⟨accounts, []⟩ L stakerOrcaAta.key vaultAccount.key
    stakerAccount.key orcaStakeAmount)
  let pda ← signer x.cr stateSeedsRaw (stBump state)
  let L2 ← callingSigned SPL_TOKEN_PROGRAM_ID (cpiMintTo ⟨accounts, [pda]⟩ L1 xorcaMintAccount.key stakerXorcaAta.key
    stateAccount.key xorcaToMint)
  let finalVaultAmount := vaultAccountData.amount + orcaStakeAmount
  let finalXorcaSupply := xorcaMintData.supply + xorcaToMint
  let logs ← emitting (.Stake orcaStakeAmount finalVaultAmount (stEscrow state) finalXorcaSupply xorcaToMint)
  return (L2, logs)

/-- `solana-program/src/instructions/unstake.rs:23-189`. -/
def processUnstakeT (x : Ctx) (L : Ledger) (accounts : List Meta) (xorcaUnstakeAmount : UInt64)
    (withdrawIndex : UInt8) : Traced Outcome := do
  let unstakerAccount ← plainly (getAccountInfo accounts 0)
  let stateAccount ← plainly (getAccountInfo accounts 1)
  let pendingWithdrawAccount ← plainly (getAccountInfo accounts 2)
  let unstakerXorcaAta ← plainly (getAccountInfo accounts 3)
  let xorcaMintAccount ← plainly (getAccountInfo accounts 4)
  let orcaMintAccount ← plainly (getAccountInfo accounts 5)
  let vaultAccount ← plainly (getAccountInfo accounts 6)
  let systemProgramAccount ← plainly (getAccountInfo accounts 7)
  let tokenProgramAccount ← plainly (getAccountInfo accounts 8)
  plainly (assertAccountRole unstakerAccount [.Signer, .Writable])
  plainly (assertAccountAddress xorcaMintAccount XORCA_MINT_ID)
  plainly (assertAccountAddress orcaMintAccount ORCA_MINT_ID)
  plainly (assertAccountAddress tokenProgramAccount SPL_TOKEN_PROGRAM_ID)
  plainly (assertAccountAddress systemProgramAccount SYSTEM_PROGRAM_ID)
  plainly (assertAccountRole stateAccount [.Writable])
  plainly (assertAccountOwner L stateAccount PROGRAM_ID)
  let vaultAccountData ← plainly (makeOwnerTokenAccountAssertions L vaultAccount stateAccount orcaMintAccount false)
  plainly (assertAccountRole pendingWithdrawAccount [.Writable])
  plainly (assertAccountOwner L pendingWithdrawAccount SYSTEM_PROGRAM_ID)
  let pendingWithdrawSeeds := pendingWithdrawSeedsRaw unstakerAccount.key [withdrawIndex]
  let pendingWithdrawBump ← assertAccountSeedsT x.cr pendingWithdrawAccount PROGRAM_ID pendingWithdrawSeeds
  let unstakerXorcaAtaData ← plainly (makeOwnerTokenAccountAssertions L unstakerXorcaAta unstakerAccount
    xorcaMintAccount true)
  plainly (ensure (¬ unstakerXorcaAtaData.amount.toNat < xorcaUnstakeAmount.toNat) (.custom .InsufficientFunds))
  plainly (assertAccountOwner L xorcaMintAccount SPL_TOKEN_PROGRAM_ID)
  plainly (assertAccountRole xorcaMintAccount [.Writable])
  let xorcaMintData ← plainly (assertTokenMintData L xorcaMintAccount)
  plainly (ensure (¬ (xorcaMintData.mintAuthorityFlag = 0 ∨ xorcaMintData.mintAuthority ≠ stateAccount.key))
    (.custom .InvalidAccountData))
  plainly (ensure (¬ xorcaMintData.freezeAuthorityFlag ≠ 0) (.custom .InvalidAccountData))
  plainly (assertAccountOwner L orcaMintAccount SPL_TOKEN_PROGRAM_ID)
  let _ ← plainly (assertTokenMintData L orcaMintAccount)
  let stateView ← plainly (assertStateData L stateAccount)
  hashing (verifyStateAddress x.cr stateAccount (stBump stateView))
  hashing (verifyVaultAddress x.cr stateAccount vaultAccount orcaMintAccount (stVaultBump stateView))
  let nonEscrowedOrcaAmount ← plainly (okOr (checkedSubU64 vaultAccountData.amount (stEscrow stateView))
    (.custom .InsufficientVaultBacking))
  let withdrawableOrcaAmount ← plainly (convertXorcaToOrca xorcaUnstakeAmount nonEscrowedOrcaAmount
    xorcaMintData.supply)
  plainly (ensure (withdrawableOrcaAmount ≠ 0) (.custom .InsufficientUnstakeAmount))
  let L1 ← calling SPL_TOKEN_PROGRAM_ID (cpiBurn ⟨accounts, []⟩ L unstakerXorcaAta.key xorcaMintAccount.key
    unstakerAccount.key xorcaUnstakeAmount)
  let st ← plainly (assertStateData L1 stateAccount)
  let newEscrow ← plainly (okOr (checkedAddU64 (stEscrow st) withdrawableOrcaAmount) (.custom .ArithmeticError))
  let L2 := L1.setData stateAccount.key (setStEscrow st newEscrow)
  let pda ← signer x.cr pendingWithdrawSeeds pendingWithdrawBump
  let L3 ← createPendingWithdrawSecureT x ⟨accounts, [pda]⟩ L2 unstakerAccount.key pendingWithdrawAccount.key
  let d1 := setPwBump (L3 pendingWithdrawAccount.key).data pendingWithdrawBump
  let d2 := setPwIndex d1 withdrawIndex
  let d3 := setPwUnstaker d2 unstakerAccount.key
  let d4 := setPwAmount d3 withdrawableOrcaAmount
  let withdrawableTimestamp ← plainly (okOr (checkedAddI64 x.now (stCoolDown (L2 stateAccount.key).data))
    (.custom .CoolDownOverflow))
  let d5 := setPwTimestamp d4 withdrawableTimestamp
  let L4 := L3.setData pendingWithdrawAccount.key d5
  let finalXorcaSupply := xorcaMintData.supply - xorcaUnstakeAmount
  let logs ← emitting (.Unstake xorcaUnstakeAmount vaultAccountData.amount newEscrow finalXorcaSupply
    withdrawableOrcaAmount (stCoolDown (L2 stateAccount.key).data) withdrawIndex)
  return (L4, logs)

/-- `solana-program/src/instructions/withdraw.rs:16-150`. -/
def processWithdrawT (x : Ctx) (L : Ledger) (accounts : List Meta) (withdrawIndex : UInt8) : Traced Outcome := do
  let unstakerAccount ← plainly (getAccountInfo accounts 0)
  let stateAccount ← plainly (getAccountInfo accounts 1)
  let pendingWithdrawAccount ← plainly (getAccountInfo accounts 2)
  let unstakerOrcaAta ← plainly (getAccountInfo accounts 3)
  let vaultAccount ← plainly (getAccountInfo accounts 4)
  let orcaMintAccount ← plainly (getAccountInfo accounts 5)
  let systemProgramAccount ← plainly (getAccountInfo accounts 6)
  let tokenProgramAccount ← plainly (getAccountInfo accounts 7)
  plainly (assertAccountRole unstakerAccount [.Signer, .Writable])
  plainly (assertAccountAddress orcaMintAccount ORCA_MINT_ID)
  plainly (assertAccountOwner L orcaMintAccount SPL_TOKEN_PROGRAM_ID)
  plainly (assertAccountRole stateAccount [.Writable])
  plainly (assertAccountOwner L stateAccount PROGRAM_ID)
  let stateView ← plainly (assertStateData L stateAccount)
  hashing (verifyStateAddress x.cr stateAccount (stBump stateView))
  hashing (verifyVaultAddress x.cr stateAccount vaultAccount orcaMintAccount (stVaultBump stateView))
  plainly (assertAccountRole pendingWithdrawAccount [.Writable])
  plainly (assertAccountOwner L pendingWithdrawAccount PROGRAM_ID)
  let pw ← plainly (assertPendingWithdrawData L pendingWithdrawAccount)
  hashing (verifyPendingWithdrawAddress x.cr pendingWithdrawAccount unstakerAccount.key [withdrawIndex] (pwBump pw))
  let _ ← plainly (makeOwnerTokenAccountAssertions L unstakerOrcaAta unstakerAccount orcaMintAccount true)
  let _ ← plainly (makeOwnerTokenAccountAssertions L vaultAccount stateAccount orcaMintAccount true)
  plainly (assertAccountAddress systemProgramAccount SYSTEM_PROGRAM_ID)
  plainly (assertAccountAddress tokenProgramAccount SPL_TOKEN_PROGRAM_ID)
  plainly (ensure (¬ x.now.toInt < (pwTimestamp pw).toInt) (.custom .CoolDownPeriodStillActive))
  plainly (ensure (¬ (stEscrow stateView).toNat < (pwAmount pw).toNat) (.custom .InsufficientEscrow))
  let pda ← signer x.cr stateSeedsRaw (stBump stateView)
  let L1 ← callingSigned SPL_TOKEN_PROGRAM_ID (cpiTokenTransfer ⟨accounts, [pda]⟩ L vaultAccount.key unstakerOrcaAta.key
    stateAccount.key (pwAmount pw))
  let L2 ← plainly (closeProgramAccount L1 pendingWithdrawAccount.key unstakerAccount.key)
  let st ← plainly (assertStateData L2 stateAccount)
  let newEscrow ← plainly (okOr (checkedSubU64 (stEscrow st) (pwAmount pw)) (.custom .InsufficientEscrow))
  let L3 := L2.setData stateAccount.key (setStEscrow st newEscrow)
  let logs ← emitting (.Withdraw newEscrow (pwAmount pw) (stCoolDown (L3 stateAccount.key).data) withdrawIndex)
  return (L3, logs)

/-- `solana-program/src/instructions/set.rs:14-58`. -/
def processSetT (x : Ctx) (L : Ledger) (accounts : List Meta) (u : StateUpdateInstruction) : Traced Outcome := do
  let updateAuthorityAccount ← plainly (getAccountInfo accounts 0)
  let stateAccount ← plainly (getAccountInfo accounts 1)
  plainly (assertAccountRole updateAuthorityAccount [.Signer, .Writable])
  plainly (assertAccountRole stateAccount [.Writable])
  plainly (assertAccountOwner L stateAccount PROGRAM_ID)
  let stateView ← plainly (assertStateData L stateAccount)
  hashing (verifyStateAddress x.cr stateAccount (stBump stateView))
  plainly (assertAccountAddress updateAuthorityAccount (stAuthority stateView))
  match u with
  | .UpdateCoolDownPeriod newCoolDownPeriodS => do
    plainly (ensure (¬ newCoolDownPeriodS.toInt < 0) (.custom .InvalidCoolDownPeriod))
    return (L.setData stateAccount.key (setStCoolDown stateView newCoolDownPeriodS), [])
  | .UpdateUpdateAuthority newAuthority => do
    let oldAuthority := stAuthority stateView
    let logs ← emitting (.UpdateAuthoritySet newAuthority oldAuthority)
    return (L.setData stateAccount.key (setStAuthority stateView newAuthority), logs)

/-- `solana-program/src/instructions/initialize.rs:21-155`. -/
def processInitializeT (x : Ctx) (L : Ledger) (accounts : List Meta) (coolDownPeriodS : Int64) : Traced Outcome := do
  let payerAccount ← plainly (getAccountInfo accounts 0)
  let updateAuthorityAccount ← plainly (getAccountInfo accounts 1)
  let stateAccount ← plainly (getAccountInfo accounts 2)
  let vaultAccount ← plainly (getAccountInfo accounts 3)
  let xorcaMintAccount ← plainly (getAccountInfo accounts 4)
  let orcaMintAccount ← plainly (getAccountInfo accounts 5)
  let systemProgramAccount ← plainly (getAccountInfo accounts 6)
  let tokenProgramAccount ← plainly (getAccountInfo accounts 7)
  let associatedTokenProgramAccount ← plainly (getAccountInfo accounts 8)
  plainly (assertAccountRole payerAccount [.Signer, .Writable])
  plainly (ensure (payerAccount.key = DEPLOYER_ADDRESS) (.custom .UnauthorizedDeployerAccess))
  plainly (assertAccountRole stateAccount [.Writable])
  let stateBump ← assertAccountSeedsT x.cr stateAccount PROGRAM_ID stateSeedsRaw
  plainly (ensure (¬ 0 < (L stateAccount.key).data.length) (.custom .StateAccountAlreadyInitialized))
  plainly (assertAccountOwner L stateAccount SYSTEM_PROGRAM_ID)
  plainly (assertAccountOwner L xorcaMintAccount SPL_TOKEN_PROGRAM_ID)
  let xorcaMintData ← plainly (assertTokenMintData L xorcaMintAccount)
  plainly (assertAccountAddress stateAccount xorcaMintData.mintAuthority)
  plainly (ensure (xorcaMintData.supply = 0) (.custom .InvalidAccountData))
  plainly (assertAccountAddress xorcaMintAccount XORCA_MINT_ID)
  plainly (ensure (xorcaMintData.mintAuthorityFlag = 1) (.custom .InvalidAccountData))
  plainly (ensure (xorcaMintData.freezeAuthorityFlag = 0) (.custom .InvalidAccountData))
  plainly (ensure (xorcaMintData.freezeAuthority = DEFAULT_PUBKEY) (.custom .InvalidAccountData))
  plainly (ensure (xorcaMintData.decimals = 6) (.custom .InvalidAccountData))
  plainly (assertAccountOwner L orcaMintAccount SPL_TOKEN_PROGRAM_ID)
  let orcaMintData ← plainly (assertTokenMintData L orcaMintAccount)
  plainly (assertAccountAddress orcaMintAccount ORCA_MINT_ID)
  plainly (ensure (orcaMintData.decimals = 6) (.custom .InvalidAccountData))
  plainly (assertAccountRole updateAuthorityAccount [.Signer, .Writable])
  plainly (assertAccountAddress systemProgramAccount SYSTEM_PROGRAM_ID)
  plainly (assertAccountRole vaultAccount [.Writable])
  plainly (assertAccountOwner L vaultAccount SYSTEM_PROGRAM_ID)
  plainly (assertAccountAddress tokenProgramAccount SPL_TOKEN_PROGRAM_ID)
  plainly (assertAccountAddress associatedTokenProgramAccount ASSOCIATED_TOKEN_PROGRAM_ID)
  let vaultSeeds := vaultSeedsRaw stateAccount.key SPL_TOKEN_PROGRAM_ID orcaMintAccount.key
  let (_, vaultBump) ← searching x.cr vaultSeeds ASSOCIATED_TOKEN_PROGRAM_ID
  let _ ← assertAccountSeedsT x.cr vaultAccount ASSOCIATED_TOKEN_PROGRAM_ID vaultSeeds
  plainly (ensure (¬ coolDownPeriodS.toInt < 0) (.custom .InvalidCoolDownPeriod))
  let stateData : State := { State.default with
    coolDownPeriodS := coolDownPeriodS
    bump := stateBump
    vaultBump := vaultBump
    updateAuthority := updateAuthorityAccount.key }
  let pda ← signer x.cr stateSeedsRaw stateBump
  let L1 ← createStateBorshT x ⟨accounts, [pda]⟩ L payerAccount.key stateAccount.key stateData
  let L2 ← calling ASSOCIATED_TOKEN_PROGRAM_ID (cpiCreateAtaIdempotent x ⟨accounts, []⟩ L1 payerAccount.key
    vaultAccount.key stateAccount.key orcaMintAccount.key)
  return (L2, [])

/-- The `match` of `solana-program/src/entrypoint.rs:28-51`. -/
def dispatchT (x : Ctx) (L : Ledger) (accounts : List Meta) : Instruction → Traced Outcome
  | .Initialize coolDownPeriodS => processInitializeT x L accounts coolDownPeriodS
  | .Stake orcaStakeAmount => processStakeT x L accounts orcaStakeAmount
  | .Unstake xorcaUnstakeAmount withdrawIndex => processUnstakeT x L accounts xorcaUnstakeAmount withdrawIndex
  | .Withdraw withdrawIndex => processWithdrawT x L accounts withdrawIndex
  | .Set u => processSetT x L accounts u

/-- `solana-program/src/entrypoint.rs:16-53`. -/
def entryT (x : Ctx) (programId : Pubkey) (L : Ledger) (accounts : List Meta) (data : Bytes) : Traced Outcome := do
  plainly (ensure (programId = PROGRAM_ID) (.custom .IncorrectProgramId))
  let (instruction, _) ← plainly (okOr (Instruction.deserialize data) (.custom .UnknownInstructionDiscriminator))
  dispatchT x L accounts instruction

/-! ### What the trace says -/

namespace Spec

/-- The number of hashes. -/
def hashes (t : List Op) : Nat := t.count .hash

/-- The programs called, in order. -/
def callees (t : List Op) : List Pubkey := t.filterMap fun | .call p => some p | _ => none

/-- The number of events logged. -/
def logged (t : List Op) : Nat := t.count .log

/-- The most hashes an instruction makes. -/
def maxHashes : Instruction → Nat
  | .Stake _ => 3
  | .Unstake _ _ => 260
  | .Withdraw _ => 4
  | .Set _ => 1
  | .Initialize _ => 768

/-- The calls an instruction makes at most, in this order. -/
def mayCall : Instruction → List Pubkey
  | .Stake _ => [SPL_TOKEN_PROGRAM_ID, SPL_TOKEN_PROGRAM_ID]
  | .Unstake _ _ => [SPL_TOKEN_PROGRAM_ID, SYSTEM_PROGRAM_ID, SYSTEM_PROGRAM_ID, SYSTEM_PROGRAM_ID]
  | .Withdraw _ => [SPL_TOKEN_PROGRAM_ID]
  | .Set _ => []
  | .Initialize _ => [SYSTEM_PROGRAM_ID, SYSTEM_PROGRAM_ID, SYSTEM_PROGRAM_ID, ASSOCIATED_TOKEN_PROGRAM_ID]

/-- The attempts that a search for a derived address takes: bumps from 255 down to the one found. -/
def tries (cr : Crypto) (seeds : List Bytes) (p : Pubkey) : Nat :=
  match findProgramAddress cr seeds p with
  | some (_, b) => 256 - b.toNat
  | none => 255

/-- The calls of the system program that create an account at an address which holds `lamports`, the rent being `rent`. -/
def creationCalls (lamports rent : UInt64) : Nat :=
  if lamports = 0 then 1 else if rent.toNat ≤ lamports.toNat then 2 else 3

/-- The errors that can still come after another program has been called. -/
def lateErrors : Instruction → List ErrorCode
  | .Unstake _ _ => [.ArithmeticError, .CoolDownOverflow]
  | _ => []

end Spec
end Xorca
