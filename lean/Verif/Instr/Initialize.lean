import Verif.Instr.Stake
namespace Xorca

/-- `solana-program/src/instructions/initialize.rs:21-155`, statement by statement. -/
def processInitialize (x : Ctx) (L : Ledger) (accounts : List Meta) (coolDownPeriodS : Int64) : Res Outcome := do
  let payerAccount ← getAccountInfo accounts 0
  let updateAuthorityAccount ← getAccountInfo accounts 1
  let stateAccount ← getAccountInfo accounts 2
  let vaultAccount ← getAccountInfo accounts 3
  let xorcaMintAccount ← getAccountInfo accounts 4
  let orcaMintAccount ← getAccountInfo accounts 5
  let systemProgramAccount ← getAccountInfo accounts 6
  let tokenProgramAccount ← getAccountInfo accounts 7
  let associatedTokenProgramAccount ← getAccountInfo accounts 8
  -- 1. payer
  assertAccountRole payerAccount [.Signer, .Writable]
  ensure (payerAccount.key = DEPLOYER_ADDRESS) (.custom .UnauthorizedDeployerAccess)
  -- 2. state
  assertAccountRole stateAccount [.Writable]
  let stateBump ← assertAccountSeeds x.cr stateAccount PROGRAM_ID stateSeedsRaw
  ensure (¬ 0 < (L stateAccount.key).data.length) (.custom .StateAccountAlreadyInitialized)
  assertAccountOwner L stateAccount SYSTEM_PROGRAM_ID
  -- 3. xORCA mint
  assertAccountOwner L xorcaMintAccount SPL_TOKEN_PROGRAM_ID
  let xorcaMintData ← assertTokenMintData L xorcaMintAccount
  assertAccountAddress stateAccount xorcaMintData.mintAuthority
  ensure (xorcaMintData.supply = 0) (.custom .InvalidAccountData)
  assertAccountAddress xorcaMintAccount XORCA_MINT_ID
  ensure (xorcaMintData.mintAuthorityFlag = 1) (.custom .InvalidAccountData)
  ensure (xorcaMintData.freezeAuthorityFlag = 0) (.custom .InvalidAccountData)
  ensure (xorcaMintData.freezeAuthority = DEFAULT_PUBKEY) (.custom .InvalidAccountData)
  ensure (xorcaMintData.decimals = 6) (.custom .InvalidAccountData)
  -- 4. ORCA mint
  assertAccountOwner L orcaMintAccount SPL_TOKEN_PROGRAM_ID
  let orcaMintData ← assertTokenMintData L orcaMintAccount
  assertAccountAddress orcaMintAccount ORCA_MINT_ID
  ensure (orcaMintData.decimals = 6) (.custom .InvalidAccountData)
  -- 5. update authority
  assertAccountRole updateAuthorityAccount [.Signer, .Writable]
  -- 6. system program
  assertAccountAddress systemProgramAccount SYSTEM_PROGRAM_ID
  -- 7. vault
  assertAccountRole vaultAccount [.Writable]
  assertAccountOwner L vaultAccount SYSTEM_PROGRAM_ID
  -- 8., 9. programs
  assertAccountAddress tokenProgramAccount SPL_TOKEN_PROGRAM_ID
  assertAccountAddress associatedTokenProgramAccount ASSOCIATED_TOKEN_PROGRAM_ID
  -- vault address
  let vaultSeeds := vaultSeedsRaw stateAccount.key SPL_TOKEN_PROGRAM_ID orcaMintAccount.key
  let (_, vaultBump) ← okOr (findProgramAddress x.cr vaultSeeds ASSOCIATED_TOKEN_PROGRAM_ID) .panicked
  let _ ← assertAccountSeeds x.cr vaultAccount ASSOCIATED_TOKEN_PROGRAM_ID vaultSeeds
  -- state contents
  ensure (¬ coolDownPeriodS.toInt < 0) (.custom .InvalidCoolDownPeriod)
  let stateData : State := { State.default with
    coolDownPeriodS := coolDownPeriodS
    bump := stateBump
    vaultBump := vaultBump
    updateAuthority := updateAuthorityAccount.key }
  let pda ← signerPda x.cr stateSeedsRaw stateBump
  let L1 ← createStateBorsh x ⟨accounts, [pda]⟩ L payerAccount.key stateAccount.key stateData
  let L2 ← cpiCreateAtaIdempotent x ⟨accounts, []⟩ L1 payerAccount.key vaultAccount.key stateAccount.key
    orcaMintAccount.key
  .ok (L2, [])

end Xorca
