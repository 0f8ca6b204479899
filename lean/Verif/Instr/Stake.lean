import Verif.Assertions
import Verif.Event
import Verif.Math
namespace Xorca

/-- Result of an instruction: the new ledger and the data logged with `sol_log_data`. -/
abbrev Outcome := Ledger × List Bytes

/-- `solana-program/src/instructions/stake.rs:18-141`, statement by statement. -/
def processStake (x : Ctx) (L : Ledger) (accounts : List Meta) (orcaStakeAmount : UInt64) : Res Outcome := do
  let stakerAccount ← getAccountInfo accounts 0
  let vaultAccount ← getAccountInfo accounts 1
  let stakerOrcaAta ← getAccountInfo accounts 2
  let stakerXorcaAta ← getAccountInfo accounts 3
  let xorcaMintAccount ← getAccountInfo accounts 4
  let stateAccount ← getAccountInfo accounts 5
  let orcaMintAccount ← getAccountInfo accounts 6
  let tokenProgramAccount ← getAccountInfo accounts 7
  -- 1. staker
  assertAccountRole stakerAccount [.Signer, .Writable]
  -- 2. addresses
  assertAccountAddress orcaMintAccount ORCA_MINT_ID
  assertAccountAddress xorcaMintAccount XORCA_MINT_ID
  assertAccountAddress tokenProgramAccount SPL_TOKEN_PROGRAM_ID
  -- 3. staker ORCA account
  let stakerOrcaAtaData ← makeOwnerTokenAccountAssertions L stakerOrcaAta stakerAccount orcaMintAccount true
  ensure (¬ stakerOrcaAtaData.amount.toNat < orcaStakeAmount.toNat) (.custom .InsufficientFunds)
  -- 4. staker xORCA account
  let _ ← makeOwnerTokenAccountAssertions L stakerXorcaAta stakerAccount xorcaMintAccount true
  -- 5. xORCA mint
  assertAccountRole xorcaMintAccount [.Writable]
  assertAccountOwner L xorcaMintAccount SPL_TOKEN_PROGRAM_ID
  let xorcaMintData ← assertTokenMintData L xorcaMintAccount
  -- 7. ORCA mint
  assertAccountOwner L orcaMintAccount SPL_TOKEN_PROGRAM_ID
  -- 6. state
  assertAccountOwner L stateAccount PROGRAM_ID
  let state ← assertStateData L stateAccount
  verifyStateAddress x.cr stateAccount (stBump state)
  verifyVaultAddress x.cr stateAccount vaultAccount orcaMintAccount (stVaultBump state)
  -- 2. vault
  let vaultAccountData ← makeOwnerTokenAccountAssertions L vaultAccount stateAccount orcaMintAccount true
  -- amount to mint
  let nonEscrowedOrcaAmount ← okOr (checkedSubU64 vaultAccountData.amount (stEscrow state))
    (.custom .InsufficientVaultBacking)
  let xorcaToMint ← convertOrcaToXorca orcaStakeAmount nonEscrowedOrcaAmount xorcaMintData.supply
  ensure (xorcaToMint ≠ 0) (.custom .InsufficientStakeAmount)
  -- transfer ORCA to the vault, authority: staker, `invoke()`
  let L1 ← cpiTokenTransfer ⟨accounts, []⟩ L stakerOrcaAta.key vaultAccount.key stakerAccount.key
    orcaStakeAmount
  -- mint xORCA, authority: state, `invoke_signed`
  let pda ← signerPda x.cr stateSeedsRaw (stBump state)
  let L2 ← cpiMintTo ⟨accounts, [pda]⟩ L1 xorcaMintAccount.key stakerXorcaAta.key stateAccount.key xorcaToMint
  let finalVaultAmount := vaultAccountData.amount + orcaStakeAmount
  let finalXorcaSupply := xorcaMintData.supply + xorcaToMint
  .ok (L2, [(Event.Stake orcaStakeAmount finalVaultAmount (stEscrow state) finalXorcaSupply
    xorcaToMint).serialize])

end Xorca
