import Verif.Instr.Stake
namespace Xorca

/-- `solana-program/src/instructions/unstake.rs:23-189`, statement by statement. -/
def processUnstake (x : Ctx) (L : Ledger) (accounts : List Meta) (xorcaUnstakeAmount : UInt64)
    (withdrawIndex : UInt8) : Res Outcome := do
  let unstakerAccount ← getAccountInfo accounts 0
  let stateAccount ← getAccountInfo accounts 1
  let pendingWithdrawAccount ← getAccountInfo accounts 2
  let unstakerXorcaAta ← getAccountInfo accounts 3
  let xorcaMintAccount ← getAccountInfo accounts 4
  let orcaMintAccount ← getAccountInfo accounts 5
  let vaultAccount ← getAccountInfo accounts 6
  let systemProgramAccount ← getAccountInfo accounts 7
  let tokenProgramAccount ← getAccountInfo accounts 8
  -- 1. unstaker
  assertAccountRole unstakerAccount [.Signer, .Writable]
  -- 2. addresses
  assertAccountAddress xorcaMintAccount XORCA_MINT_ID
  assertAccountAddress orcaMintAccount ORCA_MINT_ID
  assertAccountAddress tokenProgramAccount SPL_TOKEN_PROGRAM_ID
  assertAccountAddress systemProgramAccount SYSTEM_PROGRAM_ID
  -- 2. state
  assertAccountRole stateAccount [.Writable]
  assertAccountOwner L stateAccount PROGRAM_ID
  -- 3. vault
  let vaultAccountData ← makeOwnerTokenAccountAssertions L vaultAccount stateAccount orcaMintAccount false
  -- 4. pending withdraw
  assertAccountRole pendingWithdrawAccount [.Writable]
  assertAccountOwner L pendingWithdrawAccount SYSTEM_PROGRAM_ID
  let pendingWithdrawSeeds := pendingWithdrawSeedsRaw unstakerAccount.key [withdrawIndex]
  let pendingWithdrawBump ← assertAccountSeeds x.cr pendingWithdrawAccount PROGRAM_ID pendingWithdrawSeeds
  -- 5. unstaker xORCA account
  let unstakerXorcaAtaData ← makeOwnerTokenAccountAssertions L unstakerXorcaAta unstakerAccount
    xorcaMintAccount true
  ensure (¬ unstakerXorcaAtaData.amount.toNat < xorcaUnstakeAmount.toNat) (.custom .InsufficientFunds)
  -- 6. xORCA mint
  assertAccountOwner L xorcaMintAccount SPL_TOKEN_PROGRAM_ID
  assertAccountRole xorcaMintAccount [.Writable]
  let xorcaMintData ← assertTokenMintData L xorcaMintAccount
  ensure (¬ (xorcaMintData.mintAuthorityFlag = 0 ∨ xorcaMintData.mintAuthority ≠ stateAccount.key))
    (.custom .InvalidAccountData)
  ensure (¬ xorcaMintData.freezeAuthorityFlag ≠ 0) (.custom .InvalidAccountData)
  -- 7. ORCA mint
  assertAccountOwner L orcaMintAccount SPL_TOKEN_PROGRAM_ID
  let _ ← assertTokenMintData L orcaMintAccount
  -- withdrawable amount
  let stateView ← assertStateData L stateAccount
  verifyStateAddress x.cr stateAccount (stBump stateView)
  verifyVaultAddress x.cr stateAccount vaultAccount orcaMintAccount (stVaultBump stateView)
  let nonEscrowedOrcaAmount ← okOr (checkedSubU64 vaultAccountData.amount (stEscrow stateView))
    (.custom .InsufficientVaultBacking)
  let withdrawableOrcaAmount ← convertXorcaToOrca xorcaUnstakeAmount nonEscrowedOrcaAmount
    xorcaMintData.supply
  ensure (withdrawableOrcaAmount ≠ 0) (.custom .InsufficientUnstakeAmount)
  -- burn, authority: unstaker, `invoke()`
  let L1 ← cpiBurn ⟨accounts, []⟩ L unstakerXorcaAta.key xorcaMintAccount.key unstakerAccount.key
    xorcaUnstakeAmount
  -- escrow
  let st ← assertStateData L1 stateAccount
  let newEscrow ← okOr (checkedAddU64 (stEscrow st) withdrawableOrcaAmount) (.custom .ArithmeticError)
  let L2 := L1.setData stateAccount.key (setStEscrow st newEscrow)
  -- new record
  let pda ← signerPda x.cr pendingWithdrawSeeds pendingWithdrawBump
  let L3 ← createPendingWithdrawSecure x ⟨accounts, [pda]⟩ L2 unstakerAccount.key pendingWithdrawAccount.key
  let d1 := setPwBump (L3 pendingWithdrawAccount.key).data pendingWithdrawBump
  let d2 := setPwIndex d1 withdrawIndex
  let d3 := setPwUnstaker d2 unstakerAccount.key
  let d4 := setPwAmount d3 withdrawableOrcaAmount
  let withdrawableTimestamp ← okOr (checkedAddI64 x.now (stCoolDown (L2 stateAccount.key).data))
    (.custom .CoolDownOverflow)
  let d5 := setPwTimestamp d4 withdrawableTimestamp
  let L4 := L3.setData pendingWithdrawAccount.key d5
  let finalXorcaSupply := xorcaMintData.supply - xorcaUnstakeAmount
  .ok (L4, [(Event.Unstake xorcaUnstakeAmount vaultAccountData.amount newEscrow finalXorcaSupply
    withdrawableOrcaAmount (stCoolDown (L2 stateAccount.key).data) withdrawIndex).serialize])

end Xorca
