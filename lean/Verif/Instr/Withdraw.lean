import Verif.Instr.Stake
namespace Xorca

/-- `solana-program/src/instructions/withdraw.rs:16-150`, statement by statement. -/
def processWithdraw (x : Ctx) (L : Ledger) (accounts : List Meta) (withdrawIndex : UInt8) : Res Outcome := do
  let unstakerAccount ← getAccountInfo accounts 0
  let stateAccount ← getAccountInfo accounts 1
  let pendingWithdrawAccount ← getAccountInfo accounts 2
  let unstakerOrcaAta ← getAccountInfo accounts 3
  let vaultAccount ← getAccountInfo accounts 4
  let orcaMintAccount ← getAccountInfo accounts 5
  let systemProgramAccount ← getAccountInfo accounts 6
  let tokenProgramAccount ← getAccountInfo accounts 7
  -- 1. unstaker
  assertAccountRole unstakerAccount [.Signer, .Writable]
  -- 6. ORCA mint
  assertAccountAddress orcaMintAccount ORCA_MINT_ID
  assertAccountOwner L orcaMintAccount SPL_TOKEN_PROGRAM_ID
  -- 3. state
  assertAccountRole stateAccount [.Writable]
  assertAccountOwner L stateAccount PROGRAM_ID
  let stateView ← assertStateData L stateAccount
  verifyStateAddress x.cr stateAccount (stBump stateView)
  verifyVaultAddress x.cr stateAccount vaultAccount orcaMintAccount (stVaultBump stateView)
  -- 4. pending withdraw
  assertAccountRole pendingWithdrawAccount [.Writable]
  assertAccountOwner L pendingWithdrawAccount PROGRAM_ID
  let pw ← assertPendingWithdrawData L pendingWithdrawAccount
  verifyPendingWithdrawAddress x.cr pendingWithdrawAccount unstakerAccount.key [withdrawIndex] (pwBump pw)
  -- 5. unstaker ORCA account
  let _ ← makeOwnerTokenAccountAssertions L unstakerOrcaAta unstakerAccount orcaMintAccount true
  -- 6. vault
  let _ ← makeOwnerTokenAccountAssertions L vaultAccount stateAccount orcaMintAccount true
  -- 7., 8. programs
  assertAccountAddress systemProgramAccount SYSTEM_PROGRAM_ID
  assertAccountAddress tokenProgramAccount SPL_TOKEN_PROGRAM_ID
  -- time and escrow
  ensure (¬ x.now.toInt < (pwTimestamp pw).toInt) (.custom .CoolDownPeriodStillActive)
  ensure (¬ (stEscrow stateView).toNat < (pwAmount pw).toNat) (.custom .InsufficientEscrow)
  -- transfer, authority: state, `invoke_signed`
  let pda ← signerPda x.cr stateSeedsRaw (stBump stateView)
  let L1 ← cpiTokenTransfer ⟨accounts, [pda]⟩ L vaultAccount.key unstakerOrcaAta.key stateAccount.key
    (pwAmount pw)
  -- close the record
  let L2 ← closeProgramAccount L1 pendingWithdrawAccount.key unstakerAccount.key
  -- escrow
  let st ← assertStateData L2 stateAccount
  let newEscrow ← okOr (checkedSubU64 (stEscrow st) (pwAmount pw)) (.custom .InsufficientEscrow)
  let L3 := L2.setData stateAccount.key (setStEscrow st newEscrow)
  .ok (L3, [(Event.Withdraw newEscrow (pwAmount pw) (stCoolDown (L3 stateAccount.key).data)
    withdrawIndex).serialize])

end Xorca
