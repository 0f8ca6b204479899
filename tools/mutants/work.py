# Mutants of the instructions with their record of hashes, calls and logs.  Usage: work.py > SPEC.json
import json
M=[]
def m(name,definition,edits,claim,kind='wrong model',note=''):
    M.append(dict(name=name,edits=edits,definition=definition,claim=claim,kind=kind,note=note))
W='Work.lean'
same='the traced call has the result of the call'
bound='the hashes and calls a call makes at most'
exact='the hashes and calls of a successful call'
last='a failing call logs nothing, a successful one logs last'
late='no error of its own after another program has been called'
m('w_trace_lost','Traced.andThen',[[W,'⟨(f a).result, p.trace ++ (f a).trace⟩','⟨(f a).result, (f a).trace⟩']],exact)
m('w_trace_reversed','Traced.andThen',[[W,'⟨(f a).result, p.trace ++ (f a).trace⟩','⟨(f a).result, (f a).trace ++ p.trace⟩']],last)
m('w_trace_of_failure_lost','Traced.andThen',[[W,'  | .error e => ⟨.error e, p.trace⟩\n\ninst','  | .error e => ⟨.error e, []⟩\n\ninst']],late,note='with an empty trace for failing calls the theorems about failing calls say little; those that compare sub-steps may notice')
m('w_search_one','searching',[[W,'List.replicate (attempts cr seeds programId 255) .hash⟩','[.hash]⟩']],exact)
m('w_search_max','searching',[[W,'List.replicate (attempts cr seeds programId 255) .hash⟩','List.replicate 255 .hash⟩']],exact)
m('w_attempts_low','attempts',[[W,'    | some _ => 1\n','    | some _ => 0\n']],exact)
m('w_attempts_start','searching',[[W,'(attempts cr seeds programId 255)','(attempts cr seeds programId 254)']],exact)
m('w_signed_no_hash','callingSigned',[[W,'⟨r, [.hash, .call program]⟩','⟨r, [.call program]⟩']],exact)
m('w_signed_two_hashes','callingSigned',[[W,'⟨r, [.hash, .call program]⟩','⟨r, [.hash, .hash, .call program]⟩']],bound)
m('w_emit_silent','emitting',[[W,'⟨.ok [e.serialize], [.log]⟩','⟨.ok [e.serialize], []⟩']],last)
m('w_emit_nothing','emitting',[[W,'⟨.ok [e.serialize], [.log]⟩','⟨.ok [], [.log]⟩']],same)
m('w_create_always_transfers','createAccountSecureT',[[W,'let L1 ← if 0 < lamportsToTransfer.toNat then','let L1 ← if 0 ≤ lamportsToTransfer.toNat then']],exact)
m('w_create_wrong_program','createAccountSecureT',[[W,'callingSigned SYSTEM_PROGRAM_ID (cpiAllocate','callingSigned SPL_TOKEN_PROGRAM_ID (cpiAllocate']],bound)
m('w_create_unsigned_assign','createAccountSecureT',[[W,'callingSigned SYSTEM_PROGRAM_ID (cpiAssign','calling SYSTEM_PROGRAM_ID (cpiAssign']],exact)
m('w_create_foreign','createAccountSecureT',[[W,'if (L newAccount).owner ≠ SYSTEM_PROGRAM_ID then plainly (.ok L)','if (L newAccount).owner ≠ SYSTEM_PROGRAM_ID then plainly (.error (.custom .IncorrectOwner))']],same)
m('w_stake_state_unhashed','processStakeT',[[W,'  hashing (verifyStateAddress x.cr stateAccount (stBump state))\n','  plainly (verifyStateAddress x.cr stateAccount (stBump state))\n']],exact)
m('w_stake_mint_unsigned','processStakeT',[[W,'let L2 ← callingSigned SPL_TOKEN_PROGRAM_ID (cpiMintTo','let L2 ← calling SPL_TOKEN_PROGRAM_ID (cpiMintTo']],exact)
m('w_stake_zero_check_late','processStakeT',[
 [W,'  plainly (ensure (xorcaToMint ≠ 0) (.custom .InsufficientStakeAmount))\n',''],
 [W,'  let finalVaultAmount := vaultAccountData.amount + orcaStakeAmount\n','  plainly (ensure (xorcaToMint ≠ 0) (.custom .InsufficientStakeAmount))\n  let finalVaultAmount := vaultAccountData.amount + orcaStakeAmount\n']],late,note='the check for zero only after the transfer and the mint')
m('w_stake_log_first','processStakeT',[
 [W,'  let logs ← emitting (.Stake orcaStakeAmount finalVaultAmount (stEscrow state) finalXorcaSupply xorcaToMint)\n',''],
 [W,'  let finalVaultAmount := vaultAccountData.amount + orcaStakeAmount\n  let finalXorcaSupply := xorcaMintData.supply + xorcaToMint\n',''],
 [W,'  let L1 ← calling SPL_TOKEN_PROGRAM_ID (cpiTokenTransfer ⟨accounts, []⟩ L stakerOrcaAta.key','  let logs ← emitting (.Stake orcaStakeAmount (vaultAccountData.amount + orcaStakeAmount) (stEscrow state) (xorcaMintData.supply + xorcaToMint) xorcaToMint)\n  let L1 ← calling SPL_TOKEN_PROGRAM_ID (cpiTokenTransfer ⟨accounts, []⟩ L stakerOrcaAta.key']],last)
m('w_unstake_stored_bump','processUnstakeT',[[W,'  let pendingWithdrawBump ← assertAccountSeedsT x.cr pendingWithdrawAccount PROGRAM_ID pendingWithdrawSeeds\n','  let pendingWithdrawBump ← plainly (assertAccountSeeds x.cr pendingWithdrawAccount PROGRAM_ID pendingWithdrawSeeds)\n']],exact,note='the search without its hashes')
m('w_unstake_funds_late','processUnstakeT',[
 [W,'  plainly (ensure (withdrawableOrcaAmount ≠ 0) (.custom .InsufficientUnstakeAmount))\n',''],
 [W,'  let st ← plainly (assertStateData L1 stateAccount)\n','  plainly (ensure (withdrawableOrcaAmount ≠ 0) (.custom .InsufficientUnstakeAmount))\n  let st ← plainly (assertStateData L1 stateAccount)\n']],late)
m('w_unstake_vault_unhashed','processUnstakeT',[[W,'  hashing (verifyVaultAddress x.cr stateAccount vaultAccount orcaMintAccount (stVaultBump stateView))\n  let nonEscrowed','  plainly (verifyVaultAddress x.cr stateAccount vaultAccount orcaMintAccount (stVaultBump stateView))\n  let nonEscrowed']],exact)
m('w_unstake_burn_missing','processUnstakeT',[[W,'let L1 ← calling SPL_TOKEN_PROGRAM_ID (cpiBurn','let L1 ← plainly (cpiBurn']],exact)
m('w_withdraw_due_late','processWithdrawT',[
 [W,'  plainly (ensure (¬ x.now.toInt < (pwTimestamp pw).toInt) (.custom .CoolDownPeriodStillActive))\n',''],
 [W,'  let L2 ← plainly (closeProgramAccount','  plainly (ensure (¬ x.now.toInt < (pwTimestamp pw).toInt) (.custom .CoolDownPeriodStillActive))\n  let L2 ← plainly (closeProgramAccount']],late)
m('w_withdraw_escrow_late','processWithdrawT',[[W,'  plainly (ensure (¬ (stEscrow stateView).toNat < (pwAmount pw).toNat) (.custom .InsufficientEscrow))\n','']],late)
m('w_withdraw_record_unhashed','processWithdrawT',[[W,'  hashing (verifyPendingWithdrawAddress','  plainly (verifyPendingWithdrawAddress']],exact)
m('w_withdraw_twice','processWithdrawT',[[W,'let L2 ← plainly (closeProgramAccount','let _ ← calling SYSTEM_PROGRAM_ID (.ok ())\n  let L2 ← plainly (closeProgramAccount']],bound)
m('w_set_calls','processSetT',[[W,'let oldAuthority := stAuthority stateView','let _ ← calling SYSTEM_PROGRAM_ID (.ok ())\n    let oldAuthority := stAuthority stateView']],bound)
m('w_set_logs_cool_down','processSetT',[[W,'return (L.setData stateAccount.key (setStCoolDown stateView newCoolDownPeriodS), [])','let logs ← emitting (.UpdateAuthoritySet (stAuthority stateView) (stAuthority stateView))\n    return (L.setData stateAccount.key (setStCoolDown stateView newCoolDownPeriodS), logs)']],same)
m('w_set_log_then_check','processSetT',[[W,'    let logs ← emitting (.UpdateAuthoritySet newAuthority oldAuthority)\n','    let logs ← emitting (.UpdateAuthoritySet newAuthority oldAuthority)\n    plainly (assertAccountRole stateAccount [.Writable])\n']],last,note='the added check cannot fail at this point; the proof of "log last" does not use that')
m('w_init_one_search','processInitializeT',[[W,'  let (_, vaultBump) ← searching x.cr vaultSeeds','  let (_, vaultBump) ← plainly (okOr (findProgramAddress x.cr vaultSeeds ASSOCIATED_TOKEN_PROGRAM_ID) .panicked)\n  let _ ← plainly (.ok vaultSeeds)\n  let _ ← searching x.cr stateSeedsRaw']],exact)
m('w_init_cool_down_late','processInitializeT',[
 [W,'  plainly (ensure (¬ coolDownPeriodS.toInt < 0) (.custom .InvalidCoolDownPeriod))\n  let stateData','  let stateData'],
 [W,'  return (L2, [])\n\n/-- The `match`','  plainly (ensure (¬ coolDownPeriodS.toInt < 0) (.custom .InvalidCoolDownPeriod))\n  return (L2, [])\n\n/-- The `match`']],late)
m('w_init_vault_by_token','processInitializeT',[[W,'let L2 ← calling ASSOCIATED_TOKEN_PROGRAM_ID','let L2 ← calling SPL_TOKEN_PROGRAM_ID']],bound)
m('w_entry_hash','entryT',[[W,'  plainly (ensure (programId = PROGRAM_ID) (.custom .IncorrectProgramId))\n  let (instruction, _) ← plainly','  plainly (ensure (programId = PROGRAM_ID) (.custom .IncorrectProgramId))\n  let (instruction, _) ← hashing']],bound)
m('w_dispatch_swapped','dispatchT',[[W,'  | .Withdraw withdrawIndex => processWithdrawT x L accounts withdrawIndex','  | .Withdraw withdrawIndex => processUnstakeT x L accounts 1 withdrawIndex']],same)
for x in M:
    for f,o,n in x['edits']:
        c=open('/verif/lean/Verif/'+f).read().count(o)
        assert c==1,(x['name'],c)
print(json.dumps(M))
