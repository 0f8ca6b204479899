# Mutants of the five instructions.  Usage: instr.py > SPEC.json
import json
M=[]
def m(name,file,definition,old,new,claim,kind='edit',note=''):
    M.append(dict(name=name,edits=[[file,old,new]],definition=definition,claim=claim,kind=kind,note=note))
def swap(name,file,definition,a,b,claim,sep='\n'):
    m(name,file,definition,a+sep+b,b+sep+a,claim,'order of checks')
S='Instr/Stake.lean'; s='processStake'
m('stake_accounts_swapped',S,s,'let stakerOrcaAta ← getAccountInfo accounts 2\n  let stakerXorcaAta ← getAccountInfo accounts 3','let stakerOrcaAta ← getAccountInfo accounts 3\n  let stakerXorcaAta ← getAccountInfo accounts 2','accounts are read in the published order')
m('stake_signer_not_required',S,s,'assertAccountRole stakerAccount [.Signer, .Writable]','assertAccountRole stakerAccount [.Writable]','the staker must sign','check weakened')
m('stake_writable_not_required',S,s,'assertAccountRole stakerAccount [.Signer, .Writable]','assertAccountRole stakerAccount [.Signer]','the staker is writable','check weakened')
m('stake_roles_order',S,s,'assertAccountRole stakerAccount [.Signer, .Writable]','assertAccountRole stakerAccount [.Writable, .Signer]','behaviour is the same: both roles give one error','equivalent')
swap('stake_mints_order',S,s,'  assertAccountAddress orcaMintAccount ORCA_MINT_ID','  assertAccountAddress xorcaMintAccount XORCA_MINT_ID','order of the address checks; both give the same error')
m('stake_token_program_unchecked',S,s,'  assertAccountAddress tokenProgramAccount SPL_TOKEN_PROGRAM_ID\n','','the token program is the real one','check dropped')
m('stake_orca_ata_any_owner',S,s,'makeOwnerTokenAccountAssertions L stakerOrcaAta stakerAccount orcaMintAccount true','makeOwnerTokenAccountAssertions L stakerOrcaAta stakerOrcaAta orcaMintAccount true','the ORCA comes from the staker')
m('stake_orca_ata_other_mint',S,s,'makeOwnerTokenAccountAssertions L stakerOrcaAta stakerAccount orcaMintAccount true','makeOwnerTokenAccountAssertions L stakerOrcaAta stakerAccount xorcaMintAccount true','ORCA is staked')
m('stake_funds_strict',S,s,'ensure (¬ stakerOrcaAtaData.amount.toNat < orcaStakeAmount.toNat)','ensure (¬ stakerOrcaAtaData.amount.toNat ≤ orcaStakeAmount.toNat)','a staker may stake everything','off by one')
m('stake_funds_error',S,s,'ensure (¬ stakerOrcaAtaData.amount.toNat < orcaStakeAmount.toNat) (.custom .InsufficientFunds)','ensure (¬ stakerOrcaAtaData.amount.toNat < orcaStakeAmount.toNat) (.custom .InsufficientStakeAmount)','the error of a stake without funds','wrong error')
m('stake_xorca_ata_wrong_owner',S,s,'makeOwnerTokenAccountAssertions L stakerXorcaAta stakerAccount xorcaMintAccount true','makeOwnerTokenAccountAssertions L stakerXorcaAta stateAccount xorcaMintAccount true','xORCA goes to the staker')
m('stake_xorca_ata_readonly',S,s,'makeOwnerTokenAccountAssertions L stakerXorcaAta stakerAccount xorcaMintAccount true','makeOwnerTokenAccountAssertions L stakerXorcaAta stakerAccount xorcaMintAccount false','the xORCA account is writable, else InvalidAccountRole','check weakened')
m('stake_mint_role_dropped',S,s,'  assertAccountRole xorcaMintAccount [.Writable]\n','','the mint is writable, else InvalidAccountRole','check dropped')
m('stake_mint_owner_dropped',S,s,'  assertAccountOwner L xorcaMintAccount SPL_TOKEN_PROGRAM_ID\n','','the xORCA mint belongs to the token program','check dropped')
m('stake_orca_mint_owner_dropped',S,s,'  -- 7. ORCA mint\n  assertAccountOwner L orcaMintAccount SPL_TOKEN_PROGRAM_ID\n','','the ORCA mint belongs to the token program','check dropped')
m('stake_state_owner_wrong',S,s,'assertAccountOwner L stateAccount PROGRAM_ID','assertAccountOwner L stateAccount SPL_TOKEN_PROGRAM_ID','the state belongs to the program')
m('stake_state_address_dropped',S,s,'  verifyStateAddress x.cr stateAccount (stBump state)\n','','the state is at the derived address','check dropped')
m('stake_vault_address_dropped',S,s,'  verifyVaultAddress x.cr stateAccount vaultAccount orcaMintAccount (stVaultBump state)\n','','the vault is at the derived address','check dropped')
m('stake_vault_bump_wrong',S,s,'verifyVaultAddress x.cr stateAccount vaultAccount orcaMintAccount (stVaultBump state)','verifyVaultAddress x.cr stateAccount vaultAccount orcaMintAccount (stBump state)','the vault is checked with its own bump')
m('stake_vault_mint_wrong',S,s,'verifyVaultAddress x.cr stateAccount vaultAccount orcaMintAccount (stVaultBump state)','verifyVaultAddress x.cr stateAccount vaultAccount xorcaMintAccount (stVaultBump state)','the vault is the ORCA vault')
m('stake_escrow_ignored',S,s,'checkedSubU64 vaultAccountData.amount (stEscrow state)','checkedSubU64 vaultAccountData.amount 0','escrowed ORCA does not back xORCA')
m('stake_backing_error',S,s,'(.custom .InsufficientVaultBacking)','(.custom .ArithmeticError)','the error of a vault short of the escrow','wrong error')
m('stake_converts_wrong_way',S,s,'convertOrcaToXorca orcaStakeAmount','convertXorcaToOrca orcaStakeAmount','the minted amount')
m('stake_arguments_swapped',S,s,'nonEscrowedOrcaAmount xorcaMintData.supply\n','xorcaMintData.supply nonEscrowedOrcaAmount\n','the minted amount')
m('stake_backing_after_deposit',S,s,'let xorcaToMint ← convertOrcaToXorca orcaStakeAmount nonEscrowedOrcaAmount','let xorcaToMint ← convertOrcaToXorca orcaStakeAmount (nonEscrowedOrcaAmount + orcaStakeAmount)','the minted amount is computed before the deposit')
m('stake_dust_allowed',S,s,'  ensure (xorcaToMint ≠ 0) (.custom .InsufficientStakeAmount)\n','','no stake mints nothing','check dropped')
m('stake_dust_error',S,s,'(.custom .InsufficientStakeAmount)','(.custom .InsufficientUnstakeAmount)','the error of a stake of dust','wrong error')
m('stake_transfer_reversed',S,s,'stakerOrcaAta.key vaultAccount.key stakerAccount.key\n    orcaStakeAmount','vaultAccount.key stakerOrcaAta.key stakerAccount.key\n    orcaStakeAmount','ORCA moves into the vault')
m('stake_transfer_amount',S,s,'stakerAccount.key\n    orcaStakeAmount','stakerAccount.key\n    xorcaToMint','the staked amount moves')
m('stake_transfer_by_state',S,s,'cpiTokenTransfer ⟨accounts, []⟩ L stakerOrcaAta.key vaultAccount.key stakerAccount.key','cpiTokenTransfer ⟨accounts, []⟩ L stakerOrcaAta.key vaultAccount.key stateAccount.key','the staker is the authority')
m('stake_transfer_dropped',S,s,'let L1 ← cpiTokenTransfer ⟨accounts, []⟩ L stakerOrcaAta.key vaultAccount.key stakerAccount.key\n    orcaStakeAmount','let L1 := L','ORCA moves into the vault','statement dropped')
m('stake_signs_with_vault_bump',S,s,'signerPda x.cr stateSeedsRaw (stBump state)','signerPda x.cr stateSeedsRaw (stVaultBump state)','the state signs')
m('stake_no_state_signature',S,s,'cpiMintTo ⟨accounts, [pda]⟩','cpiMintTo ⟨accounts, []⟩','the state signs')
m('stake_mints_stake_amount',S,s,'stakerXorcaAta.key stateAccount.key xorcaToMint','stakerXorcaAta.key stateAccount.key orcaStakeAmount','the minted amount')
m('stake_event_old_vault',S,s,'let finalVaultAmount := vaultAccountData.amount + orcaStakeAmount','let finalVaultAmount := vaultAccountData.amount','the event reports the new vault balance')
m('stake_event_old_supply',S,s,'let finalXorcaSupply := xorcaMintData.supply + xorcaToMint','let finalXorcaSupply := xorcaMintData.supply','the event reports the new supply')
m('stake_event_dropped',S,s,'.ok (L2, [(Event.Stake orcaStakeAmount finalVaultAmount (stEscrow state) finalXorcaSupply\n    xorcaToMint).serialize])','.ok (L2, [])','one event per stake','statement dropped')
m('stake_event_escrow_is_backing',S,s,'finalVaultAmount (stEscrow state) finalXorcaSupply','finalVaultAmount nonEscrowedOrcaAmount finalXorcaSupply','the event reports the escrow')
m('stake_extra_transfer_fee',S,s,'.ok (L2, [(Event.Stake','.ok (L2.setLamports stateAccount.key 0, [(Event.Stake','the state keeps its lamports')
U='Instr/Unstake.lean'; u='processUnstake'
m('unstake_signer_not_required',U,u,'assertAccountRole unstakerAccount [.Signer, .Writable]','assertAccountRole unstakerAccount [.Writable]','the unstaker must sign','check weakened')
m('unstake_system_unchecked',U,u,'  assertAccountAddress systemProgramAccount SYSTEM_PROGRAM_ID\n','','the system program is the real one','check dropped')
m('unstake_orca_mint_unchecked',U,u,'  assertAccountAddress orcaMintAccount ORCA_MINT_ID\n','','the ORCA mint is the real one','check dropped')
m('unstake_state_role_dropped',U,u,'  assertAccountRole stateAccount [.Writable]\n','','the state is writable','check dropped')
swap('unstake_vault_before_state',U,u,'  assertAccountOwner L stateAccount PROGRAM_ID','  -- 3. vault\n  let vaultAccountData ← makeOwnerTokenAccountAssertions L vaultAccount stateAccount orcaMintAccount false','order of the checks')
m('unstake_vault_writable',U,u,'makeOwnerTokenAccountAssertions L vaultAccount stateAccount orcaMintAccount false','makeOwnerTokenAccountAssertions L vaultAccount stateAccount orcaMintAccount true','the vault need not be writable, as the builders pass it')
m('unstake_vault_owner_wrong',U,u,'makeOwnerTokenAccountAssertions L vaultAccount stateAccount orcaMintAccount false','makeOwnerTokenAccountAssertions L vaultAccount unstakerAccount orcaMintAccount false','the vault belongs to the state')
m('unstake_record_reused',U,u,'  assertAccountOwner L pendingWithdrawAccount SYSTEM_PROGRAM_ID\n','','an open record is never overwritten','check dropped')
m('unstake_record_seed_index',U,u,'pendingWithdrawSeedsRaw unstakerAccount.key [withdrawIndex]','pendingWithdrawSeedsRaw unstakerAccount.key [0]','the record is at the address of its index')
m('unstake_record_seed_user',U,u,'pendingWithdrawSeedsRaw unstakerAccount.key [withdrawIndex]','pendingWithdrawSeedsRaw stateAccount.key [withdrawIndex]','the record is at the address of its owner')
m('unstake_xorca_mint_wrong',U,u,'unstakerXorcaAta unstakerAccount\n    xorcaMintAccount true','unstakerXorcaAta unstakerAccount\n    orcaMintAccount true','xORCA is unstaked')
m('unstake_funds_dropped',U,u,'  ensure (¬ unstakerXorcaAtaData.amount.toNat < xorcaUnstakeAmount.toNat) (.custom .InsufficientFunds)\n','','the error of an unstake without funds','check dropped')
m('unstake_funds_strict',U,u,'unstakerXorcaAtaData.amount.toNat < xorcaUnstakeAmount.toNat','unstakerXorcaAtaData.amount.toNat ≤ xorcaUnstakeAmount.toNat','everything can be unstaked','off by one')
m('unstake_mint_authority_or',U,u,'xorcaMintData.mintAuthorityFlag = 0 ∨ xorcaMintData.mintAuthority ≠ stateAccount.key','xorcaMintData.mintAuthorityFlag = 0 ∧ xorcaMintData.mintAuthority ≠ stateAccount.key','the mint authority is the state','check weakened')
m('unstake_freeze_dropped',U,u,'  ensure (¬ xorcaMintData.freezeAuthorityFlag ≠ 0) (.custom .InvalidAccountData)\n','','no freeze authority','check dropped')
m('unstake_orca_mint_data_dropped',U,u,'  let _ ← assertTokenMintData L orcaMintAccount\n','','the ORCA mint is a mint','check dropped')
swap('unstake_mint_checks_order',U,u,'  assertAccountOwner L xorcaMintAccount SPL_TOKEN_PROGRAM_ID','  assertAccountRole xorcaMintAccount [.Writable]','order of the checks')
m('unstake_escrow_ignored',U,u,'checkedSubU64 vaultAccountData.amount (stEscrow stateView)','checkedSubU64 vaultAccountData.amount 0','escrowed ORCA does not back xORCA')
m('unstake_supply_after_burn',U,u,'    xorcaMintData.supply\n  ensure (withdrawable','    (xorcaMintData.supply - xorcaUnstakeAmount)\n  ensure (withdrawable','the redeemed amount uses the supply before the burn')
m('unstake_dust_allowed',U,u,'  ensure (withdrawableOrcaAmount ≠ 0) (.custom .InsufficientUnstakeAmount)\n','','no unstake for nothing','check dropped')
m('unstake_no_burn',U,u,'let L1 ← cpiBurn ⟨accounts, []⟩ L unstakerXorcaAta.key xorcaMintAccount.key unstakerAccount.key\n    xorcaUnstakeAmount','let L1 := L','xORCA is burned','statement dropped')
m('unstake_burn_amount',U,u,'unstakerAccount.key\n    xorcaUnstakeAmount','unstakerAccount.key\n    withdrawableOrcaAmount','the burned amount')
m('unstake_escrow_xorca_amount',U,u,'checkedAddU64 (stEscrow st) withdrawableOrcaAmount','checkedAddU64 (stEscrow st) xorcaUnstakeAmount','the escrow grows by the redeemed amount')
m('unstake_escrow_overwritten',U,u,'let newEscrow ← okOr (checkedAddU64 (stEscrow st) withdrawableOrcaAmount) (.custom .ArithmeticError)','let newEscrow ← okOr (some withdrawableOrcaAmount) (.custom .ArithmeticError)','escrow is the sum of all records')
m('unstake_escrow_not_written',U,u,'let L2 := L1.setData stateAccount.key (setStEscrow st newEscrow)','let L2 := L1','escrow is the sum of all records','statement dropped')
m('unstake_record_amount_xorca',U,u,'setPwAmount d3 withdrawableOrcaAmount','setPwAmount d3 xorcaUnstakeAmount','the record holds the redeemed amount')
m('unstake_record_owner_state',U,u,'setPwUnstaker d2 unstakerAccount.key','setPwUnstaker d2 stateAccount.key','the record names its owner')
m('unstake_record_index_zero',U,u,'let d2 := setPwIndex d1 withdrawIndex','let d2 := setPwIndex d1 0','the record holds its index')
m('unstake_record_bump_missing',U,u,'let d1 := setPwBump (L3 pendingWithdrawAccount.key).data pendingWithdrawBump','let d1 := (L3 pendingWithdrawAccount.key).data','the record holds its bump','statement dropped')
m('unstake_record_bump_index',U,u,'let d1 := setPwBump (L3 pendingWithdrawAccount.key).data pendingWithdrawBump','let d1 := setPwBump (L3 pendingWithdrawAccount.key).data withdrawIndex','the record holds its bump')
m('unstake_maturity_now',U,u,'checkedAddI64 x.now (stCoolDown (L2 stateAccount.key).data)','checkedAddI64 x.now 0','the maturity is now plus the period')
m('unstake_maturity_double',U,u,'let d5 := setPwTimestamp d4 withdrawableTimestamp','let d5 := setPwTimestamp d4 (withdrawableTimestamp + 1)','the maturity is now plus the period','off by one')
m('unstake_overflow_error',U,u,'(.custom .CoolDownOverflow)','(.custom .ArithmeticError)','the error of an overflowing maturity','wrong error')
m('unstake_event_vault_backing',U,u,'Event.Unstake xorcaUnstakeAmount vaultAccountData.amount newEscrow','Event.Unstake xorcaUnstakeAmount nonEscrowedOrcaAmount newEscrow','the event reports the vault')
m('unstake_event_old_escrow',U,u,'vaultAccountData.amount newEscrow finalXorcaSupply','vaultAccountData.amount (stEscrow stateView) finalXorcaSupply','the event reports the new escrow')
m('unstake_event_old_supply',U,u,'let finalXorcaSupply := xorcaMintData.supply - xorcaUnstakeAmount','let finalXorcaSupply := xorcaMintData.supply','the event reports the new supply')
m('unstake_event_index',U,u,'(stCoolDown (L2 stateAccount.key).data) withdrawIndex).serialize','(stCoolDown (L2 stateAccount.key).data) 0).serialize','the event reports the index')
W='Instr/Withdraw.lean'; w='processWithdraw'
m('withdraw_signer_not_required',W,w,'assertAccountRole unstakerAccount [.Signer, .Writable]','assertAccountRole unstakerAccount [.Writable]','the owner must sign','check weakened')
m('withdraw_mint_owner_dropped',W,w,'  assertAccountOwner L orcaMintAccount SPL_TOKEN_PROGRAM_ID\n','','the ORCA mint belongs to the token program','check dropped')
m('withdraw_mint_address_dropped',W,w,'  assertAccountAddress orcaMintAccount ORCA_MINT_ID\n','','the ORCA mint is the real one','check dropped')
swap('withdraw_mint_order',W,w,'  assertAccountAddress orcaMintAccount ORCA_MINT_ID','  assertAccountOwner L orcaMintAccount SPL_TOKEN_PROGRAM_ID','order of the checks')
m('withdraw_state_owner_dropped',W,w,'  assertAccountOwner L stateAccount PROGRAM_ID\n','','the state belongs to the program','check dropped')
m('withdraw_state_address_dropped',W,w,'  verifyStateAddress x.cr stateAccount (stBump stateView)\n','','the state is at the derived address','check dropped')
m('withdraw_vault_address_dropped',W,w,'  verifyVaultAddress x.cr stateAccount vaultAccount orcaMintAccount (stVaultBump stateView)\n','','the vault is at the derived address','check dropped')
m('withdraw_record_owner_dropped',W,w,'  assertAccountOwner L pendingWithdrawAccount PROGRAM_ID\n','','the record belongs to the program','check dropped')
m('withdraw_record_address_dropped',W,w,'  verifyPendingWithdrawAddress x.cr pendingWithdrawAccount unstakerAccount.key [withdrawIndex] (pwBump pw)\n','','only the owner of a record withdraws it','check dropped')
m('withdraw_record_index_ignored',W,w,'verifyPendingWithdrawAddress x.cr pendingWithdrawAccount unstakerAccount.key [withdrawIndex] (pwBump pw)','verifyPendingWithdrawAddress x.cr pendingWithdrawAccount unstakerAccount.key [pwIndex pw] (pwBump pw)','the index of the call is the index of the record')
m('withdraw_record_user_from_record',W,w,'verifyPendingWithdrawAddress x.cr pendingWithdrawAccount unstakerAccount.key [withdrawIndex] (pwBump pw)','verifyPendingWithdrawAddress x.cr pendingWithdrawAccount (pwUnstaker pw) [withdrawIndex] (pwBump pw)','only the owner of a record withdraws it')
m('withdraw_to_anybody',W,w,'makeOwnerTokenAccountAssertions L unstakerOrcaAta unstakerAccount orcaMintAccount true','makeOwnerTokenAccountAssertions L unstakerOrcaAta unstakerOrcaAta orcaMintAccount true','the payee account belongs to the signer')
m('withdraw_vault_assertions_dropped',W,w,'  let _ ← makeOwnerTokenAccountAssertions L vaultAccount stateAccount orcaMintAccount true\n','','the vault belongs to the state','check dropped')
m('withdraw_system_unchecked',W,w,'  assertAccountAddress systemProgramAccount SYSTEM_PROGRAM_ID\n','','the system program is the real one','check dropped')
m('withdraw_time_strict',W,w,'x.now.toInt < (pwTimestamp pw).toInt','x.now.toInt ≤ (pwTimestamp pw).toInt','a request can be withdrawn at its maturity','off by one')
m('withdraw_time_unsigned',W,w,'ensure (¬ x.now.toInt < (pwTimestamp pw).toInt)','ensure (¬ x.now.toInt.toNat < (pwTimestamp pw).toInt.toNat)','times are signed')
m('withdraw_time_dropped',W,w,'  ensure (¬ x.now.toInt < (pwTimestamp pw).toInt) (.custom .CoolDownPeriodStillActive)\n','','nothing is paid before maturity','check dropped')
m('withdraw_time_error',W,w,'(.custom .CoolDownPeriodStillActive)','(.custom .CoolDownOverflow)','the error of an early Withdraw','wrong error')
m('withdraw_escrow_check_dropped',W,w,'  ensure (¬ (stEscrow stateView).toNat < (pwAmount pw).toNat) (.custom .InsufficientEscrow)\n','','the error order of a broken escrow','check dropped')
m('withdraw_escrow_strict',W,w,'(stEscrow stateView).toNat < (pwAmount pw).toNat','(stEscrow stateView).toNat ≤ (pwAmount pw).toNat','the last request can be withdrawn','off by one')
m('withdraw_pays_escrow',W,w,'vaultAccount.key unstakerOrcaAta.key stateAccount.key\n    (pwAmount pw)','vaultAccount.key unstakerOrcaAta.key stateAccount.key\n    (stEscrow stateView)','the record amount is paid')
m('withdraw_pays_nothing',W,w,'let L1 ← cpiTokenTransfer ⟨accounts, [pda]⟩ L vaultAccount.key unstakerOrcaAta.key stateAccount.key\n    (pwAmount pw)','let L1 := L','the record amount is paid','statement dropped')
m('withdraw_record_kept',W,w,'let L2 ← closeProgramAccount L1 pendingWithdrawAccount.key unstakerAccount.key','let L2 := L1','a request is paid once','statement dropped')
m('withdraw_rent_to_state',W,w,'closeProgramAccount L1 pendingWithdrawAccount.key unstakerAccount.key','closeProgramAccount L1 pendingWithdrawAccount.key stateAccount.key','the rent goes to the owner')
m('withdraw_escrow_kept',W,w,'let L3 := L2.setData stateAccount.key (setStEscrow st newEscrow)','let L3 := L2','escrow is the sum of all records','statement dropped')
m('withdraw_escrow_zeroed',W,w,'let newEscrow ← okOr (checkedSubU64 (stEscrow st) (pwAmount pw)) (.custom .InsufficientEscrow)','let newEscrow ← okOr (checkedSubU64 (stEscrow st) (stEscrow st)) (.custom .InsufficientEscrow)','escrow is the sum of all records')
m('withdraw_event_old_escrow',W,w,'Event.Withdraw newEscrow','Event.Withdraw (stEscrow stateView)','the event reports the new escrow')
m('withdraw_event_amount',W,w,'Event.Withdraw newEscrow (pwAmount pw)','Event.Withdraw newEscrow newEscrow','the event reports the amount')
m('withdraw_event_twice',W,w,'    withdrawIndex).serialize])','    withdrawIndex).serialize, []])','one event per Withdraw')
T='Instr/Set.lean'; t='processSet'
m('set_signer_not_required',T,t,'assertAccountRole updateAuthorityAccount [.Signer, .Writable]','assertAccountRole updateAuthorityAccount [.Writable]','the update authority signs','check weakened')
m('set_state_role_dropped',T,t,'  assertAccountRole stateAccount [.Writable]\n','','the state is writable','check dropped')
m('set_state_owner_dropped',T,t,'  assertAccountOwner L stateAccount PROGRAM_ID\n','','the state belongs to the program','check dropped')
m('set_state_address_dropped',T,t,'  verifyStateAddress x.cr stateAccount (stBump stateView)\n','','the state is at the derived address','check dropped')
m('set_authority_dropped',T,t,'  assertAccountAddress updateAuthorityAccount (stAuthority stateView)\n','','only the update authority changes parameters','check dropped')
m('set_authority_error_order',T,t,'  verifyStateAddress x.cr stateAccount (stBump stateView)\n  assertAccountAddress updateAuthorityAccount (stAuthority stateView)\n','  assertAccountAddress updateAuthorityAccount (stAuthority stateView)\n  verifyStateAddress x.cr stateAccount (stBump stateView)\n','order of the checks','order of checks')
m('set_negative_allowed',T,t,'    ensure (¬ newCoolDownPeriodS.toInt < 0) (.custom .InvalidCoolDownPeriod)\n','','the period is never negative','check dropped')
m('set_zero_refused',T,t,'newCoolDownPeriodS.toInt < 0','newCoolDownPeriodS.toInt ≤ 0','a period of zero is allowed','off by one')
m('set_cooldown_writes_authority',T,t,'setStCoolDown stateView newCoolDownPeriodS','setStEscrow stateView 0','only the period changes')
m('set_authority_keeps_old',T,t,'setStAuthority stateView newAuthority','setStAuthority stateView oldAuthority','the authority changes')
m('set_authority_event_swapped',T,t,'Event.UpdateAuthoritySet newAuthority oldAuthority','Event.UpdateAuthoritySet oldAuthority newAuthority','the event names the new authority first')
m('set_authority_event_dropped',T,t,'[(Event.UpdateAuthoritySet newAuthority oldAuthority).serialize])','[])','one event per change of authority','statement dropped')
m('set_authority_to_signer',T,t,'setStAuthority stateView newAuthority','setStAuthority stateView updateAuthorityAccount.key','the authority changes')
m('set_cooldown_logs',T,t,'newCoolDownPeriodS), [])','newCoolDownPeriodS), [[]])','a change of the period logs nothing')
I='Instr/Initialize.lean'; i='processInitialize'
m('init_deployer_dropped',I,i,'  ensure (payerAccount.key = DEPLOYER_ADDRESS) (.custom .UnauthorizedDeployerAccess)\n','','only the deployer initialises','check dropped')
m('init_payer_signer',I,i,'assertAccountRole payerAccount [.Signer, .Writable]','assertAccountRole payerAccount [.Writable]','the deployer signs','check weakened')
swap('init_deployer_first',I,i,'  assertAccountRole payerAccount [.Signer, .Writable]','  ensure (payerAccount.key = DEPLOYER_ADDRESS) (.custom .UnauthorizedDeployerAccess)','order of the checks')
m('init_state_data_dropped',I,i,'  ensure (¬ 0 < (L stateAccount.key).data.length) (.custom .StateAccountAlreadyInitialized)\n','','the error of a second Initialize','check dropped')
m('init_state_owner_dropped',I,i,'  assertAccountOwner L stateAccount SYSTEM_PROGRAM_ID\n','','a state is created once','check dropped')
m('init_mint_owner_dropped',I,i,'  assertAccountOwner L xorcaMintAccount SPL_TOKEN_PROGRAM_ID\n','','the xORCA mint belongs to the token program','check dropped')
m('init_mint_authority_dropped',I,i,'  assertAccountAddress stateAccount xorcaMintData.mintAuthority\n','','only the state mints xORCA','check dropped')
m('init_supply_dropped',I,i,'  ensure (xorcaMintData.supply = 0) (.custom .InvalidAccountData)\n','','the pool starts without xORCA','check dropped')
m('init_mint_address_dropped',I,i,'  assertAccountAddress xorcaMintAccount XORCA_MINT_ID\n','','the xORCA mint is the real one','check dropped')
m('init_mint_flag_dropped',I,i,'  ensure (xorcaMintData.mintAuthorityFlag = 1) (.custom .InvalidAccountData)\n','','only the state mints xORCA','check dropped')
m('init_freeze_flag_dropped',I,i,'  ensure (xorcaMintData.freezeAuthorityFlag = 0) (.custom .InvalidAccountData)\n','','no freeze authority','check dropped')
m('init_freeze_key_dropped',I,i,'  ensure (xorcaMintData.freezeAuthority = DEFAULT_PUBKEY) (.custom .InvalidAccountData)\n','','the error of a leftover freeze key','check dropped')
m('init_decimals_nine',I,i,'ensure (xorcaMintData.decimals = 6)','ensure (xorcaMintData.decimals = 9)','xORCA has six decimals','wrong constant')
m('init_orca_decimals_dropped',I,i,'  ensure (orcaMintData.decimals = 6) (.custom .InvalidAccountData)\n','','ORCA has six decimals','check dropped')
m('init_orca_address_dropped',I,i,'  assertAccountAddress orcaMintAccount ORCA_MINT_ID\n','','the ORCA mint is the real one','check dropped')
m('init_authority_signer',I,i,'assertAccountRole updateAuthorityAccount [.Signer, .Writable]','assertAccountRole updateAuthorityAccount [.Writable]','the first authority signs','check weakened')
m('init_vault_owner_dropped',I,i,'  assertAccountOwner L vaultAccount SYSTEM_PROGRAM_ID\n','','the vault does not exist yet','check dropped')
m('init_vault_seeds_dropped',I,i,'  let _ ← assertAccountSeeds x.cr vaultAccount ASSOCIATED_TOKEN_PROGRAM_ID vaultSeeds\n','','the vault is at the derived address','check dropped')
m('init_ata_program_dropped',I,i,'  assertAccountAddress associatedTokenProgramAccount ASSOCIATED_TOKEN_PROGRAM_ID\n','','the associated token program is the real one','check dropped')
m('init_negative_allowed',I,i,'  ensure (¬ coolDownPeriodS.toInt < 0) (.custom .InvalidCoolDownPeriod)\n','','the period is never negative','check dropped')
m('init_bump_swapped',I,i,'    bump := stateBump\n    vaultBump := vaultBump','    bump := vaultBump\n    vaultBump := stateBump','the stored bumps are canonical')
m('init_authority_payer',I,i,'updateAuthority := updateAuthorityAccount.key','updateAuthority := payerAccount.key','the state after Initialize')
m('init_period_zero',I,i,'    coolDownPeriodS := coolDownPeriodS\n','','the state after Initialize','statement dropped')
m('init_no_vault',I,i,'let L2 ← cpiCreateAtaIdempotent x ⟨accounts, []⟩ L1 payerAccount.key vaultAccount.key stateAccount.key\n    orcaMintAccount.key','let L2 := L1','the vault exists after Initialize','statement dropped')
m('init_vault_of_payer',I,i,'L1 payerAccount.key vaultAccount.key stateAccount.key\n','L1 payerAccount.key vaultAccount.key payerAccount.key\n','the vault belongs to the state')
m('init_vault_xorca',I,i,'stateAccount.key\n    orcaMintAccount.key','stateAccount.key\n    xorcaMintAccount.key','the vault holds ORCA')
m('init_logs',I,i,'.ok (L2, [])','.ok (L2, [[0]])','Initialize logs nothing')
for x in M:
    for f,o,n in x['edits']:
        c=open('/verif/lean/Verif/'+f).read().count(o)
        assert c==1,(x['name'],c)
print(json.dumps(M))
