# Mutants of the trusted model: runtime, token program, machine, transactions.  Usage: runtime.py > SPEC.json
import json,sys
M=[]
def m(name,file,definition,old,new,claim,kind='edit',note=''):
    M.append(dict(name=name,edits=[[file,old,new]],definition=definition,claim=claim,kind=kind,note=note))
R='Runtime.lean'
m('rt_set_keeps_others_wrong',R,'Ledger.set',"fun k' => if k' = k then a else L k'","fun k' => if k' = k then a else { L k' with lamports := 0 }",'calls touch only their accounts')
m('rt_signs_ignores_flag',R,'Caller.signs','m.key == k && m.isSigner) ||','m.key == k) ||','a token authority must sign','check weakened')
m('rt_signs_no_pdas',R,'Caller.signs','|| c.pdas.contains k','','the state can sign')
m('rt_writes_ignores_flag',R,'Caller.writes','c.metas.any (fun m => m.key == k && m.isWritable)','c.metas.any (fun m => m.key == k)','only writable accounts change','check weakened')
m('rt_signer_pda_no_curve',R,'signerPda','okOr (createProgramAddress cr seeds bump PROGRAM_ID) (.cpi .invalidSeeds)','.ok (deriveAddress cr seeds bump PROGRAM_ID)','no program signs for a key on the curve','check weakened')
m('rt_transfer_data',R,'systemTransfer','  ensure ((L src).data = []) (.cpi .invalidArgument)\n','','lamports of data accounts do not move this way','check dropped')
m('rt_transfer_owner',R,'systemTransfer','  ensure ((L src).owner = SYSTEM_PROGRAM_ID) (.cpi .externalLamportSpend)\n','','only system accounts pay','check dropped')
m('rt_transfer_no_debit',R,'systemTransfer','let L1 := L.setLamports src ((L src).lamports - lamports)','let L1 := L','no lamports appear')
m('rt_transfer_overdraft',R,'systemTransfer','  ensure (lamports.toNat ≤ (L src).lamports.toNat) (.cpi .negativeLamports)\n','','no lamports appear','check dropped')
m('rt_allocate_in_use',R,'systemAllocate','ensure ((L k).data = [] ∧ (L k).owner = SYSTEM_PROGRAM_ID)','ensure ((L k).owner = SYSTEM_PROGRAM_ID)','an account with data is not allocated again','check weakened')
m('rt_allocate_short',R,'systemAllocate','List.replicate space 0','List.replicate (space - 1) 0','new accounts have the length asked for','off by one')
m('rt_allocate_garbage',R,'systemAllocate','List.replicate space 0','List.replicate space 1','new accounts are zeroed')
m('rt_assign_nothing',R,'systemAssign','.ok (L.set k { L k with owner := owner })','.ok L','new accounts belong to the program','statement dropped')
m('rt_create_funded',R,'systemCreateAccount','  ensure ((L dst).lamports = 0) (.cpi .accountInUse)\n','','CreateAccount wants an empty account','check dropped')
m('rt_create_no_transfer',R,'systemCreateAccount','  systemTransfer L2 src dst lamports','  .ok L2','new accounts get rent','statement dropped')
m('rt_cpi_create_no_signature',R,'cpiCreateAccount','c.writes src ∧ c.writes dst ∧ c.signs src ∧ c.signs dst','c.writes src ∧ c.writes dst ∧ c.signs src','the new address signs','check weakened')
m('rt_cpi_create_no_payer_signature',R,'cpiCreateAccount','c.writes src ∧ c.writes dst ∧ c.signs src ∧ c.signs dst','c.writes src ∧ c.writes dst ∧ c.signs dst','the payer signs','check weakened')
m('rt_cpi_transfer_no_signature',R,'cpiSystemTransfer','c.writes src ∧ c.writes dst ∧ c.signs src)','c.writes src ∧ c.writes dst)','the payer signs','check weakened')
m('rt_unpack_length',R,'unpackTokenAccount','  ensure (d.length = TOKEN_ACCOUNT_LEN) (.cpi .invalidAccountData)\n','','token accounts have 165 bytes','check dropped')
m('rt_unpack_uninitialized',R,'unpackTokenAccount','  ensure (t.state ≠ .Uninitialized) (.cpi .uninitialized)\n','','token accounts are initialised','check dropped')
m('rt_unpack_tags',R,'unpackTokenAccount','coptionOk t.delegateFlag ∧ coptionOk t.isNativeFlag','coptionOk t.isNativeFlag','option tags are 0 or 1','check weakened')
m('rt_unpack_mint_init',R,'unpackMint','  ensure (m.isInitialized = true) (.cpi .uninitialized)\n','','mints are initialised','check dropped')
m('rt_owner_any',R,'validateOwner','  ensure (expected = auth) (.cpi .ownerMismatch)\n','','only the owner moves tokens','check dropped')
m('rt_owner_multisig',R,'validateOwner','ensure (¬ ((L auth).owner = SPL_TOKEN_PROGRAM_ID ∧ (L auth).data.length = TOKEN_MULTISIG_LEN))','ensure True','a multisig wallet cannot act without its signers','check weakened')
m('rt_delegate_unlimited',R,'authorizeDebit','    ensure (amount.toNat ≤ t.delegateAmount.toNat) (.cpi .insufficientFunds)\n','','a delegate spends at most the allowance','check dropped')
m('rt_delegate_keeps_allowance',R,'authorizeDebit','let rest := t.delegateAmount - amount','let rest := t.delegateAmount','the allowance shrinks')
m('rt_delegate_not_cleared',R,'authorizeDebit','(if rest = 0 then writeAt d1 TA_DELEGATE_FLAG (u32le 0) else d1)','d1','a used-up delegate is removed')
m('rt_spl_transfer_owner',R,'splTransfer','ensure ((L src).owner = SPL_TOKEN_PROGRAM_ID ∧ (L dst).owner = SPL_TOKEN_PROGRAM_ID) (.cpi .invalidOwner)\n  let s ← unpackTokenAccount (L src).data\n  let t','ensure ((L src).owner = SPL_TOKEN_PROGRAM_ID) (.cpi .invalidOwner)\n  let s ← unpackTokenAccount (L src).data\n  let t','accounts of other programs are not written','check weakened')
m('rt_spl_transfer_frozen',R,'splTransfer','ensure (s.state ≠ .Frozen ∧ t.state ≠ .Frozen)','ensure (s.state ≠ .Frozen)','frozen accounts receive nothing','check weakened')
m('rt_spl_transfer_mint',R,'splTransfer','  ensure (s.mint = t.mint) (.cpi .mintMismatch)\n','','tokens of two mints are not mixed','check dropped')
m('rt_spl_transfer_no_credit',R,'splTransfer','let ta ← okOr (checkedAddU64 t.amount amount) (.cpi .overflow)\n    .ok','let ta ← okOr (some t.amount) (.cpi .overflow)\n    .ok','tokens are conserved')
m('rt_spl_transfer_no_debit',R,'splTransfer','let sa ← okOr (checkedSubU64 s.amount amount) (.cpi .overflow)\n    let ta','let sa ← okOr (some s.amount) (.cpi .overflow)\n    let ta','tokens are conserved')
m('rt_spl_transfer_self',R,'splTransfer','  if src = dst then .ok L\n','  if False then .ok L\n','a transfer to itself changes nothing')
m('rt_mint_any_authority',R,'splMintTo','  validateOwner L m.mintAuthority auth\n','','only the mint authority mints','check dropped')
m('rt_mint_supply_kept',R,'splMintTo','let ms ← okOr (checkedAddU64 m.supply amount) (.cpi .overflow)','let ms ← okOr (some m.supply) (.cpi .overflow)','the supply grows with the mint')
m('rt_mint_supply_wraps',R,'splMintTo','okOr (checkedAddU64 m.supply amount) (.cpi .overflow)','okOr (some (m.supply + amount)) (.cpi .overflow)','the supply does not wrap','check weakened')
m('rt_mint_flag',R,'splMintTo','  ensure (m.mintAuthorityFlag = 1) (.cpi .fixedSupply)\n','','a mint without authority is fixed','check dropped')
m('rt_burn_supply_kept',R,'splBurn','let ms ← okOr (checkedSubU64 m.supply amount) (.cpi .overflow)','let ms ← okOr (some m.supply) (.cpi .overflow)','the supply shrinks with the burn')
m('rt_burn_balance_kept',R,'splBurn','let sa ← okOr (checkedSubU64 s.amount amount) (.cpi .overflow)\n  let ms','let sa ← okOr (some s.amount) (.cpi .overflow)\n  let ms','the balance shrinks with the burn')
m('rt_burn_anyone',R,'splBurn','s.owner = SYSTEM_PROGRAM_ID ∨ s.owner = INCINERATOR_ID then','True then','only the owner burns','check weakened')
m('rt_burn_mint',R,'splBurn','  ensure (s.mint = mint) (.cpi .mintMismatch)\n','','the burned tokens are of the mint','check dropped')
m('rt_cpi_token_no_signature',R,'cpiTokenTransfer','c.writes src ∧ c.writes dst ∧ c.signs auth','c.writes src ∧ c.writes dst','the authority signs','check weakened')
m('rt_cpi_token_readonly',R,'cpiTokenTransfer','c.writes src ∧ c.writes dst ∧ c.signs auth','c.writes src ∧ c.signs auth','only writable accounts change','check weakened')
m('rt_cpi_burn_no_signature',R,'cpiBurn','c.writes src ∧ c.writes mint ∧ c.signs auth','c.writes src ∧ c.writes mint','the authority signs','check weakened')
m('rt_fresh_owner',R,'freshTokenAccountData','mint.bytes ++ owner.bytes ++','mint.bytes ++ mint.bytes ++','the vault belongs to the state')
m('rt_fresh_state',R,'freshTokenAccountData','++ [1] ++','++ [0] ++','the vault is initialised')
m('rt_fresh_amount',R,'freshTokenAccountData','List.replicate 44 0','[1] ++ List.replicate 43 0','the vault starts empty')
m('rt_ata_rent',R,'ataCreatePda','else systemTransfer L funder ata (need - (L ata).lamports)','else .ok L','the vault gets rent')
m('rt_ata_existing_owner',R,'cpiCreateAtaIdempotent','    ensure (t.owner = wallet) (.cpi .invalidOwner)\n','','an existing vault belongs to the state','check dropped')
m('rt_ata_seeds',R,'cpiCreateAtaIdempotent','  ensure (addr = ata) (.cpi .invalidSeeds)\n','','the vault is at the derived address','check dropped')
m('rt_ata_mint_checked',R,'cpiCreateAtaIdempotent','    let _ ← unpackMint (L mint).data\n','','the ORCA mint is a mint','check dropped')
O='Outside.lean'
m('out_multisig_threshold',O,'checkOwner','ensure ((readU8 (L auth).data 0).toNat ≤ got)','ensure (1 ≤ got)','k of n signers are needed','check weakened')
m('out_multisig_unsigned',O,'multisigMatches','(∃ j ∈ List.range n, multisigKey d j = s) → sg s = true','False → sg s = true','multisig accounts must have signed','check weakened')
m('out_owner_unsigned',O,'checkOwner','else ensure (sg auth = true) (.cpi .notEnoughSigners)','else ensure True (.cpi .notEnoughSigners)','nobody takes ORCA out of the vault but the program','check weakened')
m('out_owner_any',O,'checkOwner','  ensure (expected = auth) (.cpi .ownerMismatch)\n','','nobody takes ORCA out of the vault but the program','check dropped')
m('out_debit_ignores_delegate_limit',O,'checkDebit','    ensure (amount.toNat ≤ t.delegateAmount.toNat) (.cpi .insufficientFunds)\n','','a delegate spends at most the allowance','check dropped')
m('out_mint_authority_unchecked',O,'tokMintTo','  checkOwner sg L m.mintAuthority auth ms\n  let ta','  let ta','nobody mints xORCA but the program','check dropped')
m('out_mint_supply',O,'tokMintTo','okOr (checkedAddU64 m.supply amount) (.cpi .overflow)','okOr (some (m.supply + amount)) (.cpi .overflow)','the supply does not wrap')
m('out_burn_supply_kept',O,'tokBurn','okOr (checkedSubU64 m.supply amount) (.cpi .overflow)','okOr (some m.supply) (.cpi .overflow)','supply bounds balances','')
m('out_set_owner_unchecked',O,'tokSetAccountAuthority','  | .accountOwner => do\n    checkOwner sg L t.owner auth ms\n','  | .accountOwner => do\n','nobody takes the vault over','check dropped')
m('out_close_authority_unchecked',O,'tokSetAccountAuthority','    checkOwner sg L (closer t) auth ms\n','','nobody sets a close authority on the vault','check dropped')
m('out_mint_authority_taken',O,'tokSetMintAuthority','    checkOwner sg L m.mintAuthority auth ms\n','','nobody takes the mint over','check dropped')
m('out_freeze_authority_from_none',O,'tokSetMintAuthority','    ensure (m.freezeAuthorityFlag = 1) (.cpi .cannotFreeze)\n    checkOwner sg L m.freezeAuthority auth ms\n','    checkOwner sg L (if m.freezeAuthorityFlag = 1 then m.freezeAuthority else auth) auth ms\n','no freeze authority appears','check weakened')
m('out_approve_unchecked',O,'tokApprove','  checkOwner sg L s.owner auth ms\n','','nobody approves a delegate of the vault','check dropped')
m('out_close_nonzero',O,'tokClose','ensure (s.isNativeFlag = 1 ∨ s.amount = 0)','ensure True','an account with tokens is not closed','check weakened')
m('out_close_unchecked',O,'checkClose','else checkOwner sg L (closer t) auth ms','else .ok ()','nobody closes the vault','check weakened')
m('out_freeze_no_authority',O,'tokFreeze','  ensure (m.freezeAuthorityFlag = 1) (.cpi .cannotFreeze)\n  checkOwner sg L m.freezeAuthority auth ms\n','','nobody freezes xORCA accounts','check dropped')
m('out_init_again',O,'tokInitAccount','  ensure (readU8 (L acc).data 108 = 0) (.cpi .accountInUse)\n','','the vault is not initialised again','check dropped')
m('out_init_mint_again',O,'tokInitMint','  ensure (readU8 (L mint).data 45 = 0) (.cpi .accountInUse)\n','','the mint is not initialised again','check dropped')
m('out_transfer_mint',O,'tokTransfer','  ensure (s.mint = t.mint) (.cpi .mintMismatch)\n','','tokens of two mints are not mixed','check dropped')
m('out_transfer_no_debit',O,'tokTransfer','let sa ← okOr (checkedSubU64 s.amount amount) (.cpi .overflow)\n    let ta','let sa ← okOr (some s.amount) (.cpi .overflow)\n    let ta','balances sum up to at most the supply')
m('out_burnable_everybody',O,'burnable','t.owner = SYSTEM_PROGRAM_ID ∨ t.owner = INCINERATOR_ID','t.owner = t.owner','nobody burns the vault','check weakened')
m('out_excess_all',O,'tokWithdrawExcess','checkedSubU64 (L src).lamports (rent (L src).data.length)','checkedSubU64 (L src).lamports 0','the rent minimum stays','check weakened')
m('out_rule_debit',O,'ProgramRule','((L k).owner ≠ p → Credited (L k) (L\' k))','((L k).owner ≠ p → (L\' k).owner = (L k).owner)','other programs do not write the pool','check weakened')
m('out_rule_give_away',O,'ProgramRule','AllZero (L\' k).data ∧ (p = SYSTEM_PROGRAM_ID → sg k = true)','(p = SYSTEM_PROGRAM_ID → sg k = true)','no account arrives with forged data','check weakened')
m('out_rule_system',O,'ProgramRule','AllZero (L\' k).data ∧ (p = SYSTEM_PROGRAM_ID → sg k = true)','AllZero (L\' k).data','the system program gives away only signers','check weakened')
m('out_pool_signs',O,'NotPool','StateAddr cr k b → sg k = false','StateAddr cr k b → sg k = false ∨ sg k = true','nobody signs for the state','check weakened')
m('out_purge_any',O,'Outside','  | purge {k} : (L k).lamports = 0 → Outside','  | purge {k} : (L k).lamports ≠ 0 → Outside','accounts with lamports stay')
m('out_token_program_free',O,'Outside','p ≠ PROGRAM_ID → p ≠ SPL_TOKEN_PROGRAM_ID → NotPool','p ≠ PROGRAM_ID → NotPool','the token program keeps to its instructions','check weakened')
m('out_program_free',O,'Outside','p ≠ PROGRAM_ID → p ≠ SPL_TOKEN_PROGRAM_ID → NotPool','p ≠ SPL_TOKEN_PROGRAM_ID → NotPool','only this program writes its accounts','check weakened')
K='Machine.lean'
m('mach_readers_limit',K,'Flag.CanRead','f.writer = false ∧ f.readers < 7','f.writer = false ∧ f.readers < 1','the borrow checks never fail a call','wrong constant')
m('mach_write_while_read',K,'Flag.CanWrite','f.writer = false ∧ f.readers = 0','f.readers = 0','(more permissive; only makes C93 easier)','check weakened','C93 says that the checks do not fail; it is not a statement about the checks themselves')
m('mach_stake_ref_mut',K,'processStakeM','let (state, s1) ← assertDataM s stateAccount STATE_LEN .State','let (state, s1) ← assertDataMutM s stateAccount STATE_LEN .State','a RefMut of the state over the CPI fails the call')
m('mach_unstake_ref_kept',K,'processUnstakeM','let _ ← assertTokenMintDataM s orcaMintAccount\n  let (stateView, _) ←','let _ ← assertTokenMintDataM s orcaMintAccount\n  let (stateView, s) ←','a Ref kept alive fails the later RefMut')
m('mach_unstake_state_passed',K,'processUnstakeM','[(unstakerXorcaAta.key, true), (xorcaMintAccount.key, true), (unstakerAccount.key, false)]','[(unstakerXorcaAta.key, true), (unstakerAccount.key, false)]','accounts not passed keep their old contents')
m('mach_withdraw_ref_kept',K,'processWithdrawM',"let (pw', _) ← assertDataM s pendingWithdrawAccount","let (pw', s) ← assertDataM s pendingWithdrawAccount",'a Ref kept alive fails the close')
m('mach_close_keeps_borrow',K,'closeProgramAccountM',"let F' := dropMut F toClose","let F' := F",'a RefMut kept alive fails the resize')
m('mach_close_order',K,'closeProgramAccountM','let L3 := L2.setLamports toClose 0','let L3 := L2','lamports are balanced at the end','statement dropped')
m('mach_init_borrow_kept',K,'processInitializeM','let _ ← tryBorrowMut s1.flags stateAccount.key','let F ← tryBorrowMut s1.flags stateAccount.key\n  let s1 : Mach := { s1 with flags := F }','a RefMut of the state over the CPI fails the call')
m('mach_unstake_writes_before_cpi',K,'processUnstakeM','let s3 := s2.setData stateAccount.key (setStEscrow st newEscrow)','let s3 := s2.setData vaultAccount.key (setStEscrow st newEscrow)','only own accounts are written')
m('mach_change_any',K,'ChangeAllowed',"(a'.data ≠ a.data → a.owner = PROGRAM_ID) ∧","","(more permissive; only makes C93 easier)",'check weakened','as above')
m('mach_growth_limit',K,'MAX_DATA_INCREASE','def MAX_DATA_INCREASE : Nat := 10240','def MAX_DATA_INCREASE : Nat := 100','an account grows enough for the state','wrong constant')
m('mach_finish_unbalanced',K,'Mach.finish','require (lamportSum accounts s.led = lamportSum accounts s.base) .unbalanced\n  .ok s.led','.ok s.led','(more permissive; only makes C93 easier)','check dropped','as above')
m('mach_merge_base',K,'Mach.cpi',"merge (infos.map (·.1)) after s.led⟩","merge (infos.map (·.1)) after s.base⟩",'changes in accounts not passed survive a CPI')
H='Chain.lean'
m('tx_abort_keeps',H,'Tx.Runs','World cr t.charged t.steps M → Tx.Runs cr t t.charged','World cr t.charged t.steps M → Tx.Runs cr t M','a failed transaction changes nothing but the fee')
m('tx_fee_free',H,'Tx.charged','(t.pre t.payer).lamports - t.fee','(t.pre t.payer).lamports + t.fee','a fee is no gift')
m('tx_payer_any',H,'Tx.Payable','(t.pre t.payer).owner = SYSTEM_PROGRAM_ID ∧ t.fee','t.fee','the payer is a wallet','check weakened')
m('tx_entries_abort',H,'Tx.entries','(if t.committed then t.steps else [])','t.steps','a failed transaction leaves only the fee')
m('tx_steps_order',H,'stepsOf','t.entries ++ stepsOf ts','stepsOf ts ++ t.entries','newest step first')
V='Replay.lean'
m('replay_withdraw_vault',V,'Index.event','vault := I.vault - amount.toNat','vault := I.vault','the indexer knows the vault')
m('replay_opened',V,'Index.event','opened := I.opened - 1','opened := I.opened','the indexer counts the open requests')
m('replay_authority',V,'Index.event','.UpdateAuthoritySet new _ => { I with authority := new }','.UpdateAuthoritySet _ old => { I with authority := old }','the indexer knows the authority')
m('replay_order',V,'eventsOf','eventsOf h ++ e.label.events','e.label.events ++ eventsOf h','events are replayed oldest first')
m('replay_set_aside',V,'Event.setAside','.Unstake _ _ _ _ amount _ _ => amount.toNat','.Unstake amount _ _ _ _ _ _ => amount.toNat','the events tell what was set aside')
D='Real.lean'
m('sha_rotation',D,'bsig0','(rotr x 2) (rotr x 13)','(rotr x 3) (rotr x 13)','the demo addresses are the real ones','wrong constant')
m('sha_padding',D,'pad','(119 - n % 64) % 64','(120 - n % 64) % 64','the demo addresses are the real ones','wrong constant')
m('curve_test',D,'onCurve','l == 0 || l == 1','l == 1','zero is a square (the keys with y = ±1 are on the curve)','check weakened')
m('curve_euler',D,'onCurve','l == 0 || l == 1','l == 0','the demo addresses are off the curve for the right bumps')
m('curve_d',D,'dCoeff','37095705934669439343138083508754565189542113879843219016388785533085940283555','37095705934669439343138083508754565189542113879843219016388785533085940283556','the demo bumps are the real ones','wrong constant')
for x in M:
    for f,o,n in x['edits']:
        c=open('/verif/lean/Verif/'+f).read().count(o)
        if c!=1: sys.stderr.write(f"{x['name']} {c}\n")
print(json.dumps(M))
