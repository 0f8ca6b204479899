# Mutants of the program's model.  Usage: core.py > SPEC.json
import json
M=[]
def m(name,file,definition,old,new,claim,kind='edit',note=''):
    M.append(dict(name=name,edits=[[file,old,new]],definition=definition,claim=claim,kind=kind,note=note))
B='Basic.lean'
m('add_u64_wraps',B,'checkedAddU64','if a.toNat + b.toNat < 2 ^ 64 then some (UInt64.ofNat (a.toNat + b.toNat)) else none','some (UInt64.ofNat (a.toNat + b.toNat))','escrow and balances never wrap','check weakened')
m('sub_u64_wraps',B,'checkedSubU64','if b.toNat ≤ a.toNat then some (UInt64.ofNat (a.toNat - b.toNat)) else none','some (a - b)','a vault short of the escrow is noticed','check weakened')
m('sub_u64_saturates',B,'checkedSubU64','if b.toNat ≤ a.toNat then some (UInt64.ofNat (a.toNat - b.toNat)) else none','some (UInt64.ofNat (a.toNat - b.toNat))','a vault short of the escrow is noticed','check weakened')
m('add_i64_wraps',B,'checkedAddI64','if -(2 ^ 63) ≤ a.toInt + b.toInt ∧ a.toInt + b.toInt < 2 ^ 63 then\n    some (Int64.ofInt (a.toInt + b.toInt)) else none','some (Int64.ofInt (a.toInt + b.toInt))','the maturity does not wrap into the past','check weakened')
m('mul_u128_is_u64',B,'checkedMulU128','if a * b < 2 ^ 128 then some (a * b) else none','if a * b < 2 ^ 64 then some (a * b) else none','conversions fail only if the result does not fit','wrong constant')
m('div_u128_rounds_up',B,'checkedDivU128','if b = 0 then none else some (a / b)','if b = 0 then none else some ((a + b - 1) / b)','conversions round down')
m('u64_of_u128_truncates',B,'u64OfU128','if a < 2 ^ 64 then some (UInt64.ofNat a) else none','some (UInt64.ofNat a)','a result that does not fit is refused','check weakened')
m('error_codes_swapped',B,'ErrorCode.code','  | .InvalidCoolDownPeriod => 6013\n  | .InsufficientStakeAmount => 6014','  | .InvalidCoolDownPeriod => 6014\n  | .InsufficientStakeAmount => 6013','client and program agree on the codes','wrong constant')
m('error_code_base',B,'ErrorCode.code','  | .UnauthorizedDeployerAccess => 6019','  | .UnauthorizedDeployerAccess => 6020','client and program agree on the codes','wrong constant')
m('i64_sign_lost',B,'leI64','def leI64 (b : Bytes) : Int64 := (leU64 b).toInt64','def leI64 (b : Bytes) : Int64 := ((leU64 b) &&& 0x7fffffffffffffff).toInt64','negative periods are seen and refused')
m('write_at_shifts',B,'writeAt','d.take off ++ b ++ d.drop (off + b.length)','d.take off ++ b ++ d.drop off','writing one field leaves the others alone')
H='Math.lean'
m('stake_supply_for_orca',H,'convertOrcaToXorca','okOr (checkedMulU128 orcaAmountToConvertU128 supplyV)','okOr (checkedMulU128 orcaAmountToConvertU128 nonEscrowedV)','the minted amount is a*(s+100)/(n+100)')
m('stake_no_first_case',H,'convertOrcaToXorca','if xorcaSupply = 0 ∨ nonEscrowedOrcaAmount = 0 then\n    .ok orcaAmountToConvert','if xorcaSupply = 0 ∧ nonEscrowedOrcaAmount = 0 then\n    .ok orcaAmountToConvert','with no supply or no backing the rate is one to one')
m('stake_first_case_zero',H,'convertOrcaToXorca','    .ok orcaAmountToConvert\n','    .ok 0\n','with no supply the rate is one to one')
m('unstake_zero_supply_pays',H,'convertXorcaToOrca','    .error (.custom .ArithmeticError)\n','    .ok xorcaAmountToConvert\n','nothing is paid out of an empty pool')
m('unstake_supply_not_virtual',H,'convertXorcaToOrca','let prod ← okOr (checkedMulU128 xorcaAmountToConvertU128 nonEscrowedV) (.custom .ArithmeticError)\n    let out ← okOr (checkedDivU128 prod supplyV)','let prod ← okOr (checkedMulU128 xorcaAmountToConvertU128 nonEscrowedV) (.custom .ArithmeticError)\n    let out ← okOr (checkedDivU128 prod xorcaSupplyU128)','the redeemed amount is x*(n+100)/(s+100), solvency')
m('unstake_error_name',H,'convertXorcaToOrca','    .error (.custom .ArithmeticError)\n','    .error (.custom .InsufficientUnstakeAmount)\n','the error of an Unstake from an empty pool','wrong error')
P='Pda.lean'
m('derive_no_program',P,'deriveAddress','(seeds.flatten ++ [bump] ++ programId.bytes ++ PDA_MARKER)','(seeds.flatten ++ [bump] ++ PDA_MARKER)','addresses of different programs differ')
m('derive_no_marker',P,'deriveAddress','(seeds.flatten ++ [bump] ++ programId.bytes ++ PDA_MARKER)','(seeds.flatten ++ [bump] ++ programId.bytes)','the addresses are those of the runtime')
m('create_address_no_curve',P,'createProgramAddress','if cr.onCurve k then none else some k','some k','the canonical bump is the first off the curve')
m('find_from_254',P,'findProgramAddress','findFrom cr seeds programId 255','findFrom cr seeds programId 254','the canonical bump is searched from 255','wrong constant')
m('record_seed_prefix',P,'pendingWithdrawSeedsRaw','[SEED_PENDING_WITHDRAW, unstaker.bytes, withdrawIndex]','[SEED_STATE, unstaker.bytes, withdrawIndex]','record addresses are those that the clients derive','wrong constant')
m('vault_seeds_order',P,'vaultSeedsRaw','[state.bytes, tokenProgram.bytes, orcaMint.bytes]','[state.bytes, orcaMint.bytes, tokenProgram.bytes]','the vault is the associated account of the state')
C='Constants.lean'
m('program_id_byte',C,'PROGRAM_ID','[6,161,213,231,202','[6,161,213,231,203','the program id is that of lib.rs','wrong constant')
m('deployer_byte',C,'DEPLOYER_ADDRESS','⟨[119,211,124','⟨[119,211,125','the deployer is that of lib.rs','wrong constant')
m('xorca_mint_byte',C,'XORCA_MINT_ID','⟨[14,75,236','⟨[14,75,237','the mint is that of mod.rs','wrong constant')
m('orca_mint_byte',C,'ORCA_MINT_ID','⟨[12,0,208','⟨[12,0,209','the mint is that of mod.rs','wrong constant')
m('state_len',C,'STATE_LEN','def STATE_LEN : Nat := 2048','def STATE_LEN : Nat := 2047','the state has 2048 bytes','wrong constant')
m('record_len',C,'PENDING_WITHDRAW_LEN','def PENDING_WITHDRAW_LEN : Nat := 1024','def PENDING_WITHDRAW_LEN : Nat := 1016','a record has 1024 bytes','wrong constant')
m('discriminators_equal',C,'AccountDiscriminator.toU8','  | .PendingWithdraw => 2','  | .PendingWithdraw => 1','state and records are told apart','wrong constant')
m('closed_is_record',C,'AccountDiscriminator.toU8','  | .Closed => 3','  | .Closed => 2','closed records are told apart','wrong constant')
m('seed_state',C,'SEED_STATE','[115, 116, 97, 116, 101]','[115, 116, 97, 116, 102]','the state address is that of the clients','wrong constant')
Y='Layout.lean'
m('bool_any',Y,'getBool','else if b = 1 then some (true, d) else none','else some (true, d)','a mint with a bad flag is refused','check weakened')
m('token_state_any',Y,'getTokenAccountState','    else if b = 2 then some (.Frozen, r)\n    else none','    else some (.Frozen, r)','a token account with a bad state is refused','check weakened')
m('mint_fields_swapped',Y,'decodeTokenMint','  let (decimals, d) ← getU8 d\n  let (isInitialized, d) ← getBool d','  let (isInitialized, d) ← getBool d\n  let (decimals, d) ← getU8 d','decimals are read at their place')
m('token_mint_owner_swapped',Y,'decodeTokenAccount','  let (mint, d) ← getKey d\n  let (owner, d) ← getKey d','  let (owner, d) ← getKey d\n  let (mint, d) ← getKey d','mint and owner are read at their places')
m('ta_amount_off',Y,'TA_AMOUNT','def TA_AMOUNT : Nat := 64','def TA_AMOUNT : Nat := 72','amounts are written at their place','wrong constant')
m('mint_supply_off',Y,'MINT_SUPPLY','def MINT_SUPPLY : Nat := 36','def MINT_SUPPLY : Nat := 40','the supply is written at its place','wrong constant')
m('state_fields_order',Y,'STATE_FIELDS','[(1, 1), (5, 1), (1, 1), (1, 1), (8, 8), (8, 8), (32, 1), (1992, 1)]','[(1, 1), (4, 1), (1, 1), (1, 1), (8, 8), (8, 8), (32, 1), (1992, 1)]','program and clients read the same bytes','wrong constant')
m('record_fields_align',Y,'PENDING_WITHDRAW_FIELDS','[(1, 1), (5, 1), (1, 1), (1, 1), (32, 1), (8, 8), (8, 8), (968, 1)]','[(1, 1), (5, 1), (1, 1), (1, 1), (36, 1), (8, 8), (8, 8), (968, 1)]','program and clients read the same bytes','wrong constant')
m('st_vault_bump_is_bump',Y,'stVaultBump','readU8 d (stateOff 3)','readU8 d (stateOff 2)','the vault address uses the vault bump','wrong field')
m('st_escrow_reads_cool_down',Y,'stEscrow','readU64 d (stateOff 4)','readU64 d (stateOff 5)','the backing is vault minus escrow','wrong field')
m('set_escrow_clears_cool_down',Y,'setStEscrow','writeAt d (stateOff 4) (u64le v)','writeAt d (stateOff 4) (u64le v ++ u64le 0)','Unstake changes the escrow only')
m('set_pw_amount_over_owner',Y,'setPwAmount','writeAt d (pwOff 5) (u64le v)','writeAt d (pwOff 4) (u64le v)','the record keeps its owner','wrong field')
m('pw_index_is_bump',Y,'pwIndex','readU8 d (pwOff 3)','readU8 d (pwOff 2)','the index is read at its place','wrong field')
m('pw_unstaker_off',Y,'pwUnstaker','readKey d (pwOff 4)','readKey d (pwOff 5)','the owner is read at its place','wrong field')
m('set_pw_index_noop',Y,'setPwIndex','def setPwIndex (d : Bytes) (v : UInt8) : Bytes := writeAt d (pwOff 3) [v]','def setPwIndex (d : Bytes) (_ : UInt8) : Bytes := writeAt d (pwOff 3) [0]','the record stores its index')
m('default_disc',Y,'State.default','  discriminator := .State\n','  discriminator := .PendingWithdraw\n','Initialize makes a state that is accepted later','wrong constant')
m('default_escrow',Y,'State.default','  escrowedOrcaAmount := 0\n','  escrowedOrcaAmount := 1\n','the escrow starts at zero','wrong constant')
m('state_serialize_order',Y,'State.serialize','[s.bump] ++ [s.vaultBump] ++ u64le','[s.vaultBump] ++ [s.bump] ++ u64le','bumps are stored at their places')
m('state_deserialize_order',Y,'State.deserialize','  let (escrowedOrcaAmount, d) ← getU64 d\n  let (coolDownPeriodS, d) ← getI64 d\n  let (updateAuthority, d)','  let (coolDownPeriodS, d) ← getI64 d\n  let (escrowedOrcaAmount, d) ← getU64 d\n  let (updateAuthority, d)','clients read what the program stored')
m('record_deserialize_order',Y,'PendingWithdraw.deserialize','  let (bump, d) ← getU8 d\n  let (withdrawIndex, d) ← getU8 d\n  let (unstaker','  let (withdrawIndex, d) ← getU8 d\n  let (bump, d) ← getU8 d\n  let (unstaker','clients read what the program stored')
m('record_serialize_time',Y,'PendingWithdraw.serialize','u64le p.withdrawableOrcaAmount ++ i64le p.withdrawableTimestamp','i64le p.withdrawableTimestamp ++ u64le p.withdrawableOrcaAmount','encoding and decoding agree')
m('disc_closed_refused',Y,'getDiscriminator','    else if b = 3 then some (.Closed, r)\n','','clients accept each tag')
A='Assertions.lean'
m('account_index_off',A,'getAccountInfo','if accounts.length ≤ index then','if accounts.length ≤ index + 1 then','too few accounts are refused with NotEnoughAccountKeys')
m('role_signer_ignored',A,'assertAccountRole','    | .Signer, false, _ => .error (.custom .InvalidAccountRole)\n','','the user signs','check dropped')
m('role_writable_ignored',A,'assertAccountRole','    | .Writable, _, false => .error (.custom .InvalidAccountRole)\n','','accounts are writable','check dropped')
m('owner_inverted',A,'assertAccountOwner','ensure ((L account.key).owner = owner)','ensure ((L account.key).owner ≠ owner)','owners are checked')
m('seeds_any',A,'assertAccountSeeds','  ensure (account.key = address) (.custom .InvalidSeeds)\n  .ok bump','  .ok bump','records lie at their addresses','check dropped')
m('seeds_error',A,'assertAccountSeeds','ensure (account.key = address) (.custom .InvalidSeeds)\n  .ok bump','ensure (account.key = address) (.custom .IncorrectAccountAddress)\n  .ok bump','the error is InvalidSeeds','wrong error')
m('len_exact',A,'assertAccountLen','if (L account.key).data.length < length then','if (L account.key).data.length ≠ length then','longer accounts are accepted')
m('len_any',A,'assertAccountLen','if (L account.key).data.length < length then .error (.custom .InvalidAccountData) else .ok ()','.ok ()','short accounts are refused','check dropped')
m('disc_empty_ok',A,'assertAccountDiscriminator','  | [] => .error (.custom .InvalidAccountData)','  | [] => .ok ()','empty accounts are refused','check weakened')
m('state_disc_record',A,'assertStateData','assertAccountData L account STATE_LEN .State','assertAccountData L account STATE_LEN .PendingWithdraw','a record is not a state','wrong constant')
m('record_len_check',A,'assertPendingWithdrawData','assertAccountData L account PENDING_WITHDRAW_LEN .PendingWithdraw','assertAccountData L account STATE_LEN .PendingWithdraw','a record can be withdrawn','wrong constant')
m('token_program_unchecked',A,'makeOwnerTokenAccountAssertions','  assertAccountOwner L ownerTokenAccount SPL_TOKEN_PROGRAM_ID\n','','token accounts belong to the token program','check dropped')
m('token_writable_unchecked',A,'makeOwnerTokenAccountAssertions','  if verifyWritable then assertAccountRole ownerTokenAccount [.Writable] else .ok ()\n','','the user account is writable','check dropped')
m('verify_state_any_bump',A,'verifyStateAddress','ensure (account.key = deriveAddress cr stateSeedsRaw storedBump PROGRAM_ID) (.custom .InvalidSeeds)','ensure (∃ b ∈ [storedBump, 255], account.key = deriveAddress cr stateSeedsRaw b PROGRAM_ID) (.custom .InvalidSeeds)','only the stored bump counts','check weakened')
m('verify_vault_program',A,'verifyVaultAddress','      ASSOCIATED_TOKEN_PROGRAM_ID) (.custom .InvalidSeeds)','      PROGRAM_ID) (.custom .InvalidSeeds)','the vault is the associated account of the state','wrong constant')
m('verify_record_user',A,'verifyPendingWithdrawAddress','(pendingWithdrawSeedsRaw unstaker withdrawIndex) storedBump','(pendingWithdrawSeedsRaw unstaker [0]) storedBump','the record is that of the index')
m('create_overwrites',A,'createAccountSecure','  if (L newAccount).owner ≠ SYSTEM_PROGRAM_ID then .ok L\n  else\n','','an existing account is left alone','check dropped')
m('create_top_up_full',A,'createAccountSecure','if requiredLamports.toNat ≤ currentLamports.toNat then 0 else requiredLamports - currentLamports','requiredLamports','only the missing lamports are paid')
m('create_no_assign',A,'createAccountSecure','      cpiAssign c L2 newAccount owner','      .ok L2','a prefunded record belongs to the program','step dropped')
m('create_no_allocate',A,'createAccountSecure','      let L2 ← cpiAllocate c L1 newAccount space\n      cpiAssign c L2','      cpiAssign c L1','a prefunded record has its size','step dropped')
m('create_underfunded',A,'createAccountSecure','cpiCreateAccount c L funder newAccount requiredLamports space owner','cpiCreateAccount c L funder newAccount 0 space owner','a record is rent exempt')
m('record_tag_state',A,'createPendingWithdrawSecure','setByte0 (L1 newAccount).data AccountDiscriminator.PendingWithdraw.toU8','setByte0 (L1 newAccount).data AccountDiscriminator.State.toU8','a record has its tag','wrong constant')
m('record_size',A,'createPendingWithdrawSecure','L funder newAccount PENDING_WITHDRAW_LEN PROGRAM_ID','L funder newAccount STATE_LEN PROGRAM_ID','a record has 1024 bytes','wrong constant')
m('record_foreign_owner',A,'createPendingWithdrawSecure','L funder newAccount PENDING_WITHDRAW_LEN PROGRAM_ID','L funder newAccount PENDING_WITHDRAW_LEN SPL_TOKEN_PROGRAM_ID','a record belongs to the program','wrong constant')
m('state_written_at_1',A,'createStateBorsh','(writeAt (L1 newAccount).data 0 ser)','(writeAt (L1 newAccount).data 1 ser)','the state is stored at its place','wrong constant')
m('close_no_refund',A,'closeProgramAccount','((L1 receiver).lamports + (L1 toClose).lamports)','((L1 receiver).lamports)','rent is refunded')
m('close_keeps_lamports',A,'closeProgramAccount','  let L3 := L2.setLamports toClose 0\n  let L4 := L3.setData','  let L4 := L2.setData','lamports are conserved','step dropped')
E_='Event.lean'
m('event_tag',E_,'Event.serialize','  | .Withdraw a b c d => [2] ++','  | .Withdraw a b c d => [4] ++','clients decode the event','wrong constant')
m('event_fields',E_,'Event.serialize','[0] ++ u64le a ++ u64le b ++ u64le c ++ u64le d ++ u64le e\n','[0] ++ u64le a ++ u64le b ++ u64le d ++ u64le c ++ u64le e\n','clients decode the event')
m('event_authority_order',E_,'Event.serialize','[3] ++ a.bytes ++ b.bytes','[3] ++ b.bytes ++ a.bytes','clients decode the event')
m('ix_set_tags',E_,'getStateUpdateInstruction','if tag = 0 then (getI64 d).map fun (v, r) => (.UpdateCoolDownPeriod v, r)\n    else if tag = 1','if tag = 1 then (getI64 d).map fun (v, r) => (.UpdateCoolDownPeriod v, r)\n    else if tag = 0','client bytes decode to the intended instruction','wrong constant')
m('ix_index_first',E_,'Instruction.deserialize','      let (a, d) ← getU64 d\n      let (i, d) ← getU8 d','      let (i, d) ← getU8 d\n      let (a, d) ← getU64 d','client bytes decode to the intended instruction')
m('ix_trailing_refused',E_,'Instruction.deserialize','if tag = 0 then (getU64 d).map fun (a, r) => (.Stake a, r)','if tag = 0 then (getU64 d).bind fun (a, r) => if r = [] then some (.Stake a, r) else none','trailing bytes are ignored')
N='Entrypoint.lean'
m('dispatch_swapped',N,'dispatch','  | .Withdraw withdrawIndex => processWithdraw x L accounts withdrawIndex','  | .Withdraw withdrawIndex => processUnstake x L accounts 0 withdrawIndex','Withdraw withdraws')
m('entry_error',N,'entry','(.custom .UnknownInstructionDiscriminator)','.invalidAccountData','the error of unknown data','wrong error')
print(json.dumps(M))
