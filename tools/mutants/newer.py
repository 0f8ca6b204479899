# Mutants of the memory block, the clients' errors, account locks and surroundings.  Usage: newer.py > SPEC.json
import json
M=[]
def m(name,definition,edits,claim,kind='wrong model',note=''):
    M.append(dict(name=name,edits=edits,definition=definition,claim=claim,kind=kind,note=note))
I='Input.lean'
r1='what the program reads is what the runtime wrote'
r2='the call through the block has the outcome of the call on the ledger'
m('in_pad_always','pad8',[[I,'def pad8 (n : Nat) : Nat := (8 - n % 8) % 8','def pad8 (n : Nat) : Nat := 8 - n % 8']],r1)
m('in_pad_none','pad8',[[I,'def pad8 (n : Nat) : Nat := (8 - n % 8) % 8','def pad8 (n : Nat) : Nat := 0 * n']],r1)
m('in_growth_runtime','GROWTH',[[I,'def GROWTH : Nat := 10240','def GROWTH : Nat := 10232']],r1)
m('in_growth_program','nextPos',[[I,'alignUp (p + (88 + 10240 + 8) + infoLen b p)','alignUp (p + (88 + 10240) + infoLen b p)']],r1)
m('in_align_down','alignUp',[[I,'(p + 7) / 8 * 8','p / 8 * 8']],r1)
m('in_flags_swapped','putAccount',[[I,'[255, flagByte m.isSigner, flagByte m.isWritable,','[255, flagByte m.isWritable, flagByte m.isSigner,']],r1)
m('in_flag_value','flagByte',[[I,'if b then 1 else 0','if b then 0 else 1']],r1)
m('in_marker','putAccount',[[I,'[255, flagByte m.isSigner','[254, flagByte m.isSigner']],r1)
m('in_owner_key_swapped','putAccount',[[I,'m.key.bytes ++ a.owner.bytes ++','a.owner.bytes ++ m.key.bytes ++']],r1)
m('in_length_after_data','putAccount',[[I,'u64le (UInt64.ofNat a.data.length) ++ a.data ++\n','a.data ++ u64le (UInt64.ofNat a.data.length) ++\n']],r1)
m('in_duplicate_long','putDuplicate',[[I,'UInt8.ofNat i :: List.replicate 7 0','UInt8.ofNat i :: List.replicate 15 0']],r1)
m('in_duplicate_index','putDuplicate',[[I,'UInt8.ofNat i :: List.replicate 7 0','UInt8.ofNat (i + 1) :: List.replicate 7 0']],r1)
m('in_no_duplicates','putAccounts',[[I,'      | some i => putDuplicate i\n      | none => putAccount (exec m.key) epoch m (L m.key)) ++','      | some _ => putAccount (exec m.key) epoch m (L m.key)\n      | none => putAccount (exec m.key) epoch m (L m.key)) ++']],'an account listed twice is one account in memory')
m('in_seen_not_kept','putAccounts',[[I,'putAccounts exec epoch L (seen ++ [m]) ms\n','putAccounts exec epoch L seen ms\n']],'an account listed twice is one account in memory')
m('in_seen_reversed','putAccounts',[[I,'putAccounts exec epoch L (seen ++ [m]) ms\n','putAccounts exec epoch L (m :: seen) ms\n']],r1)
m('in_count_missing','putInput',[[I,'u64le (UInt64.ofNat ms.length) ++ putAccounts','u64le (UInt64.ofNat (ms.length - 1)) ++ putAccounts']],r1)
m('in_data_length','putInput',[[I,'u64le (UInt64.ofNat data.length) ++ data ++\n','u64le (UInt64.ofNat (data.length + 1)) ++ data ++\n']],r1)
m('in_key_offset','infoKey',[[I,'readKey b (p + 8)\n/-- `AccountInfo::is_signer','readKey b (p + 40)\n/-- `AccountInfo::is_signer']],r1)
m('in_signer_offset','infoSigner',[[I,'readU8 b (p + 1) != 0','readU8 b (p + 2) != 0']],r1)
m('in_writable_offset','infoWritable',[[I,'readU8 b (p + 2) != 0','readU8 b (p + 3) != 0']],r1)
m('in_owner_offset','infoOwner',[[I,'readKey b (p + 40)','readKey b (p + 8)']],r1)
m('in_lamports_offset','infoLamports',[[I,'readU64 b (p + 72)','readU64 b (p + 80)']],r1)
m('in_len_offset','infoLen',[[I,'(readU64 b (p + 80)).toNat\n/-- The bytes','(readU64 b (p + 72)).toNat\n/-- The bytes']],r1)
m('in_data_offset','infoData',[[I,'slice b (p + 88) (infoLen b p)','slice b (p + 80) (infoLen b p)']],r1)
m('in_max_small','MAX_TX_ACCOUNTS',[[I,'def MAX_TX_ACCOUNTS : Nat := 254','def MAX_TX_ACCOUNTS : Nat := 64']],'up to 254 accounts are read')
m('in_dup_skips_account','getAccounts',[[I,'      | some q => getAccounts b n (p + 8) (seen ++ [q])','      | some _ => getAccounts b n (p + 8) seen']],r1)
m('in_dup_new_pointer','getAccounts',[[I,'      | some q => getAccounts b n (p + 8) (seen ++ [q])','      | some _ => getAccounts b n (p + 8) (seen ++ [p])']],'two entries with one key are one account in memory')
m('in_pid_before_data','getInput',[[I,'readKey b (p + 8 + (readU64 b p).toNat)','readKey b (p + 8)']],r1)
m('in_store_no_len','storeAccount',[[I,'''  writeAt (writeAt (writeAt (writeAt b (p + 40) a.owner.bytes) (p + 72) (u64le a.lamports)) (p + 80)
    (u64le (UInt64.ofNat a.data.length))) (p + 88) a.data''','''  writeAt (writeAt (writeAt b (p + 40) a.owner.bytes) (p + 72) (u64le a.lamports)) (p + 88) a.data''']],r2)
m('in_store_no_owner','storeAccount',[[I,'(writeAt b (p + 40) a.owner.bytes)','b']],r2)
m('in_store_key','storeAccount',[[I,'(writeAt b (p + 40) a.owner.bytes)','(writeAt b (p + 8) a.owner.bytes)']],'a write does not change keys; '+r2)
m('in_back_new_length','readBack',[[I,'(p + 88 + (L m.key).data.length + (GROWTH + pad8 (L m.key).data.length) + 8) ms','(p + 88 + infoLen b p + (GROWTH + pad8 (infoLen b p)) + 8) ms']],r2)
m('in_back_no_limit','readBack',[[I,'      if (L m.key).data.length + GROWTH < infoLen b p then none\n      else readBack','      if (L m.key).data.length + 2 * GROWTH < infoLen b p then none\n      else readBack']],'an account that grew by more than 10240 bytes is refused')
m('in_back_no_growth','readBack',[[I,'      if (L m.key).data.length + GROWTH < infoLen b p then none\n      else readBack','      if (L m.key).data.length < infoLen b p then none\n      else readBack']],r2)
E='Client/Errors.lean'
m('er_text','rustErrorText',[[E,'  | .InvalidSeeds => "Invalid seeds"\n  | .IncorrectAccountAddress => "Invalid account address"\n  | .InvalidAccountData => "Invalid account data"\n  | .ArithmeticError => "Arithmetic error"\n  | .InsufficientFunds => "Insufficient funds error"\n  | .StateAccountAlreadyInitialized => "State account already initialized"\n  | .CoolDownPeriodStillActive => "Cool down period still active"\n  | .EmitEventError => "Event serialization failed"\n  | .InvalidCoolDownPeriod => "Invalid cooldown period: must be non-negative"\n  | .InsufficientStakeAmount => "Stake amount too small to mint any xORCA"\n  | .InsufficientUnstakeAmount => "Unstake amount too small to receive any ORCA"\n  | .InsufficientEscrow => "Insufficient escrow to cover withdraw amount"\n  | .CoolDownOverflow => "Cooldown timestamp overflowed"\n  | .InsufficientVaultBacking => "Insufficient vault backing (vault < escrow)"\n  | .UnauthorizedDeployerAccess => "Unauthorized deployer access"\n\n/-- `js-client','  | .InvalidSeeds => "Invalid seed"\n  | .IncorrectAccountAddress => "Invalid account address"\n  | .InvalidAccountData => "Invalid account data"\n  | .ArithmeticError => "Arithmetic error"\n  | .InsufficientFunds => "Insufficient funds error"\n  | .StateAccountAlreadyInitialized => "State account already initialized"\n  | .CoolDownPeriodStillActive => "Cool down period still active"\n  | .EmitEventError => "Event serialization failed"\n  | .InvalidCoolDownPeriod => "Invalid cooldown period: must be non-negative"\n  | .InsufficientStakeAmount => "Stake amount too small to mint any xORCA"\n  | .InsufficientUnstakeAmount => "Unstake amount too small to receive any ORCA"\n  | .InsufficientEscrow => "Insufficient escrow to cover withdraw amount"\n  | .CoolDownOverflow => "Cooldown timestamp overflowed"\n  | .InsufficientVaultBacking => "Insufficient vault backing (vault < escrow)"\n  | .UnauthorizedDeployerAccess => "Unauthorized deployer access"\n\n/-- `js-client']],'program and clients have the same texts')
m('er_code_swapped','rustErrorOf',[[E,'  | 0x1774 => some .IncorrectOwner\n  | 0x1775 => some .InvalidSeeds','  | 0x1774 => some .InvalidSeeds\n  | 0x1775 => some .IncorrectOwner']],'the Rust client reads codes as the program numbers them')
m('er_code_missing','rustErrorOf',[[E,'  | 0x1783 => some .UnauthorizedDeployerAccess\n','']],'the Rust client knows every error')
m('er_js_any_program','jsIsProgramError',[[E,'some p => p = program && (match','some p => p = p && (match']],'an error of another program is not taken for one of this')
m('er_js_any_code','jsIsProgramError',[[E,'      | some c\' => c = c\')','      | some c\' => c = c\' || c = 6000)']],'a code is recognised exactly')
m('er_cpi_hidden','reported',[[E,'    | some c => .custom c\n    | none => .builtin\n  | .panicked','    | some _ => .builtin\n    | none => .builtin\n  | .panicked']],'without a code the test answers yes for numbered errors of called programs, too')
m('er_js_code_ignored','jsIsXorcaStakingProgramError',[[E,'jsIsProgramError e programs PROGRAM_ID code','jsIsProgramError e programs PROGRAM_ID none']],'with a code the test answers for that error only')
P='Parallel.lean'
m('par_first_only','parallel',[[P,'  | some j => j.after L k\n','  | some _ => L k\n']],'running at the same time is running one after the other')
m('par_no_read_lock','Conflict',[[P,'(m.isWritable = true ∨ n.isWritable = true)','(m.isWritable = true ∧ n.isWritable = true)']],'without conflicts the order does not matter; any two calls conflict')
m('par_fail_clears','Job.after',[[P,'(j.run L).getD L','(j.run L).getD fun _ => ⟨0, SYSTEM_PROGRAM_ID, []⟩']],'a failing transaction changes nothing')
m('par_then_keeps_half','Job.then',[[P,'(j.run L).bind j\'.run⟩','(j.run L).bind fun M => some ((j\'.run M).getD M)⟩']],'a transaction is all or nothing')
m('par_then_locks','Job.then',[[P,'⟨j.locks ++ j\'.locks,','⟨j.locks,']],'a transaction locks the accounts of all its calls')
for x in M:
    for f,o,n in x['edits']:
        c=open('/verif/lean/Verif/'+f).read().count(o)
        assert c==1,(x['name'],c)
print(json.dumps(M))
