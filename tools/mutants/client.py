# Mutants of the clients, the scripts and the published tables.  Usage: client.py > SPEC.json
import json,sys
M=[]
def m(name,file,definition,old,new,claim,kind='edit',note=''):
    M.append(dict(name=name,edits=[[file,old,new]],definition=definition,claim=claim,kind=kind,note=note))
B='Client/Base58.lean'
m('b58_alphabet',B,'base58Alphabet','123456789ABCDEFGHJKLMN','123456789ABCDEFGHIJKLM','the constants are the published addresses','wrong constant')
m('b58_little_endian',B,'base58Key','(leBytes 32 v).reverse','leBytes 32 v','the constants are the published addresses')
m('b58_leading_ones',B,'base58Key','v < 256 ^ 32 ∧ (s.toList.takeWhile (· == \'1\')).length = (b.takeWhile (· == 0)).length','v < 256 ^ 32','a key has one text only','check weakened')
C='Client/Codec.lean'
m('codec_event_tag',C,'decodeEvent','if tag = 3 then','if tag = 4 then','events are decoded as emitted','wrong constant')
m('codec_event_fields',C,'decodeEvent','some (.UpdateAuthoritySet newAuthority setBy)','some (.UpdateAuthoritySet setBy newAuthority)','events are decoded as emitted')
m('codec_event_stake_order',C,'decodeEvent','(.Stake orcaStakeAmount vaultOrcaAmount vaultEscrowedOrcaAmount xorcaMintSupply xorcaToMint)','(.Stake orcaStakeAmount vaultOrcaAmount vaultEscrowedOrcaAmount xorcaToMint xorcaMintSupply)','events are decoded as emitted')
m('codec_event_withdraw_missing',C,'decodeEvent','    some (.Withdraw vaultEscrowedOrcaAmount withdrawableOrcaAmount coolDownPeriodS withdrawIndex)','    some (.Withdraw vaultEscrowedOrcaAmount vaultEscrowedOrcaAmount coolDownPeriodS withdrawIndex)','events are decoded as emitted')
m('codec_identify_swapped',C,'jsIdentifyAccount','= [AccountDiscriminator.PendingWithdraw.toU8] then some .PendingWithdraw','= [AccountDiscriminator.PendingWithdraw.toU8] then some .State','accounts are identified by their first byte')
m('codec_rust_error',C,'rustErrorCode','| .InsufficientEscrow => 0x1780\n  | .CoolDownOverflow => 0x1781\n  | .InsufficientVaultBacking => 0x1782\n  | .UnauthorizedDeployerAccess => 0x1783\n\n/-- `js','| .InsufficientEscrow => 0x1781\n  | .CoolDownOverflow => 0x1780\n  | .InsufficientVaultBacking => 0x1782\n  | .UnauthorizedDeployerAccess => 0x1783\n\n/-- `js','client and program agree on the error codes','wrong constant')
m('codec_js_error',C,'jsErrorCode','| .StateAccountAlreadyInitialized => 0x177a','| .StateAccountAlreadyInitialized => 0x177b','client and program agree on the error codes','wrong constant')
V='Client/Conversion.lean'
m('conv_rust_offset',V,'VIRTUAL_XORCA_SUPPLY','/-- `rust-client/src/conversion.rs:79`. -/\ndef VIRTUAL_XORCA_SUPPLY : Nat := 100','/-- `rust-client/src/conversion.rs:79`. -/\ndef VIRTUAL_XORCA_SUPPLY : Nat := 101','the Rust client computes what the program computes','wrong constant')
m('conv_rust_swapped',V,'applyVirtualOffsets','.ok (nonEscrowedV, supplyV)','.ok (supplyV, nonEscrowedV)','the Rust client computes what the program computes')
m('conv_rust_first_case',V,'convertOrcaToXorca','then .ok orcaAmountToConvert\n','then .error .ZeroSupplyOrNonEscrowed\n','the Rust client computes what the program computes')
m('conv_rust_error',V,'convertXorcaToOrca','then .error .ZeroSupplyOrNonEscrowed\n','then .error .Arithmetic\n','the Rust client names the empty pool','wrong error')
m('conv_js_floor',V,'bigintDiv','some (a.tdiv b)','some (a / b)','bigint division rounds towards zero')
m('conv_js_offset',V,'JS_VIRTUAL_NON_ESCROWED_ORCA_AMOUNT','def JS_VIRTUAL_NON_ESCROWED_ORCA_AMOUNT : Int := 100','def JS_VIRTUAL_NON_ESCROWED_ORCA_AMOUNT : Int := 1000','the JS client computes what the program computes','wrong constant')
m('conv_js_no_case',V,'jsConvertXorcaToOrca','if xorcaSupply = 0 ∨ nonEscrowedOrcaAmount = 0 then none','if xorcaSupply = 0 then none','the JS client computes what the program computes','check weakened')
F='Client/Fetch.lean'
m('fetch_empty_exists',F,'getAccount','if (L k).lamports = 0 then none else some (L k)','some (L k)','closed records are not listed')
m('fetch_state_seed',F,'findStateAddress','[ascii "state"] p','[ascii "State"] p','clients derive the program\'s addresses','wrong constant')
m('fetch_vault_order',F,'findOrcaVaultAddress','[state.bytes, tokenProgram.bytes, orcaMint.bytes]','[state.bytes, orcaMint.bytes, tokenProgram.bytes]','clients derive the program\'s addresses')
m('fetch_record_order',F,'findPendingWithdrawPda','[ascii "pending_withdraw", unstaker.bytes, [withdrawIndex]]','[ascii "pending_withdraw", [withdrawIndex], unstaker.bytes]','clients derive the program\'s addresses')
m('fetch_xorca_for_orca',F,'ORCA_MINT_ADDRESS','"orcaEKTdK7LKz57vaAYr9QeNsVEPfiu6QeMU1kektZE"','"xorcaYqbXUNz3474ubUMJAdu2xgPsew3rUCe5ughT3N"','clients know the program\'s constants','wrong constant')
m('fetch_default_max',F,'DEFAULT_MAX_WITHDRAWALS_TO_SEARCH','UInt8 := 15','UInt8 := 5','the listing searches 15 indices','wrong constant')
m('fetch_addresses_from_one',F,'withdrawAddresses','(UInt8.ofNat i)','(UInt8.ofNat (i + 1))','the listing starts at index 0','off by one')
m('fetch_bad_record_skipped',F,'fetchAllMaybe','| some a => (PendingWithdraw.deserialize a.data).map some','| some a => some (PendingWithdraw.deserialize a.data)','the Rust listing fails on undecodable accounts')
m('fetch_vault_owner',F,'fetchVaultState','some { address, owner := t.owner, mint := t.mint, amount := t.amount }\n\n/-- `rust-client/src/utils/mod.rs:149','some { address, owner := t.mint, mint := t.owner, amount := t.amount }\n\n/-- `rust-client/src/utils/mod.rs:149','the vault state is the account\'s')
m('fetch_rate_inverted',F,'fetchStakingExchangeRate','some (numerator, denominator)','some (denominator, numerator)','the rate is backing over supply')
m('fetch_rate_whole_vault',F,'fetchStakingExchangeRate','checkedSubU64 vault.amount state.escrowedOrcaAmount','some vault.amount','the rate leaves the escrow out')
m('fetch_js_max',F,'jsValidMax','decide (255 < max)','decide (256 < max)','the JS listing takes at most 255','off by one')
m('fetch_js_default',F,'jsFetchPendingWithdraws','max.getD 15','max.getD 16','the JS listing searches 15 indices','wrong constant')
m('fetch_js_supply_offset',F,'jsDecodeMintSupply','readU64 d 36','readU64 d 4','the supply is read at its offset','wrong constant')
m('fetch_js_rate',F,'jsFetchStakingExchangeRate','(vault.amount.toNat : Int) - state.escrowedOrcaAmount.toNat','(vault.amount.toNat : Int) + state.escrowedOrcaAmount.toNat','the rate leaves the escrow out')
I='Client/Instructions.lean'
m('ix_update_tag',I,'encodeStateUpdate','[1] ++ newAuthority.bytes','[2] ++ newAuthority.bytes','the bytes decode to the instruction','wrong constant')
m('ix_discriminator',I,'discriminatorOf','| .Withdraw _ => 2\n  | .Initialize _ => 3','| .Withdraw _ => 3\n  | .Initialize _ => 2','the bytes decode to the instruction','wrong constant')
m('ix_unstake_order',I,'encodeArgs','u64le xorcaUnstakeAmount ++ [withdrawIndex]','[withdrawIndex] ++ u64le xorcaUnstakeAmount','the bytes decode to the instruction')
m('ix_identify',I,'jsIdentify','else if d.take 1 = [4] then some 4','else if d.take 1 = [4] then some 3','instructions are identified by their first byte')
m('ix_stake_readonly_mint',I,'StakeKeys.metas','AccountMeta.new a.xorcaMintAccount false, AccountMeta.newReadonly a.stateAccount false,\n   AccountMeta.newReadonly a.orcaMintAccount false','AccountMeta.newReadonly a.xorcaMintAccount false, AccountMeta.newReadonly a.stateAccount false,\n   AccountMeta.newReadonly a.orcaMintAccount false','built account lists pass the role checks')
m('ix_unstake_swapped',I,'UnstakeKeys.metas','AccountMeta.newReadonly a.orcaMintAccount false,\n   AccountMeta.newReadonly a.vaultAccount false,','AccountMeta.newReadonly a.vaultAccount false,\n   AccountMeta.newReadonly a.orcaMintAccount false,','built account lists are in the program\'s order')
m('ix_withdraw_not_signer',I,'WithdrawKeys.metas','[AccountMeta.new a.unstakerAccount true, AccountMeta.new a.stateAccount false,\n   AccountMeta.new a.pendingWithdrawAccount false, AccountMeta.new a.unstakerOrcaAta','[AccountMeta.new a.unstakerAccount false, AccountMeta.new a.stateAccount false,\n   AccountMeta.new a.pendingWithdrawAccount false, AccountMeta.new a.unstakerOrcaAta','built account lists pass the role checks')
m('ix_init_authority_readonly',I,'InitializeKeys.metas','AccountMeta.new a.updateAuthorityAccount true,\n   AccountMeta.new a.stateAccount false, AccountMeta.new a.vaultAccount','AccountMeta.newReadonly a.updateAuthorityAccount true,\n   AccountMeta.new a.stateAccount false, AccountMeta.new a.vaultAccount','built account lists pass the role checks')
m('ix_set_order',I,'SetKeys.metas','[AccountMeta.new a.updateAuthorityAccount true, AccountMeta.new a.stateAccount false]','[AccountMeta.new a.stateAccount false, AccountMeta.new a.updateAuthorityAccount true]','built account lists are in the program\'s order')
m('ix_passed_keys',I,'Passed','m.key = b.key ∧\n','True ∧\n','the program gets the keys of the list','check weakened')
U='Client/Builders.lean'
m('bld_kind',U,'Kind.number','| .Initialize => 3\n  | .Set => 4','| .Initialize => 4\n  | .Set => 3','the enum value is the discriminator','wrong constant')
m('bld_missing_meta',U,'jsMeta','| none => ⟨programAddress, false, false⟩','| none => ⟨programAddress, false, true⟩','a missing account is the read-only program')
m('bld_js_signer',U,'JsAccount.isSigner','| .signer _ => true','| .signer _ => false','signers are marked')
m('bld_js_writable',U,'jsWritable','| .Unstake => [true, true, true, true, true, false, false, false, false]','| .Unstake => [true, false, true, true, true, false, false, false, false]','built account lists pass the role checks')
m('bld_js_count',U,'jsCount','| .Unstake => 9\n','| .Unstake => 8\n','the parser wants all accounts','wrong constant')
m('bld_js_decode_update',U,'jsDecodeStateUpdate','else if variant = 1 then do','else if variant = 2 then do','parsing inverts building','wrong constant')
m('bld_js_decode_init',U,'jsDecodeData','| .Initialize => do\n    let (coolDownPeriodS, _) ← getI64 d','| .Initialize => do\n    let (_, d) ← getU8 d\n    let (coolDownPeriodS, _) ← getI64 d','parsing inverts building')
m('bld_js_kind',U,'jsKind','| some 3 => some .Initialize\n  | some 4 => some .Set','| some 3 => some .Set\n  | some 4 => some .Initialize','instructions are parsed as their kind')
m('bld_parse_all',U,'jsParse','(accounts.take (jsCount k), ix)','(accounts, ix)','the parser returns the named accounts only')
m('bld_rust_push',U,'rustPushes','| .Set => [(true, true), (false, true)]','| .Set => [(true, true), (false, false)]','built account lists pass the role checks')
m('bld_rust_meta',U,'rustMeta','if p.2 then AccountMeta.new key p.1 else','if p.1 then AccountMeta.new key p.1 else','flags are taken over')
m('bld_first_setter_wins',U,'Builder.apply','| .amount a => { b with amount := some a }','| .amount a => { b with amount := b.amount.or (some a) }','the last value given counts')
m('bld_remaining_replaced',U,'Builder.apply','remaining := b.remaining ++ r','remaining := r','remaining accounts accumulate')
m('bld_args_default',U,'Builder.args','| .Withdraw => b.index.map Instruction.Withdraw','| .Withdraw => some (Instruction.Withdraw (b.index.getD 0))','a missing argument panics')
m('bld_named_shift',U,'namedMetas','namedMetas account (p + 1) fs','namedMetas account p fs','accounts are taken by position','off by one')
m('bld_extra_flags',U,'extraMeta','⟨r.1, r.2.1, r.2.2⟩','⟨r.1, r.2.2, r.2.1⟩','the flags of remaining accounts are swapped in the generated code')
m('bld_cpi_rights',U,'CpiAllowed','(m.isSigner = true → c.signs m.key) ∧','','a caller passes on only signatures it has','check weakened')
S='Client/Scripts.lean'
m('scr_round_up',S,'roundDouble','r * 2 < 2 ^ s ∨ (r * 2 = 2 ^ s ∧ q % 2 = 0)','r * 2 < 2 ^ s','ties go to even')
m('scr_round_53',S,'roundDouble','if n < 2 ^ 53 then n','if n < 2 ^ 54 then n','numbers above 2^53 are rounded','wrong constant')
m('scr_decimal',S,'decimal','10 * a + (c.toNat','8 * a + (c.toNat','arguments are decimal','wrong constant')
m('scr_hex',S,'parseInt','let hex := auto &&','let hex :=','with radix 10 there is no hexadecimal')
m('scr_sign',S,'splitSign',"| '-' :: r => (true, r)","| '-' :: r => (false, r)",'negative arguments are seen')
m('scr_buffer',S,'bufferFrom','((v.getD 0) % 256)','((v.getD 0) % 255)','the seed byte is taken modulo 256','wrong constant')
m('scr_write_u8',S,'writeUInt8','i < 0 ∨ 255 < i','i < 0 ∨ 256 < i','an index above 255 is refused','off by one')
m('scr_write_u64',S,'writeBigUInt64LE','i < 0 ∨ 2 ^ 64 ≤ i','2 ^ 64 ≤ i','a negative amount is refused','check weakened')
m('scr_write_i64',S,'writeBigInt64LE','i < -2 ^ 63 ∨ 2 ^ 63 ≤ i','i < -2 ^ 63','a period above the range is refused','check weakened')
m('scr_stake_tag',S,'stake','data := [0] ++ amount','data := [1] ++ amount','the script sends a Stake','wrong constant')
m('scr_stake_balance',S,'stake','if (orcaBalance.toNat : Int) < orcaAmount then none','if False then none','the script checks the balance','check weakened')
m('scr_stake_state_writable',S,'stake','⟨state, false, false⟩','⟨state, true, false⟩','the script asks for no signature of the state')
m('scr_stake_ata',S,'stake','let needsXorcaAtaCreation := (getAccount L stakerXorcaAta).isNone','let needsXorcaAtaCreation := (getAccount L stakerXorcaAta).isSome','the script creates a missing account')
m('scr_unstake_keys',S,'unstake','⟨xorcaMint, false, true⟩, ⟨orcaMint, false, false⟩,\n             ⟨vault, false, true⟩','⟨xorcaMint, false, true⟩, ⟨vault, false, true⟩,\n             ⟨orcaMint, false, false⟩','the script lists the accounts in order')
m('scr_unstake_index',S,'unstake','data := [1] ++ amount ++ index','data := [1] ++ index ++ amount','the script sends an Unstake')
m('scr_withdraw_offset',S,'withdraw','readI64 info.data 48','readI64 info.data 40','the script reads the maturity','wrong constant')
m('scr_withdraw_length',S,'withdraw','if info.data.length < 56 then none\n  else do','if info.data.length < 55 then none\n  else do','the script refuses short data','off by one')
m('scr_cooldown_error',S,'cooldownError','code == 0x177b','code == 0x177a','the script knows the error of an early Withdraw','wrong constant')
m('scr_set_negative',S,'setData','if cooldownSeconds < 0 then none','if cooldownSeconds < -1 then none','a negative period is refused','off by one')
m('scr_set_tag',S,'setData','[4, 1] ++ k.bytes','[4, 0] ++ k.bytes','the script sends the right update','wrong constant')
m('scr_set_keys',S,'setScript','[⟨payer, true, true⟩, ⟨state, false, true⟩]','[⟨state, false, true⟩, ⟨payer, true, true⟩]','the script lists the accounts in order')
m('scr_init_deployer',S,'initializeScript','if deployer ≠ d then none','if False then none','the script runs for the deployer only','check dropped')
m('scr_init_authority',S,'initializeScript','⟨updateAuthority, true, true⟩','⟨deployer, true, true⟩','the script passes the authority')
m('scr_status_swapped_back',S,'status','orcaToXorca := (numerator, denominator), xorcaToOrca := (denominator, numerator)','orcaToXorca := (denominator, numerator), xorcaToOrca := (numerator, denominator)','the printed rates are swapped (false claim of the script)')
m('scr_status_offset',S,'status','let numerator := nonEscrowedAmount + 100','let numerator := nonEscrowedAmount','the printed rates have the offset')
m('scr_row_amount',S,'rowOf','(readU64 data 40).toNat','(readU64 data 8).toNat','the listing prints the amount','wrong constant')
m('scr_row_ready',S,'rowOf','decide (timestamp ≤ currentTimestamp)','decide (timestamp < currentTimestamp)','a request is ready at its maturity','off by one')
m('scr_row_created',S,'rowOf','createdAt := timestamp - coolDownPeriodS','createdAt := timestamp','the listing prints the creation time')
m('scr_rows_searched',S,'pendingWithdraws','List.range 15','List.range 256','the listing searches 15 indices','wrong constant')
m('scr_total',S,'totalReady','(rows.filter (·.isReady))','rows','the total counts ready requests only')
T='Client/TokenScripts.lean'
m('tok_mint_authority_kept',T,'updateMintAuthority','.mintTokens (some stateAccount) currentAuthority','.mintTokens (some currentAuthority) currentAuthority','the mint is handed to the pool')
m('tok_mint_freeze',T,'updateMintAuthority','xorcaMint .mintTokens','xorcaMint .freezeAccount','the mint authority is handed over')
m('tok_report_flag',T,'mintAuthorityReport','decide (m.mintAuthorityFlag = 1 ∧ m.mintAuthority = stateAccount)','decide (m.mintAuthority = stateAccount)','the report is right','check weakened')
m('tok_vault_reversed',T,'transferOrcaToVault','.transfer senderOrcaAta vaultAddress sender','.transfer vaultAddress senderOrcaAta sender','the ORCA goes to the vault')
m('tok_vault_balance',T,'transferOrcaToVault','if (senderBalance.toNat : Int) < orcaAmount then none\n  else do\n    let vaultAccount','if (senderBalance.toNat : Int) ≤ orcaAmount then none\n  else do\n    let vaultAccount','everything can be sent','off by one')
m('tok_vault_received',T,'vaultReceived','((vaultAccount.toNat : Int) - orcaAmount)','((vaultAccount.toNat : Int) + orcaAmount)','the printed number is twice the gift (false claim of the script)')
m('tok_transfer_creates',T,'transferOrca','createsFor := if needsAtaCreation then some recipient else none','createsFor := if needsAtaCreation then some sender else none','the account of the recipient is created')
m('tok_transfer_report',T,'transferReport','orcaTransferred = orcaAmount ∧ orcaReceived = orcaAmount','orcaReceived = orcaAmount','the report is right','check weakened')
m('tok_balance_zero',T,'balanceOrZero','then some 0 else','then none else','a missing account holds nothing')
m('tok_curve',T,'ataOnCurve','if cr.onCurve owner = true then ataOf cr mint owner else none','ataOf cr mint owner','the library refuses owners off the curve','check dropped')
m('tok_create_in_use',T,'createAta','  ensure ((L p.1).owner = Xorca.SYSTEM_PROGRAM_ID) (.cpi .invalidOwner)\n','','creating wants an unused address','check dropped')
m('tok_run_order',T,'runSent','tokenExec x.rentMin (fun k => decide (k = s.signer)) L1 s.ix','tokenExec x.rentMin (fun _ => true) L1 s.ix','only the signer signs','check weakened')
m('tok_hex_order',T,'bufferFromHex','hexadecimal [a, b]','hexadecimal [b, a]','the key file holds the bytes typed')
m('tok_key_length',T,'keypairBytes','privateKeyBytes.length = 32 ∨ privateKeyBytes.length = 64','privateKeyBytes.length = 32 ∨ privateKeyBytes.length = 64 ∨ privateKeyBytes.length = 33','a key has 32 or 64 bytes','check weakened')
D='Declared.lean'
m('decl_stake_signer',D,'declared','| .Set _ => [(true, true), (true, false)]','| .Set _ => [(true, true), (true, true)]','the published table is the enforced one')
m('decl_fixed',D,'fixedKeys','| .Initialize _ => [some DEPLOYER_ADDRESS,','| .Initialize _ => [some PROGRAM_ID,','the published table is the enforced one')
m('decl_owner',D,'owningProgram','| .Set _ => [none, some PROGRAM_ID]','| .Set _ => [none, some SYSTEM_PROGRAM_ID]','accounts belong to the right programs')
R='Readme.lean'
m('readme_offset',R,'readmeMint','a * s / n else a','a * (s + 100) / (n + 100) else a','the README formula lacks the offset (false claim of the README)')
m('readme_redeem',R,'readmeRedeem','x * n / s','x * (n + 100) / (s + 100)','the README formula lacks the offset (false claim of the README)')
P='Replay.lean'
Z='Sealed.lean'
m('sealed_env_free',Z,'SealedHist','∀ e ∈ h, e.label = .env → ∀ k, Derived cr k → Blank (e.pre k) → Blank (e.post k)','True','others create nothing at derived addresses','check weakened')
m('sealed_genesis',Z,'SealedHist','(∀ k, Derived cr k → Blank (L0 k)) ∧','','at first nothing is there','check weakened')
for x in M:
    for f,o,n in x['edits']:
        c=open('/verif/lean/Verif/'+f).read().count(o)
        if c!=1: sys.stderr.write(f"{x['name']} {c}\n")
print(json.dumps(M))
