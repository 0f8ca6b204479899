# Mutants of the type codecs and of the runs of leaving users.  Usage: typecodecs.py > SPEC.json
import json,sys
M=[]
def m(name,file,definition,old,new,claim,kind='edit',note=''):
    M.append(dict(name=name,edits=[[file,old,new]],definition=definition,claim=claim,kind=kind,note=note))
T='Client/Types.lean'
m('typ_state_tag',T,'TokenAccountState.toU8','| .Frozen => 2','| .Frozen => 3','a frozen account is read back as frozen','wrong constant')
m('typ_bool_byte',T,'boolByte','if b then 1 else 0','if b then 255 else 0','a mint is read back as written','wrong constant')
m('typ_mint_order',T,'TokenMint.serialize','[m.decimals] ++ [boolByte m.isInitialized]','[boolByte m.isInitialized] ++ [m.decimals]','a mint is read back as written','order')
m('typ_mint_flag',T,'TokenMint.serialize','u32le m.freezeAuthorityFlag ++ m','u32le m.mintAuthorityFlag ++ m','a mint is read back as written','wrong variable')
m('typ_acc_swap_amounts',T,'TokenAccount.serialize','u64le t.nativeAmount ++ u64le t.delegateAmount','u64le t.delegateAmount ++ u64le t.nativeAmount','a token account is read back as written','order')
m('typ_acc_owner_first',T,'TokenAccount.serialize','t.mint.bytes ++ t.owner.bytes ++ u64le','t.owner.bytes ++ t.mint.bytes ++ u64le','a token account is read back as written','order')
m('typ_u32_range',T,'jsU32','0 ≤ v ∧ v < 2 ^ 32','0 ≤ v ∧ v ≤ 2 ^ 32','numbers that do not fit are refused','off by one')
m('typ_bool_nonzero',T,'jsGetBool','(b == 1, r)','(b != 0, r)','JS reads an uninitialised mint from an odd byte','wrong comparison')
m('typ_js_mint_u64_flag',T,'jsEncodeTokenMint','let mintAuthorityFlag ← jsU32','let mintAuthorityFlag ← jsU64','JS writes the bytes of the Rust types','wrong width')
m('typ_js_mint_supply',T,'jsEncodeTokenMint','let supply ← jsU64 a.supply','let supply ← jsI64 a.supply','numbers that do not fit are refused','wrong sign')
m('typ_js_mint_dec_order',T,'jsDecodeTokenMint','  let (supply, d) ← getU64 d\n  let (decimals, d) ← getU8 d','  let (decimals, d) ← getU8 d\n  let (supply, d) ← getU64 d','both decoders of a mint agree','order')
m('typ_js_acc_close',T,'jsEncodeTokenAccount','a.closeAuthority.bytes)','a.delegate.bytes)','JS writes the bytes of the Rust types','wrong variable')
m('typ_js_acc_native',T,'jsEncodeTokenAccount','let isNativeFlag ← jsU32 a.isNativeFlag','let isNativeFlag ← jsU32 a.delegateFlag','JS writes the bytes of the Rust types','wrong variable')
m('typ_ev_stake_swap',T,'jsEncodeEvent','xorcaMintSupply ++ xorcaToMint)','xorcaToMint ++ xorcaMintSupply)','JS writes the bytes the program emits','order')
m('typ_ev_tag',T,'jsEncodeEvent','some ([2] ++ vaultEscrowed','some ([3] ++ vaultEscrowed','JS writes the bytes the program emits','wrong constant')
m('typ_ev_authority',T,'jsEncodeEvent','newAuthority.bytes ++ setBy.bytes','setBy.bytes ++ newAuthority.bytes','JS writes the bytes the program emits','order')
m('typ_ev_cooldown_unsigned',T,'jsEncodeEvent','    let coolDownPeriodS ← jsI64 coolDownPeriodS\n    let withdrawIndex ← jsU8 withdrawIndex\n    some ([1]','    let coolDownPeriodS ← jsU64 coolDownPeriodS\n    let withdrawIndex ← jsU8 withdrawIndex\n    some ([1]','JS accepts the values of every event','wrong sign')
m('typ_ix_tag',T,'jsEncodeIx','some ([2] ++ withdrawIndex)','some ([1] ++ withdrawIndex)','the program reads back the instruction that was encoded','wrong constant')
m('typ_ix_order',T,'jsEncodeIx','some ([1] ++ xorcaUnstakeAmount ++ withdrawIndex)','some ([1] ++ withdrawIndex ++ xorcaUnstakeAmount)','the program reads back the instruction that was encoded','order')
m('typ_ix_amount_signed',T,'jsEncodeIx','let orcaStakeAmount ← jsU64 orcaStakeAmount\n    some ([0] ++ orcaStakeAmount)','let orcaStakeAmount ← jsI64 orcaStakeAmount\n    some ([0] ++ orcaStakeAmount)','negative amounts are refused','wrong sign')
m('typ_ix_set_tag',T,'jsEncodeStateUpdate','some ([0] ++ newCoolDownPeriodS)','some ([1] ++ newCoolDownPeriodS)','the program reads back the instruction that was encoded','wrong constant')
m('typ_ix_index_wide',T,'jsEncodeIx','  | .Withdraw withdrawIndex => do\n    let withdrawIndex ← jsU8','  | .Withdraw withdrawIndex => do\n    let withdrawIndex ← jsU32','the program reads back the instruction that was encoded','wrong width')
B='BankRun.lean'
m('bank_unstake_order',B,'Leaver.unstakeAccs','[⟨g.user, true, true⟩, ⟨st, false, true⟩, ⟨g.record, false, true⟩, ⟨g.xorca, false, true⟩, ⟨XORCA','[⟨g.user, true, true⟩, ⟨g.record, false, true⟩, ⟨st, false, true⟩, ⟨g.xorca, false, true⟩, ⟨XORCA','the calls of leaving users succeed','order')
m('bank_unstake_unsigned',B,'Leaver.unstakeAccs','[⟨g.user, true, true⟩, ⟨st, false, true⟩, ⟨g.record, false, true⟩, ⟨g.xorca','[⟨g.user, false, true⟩, ⟨st, false, true⟩, ⟨g.record, false, true⟩, ⟨g.xorca','the calls of leaving users succeed')
m('bank_withdraw_readonly',B,'Leaver.withdrawAccs','⟨g.orca, false, true⟩, ⟨v, false, true⟩,\n','⟨g.orca, false, true⟩, ⟨v, false, false⟩,\n','the calls of leaving users succeed')
m('bank_no_deposit',B,'Leaver.CanUnstake','rent ≤ (L g.user).lamports.toNat + (L g.record).lamports.toNat','0 ≤ (L g.user).lamports.toNat + (L g.record).lamports.toNat','who cannot pay the deposit cannot unstake','hypothesis dropped')
m('bank_not_free',B,'Leaver.CanUnstake','free : Blank (L g.record)','free : Blank (L g.user)','an index can be used once at a time','hypothesis dropped')
m('bank_not_enough',B,'Leaver.CanUnstake','g.amount.toNat ≤ balance L g.xorca','g.amount.toNat ≤ balance L g.xorca + 1','nobody unstakes more than they have','hypothesis weakened')
m('bank_not_positive',B,'Leaver.CanUnstake','pos : 0 < g.amount.toNat','pos : 0 ≤ g.amount.toNat','an Unstake of nothing fails','hypothesis weakened')
m('bank_no_fits',B,'Leaver.CanWithdraw','fits : balance L g.orca + recAmount L g.record < 2 ^ 64','fits : balance L g.orca + recAmount L g.record ≤ 2 ^ 64','a payment must fit into the account','hypothesis weakened')
m('bank_record_of_other',B,'Leaver.CanWithdraw','owner : recOwner L g.record = g.user','owner : recOwner L g.record = recOwner L g.record','a request is paid to its owner only','hypothesis dropped')
m('bank_apart_users',B,'Leaver.Apart','g.user ≠ h.user ∧ g.record ≠ h.record','g.record ≠ h.record','users of one run differ','hypothesis dropped',)
m('bank_apart_records',B,'Leaver.Apart','g.user ≠ h.user ∧ g.record ≠ h.record','g.user ≠ h.user','requests of one run differ','hypothesis dropped')
m('bank_signer_record',B,'Signer','∀ o i b, ¬ RecordAddr cr o i u b','∀ o i b, RecordAddr cr o i u b → RecordAddr cr o i u b','a signing key is no record','hypothesis dropped')
m('bank_run_skips',B,'CallsRun','CallsRun x L1 calls L\' →','CallsRun x L calls L\' →','effects add up along a run')
for x in M:
    for f,o,n in x['edits']:
        c=open('/verif/lean/Verif/'+f).read().count(o)
        if c!=1: sys.stderr.write(f"{x['name']} {c}\n")
print(json.dumps(M))
