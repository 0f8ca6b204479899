# Mutants of the account codecs, the node limit and the rent rule.  Usage: accounts.py > SPEC.json
import json,sys
M=[]
def m(name,file,definition,old,new,claim,kind='edit',note=''):
    M.append(dict(name=name,edits=[[file,old,new]],definition=definition,claim=claim,kind=kind,note=note))
A='Client/Accounts.lean'
m('acc_u8_range',A,'jsU8','0 ≤ v ∧ v ≤ 255','0 ≤ v ∧ v ≤ 256','numbers out of range are refused','off by one')
m('acc_u64_range',A,'jsU64','if 0 ≤ v ∧ v < 2 ^ 64 then','if v < 2 ^ 64 then','numbers out of range are refused','check dropped')
m('acc_i64_range',A,'jsI64','-2 ^ 63 ≤ v ∧','-2 ^ 63 < v ∧','numbers out of range are refused','off by one')
m('acc_fix_no_fill',A,'jsFixBytes','b.take n ++ List.replicate (n - b.length) 0','b.take n','encoded accounts have the program\'s size')
m('acc_fix_no_cut',A,'jsFixBytes','b.take n ++ List','b ++ List','encoded accounts have the program\'s size')
m('acc_state_swap_bumps',A,'jsEncodeState','jsFixBytes 5 (a.padding1.getD (List.replicate 5 0)) ++ bump ++ vaultBump ++','jsFixBytes 5 (a.padding1.getD (List.replicate 5 0)) ++ vaultBump ++ bump ++','what JS encodes decodes to the same values','order')
m('acc_state_tag',A,'jsEncodeState','[AccountDiscriminator.State.toU8] ++','[AccountDiscriminator.PendingWithdraw.toU8] ++','encoded accounts carry the tag of their kind','wrong constant')
m('acc_state_padding',A,'jsEncodeState','(List.replicate 1992 0)','(List.replicate 1992 1)','missing padding is zero','wrong constant')
m('acc_state_size',A,'jsEncodeState','jsFixBytes 1992 (a','jsFixBytes 1991 (a','encoded accounts have the program\'s size','off by one')
m('acc_rec_order',A,'jsEncodePendingWithdraw','withdrawIndex ++ a.unstaker.bytes ++ withdrawableOrcaAmount ++ withdrawableTimestamp','withdrawIndex ++ a.unstaker.bytes ++ withdrawableTimestamp ++ withdrawableOrcaAmount','what JS encodes decodes to the same values','order')
m('acc_rec_signed',A,'jsEncodePendingWithdraw','let withdrawableTimestamp ← jsI64','let withdrawableTimestamp ← jsU64','negative times are encoded')
m('acc_rec_size_const',A,'PENDING_WITHDRAW_SIZE','PENDING_WITHDRAW_SIZE : Nat := 1024','PENDING_WITHDRAW_SIZE : Nat := 1032','encoded accounts have the program\'s size','wrong constant')
m('acc_node_strict',A,'getMultipleAccounts','keys.length ≤ limit','keys.length < limit','a node admits as many keys as its limit','off by one')
m('acc_node_cuts',A,'getMultipleAccounts','some (keys.map (getAccount L)) else none','some (keys.map (getAccount L)) else some ((keys.take limit).map (getAccount L))','a bound above the limit fails')
m('acc_limit',A,'MAX_MULTIPLE_ACCOUNTS','Nat := 100','Nat := 256','index 200 is not listed (witness)','wrong constant')
m('acc_fetch_all_skips',A,'fetchAll','    | none => none\n    | some a => decode a.data','    | none => decode []\n    | some a => decode a.data','a missing account is an error')
m('acc_maybe_undecodable',A,'fetchAllMaybeOf','| some a => (decode a.data).map some','| some a => some (decode a.data)','an undecodable account is an error')
m('acc_js_maybe_strict',A,'jsNodeFetchPendingWithdraws','max.getD 15','max.getD 16','the JS listing searches 15 indices','wrong constant')
R='RentRule.lean'
m('rent_exempt_strict',R,'rentState','rentMin a.data.length ≤ a.lamports','rentMin a.data.length < a.lamports','an account with exactly the minimum is exempt','off by one')
m('rent_empty_paying',R,'rentState','if a.lamports = 0 then .uninitialized','if a.lamports = 0 ∧ a.data = [] then .uninitialized','an account without lamports satisfies the rule')
m('rent_paying_gain',R,'transitionAllowed','decide (n\' = n ∧ l\' ≤ l)','decide (n\' = n)','a wallet below the minimum may not gain too little','check weakened')
m('rent_paying_any',R,'transitionAllowed','| _, .rentPaying _ _ => false','| _, .rentPaying _ _ => true','the rule refuses a wallet that is left with too little','check dropped')
for x in M:
    for f,o,n in x['edits']:
        c=open('/verif/lean/Verif/'+f).read().count(o)
        if c!=1: sys.stderr.write(f"{x['name']} {c}\n")
print(json.dumps(M))
