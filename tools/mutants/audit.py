# The corrections that followed the audit report, undone one by one.  Usage: audit.py > SPEC.json
import json
M=[]
def m(name,definition,edits,claim,kind='correction undone',note=''):
    M.append(dict(name=name,edits=edits,definition=definition,claim=claim,kind=kind,note=note))
m('audit_h01_offset','VIRTUAL_XORCA_SUPPLY, VIRTUAL_NON_ESCROWED_ORCA_AMOUNT',
  [['Math.lean','def VIRTUAL_XORCA_SUPPLY : Nat := 100','def VIRTUAL_XORCA_SUPPLY : Nat := 0'],
   ['Math.lean','def VIRTUAL_NON_ESCROWED_ORCA_AMOUNT : Nat := 100','def VIRTUAL_NON_ESCROWED_ORCA_AMOUNT : Nat := 0']],
  'a donation attack does not pay',note='H-01')
m('audit_l02_state_address','processUnstake',
  [['Instr/Unstake.lean','  verifyStateAddress x.cr stateAccount (stBump stateView)\n','']],
  'the state is at the derived address in any ledger, else InvalidSeeds',note='L-02; redundant in reachable ledgers')
m('audit_l03_authority_role','processInitialize',
  [['Instr/Initialize.lean','  assertAccountRole updateAuthorityAccount [.Signer, .Writable]\n','']],
  'the update authority signs Initialize',note='L-03')
m('audit_l04_create_account','createAccountSecure',
  [['Assertions.lean','    if currentLamports = 0 then\n      cpiCreateAccount','    if currentLamports = currentLamports then\n      cpiCreateAccount']],
  'lamports at the address of a record do not block an Unstake',note='L-04')
m('audit_i01_vault_writable','processUnstake',
  [['Instr/Unstake.lean','L vaultAccount stateAccount orcaMintAccount false','L vaultAccount stateAccount orcaMintAccount true']],
  'Unstake needs no writable vault',note='I-01')
m('audit_i02_stake_event','processStake',
  [['Instr/Stake.lean','let finalVaultAmount := vaultAccountData.amount + orcaStakeAmount','let finalVaultAmount := vaultAccountData.amount'],
   ['Instr/Stake.lean','let finalXorcaSupply := xorcaMintData.supply + xorcaToMint','let finalXorcaSupply := xorcaMintData.supply']],
  'the event of a Stake reports vault and supply after it',note='I-02')
m('audit_i02_unstake_event','processUnstake',
  [['Instr/Unstake.lean','let finalXorcaSupply := xorcaMintData.supply - xorcaUnstakeAmount','let finalXorcaSupply := xorcaMintData.supply']],
  'the event of an Unstake reports the supply after it',note='I-02')
m('audit_i03_close','closeProgramAccount',
  [['Assertions.lean','  let L4 := L3.setData toClose []\n  .ok (L4.set toClose { L4 toClose with owner := SYSTEM_PROGRAM_ID })','  .ok L3']],
  'nothing is left of a withdrawn record',note='I-03')
m('audit_i04_tags','AccountDiscriminator.toU8',
  [['Constants.lean','  | .Uninitialized => 0\n  | .State => 1\n  | .PendingWithdraw => 2\n  | .Closed => 3','  | .Uninitialized => 3\n  | .State => 0\n  | .PendingWithdraw => 1\n  | .Closed => 2']],
  'the tags of accounts are 1, 2, 3',note='I-04')
for x in M:
    for f,o,n in x['edits']:
        c=open('/verif/lean/Verif/'+f).read().count(o)
        assert c==1,(x['name'],c)
print(json.dumps(M))
