# Mutants of what is written where, of repeated calls and of the settings.  Usage: bytes.py > SPEC.json
import json
M=[]
def m(name,definition,edits,claim,kind='wrong program',note=''):
    M.append(dict(name=name,edits=edits,definition=definition,claim=claim,kind=kind,note=note))
S='Instr/Set.lean'; U='Instr/Unstake.lean'; W='Instr/Withdraw.lean'; A='Assertions.lean'; Y='Layout.lean'
every='every byte of the state and of a request is fixed by their figures'
sets='the settings change only when the authority signs a Set'
twice='a call sent twice does nothing more the second time, or is refused'
m('b_escrow_into_padding','processUnstake',[[U,'(setStEscrow st newEscrow)','(writeAt (setStEscrow st newEscrow) 100 [1])']],every)
m('b_withdraw_into_padding','processWithdraw',[[W,'(setStEscrow st newEscrow)','(writeAt (setStEscrow st newEscrow) 2000 [withdrawIndex])']],every)
m('b_set_period_into_padding','processSet',[[S,'(setStCoolDown stateView newCoolDownPeriodS)','(writeAt (setStCoolDown stateView newCoolDownPeriodS) 56 [1])']],every)
m('b_set_authority_long','setStAuthority',[[Y,'writeAt d (stateOff 6) k.bytes','writeAt d (stateOff 6) (k.bytes ++ [1])']],every)
m('b_set_authority_short','setStAuthority',[[Y,'writeAt d (stateOff 6) k.bytes','writeAt d (stateOff 6) (k.bytes.take 31)']],sets)
m('b_record_into_padding','processUnstake',[[U,'let d2 := setPwIndex d1 withdrawIndex','let d2 := writeAt (setPwIndex d1 withdrawIndex) 1 [withdrawIndex]']],every)
m('b_record_no_index','processUnstake',[[U,'let d2 := setPwIndex d1 withdrawIndex','let d2 := d1']],every)
m('b_record_no_unstaker','processUnstake',[[U,'let d3 := setPwUnstaker d2 unstakerAccount.key','let d3 := d2']],every)
m('b_record_no_bump','processUnstake',[[U,'let d1 := setPwBump (L3 pendingWithdrawAccount.key).data pendingWithdrawBump','let d1 := (L3 pendingWithdrawAccount.key).data']],every)
m('b_state_padding_ones','State.default',[[Y,'padding2 := List.replicate 1992 0','padding2 := List.replicate 1992 1']],every)
m('b_state_padding_short','State.default',[[Y,'padding1 := List.replicate 5 0','padding1 := List.replicate 4 0']],every)
m('b_close_keeps_data','closeProgramAccount',[[A,'let L4 := L3.setData toClose []','let L4 := L3']],twice)
m('b_close_keeps_owner','closeProgramAccount',[[A,'.ok (L4.set toClose { L4 toClose with owner := SYSTEM_PROGRAM_ID })','.ok L4']],twice)
m('b_close_keeps_lamports','closeProgramAccount',[[A,'let L3 := L2.setLamports toClose 0','let L3 := L2']],twice)
m('b_set_adds_period','processSet',[[S,'(setStCoolDown stateView newCoolDownPeriodS)','(setStCoolDown stateView (stCoolDown stateView + newCoolDownPeriodS))']],twice)
m('b_set_any_signer','processSet',[[S,'  assertAccountAddress updateAuthorityAccount (stAuthority stateView)\n','']],sets)
m('b_set_no_signature','processSet',[[S,'assertAccountRole updateAuthorityAccount [.Signer, .Writable]','assertAccountRole updateAuthorityAccount [.Writable]']],sets)
m('b_set_wrong_field','processSet',[[S,'(setStAuthority stateView newAuthority),','(setStCoolDown (setStAuthority stateView newAuthority) 0),']],sets)
m('b_set_authority_ignored','processSet',[[S,'(setStAuthority stateView newAuthority),','(setStAuthority stateView oldAuthority),']],twice)
m('b_unstake_resets_period','processUnstake',[[U,'(setStEscrow st newEscrow)','(setStCoolDown (setStEscrow st newEscrow) 0)']],sets)
m('b_withdraw_takes_authority','processWithdraw',[[W,'(setStEscrow st newEscrow)','(setStAuthority (setStEscrow st newEscrow) unstakerAccount.key)']],sets)
print(json.dumps(M,ensure_ascii=False))
