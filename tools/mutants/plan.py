# Mutants of the plans: too generous, too strict, wrong figures.  Usage: plan.py > SPEC.json
import json
M=[]
def m(name,definition,edits,claim,kind='wrong statement',note=''):
    M.append(dict(name=name,edits=edits,definition=definition,claim=claim,kind=kind,note=note))
P='Plan.lean'
does='every plan is carried out'
only='a call is accepted only if the plan goes on with it'
fig='the plan ends with the figures of the ledger'
m('p_stake_dust','Plan.stake',[[P,'0 < mintFor a.toNat V.backing V.supply →','0 ≤ mintFor a.toNat V.backing V.supply →']],does)
m('p_stake_strict','Plan.stake',[[P,'0 < mintFor a.toNat V.backing V.supply →','1 < mintFor a.toNat V.backing V.supply →']],only)
m('p_stake_no_limit','Plan.stake',[[P,'V.backing + e + a.toNat < 2 ^ 64 →\n      Plan (.stake','V.backing + e < 2 ^ 64 →\n      Plan (.stake']],does)
m('p_stake_limit_no_escrow','Plan.stake',[[P,'V.backing + e + a.toNat < 2 ^ 64 →\n      Plan (.stake','V.backing + a.toNat < 2 ^ 64 →\n      Plan (.stake']],does)
m('p_stake_limit_low','Plan.stake',[[P,'V.backing + e + a.toNat < 2 ^ 64 →\n      Plan (.stake','V.backing + e + a.toNat < 2 ^ 63 →\n      Plan (.stake']],only)
m('p_stake_mint_one_to_one','Plan.stake',[[P,'supply := V.supply + mintFor a.toNat V.backing V.supply,','supply := V.supply + a.toNat,']],fig)
m('p_stake_order','Plan.stake',[[P,'supply := V.supply + mintFor a.toNat V.backing V.supply,','supply := V.supply + mintFor a.toNat (V.backing + a.toNat) V.supply,']],fig)
m('p_unstake_taken','Plan.unstake',[[P,' V.requests k = none →\n',' True →\n']],does)
m('p_unstake_any_address','Plan.unstake',[[P,'RecordAddr Real.crypto US i k b → k ∉ taken','RecordAddr Real.crypto US i k b ∨ True → k ∉ taken']],does)
m('p_unstake_index_zero','Plan.unstake',[[P,'RecordAddr Real.crypto US i k b → k ∉ taken','RecordAddr Real.crypto US 0 k b → k ∉ taken']],does)
m('p_unstake_zero','Plan.unstake',[[P,'      0 < a.toNat → a.toNat ≤ V.supply →','      a.toNat ≤ V.supply →']],does)
m('p_unstake_keeps_one','Plan.unstake',[[P,'a.toNat ≤ V.supply → a.toNat *','a.toNat < V.supply → a.toNat *']],only)
m('p_unstake_no_limit','Plan.unstake',[[P,'a.toNat * (V.backing + 100) < 2 ^ 128 →','a.toNat * V.backing < 2 ^ 128 →']],does)
m('p_unstake_clock','Plan.unstake',[[P,'t.toInt + V.coolDown < 2 ^ 63 →','t.toInt < 2 ^ 63 →']],does)
m('p_unstake_round_up','Plan.unstake',[[P,'backing := V.backing - redeemFor a.toNat V.backing V.supply\n','backing := V.backing - redeemFor a.toNat V.backing V.supply - 1\n']],fig)
m('p_unstake_due_now','Plan.unstake',[[P,'redeemFor a.toNat V.backing V.supply, t.toInt + V.coolDown⟩)','redeemFor a.toNat V.backing V.supply, t.toInt⟩)']],fig)
m('p_unstake_escrow','Plan.unstake',[[P,'        (e + redeemFor a.toNat V.backing V.supply)','        (e + a.toNat)']],fig)
m('p_withdraw_early','Plan.withdraw',[[P,'r.due ≤ t.toInt →','r.due ≤ t.toInt + 1 →']],does)
m('p_withdraw_late','Plan.withdraw',[[P,'r.due ≤ t.toInt →','r.due < t.toInt →']],only)
m('p_withdraw_any_index','Plan.withdraw',[[P,'r.index = i → r.due','r.index = r.index → r.due']],does)
m('p_withdraw_escrow','Plan.withdraw',[[P,'(e - r.amount)','e']],fig)
m('p_withdraw_stays','Plan.withdraw',[[P,'{ V with requests := putRequest V.requests k none }','V']],fig)
m('p_set_anybody','Plan.setCoolDown',[[P,'Plan l V e → V.authority = US → 0 ≤ c.toInt →','Plan l V e → True → 0 ≤ c.toInt →']],does)
m('p_set_negative','Plan.setCoolDown',[[P,'V.authority = US → 0 ≤ c.toInt →','V.authority = US → True →']],does)
m('p_set_positive','Plan.setCoolDown',[[P,'V.authority = US → 0 ≤ c.toInt →','V.authority = US → 0 < c.toInt →']],only)
m('p_authority_anybody','Plan.setAuthority',[[P,'Plan l V e → V.authority = US →\n      Plan (.setAuthority','Plan l V e → True →\n      Plan (.setAuthority']],does)
m('p_gift_counts_supply','Plan.gift',[[P,'{ V with backing := V.backing + d.toNat } e','{ V with backing := V.backing + d.toNat, supply := V.supply + d.toNat } e']],fig)
m('p_gift_no_limit','Plan.gift',[[P,'V.backing + e + d.toNat < 2 ^ 64 →\n      Plan (.gift','True →\n      Plan (.gift']],does)
m('p_burn_too_much','Plan.burn',[[P,'Plan l V e → b.toNat ≤ V.supply →','Plan l V e → True →']],does)
m('p_noclash_none','NoClash',[[P,'  | .withdraw _ i k => ∀ r b, V.requests k = some r → ¬ Clash Real.crypto (recordHashed US i b) (recordHashed US r.index b)\n','']],only)
m('p_start_cooldown','Plan.start',[[P,'⟨0, 0, 100, US, fun _ => none⟩','⟨0, 0, 50, US, fun _ => none⟩']],fig)
print(json.dumps(M,ensure_ascii=False))
