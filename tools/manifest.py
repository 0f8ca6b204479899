import json,re,glob,subprocess
# Collects theorems named Cnn_* from lean/Verif/Props and writes MANIFEST.json.
# Notes and forced statuses are kept here.
NOTES={
 "C05":"Second theorem is the witness for redeeming the whole supply.",
 "C41":"False for index 255: no admitted bound makes either client look at it. Witness on a reachable ledger with the real hash functions; proved for all indices below the bound.",
 "C68":"The labels printed by the script are swapped; the theorems state which rate is which, when the labels are right, and a witness that they are wrong.",
 "C69":"Records with index 15 or more are not shown; the creation time is right only for an unchanged cool-down. Both with witness.",
 "C70":"Includes the witness of a rounded cool-down and the theorem that an index which is not a number means 0.",
 "C72":"The last theorem is the witness that the condition on the number of victims is needed.",
 "C75":"That Stake and Withdraw still work is shown by a concrete example; in general it is C47 and C21.",
 "C82":"The theorems named wrong, doubled and witness state what is wrong: texts that are misread and the printed figure.",
 "C83":"Includes the witness of the wrong report for a transfer to oneself.",
 "C84":"States the misread texts as theorems.",
 "C85":"Includes the witness that a change of the cool-down is not logged.",
 "C86":"States the deviation from the documentation; includes the witness that the documented formulas are wrong.",
 "C89":"The last theorem is the witness that a parser does not check the kind.",
 "C90":"C90_cpi_flags_swapped and C90_cpi_writable_refused state the defect of the CPI builders.",
 "C93":"The last theorem is the witness that the bound on lamports is needed.",
 "C94":"C94_momentary_stake_witness shows that a stake need not last to get its share of a gift.",
 "C97":"The last theorem is the witness with the limit of the Solana RPC API.",
 "C98":"C98_state_decodes_as_record and C98_state_fetched_as_record state that the kind of an account is not checked.",
 "C102":"C102_mint_decoders states the one case in which the decoders differ.",
 "C105":"C105_attack_after_all is the witness run. C105_incinerated_can_be_burned rests on the transcription of the SPL token program.",
 "C106":"About functions of an older commit as quoted in the audit report; the old redeem conversion is not quoted and is taken from the exchange rate given there.",
 "C107":"The world versions rest on the transcription of the SPL token program.",
 "C112":"C112_factor_is_sharp is about the two conversions only.",
 "C113":"Not counted: reads of clock and rent, text messages, and the work of the called programs.",
 "C04":"Second theorem is the witness that the zero-supply case can profit.",
}
PARTIAL={"C41"}
props=[json.loads(l)["id"] for l in open("/verif/properties.jsonl")]
th={}
for f in sorted(glob.glob("/verif/lean/Verif/Props/*.lean")):
    ns=[]
    for line in open(f):
        m=re.match(r"namespace (\S+)",line)
        if m: ns.append(m.group(1))
        m=re.match(r"end (\S+)",line)
        if m and ns: ns.pop()
        m=re.match(r"theorem (C\d\d+)(\w*)",line)
        if m: th.setdefault(m.group(1),[]).append(".".join(ns+[m.group(1)+m.group(2)]))
claims=[]
for p in props:
    if p in th:
        st="partial" if (p in PARTIAL or all(t.endswith("_partial") or t.endswith("_witness") for t in th[p])) else "proved"
        claims.append(dict(property=p,status=st,theorems=th[p],note=NOTES.get(p,"")))
json.dump({"claims":claims},open("/verif/MANIFEST.json","w"),indent=1)
print(len(claims),"claims;","missing:",[p for p in props if p not in th])
