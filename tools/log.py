#!/usr/bin/env python3
# Writes seeded/LOG.jsonl from mutate.py specs and outputs: log.py SPEC.json OUT [SPEC.json OUT ...]
# Extra hand-written lines (attempts that led to a tightening) are kept in tools/log_extra.jsonl.
import json,sys,os
rows={}
a=sys.argv[1:]
for sp,out in zip(a[::2],a[1::2]):
    specs={s['name']:s for s in json.load(open(sp))}
    for l in open(out):
        try: r=json.loads(l)
        except ValueError: continue
        s=specs.get(r['name'])
        if s is None or 'direct' not in r or (not r['direct'] and r['kept']==0): continue
        f,old,new=s['edits'][0]
        rows[r['name']]=dict(name=r['name'],definition=s['definition'],file='lean/Verif/'+f,
            edit=dict(old=old.strip(),new=new.strip()),kind=s['kind'],claim=s['claim'],
            failed=r['affected'],failed_directly=[d.split(':')[1] for d in r['direct']],
            theorems_kept=r['kept'],method='quick' if 'built' in r else 'full',tightened=s.get('tightened',[]),note=s.get('note',''))
out=list(rows.values())
ex='/verif/tools/log_extra.jsonl'
if os.path.exists(ex): out+=[json.loads(l) for l in open(ex) if l.strip()]
with open('/verif/seeded/LOG.jsonl','w') as g:
    for r in out: g.write(json.dumps(r,ensure_ascii=False)+'\n')
print(len(out),[r['name'] for r in out if not r.get('failed')])
