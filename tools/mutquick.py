"""Quick mutation test.  Usage: mutquick.py SPEC.json OUT.jsonl

SPEC as for mutate.py.  The edits are applied to a built scratch copy of the project and `lake build` runs until
the first modules fail (plus a while, so that independent modules fail as well).  Printed per mutant:
  direct    declarations in which an error occurs
  affected  property theorems that depend on one of these (from the dependencies of the unchanged project)
  built     whether the whole project was built, that is, nothing noticed the edit"""
import json,os,re,subprocess,sys,time,threading,signal
BASE='/tmp/ms/base'      # pristine built copy of /verif/lean
WORK=os.environ.get('WORK','/tmp/ms/w1')
WAIT=int(os.environ.get('WAIT','60'))
DEPS=json.load(open('/tmp/ms/deps.json'))   # property theorem -> list of project declarations it needs
def sync():
    subprocess.run(['rm','-rf',WORK],check=True)
    subprocess.run(['cp','-a',BASE,WORK],check=True)
def decls(path):
    out=[];ns=[]
    for i,l in enumerate(open(path).read().split('\n'),1):
        m=re.match(r'(?:@\[.*?\] ?)?(?:private |protected |noncomputable )*(theorem|lemma|def|structure|instance|inductive|abbrev|example)\b ?([^\s:({\[]*)',l)
        if m: out.append((i,'example' if m.group(1)=='example' else m.group(2) or m.group(1)))
        elif re.match(r'run_cmd|#',l): out.append((i,'command'))
    return out
def at(ds,line):
    n='?'
    for i,d in ds:
        if i<=line: n=d
        else: break
    return n
def run(spec):
    sync()
    for f,o,n in spec['edits']:
        p=WORK+'/Verif/'+f; s=open(p).read()
        assert s.count(o)==1,(spec['name'],f,s.count(o),o)
        open(p,'w').write(s.replace(o,n))
    t0=time.time()
    pr=subprocess.Popen(['lake','build'],cwd=WORK,stdout=subprocess.PIPE,stderr=subprocess.STDOUT,text=True,start_new_session=True)
    lines=[];first=[None]
    def rd():
        for l in pr.stdout:
            lines.append(l)
            if l.startswith('✖') and first[0] is None: first[0]=time.time()
    th=threading.Thread(target=rd); th.start()
    killed=False
    while pr.poll() is None:
        time.sleep(0.5)
        if first[0] and time.time()-first[0]>WAIT: killed=True; os.killpg(pr.pid,signal.SIGKILL); break
        if time.time()-t0>5400: killed=True; os.killpg(pr.pid,signal.SIGKILL); break
    pr.wait(); th.join(10)
    errs=[];cache={}
    for l in lines:
        m=re.match(r'error: (Verif/\S+\.lean):(\d+):\d+: (.*)',l)
        if m:
            p=WORK+'/'+m.group(1)
            if p not in cache: cache[p]=decls(p)
            d=(m.group(1)[6:-5],at(cache[p],int(m.group(2))))
            if d not in errs: errs.append(d)
    names={d for _,d in errs}
    aff=sorted(t for t,ds in DEPS.items() if t.split('.')[-1] in names or any(x in names or x.split('.')[-1] in names or any(x.endswith('.'+n) for n in names) for x in ds))
    ok=any('Build completed successfully' in l for l in lines)
    return dict(name=spec['name'],direct=[a+':'+b for a,b in errs],affected=[t.split('.')[-1] for t in aff],kept=len(DEPS)-len(aff),built=ok,secs=round(time.time()-t0))
if __name__=='__main__':
    specs=json.load(open(sys.argv[1])); out=sys.argv[2]
    done=set()
    if os.path.exists(out): done={json.loads(l)['name'] for l in open(out)}
    for s in specs:
        if s['name'] in done: continue
        try: r=run(s)
        except AssertionError as e: r=dict(name=s['name'],error=str(e)); print(r,flush=True); continue
        open(out,'a').write(json.dumps(r)+'\n')
        print(r['name'],'SURVIVED' if r['built'] else len(r['direct']),len(r['affected']),r['secs'],flush=True)
