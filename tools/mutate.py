"""Mutation test.  Usage: mutate.py SPEC.json [--full]

SPEC is a list of {"name", "edits": [[file, old, new], ...]} with files relative to lean/Verif.
All modules are joined into one file outside /verif, the edits are applied, and Lean elaborates the file.  A theorem
whose proof fails is replaced by `sorry`, so the theorems that depend on it are still checked.  For each mutant
the script prints
  direct    declarations in which an error occurs
  affected  property theorems (Cnn_*) that depend on a failed proof or are missing
Without --full the concrete chain (Demo) and everything that needs it is left out."""
import json,os,re,subprocess,sys,hashlib
from concurrent.futures import ThreadPoolExecutor
ROOT=os.environ.get('ROOT','/verif/lean/Verif')
OUT='/tmp/mutants'
os.makedirs(OUT,exist_ok=True)
FULL='--full' in sys.argv
SKIP={'ProgramTests.lean','Audit.lean'} if FULL else {'ProgramTests.lean','Audit.lean','Demo.lean','Lemmas/Demo.lean','Lemmas/DemoCalls.lean','Lemmas/DemoClient.lean','Lemmas/DemoSealed.lean','Lemmas/Search.lean','Lemmas/DemoEffects.lean','Lemmas/DemoBooks.lean','Lemmas/DemoScripts.lean','Lemmas/DemoWorld.lean','Lemmas/DemoTokenScripts.lean'}

def order():
    files={}
    for d,_,fs in os.walk(ROOT):
        for f in fs:
            if f.endswith('.lean'):
                p=os.path.relpath(os.path.join(d,f),ROOT); files[p]=open(os.path.join(d,f)).read()
    done=[];seen=set()
    def visit(p):
        if p in seen: return
        seen.add(p)
        for m in re.findall(r'^import Verif\.(\S+)',files[p],re.M): visit(m.replace('.','/')+'.lean')
        done.append(p)
    for p in sorted(files): visit(p)
    return done,files

def strip_demo(s):
    # drop examples and theorems that mention Demo
    parts=re.split(r'(?m)^(?=/--|theorem |lemma |def |example|instance|variable|end |namespace |open |structure |inductive |abbrev |section|set_option|/-!|private |@\[)',s)
    out=[];i=0
    while i<len(parts):
        p=parts[i]
        if p.startswith('/--') and i+1<len(parts):
            if 'Demo.' in parts[i+1]: i+=2; continue
        if 'Demo.' in p and not p.startswith('/-') : i+=1; continue
        out.append(p); i+=1
    return ''.join(out)

TAIL='''
open Lean in
run_cmd do
  let env ← getEnv
  let mut out : Array String := #[]
  for (n, c) in env.constants.map₂.toList do
    if c matches .thmInfo _ then
      let s := n.getString!
      if s.length > 3 && s.front == 'C' && (s.drop 1).front.isDigit && (s.drop 2).front.isDigit then
        let ax ← Elab.Command.liftCoreM (collectAxioms n)
        out := out.push (s ++ (if ax.contains ``sorryAx then " BAD" else " OK"))
  logInfo m!"RESULT {out}"
'''
def build(edits):
    done,files=order()
    used=set()
    for f,o,n in edits:
        assert o in files[f],(f,o)
        assert files[f].count(o)==1,('not unique',f,o)
        files[f]=files[f].replace(o,n)
    imps=set();body=[];spans=[]
    for p in done:
        s=files[p]
        for m in re.findall(r'^import (?!Verif)(\S+)',s,re.M): imps.add(m)
        if p in SKIP: continue
        s=re.sub(r'^import .*\n','',s,flags=re.M)
        if not FULL: s=strip_demo(s)
        body.append((p,'section\n'+s+'\nend\n'))
    imps.add('Lean')
    text='\n'.join('import '+i for i in sorted(imps))+'\n'
    line=text.count('\n')+1
    decl=[]
    for p,s in body:
        for i,l in enumerate(s.split('\n')):
            m=re.match(r'(?:@\[.*\] ?)?(?:private |protected |noncomputable )*(theorem|lemma|def|structure|instance|inductive|abbrev|example)\b ?(\S*)',l)
            if m: decl.append((line+i,p,m.group(2) if m.group(1)!='example' else 'example'))
        text+=s; line+=s.count('\n')
    return text+TAIL,decl

def run(spec):
    text,decl=build(spec['edits'])
    fn=f"{OUT}/{re.sub(r'[^A-Za-z0-9]+','_',spec['name'])}.lean"
    open(fn,'w').write(text)
    r=subprocess.run(['lake','env','lean','-M','6000',fn],cwd='/verif/lean',capture_output=True,text=True)
    o=r.stdout+r.stderr
    direct=[]
    for m in re.finditer(r':(\d+):\d+: error',o):
        ln=int(m.group(1)); name=None
        for l,p,n in decl:
            if l<=ln: name=f'{p[:-5]}:{n}'
            else: break
        if name not in direct: direct.append(name)
    m=re.search(r'RESULT (.*)',o,re.S)
    res={}
    if m:
        for a,b in re.findall(r'(C\d\d\w*) (OK|BAD)',m.group(1)): res[a]=b
    json.dump(dict(direct=direct,res=res,out=o[-20000:]),open(fn[:-5]+'.json','w'))
    return direct,res

def main():
    spec=json.load(open(sys.argv[1]))
    bf=f'{OUT}/baseline{"_full" if FULL else ""}.json'
    h=hashlib.sha1(build([])[0].encode()).hexdigest()
    base=json.load(open(bf)) if os.path.exists(bf) else {}
    if base.get('hash')!=h:
        d,r=run({'name':'baseline'+('_full' if FULL else ''),'edits':[]})
        base=dict(hash=h,direct=d,res=r); json.dump(base,open(bf,'w'))
        print('baseline',len(r),'theorems; errors:',d,'bad:',[k for k in r if r[k]!='OK'],flush=True)
    def one(s):
        d,r=run(s)
        d=[x for x in d if x not in base['direct']]
        aff=sorted(k for k in base['res'] if base['res'][k]=='OK' and r.get(k)!='OK')
        print(json.dumps(dict(name=s['name'],direct=d,affected=aff,kept=len(base['res'])-len(aff))),flush=True)
    with ThreadPoolExecutor(int(os.environ.get('J','2'))) as ex: list(ex.map(one,spec))
if __name__=='__main__': main()
