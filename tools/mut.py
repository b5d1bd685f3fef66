#!/usr/bin/env python3
"""usage: mut.py MUTATIONS.py  -- runs seeded-bug experiments in a scratch copy (/tmp/mut) and appends to seeded/LOG.jsonl.
MUTATIONS.py defines M = [(model file stem, definition, old text, new text, claim broken, [targets])]."""
import sys,subprocess,os,re,json,shutil
ns={}; exec(open(sys.argv[1]).read(),ns)
SC=os.environ.get('MUT','/tmp/mut')
subprocess.run('mkdir -p '+SC+' && rm -rf '+SC+' && cp -a /verif/lean '+SC,shell=True,check=True)
LOG='/verif/seeded/LOG.jsonl'
def thm_at(path,line):
    name='?'
    for i,l in enumerate(open(path,errors='replace'),1):
        if i>line: break
        m=re.match(r'\s*(?:@\[[^\]]*\]\s*)?(?:private |protected |noncomputable )*(theorem|lemma|def|example|instance|structure|abbrev)\s*([^\s:({\[]*)',l)
        if m: name=m.group(2) if m.group(2) else m.group(1)
    return name
for (stem,d,old,new,claim,targets) in ns['M']:
    p=f'{SC}/Verif/Model/{stem}.lean'
    orig=open(p).read()
    if orig.count(old)!=1:
        print('SKIP',stem,d,'matches',orig.count(old)); continue
    open(p,'w').write(orig.replace(old,new))
    r=subprocess.run(['lake','build']+[f'Verif.{t}' for t in targets],cwd=SC,capture_output=True,text=True)
    out=r.stdout+r.stderr
    fails=[]
    modelbroken=False
    for m in re.finditer(r'error: (Verif/[\w/]+\.lean):(\d+):',out):
        if 'Model/'+stem in m.group(1): modelbroken=True
        n=thm_at(f'{SC}/{m.group(1)}',int(m.group(2)))
        if n not in fails: fails.append(n)
    open(p,'w').write(orig)
    if modelbroken: print('MODEL BROKEN',stem,d,new[:60],out[-600:]); continue
    if not fails: print('SURVIVED',stem,d,'|',old,'=>',new,'|',claim)
    else: print('ok',stem,d,len(fails),fails[:4])
    sys.stdout.flush()
    with open(LOG,'a') as f:
        f.write(json.dumps({"definition":d,"file":f"lean/Verif/Model/{stem}.lean","edit":f"{old}  =>  {new}","claim_broken":claim,"theorems_failed":fails,"theorems_tightened":[]})+"\n")
