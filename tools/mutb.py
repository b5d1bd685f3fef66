#!/usr/bin/env python3
"""usage: mutb.py FILE -- like mut.py, but several independent edits per build.
FILE defines G = [(targets, [(model file stem, definition, old, new, claim broken, theorem regex)])].
The old text must occur once inside the definition.  An edit survives if no failing declaration matches its regex."""
import sys,subprocess,os,re,json
ns={}; exec(open(sys.argv[1]).read(),ns)
SC=os.environ.get('MUT','/tmp/mutb')
subprocess.run('rm -rf '+SC+'; cp -a /verif/lean '+SC+'; true',shell=True,check=True)
LOG='/verif/seeded/LOG.jsonl'
def thm_at(path,line):
    name='?'
    for i,l in enumerate(open(path,errors='replace'),1):
        if i>line: break
        m=re.match(r'\s*(?:@\[[^\]]*\]\s*)?(?:private |protected |noncomputable )*(theorem|lemma|def|example|instance|structure|abbrev)\s*([^\s:({\[]*)',l)
        if m: name=m.group(2) if m.group(2) else m.group(1)
    return name
def edit(t,d,old,new):
    m=re.search(r'^(?:private |noncomputable |partial )*(?:def|structure|inductive) '+re.escape(d)+r'(?![A-Za-z0-9_.\'])',t,re.M)
    if not m: return None
    e=re.search(r'\n\n',t[m.start():]); e=m.start()+(e.start() if e else len(t))
    b=t[m.start():e]
    if b.count(old)!=1: return None
    return t[:m.start()]+b.replace(old,new)+t[e:]
for gi,(targets,ms) in enumerate(ns['G']):
    orig={}; live=[]
    for (stem,d,old,new,claim,rx) in ms:
        p=f'{SC}/Verif/Model/{stem}.lean'
        t=open(p).read(); orig.setdefault(p,t)
        n=edit(t,d,old,new)
        if n is None: print('SKIP',stem,d,old[:50]); continue
        open(p,'w').write(n); live.append((stem,d,old,new,claim,rx))
    r=subprocess.run(['timeout','1500','lake','build']+[f'Verif.{t}' for t in targets],cwd=SC,capture_output=True,text=True)
    out=r.stdout+r.stderr
    fails=[];files=set()
    for m in re.finditer(r'error: (Verif/[\w/]+\.lean):(\d+):',out):
        n=thm_at(f'{SC}/{m.group(1)}',int(m.group(2))); files.add(m.group(1))
        if n not in fails: fails.append(n)
    for p,t in orig.items(): open(p,'w').write(t)
    if r.returncode and not files: print('GROUP',gi,'BUILD FAILED',out[-300:]); continue
    if any('Model/' in f for f in files): print('GROUP',gi,'MODEL BROKEN',files,out[-400:]); continue
    print('GROUP',gi,'files',sorted(files),'fails',fails[:30])
    for (stem,d,old,new,claim,rx) in live:
        f=[x for x in fails if re.search(rx,x)]
        if not f: print('SURVIVED?',stem,d,'|',old,'=>',new,'|',claim); continue
        with open(LOG,'a') as g:
            g.write(json.dumps({"definition":d,"file":f"lean/Verif/Model/{stem}.lean","edit":f"{old}  =>  {new}","claim_broken":claim,"theorems_failed":f,"theorems_tightened":[]})+"\n")
    sys.stdout.flush()
