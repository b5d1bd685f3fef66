"""Writes tools/axioms.txt: theorem<TAB>axioms for each theorem of MANIFEST.json (needs a finished lake build)."""
import json,subprocess,re
ths=[]
for c in json.load(open('/verif/MANIFEST.json'))['claims']:
    for t in c['theorems']:
        if t not in ths: ths.append(t)
open('/tmp/ax.lean','w').write("import Verif\n"+"".join(f"#print axioms {t}\n" for t in ths))
o=subprocess.run(['lake','env','lean','/tmp/ax.lean'],cwd='/verif/lean',capture_output=True,text=True).stdout
o=re.sub(r'\n +',' ',o)
res={}
for l in o.split('\n'):
    m=re.search(r"'(Clip\.[^']+)' (does not depend on any axioms|depends on axioms: \[(.*)\])",l)
    if m: res[m.group(1)]=m.group(3) or 'none'
missing=[t for t in ths if t not in res]
assert not missing, missing
bad=[t for t in res if set((res[t]).split(', '))-{'propext','Classical.choice','Quot.sound','none'}]
assert not bad, bad
open('/verif/tools/axioms.txt','w').write(''.join(f"{t[5:]}\t{res[t]}\n" for t in ths))
