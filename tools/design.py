import json,re,sys
sys.path.insert(0,'/verif/tools')
import coverage
how=dict(l.rstrip('\n').split(' | ',2)[:1]+[l.rstrip('\n').split(' | ',2)[1:]] for l in open('/verif/tools/how.txt') if l.strip())
props=[json.loads(l) for l in open('/verif/properties.jsonl')]
claims={c['property']:c for c in json.load(open('/verif/MANIFEST.json'))['claims']}
out=open('/verif/tools/design_head.md').read()
out+="## 3. Plan and outcome per property\n\n| id | property | model | proof | status | remark |\n|---|---|---|---|---|---|\n"
for p in props:
    c=claims[p['id']]; h=how.get(p['id'],['',''])
    out+=f"| {p['id']} | {p['title']} | {h[0]} | {h[1]} | {c['status']} | {c['note']} |\n"
out+="\nNo property is \"not applicable\".\n"
out+=open('/verif/tools/design_tail.md').read()
allsrc,cov=coverage.cov()
rem=dict(l.rstrip('\n').split(' | ',1) for l in open('/verif/tools/unmodelled.txt') if l.strip())
out+="## 6. Modelled and unmodelled code\n\nLines of `/repo/src` cited by definitions of the model; everything else in these files is not modelled (licences, includes,\ndeclarations, and what the last column says).\n\n| file | lines modelled | model | not modelled |\n|---|---|---|---|\n"
for f in sorted(allsrc):
    ms=cov.get(f,{}); tot=set().union(*ms.values()) if ms else set()
    if not tot and f.endswith('.h') and f not in rem: continue
    out+=f"| {f} ({allsrc[f]}) | {coverage.ranges(tot) or '—'} | {', '.join(x[:-5] for x in ms) or '—'} | {rem.get(f,'')} |\n"
for f in rem:
    if f not in allsrc: print('unknown file in unmodelled.txt',f)
out+="\nHeader files that are not listed contain only declarations or inline helpers that are modelled together with their source file.\n"
ax={}
for l in open('/verif/tools/axioms.txt'):
    t,a=l.rstrip('\n').split('\t'); ax.setdefault(a,[]).append(t)
out+="\n## 7. Axioms per theorem\n\n"
for a in sorted(ax,key=len):
    out+=f"* {a}: "+', '.join(f'`{t}`' for t in ax[a])+"\n"
open('/verif/DESIGN.md','w').write(out)
