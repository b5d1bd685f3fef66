"""Which lines of /repo are cited by definitions of the model (Model/*.lean)."""
import re,glob,os,collections
def cov():
    allsrc={}
    for r,d,fs in os.walk('/repo/src'):
        for f in fs:
            if f.endswith(('.cc','.h')):
                p=os.path.relpath(os.path.join(r,f),'/repo/src'); allsrc[p]=sum(1 for _ in open(os.path.join(r,f),errors='replace'))
    byname=collections.defaultdict(list)
    for p in allsrc: byname[os.path.basename(p)].append(p)
    out=collections.defaultdict(lambda: collections.defaultdict(set))
    for m in sorted(glob.glob('/verif/lean/Verif/Model/*.lean')):
        t=open(m).read()
        for c in re.finditer(r'([\w/]+\.(?:cc|h)):((?:\d+(?:-\d+)?(?:, ?|/| and )?)+)',t):
            f=c.group(1); f=f.replace('src/','')
            cand=[p for p in allsrc if p==f or p.endswith('/'+f)]
            if len(cand)>1:
                cand=[p for p in cand if p==f] or cand[:1]
            if not cand: print('??',m,c.group(0)); continue
            for a in re.finditer(r'(\d+)(?:-(\d+))?',c.group(2)):
                lo=int(a.group(1)); hi=int(a.group(2) or lo)
                for l in range(lo,hi+1): out[cand[0]][os.path.basename(m)].add(l)
    return allsrc,out
def ranges(s):
    s=sorted(s); r=[]
    for x in s:
        if r and x<=r[-1][1]+3: r[-1][1]=x
        else: r.append([x,x])
    return ', '.join(f'{a}-{b}' if a!=b else str(a) for a,b in r)
if __name__=='__main__':
    allsrc,out=cov()
    for p in sorted(allsrc):
        ms=out.get(p,{}); tot=set().union(*ms.values()) if ms else set()
        print(f"{p} {allsrc[p]} | {ranges(tot)} | {', '.join(x[:-5] for x in ms)}")
