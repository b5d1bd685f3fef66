#!/usr/bin/env python3
"""usage: add.py FILE  -- FILE: python text with p(...) entries, then a line '---', then claims lines, then '---', then module imports."""
import sys
t=open(sys.argv[1]).read().split("\n---\n")
P='/verif/tools/props.py'; s=open(P).read(); i=s.index("with open(os.path"); s=s[:i]+t[0].strip()+("\n" if t[0].strip() else "")+s[i:]; open(P,'w').write(s)
C='/verif/tools/claims.txt'; s=open(C).read().rstrip("\n"); open(C,'w').write(s+"\n"+(t[1].strip()+"\n" if t[1].strip() else ""))
V='/verif/lean/Verif.lean'; s=open(V).read()
for m in t[2].split():
    l="import "+m+"\n"
    if l not in s: s+=l
open(V,'w').write(s)
