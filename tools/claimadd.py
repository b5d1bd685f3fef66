#!/usr/bin/env python3
"""usage: claimadd.py C22 thm [thm...]  -- append theorems to a claim in tools/claims.txt"""
import sys
P='/verif/tools/claims.txt'
ls=open(P).read().split("\n")
for k,l in enumerate(ls):
    f=l.split(" | ")
    if f[0]==sys.argv[1]:
        t=f[2].rstrip(); bar=t.endswith("|"); t=t.rstrip(" |") ; f[2]=t+", "+", ".join(sys.argv[2:])+(" |" if bar else ""); ls[k]=" | ".join(f); break
else: print("no claim",sys.argv[1])
open(P,'w').write("\n".join(ls))
