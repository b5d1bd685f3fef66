#!/usr/bin/env python3
"""Generates MANIFEST.json from tools/claims.txt:  Cnn | status | thm,thm | note"""
import json, os, re
d=os.path.dirname(os.path.abspath(__file__))
claims=[]
for l in open(os.path.join(d,"claims.txt")):
    l=l.strip()
    if not l or l.startswith('#'): continue
    i,s,t,n=[x.strip() for x in l.split('|',3)]
    ths=["Clip."+x.strip() for x in t.split(',') if x.strip()]
    claims.append({"property":i,"status":s,"theorems":ths,"note":n})
json.dump({"claims":claims},open(os.path.join(d,"..","MANIFEST.json"),"w"),indent=1)
# sanity: names exist
src=""
for root,_,fs in os.walk(os.path.join(d,"..","lean","Verif","Props")):
    for f in fs: src+=open(os.path.join(root,f)).read()
names=set(re.findall(r'^theorem (\S+)',src,re.M))
for c in claims:
    for t in c["theorems"]:
        if t.split('.',1)[1] not in names: print("MISSING",t)
used={t.split('.',1)[1] for c in claims for t in c["theorems"]}
for n in sorted(names-used):
    if n.startswith("C") and n[1:3].isdigit(): print("unclaimed",n)
