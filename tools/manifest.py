#!/usr/bin/env python3
"""Writes MANIFEST.json: theorem names are collected from lean/Verif/Props by their prefix;
status and note come from the table below."""
import json,re,glob,os
root=os.path.dirname(os.path.dirname(os.path.abspath(__file__)))
thms={}
for f in sorted(glob.glob(root+'/lean/Verif/Props/*.lean')):
    ns=[]
    for l in open(f):
        m=re.match(r'namespace (\S+)',l)
        if m: ns.append(m.group(1))
        m=re.match(r'end (\S+)',l)
        if m and ns and m.group(1)==ns[-1]: ns.pop()
        m=re.match(r'theorem ((C\d\d+)_\w+)',l)
        if m: thms.setdefault(m.group(2),[]).append('.'.join(ns+[m.group(1)]))
status=json.load(open(root+'/tools/status.json'))
claims=[]
for l in open(root+'/properties.jsonl'):
    p=json.loads(l)['id']
    if p in thms:
        s,n=status.get(p,['proved',''])
        claims.append({'property':p,'status':s,'theorems':thms[p],'note':n})
    elif p in status:
        s,n=status[p]; claims.append({'property':p,'status':s,'theorems':[],'note':n})
json.dump({'claims':claims},open(root+'/MANIFEST.json','w'),indent=1)
print(len(claims),'claims', sum(len(c['theorems']) for c in claims),'theorems')
