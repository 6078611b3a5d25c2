#!/usr/bin/env python3
"""Writes /verif/seeded/LOG.jsonl from the results of tools/mutate.py.  TIGHT: theorems added because a wrong program got through; EQUIV: edits that do not change any claim."""
import json,glob
TIGHT={'EV32':['C12_update_spec_exact'],'EV34':['C12_own_calls'],'MA38':['C46_setpoint_per_unit']}
EQUIV={}
try:
    x=json.load(open('/verif/seeded/tight.json')); TIGHT.update(x['tight']); EQUIV.update(x['equiv'])
except FileNotFoundError: pass
res={}; first={}
for l in open('/tmp/mut/results.jsonl'):
    r=json.loads(l)
    if r['status']!='ok': continue
    if r['id'] in res and not res[r['id']]['failed']: first[r['id']]=True
    res[r['id']]=r
with open('/verif/seeded/LOG.jsonl','w') as f:
    for k,r in res.items():
        d=dict(id=k,definition=r['definition'],edit=r['edit'],claim=r['claim'],failed=r['failed'],tightened=TIGHT.get(k,[]))
        if k in TIGHT: d['note']='survived at first; the theorems under "tightened" were added and now fail on this program'
        elif not r['failed']: d['note']=EQUIV.get(k,'survived')
        f.write(json.dumps(d,ensure_ascii=False)+'\n')
print(len(res),sum(1 for r in res.values() if not r['failed']),[k for k,r in res.items() if not r['failed'] and k not in TIGHT and k not in EQUIV])
