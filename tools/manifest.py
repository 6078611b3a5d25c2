#!/usr/bin/env python3
"""Regenerate MANIFEST.json from the theorem names in lean/Verif/Props (a theorem named Cnn_* belongs to property Cnn)."""
import glob,json,re,collections,os
root=os.path.dirname(os.path.dirname(os.path.abspath(__file__)))
th=collections.defaultdict(list)
for f in sorted(glob.glob(root+'/lean/Verif/Props/*.lean')):
    ns=[]
    for l in open(f):
        m=re.match(r'namespace (\S+)',l)
        if m: ns.append(m.group(1))
        m=re.match(r'end (\S+)',l)
        if m and ns and ns[-1]==m.group(1): ns.pop()
        m=re.match(r'(?:noncomputable )?theorem (C\d\d\d?)_(\S+)',l)
        if m: th[m.group(1)].append('.'.join(ns+[m.group(1)+'_'+m.group(2)]))
notes=json.load(open(root+'/tools/notes.json')) if os.path.exists(root+'/tools/notes.json') else {}
claims=[]
for l in open(root+'/properties.jsonl'):
    p=json.loads(l)['id']
    n=notes.get(p,{})
    if p in th:
        st=n.get('status') or ('partial' if any(t.endswith('_partial') for t in th[p]) else 'proved')
        claims.append(dict(property=p,status=st,theorems=th[p],note=n.get('note','')))
    elif n.get('status')=='not_applicable':
        claims.append(dict(property=p,status='not_applicable',theorems=[],note=n['note']))
    else: print('MISSING',p)
json.dump({'claims':claims},open(root+'/MANIFEST.json','w'),indent=1)
print(len(claims),sum(c['status']=='proved' for c in claims),'proved')
