#!/usr/bin/env python3
"""Regenerate MANIFEST.json: theorems named Cxx_... in lean/Verif/Props/*.lean, per property.
A theorem named C02_C03_... counts for both. Notes/overrides in tools/status.json."""
import re,glob,json,os
root=os.path.dirname(os.path.dirname(os.path.abspath(__file__)))
props=[json.loads(l)['id'] for l in open(root+'/properties.jsonl')]
thms={p:[] for p in props}
for f in sorted(glob.glob(root+'/lean/Verif/Props/*.lean')):
    src=open(f).read(); ns=re.search(r'^namespace (\S+)',src,re.M); ns=ns.group(1) if ns else 'FNFT'
    for m in re.finditer(r'^theorem ((?:C\d+_)+\w+)',src,re.M):
        n=m.group(1)
        for i in re.findall(r'C\d+(?=_)',re.match(r'(?:C\d+_)+',n).group(0)):
            thms[i].append(ns+'.'+n)
st=json.load(open(root+'/tools/status.json')) if os.path.exists(root+'/tools/status.json') else {}
claims=[]
for p in props:
    o=st.get(p,{})
    if not thms[p]:
        if o.get('status')=='not_applicable':
            claims.append(dict(property=p,status='not_applicable',theorems=[],note=o['note']))
        continue
    part=any(t.endswith('_partial') for t in thms[p])
    claims.append(dict(property=p,status=o.get('status','partial' if part else 'proved'),theorems=thms[p],note=o.get('note','')))
json.dump({"claims":claims},open(root+'/MANIFEST.json','w'),indent=1,ensure_ascii=False)
print(len(claims),'claims;','missing',[p for p in props if p not in [c['property'] for c in claims]])
