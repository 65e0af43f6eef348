#!/usr/bin/env python3
"""Append raw mutation records (file given as argv[1]) to seeded/LOG.jsonl, adding the property theorems
that depend (textual transitive closure over declaration names) on the declarations that failed."""
import json,sys,re,glob,os
root=os.path.join(os.path.dirname(__file__),'..','lean','Verif')
decl={}
for f in glob.glob(root+'/**/*.lean',recursive=True):
    s=open(f).read()
    parts=re.split(r'(?m)^(?=(?:@\[[^\]]*\]\s*)?(?:private |noncomputable |protected )*(?:theorem|lemma|def|instance|structure|inductive)\s+\S)',s)
    for p in parts[1:]:
        m=re.match(r'(?:@\[[^\]]*\]\s*)?(?:private |noncomputable |protected )*(?:theorem|lemma|def|instance|structure|inductive)\s+([^\s:({\[]+)',p)
        if m: decl.setdefault(m.group(1).split('.')[-1] if False else m.group(1),(f,p))
words={n:set(re.findall(r"[A-Za-z_][A-Za-z0-9_.'!?₀-₉]*",p)) for n,(f,p) in decl.items()}
rev={}
for n,w in words.items():
    for x in w:
        if x!=n and x in decl: rev.setdefault(x,set()).add(n)
def closure(x):
    seen={x};st=[x]
    while st:
        y=st.pop()
        for z in rev.get(y,()):
            if z not in seen: seen.add(z);st.append(z)
    return seen
out=open(os.path.join(root,'..','..','seeded','LOG.jsonl'),'a')
for l in open(sys.argv[1]):
    r=json.loads(l)
    if any(x.startswith('Model/') for x in r['failed']): continue
    dep=set()
    for x in r['failed']:
        n=x.split(':')[-1]
        dep|={y for y in closure(n) if re.match(r'C\d\d',y)}
    r['property_theorems_affected']=sorted(dep)
    out.write(json.dumps(r)+'\n')
