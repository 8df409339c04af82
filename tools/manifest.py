import json,re,glob,collections
names=collections.defaultdict(list)
for f in sorted(glob.glob('/verif/lean/Verif/Props/*.lean')):
    s=open(f).read()
    ns=re.search(r'^namespace (\S+)',s,re.M).group(1)
    for m in re.finditer(r'^theorem (C(\d+)_\w+)',s,re.M):
        names['C'+m.group(2)].append(ns+'.'+m.group(1))
notes=json.load(open('/verif/tools/notes.json'))
claims=[]
for l in open('/verif/properties.jsonl'):
    d=json.loads(l); i=d['id']
    n=notes.get(i,{})
    if i in names:
        st=n.get('status') or ('partial' if any(x.endswith('_partial') or x.endswith('_false') for x in names[i]) else 'proved')
        claims.append({"property":i,"status":st,"theorems":names[i],"note":n.get('note','')})
    elif n.get('status')=='not_applicable':
        claims.append({"property":i,"status":"not_applicable","theorems":[],"note":n['note']})
json.dump({"claims":claims},open('/verif/MANIFEST.json','w'),indent=1,ensure_ascii=False)
print(len(claims),[ (c['property'],c['status']) for c in claims if c['status']!='proved'])
