import json,re,glob
props=[json.loads(l)['id'] for l in open('/verif/properties.jsonl')]
th={}
for f in sorted(glob.glob('/verif/lean/Verif/Props/*.lean')):
    st_=[]
    for l in open(f):
        k=re.match(r'^namespace (\S+)',l)
        if k: st_.append(k.group(1))
        k=re.match(r'^end (\S+)',l)
        if k and st_ and st_[-1]==k.group(1): st_.pop()
        m=re.match(r'^theorem (C\d\d+)_(\S+)',l)
        if m: th.setdefault(m.group(1),[]).append('.'.join(st_)+'.'+m.group(1)+'_'+m.group(2))
notes=json.load(open('/verif/tools/notes.json'))
claims=[]
for p in props:
    if p in th:
        st='partial' if any(t.endswith('_partial') for t in th[p]) else 'proved'
        claims.append({'property':p,'status':st,'theorems':th[p],'note':notes.get(p,'')})
    else: print('no theorem',p)
json.dump({'claims':claims},open('/verif/MANIFEST.json','w'),indent=1)
