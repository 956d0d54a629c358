# rewrites seeded/LOG.jsonl from the results of the mutation runs
import json,re,os
tight={'A001':['C03_channel_acceptance','C05_value_parse'],'A007':['C04_int_roundtrip'],'A016':['C01_named'],'A049':['C01_named'],'B053':['C14_grammar'],
 'A042':['C34_value_types'],'A043':['C34_value_types'],'D056':['C47_for_test'],'D057':['C47_for_test'],'D109':['C84_make_stms'],'F001':['C84_make_stms'],'F003':['C84_make_stms'],'E037':['C79_named']}
try: tight.update(json.load(open('/tmp/mut/tight.json')))
except FileNotFoundError: pass
note={'B053':'edited program behaves the same on every input the reader can reach; the exact grammar theorem C14_grammar was added to make sure',
 }
seen=set()
out=[]
for l in open('/tmp/mut/results.jsonl'):
    r=json.loads(l)
    first=r['id'] not in seen
    seen.add(r['id'])
    e={'id':r['id'],'definition':r['file']+': '+r['defn'],'edit':'%s  ==>  %s'%(r['old'],r['new']),'what':r.get('desc',''),'claim_broken':r.get('breaks',''),
       'result':'edit rejected by Lean in the model itself; replaced by another edit' if r['status']=='MODELERR' else ('build still passed' if r['status']=='SURVIVED' else 'build failed'),
       'theorems_failed':r['theorems'] if r['status']!='MODELERR' else [],
       'first_failures':[f.split(':',1)[1] for f in r['failed']] if r['status']!='MODELERR' else [],
       'theorems_tightened':tight.get(r['id'],[]) if first else []}
    if r['id'] in note and r['status']=='SURVIVED': e['note']=note[r['id']]
    if r['status']=='SURVIVED' and not r.get('breaks') and 'note' not in e: e['note']='no claim is false of the edited program: '+r.get('desc','')
    if not first: e['note']='repeated after tightening'
    if any('example@' in f for f in e['first_failures']) and not e['theorems_failed']: e['note']='only an example failed: a theorem was added'
    out.append(e)
os.makedirs('/verif/seeded',exist_ok=True)
with open('/verif/seeded/LOG.jsonl','w') as f:
    for e in out: f.write(json.dumps(e)+'\n')
print(len(out))
