# Every attempt, in the order run, from the batch outputs; nothing is dropped.
import json,glob,os
outs=sorted(glob.glob('/tmp/mut/b*.out'),key=os.path.basename)
order=['b1.out','b2.out','b2b.out']
outs=[f'/tmp/mut/{o}' for o in order if os.path.exists(f'/tmp/mut/{o}')]+[o for o in outs if os.path.basename(o) not in order]
res=[]
for o in outs:
    for l in open(o):
        if l.startswith('{'):
            try: res.append(json.loads(l))
            except ValueError: pass
TIGHTENED={('fillString','fillers the other way round'):['C101_written_record','C101_written_segment']}
for r in res:
    t=TIGHTENED.get((r['definition'],r['edit']))
    if t and not r['detected']: r['theorems_tightened']=t
open('/verif/seeded/LOG.jsonl','w').write(''.join(json.dumps(r,ensure_ascii=False)+'\n' for r in res))
log=[json.loads(l) for l in open('/tmp/mut/log.jsonl')]
key=lambda r:json.dumps(r,sort_keys=True)
S={key(r) for r in res}
print('attempts',len(res),'in log.jsonl but not in outputs:',[ (r['definition'],r['edit']) for r in log if key(r) not in S])
print('undetected:',[(r['definition'],r['edit']) for r in res if not r['detected']])
