# copies mutation records into seeded/LOG.jsonl (kept: last record of each identical definition+edit is listed too)
import json
rec=[json.loads(l) for l in open('/tmp/mut/raw.jsonl')]
with open('/verif/seeded/LOG.jsonl','w') as f:
    for r in rec:
        t=r.get('tightened') or []
        if isinstance(t,str): t=[t]
        f.write(json.dumps(dict(definition=r['definition'],edit=r['edit'],claim=r['claim'],theorems_failed=r['failed'],theorems_tightened=t))+'\n')
print(len(rec))
