"""usage: log_add.py mutants.json results.jsonl [tightened.json]  -- append one LOG line per mutant tried."""
import json,sys
muts={m['key']:m for m in json.load(open(sys.argv[1]))}
tight=json.load(open(sys.argv[3])) if len(sys.argv)>3 else {}
log=open('/verif/seeded/LOG.jsonl','a')
for l in open(sys.argv[2]):
    r=json.loads(l)
    if 'error' in r: continue
    m=muts[r['key']]
    t=tight.get(r['key'],{})
    log.write(json.dumps({'definition':m['defn']+' ('+m['file']+')','edit':m['claim'] if 'breaks' in m else '; '.join(a+' -> '+b for a,b in m['edits']),'claim_broken':m.get('breaks',m['claim']),
      'survived':bool(r['ok']),'theorems_failed':r['fails'],'tightened':t.get('tightened',[]),'note':t.get('note','')})+'\n')
