#!/usr/bin/env python3
"""Seeded-bug run: seed.py BATCH.json
Each entry: {file, def, old, new, claim, targets: [modules], also: [{file, old, new}]} (`also`: the same bug in helper definitions that mirror the code). Applies the edit in a scratch copy (/tmp/seed), builds the target modules
with `lake build`, maps every error to the enclosing declaration and appends a line to seeded/LOG.jsonl. When a helper file breaks, the
modules that import it are listed as blocked."""
import json, sys, subprocess, os, re, shutil
V='/verif/lean'; S='/tmp/seed/lean'
batch=json.load(open(sys.argv[1]))
os.makedirs('/tmp/seed',exist_ok=True)
subprocess.run(['rsync','-a','--delete',V+'/',S+'/']) if shutil.which('rsync') else subprocess.run(f'rm -rf {S}; cp -a {V} {S}',shell=True)
def enclosing(f,line):
    ls=open(f).read().split('\n')[:line]
    for l in reversed(ls):
        m=re.match(r'(?:@\[[^\]]*\]\s*)?(?:private )?(?:noncomputable )?(theorem|lemma|def|example|instance|structure)\s*(\S*)',l)
        if m: return m.group(2) if m.group(1)!='example' else 'example'
    return '?'
for e in batch:
    p=os.path.join(S,'Verif',e['file'])
    src=open(os.path.join(V,'Verif',e['file'])).read()
    if src.count(e['old'])!=1:
        print('SKIP',e['def'],'occurrences',src.count(e['old'])); continue
    open(p,'w').write(src.replace(e['old'],e['new']))
    bad=False; restore=[]
    for x in e.get('also',[]):
        q=os.path.join(S,'Verif',x['file']); cur=open(q).read()
        if cur.count(x['old'])!=1: bad=True; print('SKIP also',e['def'],x['old'],cur.count(x['old'])); break
        restore.append((q,cur)); open(q,'w').write(cur.replace(x['old'],x['new']))
    if bad:
        open(p,'w').write(src)
        for q,cur in reversed(restore): open(q,'w').write(cur)
        continue
    out=subprocess.run(['lake','build']+e['targets'],cwd=S,capture_output=True,text=True)
    txt=out.stdout+out.stderr
    failed=[]
    for m in re.finditer(r'error: (Verif/\S+?\.lean):(\d+):',txt):
        n=m.group(1)[6:-5].replace('/','.')+':'+enclosing(os.path.join(S,m.group(1)),int(m.group(2)))
        if n not in failed: failed.append(n)
    builtbad={f.split(':')[0] for f in failed}
    for q,cur in reversed(restore): open(q,'w').write(cur)
    open(p,'w').write(src)
    rec={'definition':e['file']+': '+e['def'],'edit':e['old'].strip()+'  ==>  '+e['new'].strip(),'claim_broken':e['claim'],
         'theorems_failed':failed,'theorems_tightened':e.get('tightened',[])}
    print(('CAUGHT ' if failed else 'SURVIVED ')+e['def'],failed[:6],flush=True)
    if failed or e.get('log_survivor'):
        open('/verif/seeded/LOG.jsonl','a').write(json.dumps(rec,ensure_ascii=False)+'\n')
    else:
        open('/tmp/survivors.jsonl','a').write(json.dumps(rec,ensure_ascii=False)+'\n')
