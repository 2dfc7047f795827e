#!/usr/bin/env python3
"""Mutation tests: apply a textual edit to a scratch copy of the model, rebuild, record which theorems fail.
usage: mutate.py batch.json   (list of {file, old, new, definition, edit, claim})
Appends one line per attempt to /verif/seeded/LOG.jsonl."""
import json, os, re, subprocess, sys
SRC='/verif/lean'; DST='/tmp/mut'
def sh(c, **k): return subprocess.run(c, shell=True, capture_output=True, text=True, **k)
def sync():
    os.makedirs(DST, exist_ok=True)
    sh(f"rsync -a --delete {SRC}/ {DST}/") if sh("which rsync").returncode==0 else sh(f"rm -rf {DST}; cp -a {SRC} {DST}")
def deps():
    claims=[c for c in json.load(open('/verif/MANIFEST.json'))['claims']]
    names=sorted({t for c in claims for t in c['theorems']})
    open('/tmp/work/claimnames.txt','w').write('\n'.join(names)+'\n')
    out=sh(f"cd {SRC} && cp /verif/tools/deps_lean.txt /tmp/work/deps.lean && lake env lean /tmp/work/deps.lean").stdout
    d={}
    for l in out.splitlines():
        if '|' in l:
            a,b=l.split('|',1); d[a.strip()]=set(b.split())
    prop={}
    for c in claims:
        for t in c['theorems']: prop.setdefault(t,[]).append(c['property'])
    return d,prop
DECL=re.compile(r'^(?:@\[[^\]]*\]\s*)?(?:private |protected |noncomputable )*(theorem|lemma|def|example|instance|abbrev|structure|inductive)\s*([^\s:({\[]*)')
def decl_at(path, line):
    ls=open(path).read().split('\n')
    for i in range(min(line,len(ls))-1,-1,-1):
        m=DECL.match(ls[i])
        if m: return m.group(2) or f'example@{i+1}'
    return '?'
def run(m, d, prop):
    p=os.path.join(DST,m['file']); s=open(p).read()
    n=s.count(m['old'])
    if n<1: return {'error':f"pattern not found in {m['file']}"}
    idx=m.get('nth',0); pos=-1
    for _ in range(idx+1): pos=s.index(m['old'],pos+1)
    open(p,'w').write(s[:pos]+m['new']+s[pos+len(m['old']):])
    failed=[]; 
    out=sh(f"cd {DST} && lake build 2>&1").stdout
    for mm in re.finditer(r'^error: (\S+?\.lean):(\d+):\d+', out, re.M):
        nme=decl_at(os.path.join(DST,mm.group(1)),int(mm.group(2)))
        if nme not in failed: failed.append(nme)
    ok='Build completed successfully' in out
    open(p,'w').write(s)
    names={('SF.'+f) for f in failed if not f.startswith('example')}
    cl=sorted({t for t,ds in d.items() if ds & names})
    return {'built':ok,'failed':failed,'claims_failed':cl,'props':sorted({q for t in cl for q in prop.get(t,[])})}
def main():
    batch=json.load(open(sys.argv[1])); sync(); d,prop=deps()
    for m in batch:
        r=run(m,d,prop)
        if 'error' in r: print('ERR',r['error'],m['edit']); continue
        rec={'definition':m['definition'],'edit':m['edit'],'claim':m['claim'],
             'theorems_failed':r['claims_failed'] or r['failed'],'lemmas_failed_first':r['failed'][:6],
             'properties_failed':r['props'],'survived':r['built'],'theorems_tightened':m.get('tightened',[])}
        if not (r['built'] and '--dry' in sys.argv):
            open('/verif/seeded/LOG.jsonl','a').write(json.dumps(rec,ensure_ascii=False)+'\n')
        print(('SURVIVED ' if r['built'] else 'killed   ')+m['definition']+': '+m['edit'],'->',r['props'],r['failed'][:4],flush=True)
main()
