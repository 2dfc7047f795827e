#!/usr/bin/env python3
"""Like mutate.py, but an edit is abandoned as soon as a theorem fails on which a claim of MANIFEST.json depends.
Edits that do not type-check are skipped.  usage: mutate_fast.py batch.json scratch_dir [skip]"""
import json, os, re, subprocess, sys, signal, importlib.util
spec=importlib.util.spec_from_file_location('mutate','/verif/tools/mutate.py')
src=open('/verif/tools/mutate.py').read().rsplit('main()',1)[0]
M={}; exec(compile(src,'mutate.py','exec'),M)
DST=sys.argv[2]; M['DST']=DST
def build(target, d):
    p=subprocess.Popen(f"cd {DST} && exec lake build {target} 2>&1",shell=True,stdout=subprocess.PIPE,text=True,start_new_session=True)
    failed=[]; ok=False
    for l in p.stdout:
        if 'Build completed successfully' in l: ok=True
        mm=re.match(r'^error: (\S+?\.lean):(\d+):\d+',l)
        if mm:
            n=M['decl_at'](os.path.join(DST,mm.group(1)),int(mm.group(2)))
            if n not in failed: failed.append(n)
            if d is not None and any('SF.'+n in ds for ds in d.values()):
                os.killpg(p.pid,signal.SIGKILL); p.wait(); return False,failed
    p.wait()
    return ok,failed
def main():
    batch=json.load(open(sys.argv[1]))[int(sys.argv[3]) if len(sys.argv)>3 else 0:]
    if not os.path.exists(DST): subprocess.run(f"cp -a /verif/lean {DST}",shell=True)
    subprocess.run(f"cd {DST} && lake build 2>&1 | tail -1",shell=True)
    d,prop=M['deps']()
    for m in batch:
        p=os.path.join(DST,m['file']); s=open(p).read(); pos=-1
        if m['old'] not in s: print('ERR not found',m['edit'],flush=True); continue
        for _ in range(m.get('nth',0)+1): pos=s.index(m['old'],pos+1)
        open(p,'w').write(s[:pos]+m['new']+s[pos+len(m['old']):])
        mod=m['file'][:-5].replace('/','.')
        ok,failed=build(mod,None)
        if not ok and m['file']!='Verif/Py.lean':
            print('invalid  ',m['definition'],m['edit'],flush=True); open(p,'w').write(s); continue
        if ok: ok,failed=build('',d)
        open(p,'w').write(s)
        names={'SF.'+f for f in failed}
        cl=sorted({t for t,ds in d.items() if ds & names})
        props=sorted({q for t in cl for q in prop.get(t,[])})
        rec={'definition':m['definition'],'edit':m['edit'],'claim':', '.join(props) if props else m['claim'],
             'theorems_failed':cl[:12] or failed,'lemmas_failed_first':failed[:6],'properties_failed':props,'survived':ok,
             'theorems_tightened':[],'generated':True}
        open('/verif/seeded/LOG.jsonl','a').write(json.dumps(rec,ensure_ascii=False)+'\n')
        print(('SURVIVED ' if ok else 'killed   ')+m['definition']+': '+m['edit'],'->',props[:5],failed[:3],flush=True)
main()
