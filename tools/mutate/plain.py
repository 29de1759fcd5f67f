import json,sys,os,re,shutil,subprocess
sys.argv,ids=[sys.argv[0]],sys.argv[1:]
os.environ['MUT']='/tmp/mut3'
sys.path.insert(0,'/tmp/mut'); import run as R
mus={m['id']:m for f in ('D','K','F','E','P','D2') for m in json.load(open(f'/tmp/mut3/{f}.json'))}
import os
target=os.environ.get('T','Verif')
for i in ids:
    mu=mus[i]; W='/tmp/mut5'; shutil.rmtree(W,ignore_errors=True); subprocess.run(['cp','-al','/tmp/mut3/base',W],check=True)
    edited=set()
    for ed in mu.get('edits') or [mu]:
        p=f"{W}/{ed['file']}"; s=open(p).read(); pre,blk,post='',s,''
        if 'within' in ed:
            k=re.search(r'^(?:noncomputable )?(?:def|structure|inductive) '+re.escape(ed['within'])+r'(?=[\s:(])',s,re.M)
            j=s.find('\n\n',k.start()); j=len(s) if j<0 else j
            pre,blk,post=s[:k.start()],s[k.start():j],s[j:]
        assert blk.count(ed['old'])==ed.get('count',1)
        os.unlink(p); open(p,'w').write(pre+blk.replace(ed['old'],ed['new'])+post); edited.add(ed['file'][:-5].replace('/','.'))
    ms=R.modules(W); need=set(); order=[]
    def visit(m):
        if m in need: return
        need.add(m)
        for d in ms[m]: visit(d)
        order.append(m)
    visit(target)
    aff=set()
    for m in order:
        if m in edited or any(d in aff for d in ms[m]): aff.add(m)
    env=dict(os.environ,LEAN_PATH=R.LP.replace('/verif/lean/.lake/build/lib/lean',W+'/lib'))
    for m in order:
        if m not in aff: continue
        o=f"{W}/lib/{m.replace('.','/')}.olean"; os.path.exists(o) and os.unlink(o)
        r=subprocess.run(['timeout','900','lean','-o',o,m.replace('.','/')+'.lean'],cwd=W,env=env,capture_output=True,text=True)
        errs=[l for l in r.stdout.split('\n') if ': error' in l]
        decl=list(dict.fromkeys(R.decl_at(f"{W}/{m.replace('.','/')}.lean",int(re.search(r':(\d+):',l).group(1))) for l in errs))
        print(i,m,r.returncode,decl,errs[:1],r.stderr[-200:],flush=True)
        if r.returncode: break
