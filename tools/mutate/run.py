"""Mutation runner: applies edits to a scratch copy of the model, re-elaborates every module that depends on
the edited one (failing proofs become sorry so that their dependants are still checked), and reports which
property theorems no longer hold.

usage: run.py mutations.json [first [last]]   results appended to /tmp/mut/results.jsonl
mutation: {"id","file","old","new","definition","claim","expect":["C.."]}; file relative to lean/"""
import json,os,re,shutil,subprocess,sys,time,threading
from concurrent.futures import ThreadPoolExecutor
D=os.environ.get('MUT','/tmp/mut'); B=D+'/base'; W=D+'/work'
LP=subprocess.run('lake env printenv LEAN_PATH',shell=True,cwd='/verif/lean',capture_output=True,text=True).stdout.strip()
def refresh():
    shutil.rmtree(B,ignore_errors=True); os.makedirs(B+'/lib')
    subprocess.run(f'cp -r /verif/lean/Verif /verif/lean/Verif.lean {B}/ && cp -r /verif/lean/.lake/build/lib/lean/. {B}/lib/',shell=True,check=True)
    names=[t for c in json.load(open('/verif/MANIFEST.json'))['claims'] for t in c['theorems']]
    open(D+'/names.txt','w').write('\n'.join(names)+'\n')
def modules(root):
    ms={}
    for d,_,fs in os.walk(root):
        if '/lib' in d: continue
        for f in fs:
            if f.endswith('.lean'):
                p=os.path.join(d,f); m=os.path.relpath(p,root)[:-5].replace('/','.')
                imps=re.findall(r'^(?:public )?import (Verif[\w.]*)',open(p).read(),re.M)
                ms[m]=imps
    return ms
def decl_at(path,line):
    L=open(path).read().split('\n')
    for i in range(min(line,len(L))-1,-1,-1):
        m=re.match(r'^(?:@\[.*?\] )?(?:private |protected |noncomputable |partial )*(theorem|lemma|def|abbrev|instance|example|structure|inductive)\b\s*([\w.\']*)',L[i])
        if m: return (m.group(2) or m.group(1)) if m.group(1)!='example' else f'example@{i+1}'
    return '?'
def run(mu,timeout=1500,dry=False):
    W=globals()['W']
    if dry: W=D+'/dry'
    shutil.rmtree(W,ignore_errors=True)
    subprocess.run(['cp','-al',B,W] if not dry else f'mkdir -p {W} && cp -al {B}/Verif {B}/Verif.lean {W}/',shell=dry,check=True)
    edits=mu.get('edits') or [mu]
    edited=set()
    for ed in edits:
        p=f"{W}/{ed['file']}"; s=open(p).read()
        pre,blk,post='',s,''
        if 'within' in ed:
            k=re.search(r'^(?:noncomputable )?(?:def|structure|inductive) '+re.escape(ed['within'])+r'(?=[\s:(])',s,re.M)
            if not k: return {'id':mu['id'],'error':f"no declaration {ed['within']} in {ed['file']}"}
            j=s.find('\n\n',k.start()); j=len(s) if j<0 else j
            pre,blk,post=s[:k.start()],s[k.start():j],s[j:]
        n=blk.count(ed['old'])
        if n!=ed.get('count',1): return {'id':mu['id'],'error':f"old text occurs {n} times in {ed['file']} {ed.get('within','')}"}
        os.unlink(p); open(p,'w').write(pre+blk.replace(ed['old'],ed['new'])+post)
        edited.add(ed['file'][:-5].replace('/','.'))
    if dry: return None
    ms=modules(W)
    rev={m:[] for m in ms}
    for m,i in ms.items():
        for j in i: rev[j].append(m)
    aff=set(); st=list(edited)
    while st:
        m=st.pop()
        if m in aff: continue
        aff.add(m); st+=rev[m]
    for m in aff:
        for e in ('.olean','.ilean'):
            try: os.unlink(f"{W}/lib/{m.replace('.','/')}{e}")
            except FileNotFoundError: pass
    env=dict(os.environ,LEAN_PATH=LP.replace('/verif/lean/.lake/build/lib/lean',W+'/lib'))
    out={}; done=set(); running={}
    lock=threading.Condition()
    def work(m):
        f=m.replace('.','/')+'.lean'
        try:
            r=subprocess.run(['lean','--run','/tmp/mut/Driver.lean',f,m,f"{W}/lib/{m.replace('.','/')}.olean"],cwd=W,env=env,capture_output=True,text=True,timeout=timeout)
            o=r.stdout+('' if r.returncode in (0,1) else r.stderr[-500:])
        except subprocess.TimeoutExpired: o=f'{f}:1: timeout'
        with lock:
            if re.search(r'^Verif\S*\.lean:\d+: ',o,re.M) or (o.strip() and 'warning' not in o): out[m]=o
            done.add(m); running.pop(m,None); lock.notify()
    t0=time.time(); todo=set(aff)
    with ThreadPoolExecutor(int(os.environ.get('J','4'))) as ex:
        with lock:
            while todo or running:
                if os.environ.get('QUICK') and out: todo.clear()
                if not todo and not running: break
                ready=[m for m in sorted(todo) if all(i not in aff or i in done for i in ms[m])]
                for m in ready:
                    if len(running)>=int(os.environ.get('J','4')): break
                    todo.discard(m); running[m]=1; ex.submit(work,m)
                lock.wait()
    fails=[]
    for m,o in out.items():
        for l in o.split('\n'):
            k=re.match(r'(Verif\S*\.lean):(\d+): (.*)',l)
            if k: fails.append((m,decl_at(f'{W}/{k.group(1)}',int(k.group(2))),k.group(3)[:120]))
    if os.environ.get('QUICK'): json.dump(out,open(f'{D}/quick_{mu["id"]}.json','w'))
    if os.environ.get('QUICK'): return {'id':mu['id'],'secs':round(time.time()-t0),'affected':len(aff),'failed_decls':list(dict.fromkeys(f'{m}:{d}' for m,d,_ in fails))[:40],'quick':True}
    c=subprocess.run(['lean','--run','/tmp/mut/Check.lean',D+'/names.txt'],cwd=W,env=env,capture_output=True,text=True)
    bad=[l.split()[1].replace('Dis.','') for l in c.stdout.split('\n') if l]
    seen=[]; 
    for m,d,_ in fails:
        if f'{m}:{d}' not in seen: seen.append(f'{m}:{d}')
    res={'id':mu['id'],'secs':round(time.time()-t0),'affected':len(aff),'broken_properties':bad,'failed_decls':seen[:40],'n_failed':len(seen),'check_err':c.stderr[-300:] if c.returncode else ''}
    exp=mu.get('expect',[])
    res['survived']=[x for x in exp if not any(b.startswith(x+'_') or b==x for b in bad)]
    json.dump({'fails':fails},open(f'{D}/detail_{mu["id"]}.json','w'))
    return res
if __name__=='__main__':
    if sys.argv[1]=='refresh': refresh(); sys.exit()
    mus=json.load(open(sys.argv[1]))
    ids=sys.argv[2:]
    if ids==['check']:
        for mu in mus:
            r=run(mu,dry=True)
            if r: print(r)
        sys.exit()
    for mu in mus:
        if ids and mu['id'] not in ids: continue
        r=run(mu)
        r['expect']=mu.get('expect',[])
        open(D+'/results.jsonl','a').write(json.dumps(r)+'\n')
        print(json.dumps(r)[:1500],flush=True)
