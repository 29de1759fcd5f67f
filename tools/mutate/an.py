import json,sys
W=json.load(open(sys.argv[1]))
for b in W:
    try: f=json.load(open(f'/tmp/mut/detail_{b["id"]}.json'))['fails']
    except FileNotFoundError: continue
    ds={d for _,d,_ in f}
    miss=[]
    for e in b['edits']:
        c=e['within'].rsplit('.',1)[0]
        hit=[d for d in ds if d==c or d.startswith(c+'.') or c in d]
        if not hit: miss.append((e['within'],e['descr'][:150]))
    print(b['id'],len(b['edits']),'missed',len(miss))
    for m in miss: print('   ',m)
