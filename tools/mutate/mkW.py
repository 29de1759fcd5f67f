"""Batches of edits of the syntax trees: one edit in each definition, many definitions at once. The lemma about each edited
definition has to fail on its own. Writes W.json."""
import json,random,re
R=random.Random(11)
B='/verif/lean/'
def defs(f,kind):
    s=open(B+f).read()
    out=[]
    for m in re.finditer(r'^def ([\w.«»]+) : '+kind+r' where\n(.*?)(?=\n\n)',s,re.M|re.S):
        out.append((m.group(1),m.group(2)))
    return out
SWAP={'calc':[('.bin .add','.bin .sub'),('.bin .sub','.bin .add'),('.bin .mul','.bin .div'),('.bin .div','.bin .mul'),('N.sin ','N.cos '),('N.cos ','N.sin '),
  ('(.int 0)','(.int 1)'),('(.int 2)','(.int 3)'),('.lt','.le'),('.dot','.mul'),('N.tan ','N.sin '),('.neg ','')],
 'io':[('[62, 72]','[62, 104]'),('[62, 104]','[62, 72]'),('.int 2','.int 4'),('.int 4','.int 2'),('.int 8','.int 4'),('I.read_byte','I.read_unsigned_byte'),('I.read_unsigned_byte','I.read_byte'),
  ('[62, 105]','[62, 73]'),('[62, 73]','[62, 105]'),('[98]','[66]'),('[66]','[98]'),('[62, 113]','[62, 81]'),('[62, 81]','[62, 113]'),('[62, 100]','[100]'),('[62, 102]','[102]'),
  ('I.write_byte','I.write_unsigned_byte'),('I.write_unsigned_byte','I.write_byte'),('I.read_float','I.read_double'),('I.write_float ','I.write_double '),('I.write_double','I.write_float'),('I.read_double','I.read_float'),
  ('I.read_long','I.read_int'),('I.write_long','I.write_int'),('I.read_unsigned_int','I.read_int'),('I.write_unsigned_int','I.write_int'),('I.read_short','I.read_unsigned_short'),
  ('I.read_unsigned_short','I.read_short'),('I.write_short','I.write_unsigned_short'),('I.write_unsigned_short','I.write_short'),('I.write_int','I.write_unsigned_int'),('I.read_int','I.read_unsigned_int'),('[63]','[98]'),('I.read_char','I.read_byte')],
 'src':[('I.write_unsigned_byte','I.write_byte'),('I.read_unsigned_byte','I.read_byte'),('I.write_uint16','I.write_uint32'),('I.read_uint16','I.read_uint32'),('I.write_uint8','I.write_uint16'),('I.read_uint8','I.read_uint16'),
  ('I.write_unsigned_short','I.write_short'),('I.read_unsigned_short','I.read_short'),('I.write_unsigned_int','I.write_unsigned_short'),('I.read_unsigned_int','I.read_unsigned_short'),('I.write_uint32','I.write_uint16'),('I.read_uint32','I.read_uint16'),
  ('I.write_float32','I.write_float64'),('I.read_float32','I.read_float64'),('I.write_float64','I.write_float32'),('I.read_float64','I.read_float32'),('.int 0','.int 1'),('.range [.int 1','.range [.int 0')]}
def pick(kind,name,body):
    c=[]
    for o,n in SWAP[kind]:
        for m in re.finditer(re.escape(o)+r'(?![\w])',body) if o[-1].isalnum() else re.finditer(re.escape(o),body): c.append((m.start(),o,n))
    # also drop a statement
    lines=body.split('\n')
    st=[i for i,l in enumerate(lines) if re.match(r'    \.(assign|expr|augAdd) ',l) and l.endswith(',') and l.startswith('    .')]
    if st and (not c or R.random()<0.3):
        i=R.choice(st); return lines[i]+'\n','', 'dropped: '+lines[i].strip()
    # swap two neighbouring statements
    if len(st)>1 and R.random()<0.25:
        i=R.choice([i for i in st if i+1 in st] or [None])
        if i is not None: return lines[i]+'\n'+lines[i+1]+'\n',lines[i+1]+'\n'+lines[i]+'\n','swapped: '+lines[i].strip()+' / '+lines[i+1].strip()
    if not c: return None
    p,o,n=R.choice(c)
    # the whole line as context
    a=body.rfind('\n',0,p)+1; b=body.find('\n',p); b=len(body) if b<0 else b
    L=body[a:b]; q=p-a
    return L,L[:q]+n+L[q+len(o):],f'{o.strip()} -> {n.strip()} in: {L.strip()[:120]}'
out=[]
def batch(id,kind,f,typ,sel=lambda n:True,claim='',expect=[]):
    eds=[]
    for n,b in defs(f,typ):
        if not sel(n): continue
        r=pick(kind,n,b)
        if not r: continue
        o,w,d=r
        if b.count(o)!=1: continue
        eds.append({'file':f,'within':n,'old':o,'new':w,'descr':d})
    out.append({'id':id,'definition':f,'claim':claim,'expect':expect,'edits':eds})

def init_pick(n,b):
    ps=re.findall(r'\(I\.([\w«»]+), some',b.split('property')[0])
    body=b[b.index('body :='):]
    lines=body.split('\n')
    st=[l for l in lines if re.match(r'\s+\[?\.assign ',l)]
    c=[]
    for l in st:
        if body.count(l)!=1: continue
        m=re.search(r'\) \(\.name I\.([\w«»]+)\)',l)
        if m:
            for p in ps:
                if p!=m.group(1): c.append((l,l[:m.start()]+f') (.name I.{p})'+l[m.end():]))
            c.append((l,l[:m.start()]+') (.int 0)'+l[m.end():]))
        m=re.search(r'\) \(\.or \(\.name I\.[\w«»]+\) (\(\.(?:call|list).*?\]\))\)',l)
        if m: c.append((l,l[:m.start()]+') '+m.group(1)+l[m.end():]))
        m=re.search(r'\) \(\.int (\d+)\)',l)
        if m: c.append((l,l[:m.start()]+f') (.int {int(m.group(1))+1})'+l[m.end():]))
    if not c: return None
    o,w=R.choice(c)
    return o,w,f'{o.strip()[:110]} -> {w.strip()[:110]}'
def init_batch(id,f):
    eds=[]
    for n,b in defs(f,'Method'):
        if not n.endswith('.__init__'): continue
        r=init_pick(n,b)
        if r and b.count(r[0])==1: eds.append({'file':f,'within':n,'old':r[0],'new':r[1],'descr':r[2]})
    out.append({'id':id,'definition':f,'claim':'the constructors do what their text says (C77)','expect':['C77'],'edits':eds})
for i,k in enumerate(['Dis1','Dis2','Dis3','Dis4','Records']):
    init_batch(f'W{i+1}',f'Verif/Source/{k}.lean')
SPECIAL=['StandardVariableRecord','BeamAntennaPattern','SpreadSpectrum','ModulationType','NetId','BasicHaveQuickMP','CCTTSincgarsMP','HighFidelityHAVEQUICKRadio','DirectedEnergyDamage','DirectedEnergyAreaAimpoint','DirectedEnergyPrecisionAimpoint','DirectedEnergyTargetEnergyDeposition','TransmitterPdu','IntercomControlPdu','DirectedEnergyFirePdu','EntityDamageStatusPdu']
T={m['id']:m for m in json.load(open('/tmp/mut/T.json'))}
eds=[e for k in ('U3','U4','U5') for e in T[k]['edits'] if e['within'].split('.')[0] in SPECIAL]
out.append({'id':'X1','definition':'special records, radio and directed energy','claim':'the classes do what their text says (C77)','expect':['C77'],'edits':eds})
for j,k in enumerate(('T1','T2')):
    eds=[e for e in T[k]['edits'] if e['within'].startswith('deadReckoning') or e['within'].endswith('lla2utm')]
    out.append({'id':f'Y{j+1}','definition':'Verif/Source/Calc.lean','claim':'the numerical module does what its text says (C78)','expect':['C78'],'edits':eds})
def prop_pick(n,b):
    c=[]
    for o,w in [('.bin .mul','.bin .add'),('.int 8','.int 4'),('.int 1)','.int 2)'),('I.len','I.list'),('.bin .add','.bin .sub'),('I.fixedDatumRecords','I.variableDatumRecords'),('I.variableDatumRecords','I.fixedDatumRecords'),('I.fixedDatumIDs','I.variableDatumIDs'),('I.variableDatumIDs','I.fixedDatumIDs'),('.int 2','.int 3'),('.int 4','.int 5'),('.int 0','.int 1')]:
        body=b[b.index('body :='):]
        for m in re.finditer(re.escape(o),body):
            a=body.rfind('\n',0,m.start())+1; e=body.find('\n',m.start()); e=len(body) if e<0 else e
            L=body[a:e]; q=m.start()-a
            c.append((L,L[:q]+w+L[q+len(o):]))
    if not c: return None
    o,w=R.choice(c)
    return o,w,f'{o.strip()[:110]} -> {w.strip()[:110]}'
for i,k in enumerate(['Dis1','Dis2','Dis3','Dis4','Records','Functions']):
    f=f'Verif/Source/{k}.lean'
    eds=[]
    for n,b in defs(f,'Method'):
        if n.split('.')[-1] in ('__init__','serialize','parse'): continue
        r=prop_pick(n,b)
        if r and b.count(r[0])==1: eds.append({'file':f,'within':n,'old':r[0],'new':r[1],'descr':r[2]})
    if eds: out.append({'id':f'Z{i+1}','definition':f,'claim':'the properties and helpers do what their text says (C77)','expect':['C77'],'edits':eds})
json.dump(out,open('/tmp/mut/W.json','w'),indent=1)
for m in out: print(m['id'],len(m['edits']))
