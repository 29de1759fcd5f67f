"""Batches of edits of the syntax trees: one edit in each definition, many definitions at once. The lemma about each edited
definition has to fail on its own. Writes T.json."""
import json,random,re
R=random.Random(7)
B='/verif/lean/'
def defs(f,kind):
    s=open(B+f).read()
    out=[]
    for m in re.finditer(r'^def ([\w.«»]+) : '+kind+r' where\n(.*?)(?=\n\n)',s,re.M|re.S):
        out.append((m.group(1),m.group(2)))
    return out
SWAP={'calc':[('.bin .add','.bin .sub'),('.bin .sub','.bin .add'),('.bin .mul','.bin .div'),('.bin .div','.bin .mul'),('N.sin ','N.cos '),('N.cos ','N.sin '),
  ('(.int 0)','(.int 1)'),('(.int 2)','(.int 3)'),('.lt','.le'),('.dot','.mul'),('N.tan ','N.sin '),('.neg ','')],
 'io':[('[62, 72]','[62, 104]'),('[62, 104]','[62, 72]'),('.int 2','.int 4'),('.int 4','.int 2'),('.int 8','.int 4'),('I.read_byte','I.read_unsigned_byte'),('I.read_unsigned_byte','I.read_byte'),
  ('[62, 105]','[62, 73]'),('[62, 73]','[62, 105]'),('[98]','[66]'),('[66]','[98]'),('[62, 113]','[62, 81]'),('[62, 81]','[62, 113]'),('[62, 100]','[100]'),('[62, 102]','[102]'),
  ('I.write_byte','I.write_unsigned_byte'),('I.write_unsigned_byte','I.write_byte'),('I.read_float','I.read_double'),('I.write_float ','I.write_double '),('I.write_double','I.write_float'),('I.read_double','I.read_float'),
  ('I.read_long','I.read_int'),('I.write_long','I.write_int'),('I.read_unsigned_int','I.read_int'),('I.write_unsigned_int','I.write_int'),('I.read_short','I.read_unsigned_short'),
  ('I.read_unsigned_short','I.read_short'),('I.write_short','I.write_unsigned_short'),('I.write_unsigned_short','I.write_short'),('I.write_int','I.write_unsigned_int'),('I.read_int','I.read_unsigned_int'),('[63]','[98]'),('I.read_char','I.read_byte')],
 'src':[('I.write_unsigned_byte','I.write_byte'),('I.read_unsigned_byte','I.read_byte'),('I.write_uint16','I.write_uint32'),('I.read_uint16','I.read_uint32'),('I.write_uint8','I.write_uint16'),('I.read_uint8','I.read_uint16'),
  ('I.write_unsigned_short','I.write_short'),('I.read_unsigned_short','I.read_short'),('I.write_unsigned_int','I.write_unsigned_short'),('I.read_unsigned_int','I.read_unsigned_short'),('I.write_uint32','I.write_uint16'),('I.read_uint32','I.read_uint16'),
  ('I.write_float32','I.write_float64'),('I.read_float32','I.read_float64'),('I.write_float64','I.write_float32'),('I.read_float64','I.read_float32'),('.int 0','.int 1'),('.range [.int 1','.range [.int 0')]}
def pick(kind,name,body):
    c=[]
    for o,n in SWAP[kind]:
        for m in re.finditer(re.escape(o)+r'(?![\w])',body) if o[-1].isalnum() else re.finditer(re.escape(o),body): c.append((m.start(),o,n))
    # also drop a statement
    lines=body.split('\n')
    st=[i for i,l in enumerate(lines) if re.match(r'    \.(assign|expr|augAdd) ',l) and l.endswith(',') and l.startswith('    .')]
    if st and (not c or R.random()<0.3):
        i=R.choice(st); return lines[i]+'\n','', 'dropped: '+lines[i].strip()
    # swap two neighbouring statements
    if len(st)>1 and R.random()<0.25:
        i=R.choice([i for i in st if i+1 in st] or [None])
        if i is not None: return lines[i]+'\n'+lines[i+1]+'\n',lines[i+1]+'\n'+lines[i]+'\n','swapped: '+lines[i].strip()+' / '+lines[i+1].strip()
    if not c: return None
    p,o,n=R.choice(c)
    # the whole line as context
    a=body.rfind('\n',0,p)+1; b=body.find('\n',p); b=len(body) if b<0 else b
    L=body[a:b]; q=p-a
    return L,L[:q]+n+L[q+len(o):],f'{o.strip()} -> {n.strip()} in: {L.strip()[:120]}'
out=[]
def batch(id,kind,f,typ,sel=lambda n:True,claim='',expect=[]):
    eds=[]
    for n,b in defs(f,typ):
        if not sel(n): continue
        r=pick(kind,n,b)
        if not r: continue
        o,w,d=r
        if b.count(o)!=1: continue
        eds.append({'file':f,'within':n,'old':o,'new':w,'descr':d})
    out.append({'id':id,'definition':f,'claim':claim,'expect':expect,'edits':eds})
batch('T1','calc','Verif/Source/Calc.lean','Fn',claim='the numerical module does what its text says (C78)',expect=['C78'])
batch('T2','calc','Verif/Source/Calc.lean','Fn',claim='the numerical module does what its text says (C78)',expect=['C78'])
batch('T3','io','Verif/Source/Io.lean','Fn',claim='the streams and the factory do what their text says (C79)',expect=['C79'])
for i,k in enumerate(['Dis1','Dis2','Dis3','Dis4']):
    batch(f'U{i+1}','src',f'Verif/Source/{k}.lean','Method',lambda n:n.endswith('.serialize') or n.endswith('.parse'),'the classes do what their text says (C77)',['C77'])
batch('U5','src','Verif/Source/Records.lean','Method',lambda n:n.endswith('.serialize') or n.endswith('.parse'),'the classes do what their text says (C77)',['C77'])
json.dump(out,open('/tmp/mut/T.json','w'),indent=1)
for m in out: print(m['id'],len(m['edits']))
