import json,collections
W=json.load(open('W.json')); by={b['id']:b for b in W}
T=[e for b in W if b['id'][0]=='W' for e in b['edits']]
fam=['PduSuperclass','LiveEntityPdu','SimulationManagementFamilyPdu','WarfareFamilyPdu','SimulationManagementWithReliabilityFamilyPdu']
oth=['LinearObjectStatePdu','AttributePdu','UnknownStandardVariableRecord','HighFidelityHAVEQUICKRadio']
out=[]
for i,l in enumerate([fam[:1],fam[1:],oth]):
    ed=[e for e in T if e['within'].split('.')[0] in l]
    print(i,[e['within'] for e in ed],[e['file'] for e in ed])
    out.append(dict(id=f'V{i+1}',definition='__init__',claim='constructors do what their text says (C77)',expect=['C77'],edits=ed))
x=by['X1']; print([ (e['within'],e['old'][:80]) for e in x['edits'] if 'SpreadSpectrum' in e['within']])
x['edits']=[e for e in x['edits'] if e['within']!='SpreadSpectrum.parse']
out.append(x)
out+= [by[k] for k in by if k[0] in 'YZ']
json.dump(out,open('V.json','w'),indent=1)
