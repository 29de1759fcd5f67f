import re
R="/verif/lean/Verif/"
names=dict((a,int(b)) for a,b in re.findall(r"abbrev «?(\w+)»? : Ident := (\d+)",open(R+"Source/Names.lean").read()))
src=open(R+"Source/Records.lean").read()
cl={
 "HighFidelityHAVEQUICKRadio":("VariableTransmitterParametersRecord","/repo/opendis/record/radio/__init__.py:452-476",
  "padding1:i netId:NetId todTransmitIndicator:i padding2:i todDelta:i wod1:i wod2:i wod3:i wod4:i wod5:i wod6:i"),
 "DirectedEnergyDamage":("DamageDescriptionRecord","/repo/opendis/record/warfare/__init__.py:43-70",
  "padding:i damageLocation:Vector3Float damageDiameter:f temperature:f componentIdentification:i componentDamageStatus:i componentVisualDamageStatus:i componentVisualSmokeColor:i fireEventID:EventIdentifier padding2:i"),
 "DirectedEnergyAreaAimpoint":("DamageDescriptionRecord","/repo/opendis/record/warfare/__init__.py:107-121",
  "padding:i beamAntennaPatterns:[BeamAntennaPattern directedEnergyTargetEnergyDepositions:[DirectedEnergyTargetEnergyDeposition"),
 "DirectedEnergyPrecisionAimpoint":("DamageDescriptionRecord","/repo/opendis/record/warfare/__init__.py:172-205",
  "padding:i targetSpotLocation:WorldCoordinates targetSpotEntityLocation:Vector3Float targetSpotVelocity:Vector3Float targetSpotAcceleration:Vector3Float targetEntityID:EntityIdentifier targetComponentID:i beamSpotType:i beamSpotCrossSectionSemiMajorAxis:f beamSpotCrossSectionSemiMinorAxis:f beamSpotCrossSectionOrientationAngle:f peakIrradiance:f padding2:i"),
 "UnknownStandardVariableRecord":("StandardVariableRecord","/repo/opendis/record/__init__.py:48-53",
  "recordType:i data:b"),
}
dep={"NetId":1,"Vector3Float":1,"WorldCoordinates":1,"EntityIdentifier":2,"EventIdentifier":2}
def enc(f,t):
    if t=='i': return f".int x.{f}"
    if t=='f': return f".float x.{f}"
    if t=='b': return f".bytes x.{f}"
    if t[0]=='[': return f".list (x.{f}.map {t[1:]}.enc)"
    return f"{t}.enc x.{f}"
o='''import Verif.Source.EncodeSpecial
import Verif.Model.Warfare

/-!
# Objects of the model as values: the standard variable records

`recordType` is an attribute of the class and found through the object.
-/

namespace Dis.Src

'''
for c,(b,cite,fs) in cl.items():
    fs=[tuple(x.split(':')) for x in fs.split()]
    L=[(f,enc(f,t)) for f,t in fs]
    if c!="UnknownStandardVariableRecord": L.append(("recordType",f".int Dis.{c}.recordType"))
    L.sort(key=lambda p:names[p[0]])
    o+=f"/-- The attributes of a `{c}` object ({cite}). -/\nabbrev {c}.fields (x : Dis.{c}) : List (Ident × Val) :=\n   ["
    o+=",\n    ".join(f"(I.{f}, {e})" for f,e in L)+"]\n\n"
    o+=f"/-- A `{c}` object ({cite}). -/\nabbrev {c}.enc (x : Dis.{c}) : Val := .obj I.{c} ({c}.fields x)\n\n"
o+='''/-- The class of a standard variable record (/repo/opendis/record/__init__.py:33-38, :48). -/
def svClass : SVRecord → Ident
  | .highFidelityHAVEQUICKRadio _ => I.HighFidelityHAVEQUICKRadio
  | .directedEnergyPrecisionAimpoint _ => I.DirectedEnergyPrecisionAimpoint
  | .directedEnergyAreaAimpoint _ => I.DirectedEnergyAreaAimpoint
  | .directedEnergyDamage _ => I.DirectedEnergyDamage
  | .unknown _ => I.UnknownStandardVariableRecord

/-- The attributes of a standard variable record (/repo/opendis/record/__init__.py:33-38, :48). -/
def svFields : SVRecord → List (Ident × Val)
  | .highFidelityHAVEQUICKRadio r => HighFidelityHAVEQUICKRadio.fields r
  | .directedEnergyPrecisionAimpoint r => DirectedEnergyPrecisionAimpoint.fields r
  | .directedEnergyAreaAimpoint r => DirectedEnergyAreaAimpoint.fields r
  | .directedEnergyDamage r => DirectedEnergyDamage.fields r
  | .unknown r => UnknownStandardVariableRecord.fields r

/-- A standard variable record (/repo/opendis/record/__init__.py:33-38, :48). -/
def svEnc (r : SVRecord) : Val := .obj (svClass r) (svFields r)

/-- What `getStandardVariableClass` returns: a class, or the class made in that call with its `recordType`
(/repo/opendis/record/__init__.py:48-85). -/
def classVal : SVClass → Val
  | .highFidelityHAVEQUICKRadio => .cls I.HighFidelityHAVEQUICKRadio
  | .directedEnergyPrecisionAimpoint => .cls I.DirectedEnergyPrecisionAimpoint
  | .directedEnergyAreaAimpoint => .cls I.DirectedEnergyAreaAimpoint
  | .directedEnergyDamage => .cls I.DirectedEnergyDamage
  | .unknown t => .own I.UnknownStandardVariableRecord [(I.recordType, .int t)]

/-- The values of `expectedType` as classes (/repo/opendis/record/__init__.py:42, /repo/opendis/dis7.py:5114, :6401). -/
def baseClass : SVBase → Ident
  | .standardVariable => I.StandardVariableRecord
  | .variableTransmitterParameters => I.VariableTransmitterParametersRecord
  | .damageDescription => I.DamageDescriptionRecord

end Dis.Src
'''
open(R+"Source/EncodeRecords.lean","w").write(o)

o='''import Verif.Proof.Source8
import Verif.Proof.SourceSpecial
import Verif.Source.EncodeRecords

/-!
# The standard variable records do what their syntax trees say
-/

set_option linter.unusedVariables false

namespace Dis.Src

theorem var_size : isClass I.size = false := by decide +kernel

theorem var_record : isClass I.record = false := by decide +kernel

theorem var__ : isClass I.«_» = false := by decide +kernel

theorem var_beamAntennaPatternCount : isClass I.beamAntennaPatternCount = false := by decide +kernel

theorem var_directedEnergyTargetEnergyDepositionCount : isClass I.directedEnergyTargetEnergyDepositionCount = false := by
  decide +kernel

theorem bytes_inj {a b : Bytes} (h : some (Val.bytes a) = some (Val.bytes b)) : a = b := by cases h; rfl

theorem BeamAntennaPattern.sizes (n : Nat) (x : Dis.BeamAntennaPattern) :
    Sizes (run (n + 1)) I.BeamAntennaPattern (BeamAntennaPattern.enc x) x.marshalledSize :=
  property_of (f := BeamAntennaPattern.marshalledSize) rfl rfl rfl gives_int

theorem DirectedEnergyTargetEnergyDeposition.sizes (n : Nat) (x : Dis.DirectedEnergyTargetEnergyDeposition) :
    Sizes (run (n + 3)) I.DirectedEnergyTargetEnergyDeposition (DirectedEnergyTargetEnergyDeposition.enc x) x.marshalledSize :=
  fun _ => by kernel_rfl

'''
for c,(b,cite,fs) in cl.items():
    fs=[tuple(x.split(':')) for x in fs.split()]
    U=c=="UnknownStandardVariableRecord"
    if not U:
        o+=f'''theorem {c}.makes (n : Nat) : Makes (run (n + 3)) I.{c} ({c}.enc Dis.{c}.init) :=
  makes_of (p := (I.{c}, {c}.__init__)) (by decide +kernel) rfl rfl rfl (by kernel_rfl) fun _ => by kernel_rfl

'''
    sz={"UnknownStandardVariableRecord":1,"DirectedEnergyAreaAimpoint":4}.get(c,1)
    if U:
        o+=f'''theorem {c}.sizes (n : Nat) (x : Dis.{c}) :
    Sizes (run (n + 4)) I.{c} ({c}.enc x) x.marshalledSize :=
  property_of (f := {c}.marshalledSize) rfl rfl rfl
    (gives_bin gives_int (gives_len_bytes (gives_attr (gives_name rfl) (plain rfl) rfl)) fun _ => rfl)

'''
    elif c=="DirectedEnergyAreaAimpoint":
        o+=f'''theorem {c}.sizes (n : Nat) (x : Dis.{c}) :
    Sizes (run (n + 4)) I.{c} ({c}.enc x) x.marshalledSize := fun io => by
  have a1 : ex (run (n + 3)) (.assign (.name I.size) (.int 8)) ⟨start I.{c} ({c}.enc x) [], io⟩
      = (.ok none, ⟨put I.size (.int 8) (start I.{c} ({c}.enc x) []), io⟩) := exec_var (gives_int _ start_env0)
  have hst1 := (start_env0 (d := I.{c}) (v := {c}.enc x) (io := io)).set I.size (.int 8) var_size io
  obtain ⟨L2, a2, hst2⟩ := exec_size (l := x.beamAntennaPatterns) (v := BeamAntennaPattern.fields)
    (e := .attr (.name I.self) I.beamAntennaPatterns)
    (fun a => BeamAntennaPattern.sizes (n + 2) a) var_size var_record rfl hst1
    (gives_attr (gives_name rfl) (plain rfl) rfl)
  obtain ⟨L3, a3, hst3⟩ := exec_size (l := x.directedEnergyTargetEnergyDepositions)
    (v := DirectedEnergyTargetEnergyDeposition.fields) (e := .attr (.name I.self) I.directedEnergyTargetEnergyDepositions)
    (fun a => DirectedEnergyTargetEnergyDeposition.sizes n a) var_size var_record rfl hst2
    (gives_attr (gives_name rfl) (plain rfl) rfl)
  have a4 : ex (run (n + 3)) (.ret (.name I.size)) ⟨L3, io⟩ = (.ok (some (.int x.marshalledSize)), ⟨L3, io⟩) := by
    unfold ex exec
    exact (M.bind_ok (gives_name (bs := (I.size, .int x.marshalledSize) :: start I.{c} ({c}.enc x) []) rfl _ hst3)).trans rfl
  have a5 : exs (run (n + 3)) [.ret (.name I.size)] ⟨L3, io⟩ = (.ok (some (.int x.marshalledSize)), ⟨L3, io⟩) := by
    unfold exs execs
    exact (M.bind_ok a4).trans rfl
  exact run_method (f := {c}.marshalledSize) rfl rfl (exs_cons_ok a1 (exs_cons_ok a2 (exs_cons_ok a3 a5)))
    (hst3.1 I.self _ rfl)

'''
    else:
        o+=f'''theorem {c}.sizes (n : Nat) (x : Dis.{c}) :
    Sizes (run (n + 4)) I.{c} ({c}.enc x) x.marshalledSize :=
  property_of (f := {c}.marshalledSize) rfl rfl rfl gives_int

'''
    # serialize
    body=re.search(r"def %s\.serialize : Method where.*?body :=\n   \[(.*?)\]\n\n"%c,src,re.S).group(1)
    st=[x.strip().rstrip(',') for x in body.split("\n")]
    ft=dict(fs)
    L=[]
    i=1
    L.append(f"(ser_super (c := I.{c}) rfl (.inr ⟨rfl, rfl⟩) rfl rfl rfl (standard_serializes (n := n + 4) rfl rfl rfl ({c}.sizes n x)))")
    while i<len(st):
        s=st[i]
        if s.startswith(".for"):
            f=re.search(r"I\.self\) I\.(\w+)\)",s).group(1); T=ft[f][1:]
            k=3
            L.append(f"(ser_for (v := {T}.enc) (gives_attr (gives_name rfl) (plain rfl) rfl) var_record rfl fun a _ =>\n      ser_last (ser_var rfl rfl ({T}.serializes (n + {6-(3 if T[0]=='D' else 2)}) a)))")
            i+=2; continue
        m=re.search(r"I\.write_\w+ \[\.attr \(\.name I\.self\) I\.(\w+)\]",s)
        if m:
            f=m.group(1)
            if f=="recordLength": L.append(f"(ser_write (gives_recordLength (n := n + 5) rfl rfl ({c}.sizes (n + 1) x)) rfl rfl rfl)")
            elif f.endswith("Count"):
                l={"beamAntennaPatternCount":"beamAntennaPatterns","directedEnergyTargetEnergyDepositionCount":"directedEnergyTargetEnergyDepositions"}[f]
                L.append(f"(ser_write (gives_property (gives_name rfl) rfl (property_of (n := n + 5) (d := I.{c}) (f := {c}.{f}) rfl rfl rfl (gives_len_map (gives_attr (gives_name rfl) (plain rfl) rfl)))) rfl rfl (packInt_int _ _))")
            else: L.append("(ser_write (gives_attr (gives_name rfl) (plain rfl) rfl) rfl rfl rfl)")
        else:
            f=re.search(r"I\.self\) I\.(\w+)\) I\.serialize",s).group(1); T=ft[f]
            L.append(f"(ser_call rfl (plain rfl) rfl rfl rfl ({T}.serializes (n + {6-dep[T]}) _))")
        i+=1
    if c in ("DirectedEnergyAreaAimpoint","UnknownStandardVariableRecord"):
        L=[l.replace(f"({c}.sizes n x)","(hi n)").replace(f"({c}.sizes (n + 1) x)","(hi (n + 1))") for l in L]
        mb=re.search(r"def %s\.serialize [^\n]*\n((?:  .*\n)+)"%c,open(R+"Model/Warfare.lean").read()).group(1).replace("self.marshalledSize","i").replace("self.","x.").replace("DirectedEnergyAreaAimpoint.recordType","Dis.DirectedEnergyAreaAimpoint.recordType").replace("  StandardVariableRecord.s","  Dis.StandardVariableRecord.s").replace("BeamAntennaPattern.s","Dis.BeamAntennaPattern.s").replace("DirectedEnergyTargetEnergyDeposition.s","Dis.DirectedEnergyTargetEnergyDeposition.s")
        o+=f'''theorem {c}.serializesOf (n : Nat) (x : Dis.{c}) (i : Int)
    (hi : ∀ n, Sizes (run (n + 4)) I.{c} ({c}.enc x) i) :
    Serializes (run (n + 7)) I.{c} ({c}.enc x) (do
{"".join("    "+l+chr(10) for l in mb.rstrip().split(chr(10)))[:-1]}) :=
  serializes_of (n := n + 6) (d := I.{c}) (f := {c}.serialize) rfl rfl <|
'''
        o+="".join(f"    ser_cons {l} <|\n" for l in L[:-1])+f"    ser_last {L[-1]}\n\n"
        o+=f'''theorem {c}.serializes (n : Nat) (x : Dis.{c}) :
    Serializes (run (n + 7)) I.{c} ({c}.enc x) x.serialize := by
  unfold Dis.{c}.serialize
  exact {c}.serializesOf n x _ fun n => {c}.sizes n x

'''
    else:
        o+=f'''theorem {c}.serializes (n : Nat) (x : Dis.{c}) :
    Serializes (run (n + 7)) I.{c} ({c}.enc x) x.serialize :=
  serializes_of (n := n + 6) (d := I.{c}) (f := {c}.serialize) rfl rfl <|
'''
        o+="".join(f"    ser_cons {l} <|\n" for l in L[:-1])+f"    ser_last {L[-1]}\n\n"
    # parse
    body=re.search(r"def %s\.parse : Method where.*?body :=\n   \[(.*?)\]\n\n"%c,src,re.S).group(1)
    st=[x.strip().rstrip(',') for x in body.split("\n")]
    o+=f'''theorem {c}.parsesBy (n : Nat) (b : Int) :
    ParsesBy (run (n + 4)) I.{c} I.{c} {c}.fields [.inp, .int b] [] (Dis.{c}.parseInto b) :=
  parses_by (n := n + 3) (f := {c}.parse) (b := .int b) rfl (fun _ => rfl) <|
    par_check (standard_checks (n := n) (c := I.{b}) (f := StandardVariableRecord.is_positive_int) rfl rfl rfl rfl) rfl rfl rfl rfl rfl <|
'''
    i=1
    while i<len(st):
        s=st[i]
        if s.startswith(".for"):
            f=re.search(r"I\.self\) I\.(\w+)\) I\.append",st[i+3]).group(1); T=ft[f][1:]
            d=3
            mk=2 if T[0]=='B' else 3
            o+=f"    par_objs (hs := {T}.fields) (fun _ _ => gives_range0 (gives_name rfl)) (by simp) (builds_of ({T}.makes (n + {3-mk})) ({T}.parses n)) rfl (plain rfl) (fun _ => rfl) (fun _ _ => rfl) var__ rfl rfl var_record rfl rfl <|\n"
            i+=4; continue
        m=re.match(r"\.assign \(\.attr \(\.name I\.self\) I\.(\w+)\) \(\.method \(\.name I\.inputStream\) I\.(read_\w+)",s)
        m2=re.match(r"\.assign \(\.name I\.(\w+)\)",s)
        if m and m.group(2)=="read_bytes":
            o+="    par_bytes (fun _ _ => True) (fun _ => gives_bin (gives_name rfl) gives_int fun _ => rfl) rfl (plain rfl) (fun _ _ => rfl) (fun _ _ _ => trivial) fun _ =>\n"
        elif m:
            o+="    par_read (fun _ _ => True) rfl rfl (plain rfl) (fun _ _ => rfl) (fun _ _ _ => trivial) fun _ =>\n"
        elif m2:
            o+=f"    par_local rfl rfl var_{m2.group(1)} rfl fun _ =>\n"
        else:
            f=re.search(r"I\.self\) I\.(\w+)\) I\.parse",s).group(1); T=ft[f]
            o+=f"    par_call (Q' := fun _ => True) ({T}.parses (n + {3-dep[T]})) rfl (plain rfl) (fun _ => rfl) (fun _ _ => rfl) (fun _ _ _ => trivial) <|\n"
        i+=1
    o+="    par_nil\n\n"
    # inj
    o+=f"theorem {c}.inj : ∀ {{x y : Dis.{c}}}, {c}.fields x = {c}.fields y → x = y := by\n"
    o+="  rintro ⟨"+", ".join(f"a{i}" for i in range(len(fs)))+"⟩ ⟨"+", ".join(f"b{i}" for i in range(len(fs)))+"⟩ h\n"
    for i,(f,t) in enumerate(fs):
        w={"i":"int_inj","f":"float_inj","b":"bytes_inj"}.get(t) or (f"list_inj (enc_inj {t[1:]}.inj)" if t[0]=='[' else f"obj_inj {t}.inj")
        o+=f"  obtain rfl : a{i} = b{i} := {w} (congrArg (look I.{f}) h)\n"
    o+="  rfl\n\n"
o+="end Dis.Src\n"
open(R+"Proof/SourceRecords.lean","w").write(o)
