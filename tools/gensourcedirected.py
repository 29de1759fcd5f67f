V='/verif/lean/Verif/'
enc='''import Verif.Source.EncodeRecords
import Verif.Source.EncodeSpecial
import Verif.Source.EncodeHand

/-!
# Objects of the model as values: the PDUs with records of several classes
-/

namespace Dis.Src

/-- The attributes an `EntityDamageStatusPdu` object has besides the inherited ones (/repo/opendis/dis7.py:6635-6677). -/
abbrev EntityDamageStatusPdu.own (x : Dis.EntityDamageStatusPdu) : List (Ident × Val) :=
   [(I.padding1, .int x.padding1),
    (I.padding2, .int x.padding2),
    (I.damagedEntityID, EntityIdentifier.enc x.damagedEntityID),
    (I.damageDescriptions, .list (x.damageDescriptions.map svEnc))]

/-- The attributes of an `EntityDamageStatusPdu` object (/repo/opendis/dis7.py:6635-6677). -/
abbrev EntityDamageStatusPdu.fields (x : Dis.EntityDamageStatusPdu) : List (Ident × Val) := WarfareFamilyPdu.fields x.toWarfareFamilyPdu ++ EntityDamageStatusPdu.own x

/-- An `EntityDamageStatusPdu` object (/repo/opendis/dis7.py:6635-6677). -/
abbrev EntityDamageStatusPdu.enc (x : Dis.EntityDamageStatusPdu) : Val := .obj I.EntityDamageStatusPdu (EntityDamageStatusPdu.fields x)

/-- The attributes a `DirectedEnergyFirePdu` object has besides the inherited ones, while `pulseWidth` and the `weaponOn` of
its flags may be what the constructor gives them (/repo/opendis/dis7.py:6318-6403). -/
abbrev DirectedEnergyFirePdu.ownWith (pulseWidth weaponOn : Val) (x : Dis.DirectedEnergyFirePdu) : List (Ident × Val) :=
   [(I.padding1, .int x.padding1),
    (I.padding2, .int x.padding2),
    (I.padding3, .int x.padding3),
    (I.munitionType, EntityType.enc x.munitionType),
    (I.padding4, .int x.padding4),
    (I.pulseRepetitionFrequency, .float x.pulseRepetitionFrequency),
    (I.pulseWidth, pulseWidth),
    (I.shotStartTime, ClockTime.enc x.shotStartTime),
    (I.cumulativeShotTime, .float x.cumulativeShotTime),
    (I.apertureEmitterLocation, Vector3Float.enc x.apertureEmitterLocation),
    (I.apertureDiameter, .float x.apertureDiameter),
    (I.wavelength, .float x.wavelength),
    (I.flags, .obj I.DEFireFlags (DEFireFlags.fieldsWith weaponOn x.flags)),
    (I.pulseShape, .int x.pulseShape),
    (I.dERecords, .list (x.dERecords.map svEnc))] ++
   optional I.commulativeShotTime .float x.commulativeShotTime

/-- The attributes a `DirectedEnergyFirePdu` object has besides the inherited ones (/repo/opendis/dis7.py:6318-6403). -/
abbrev DirectedEnergyFirePdu.own (x : Dis.DirectedEnergyFirePdu) : List (Ident × Val) :=
  DirectedEnergyFirePdu.ownWith (.float x.pulseWidth) (.int x.flags.weaponOn) x

/-- The attributes of a `DirectedEnergyFirePdu` object (/repo/opendis/dis7.py:6318-6403). -/
abbrev DirectedEnergyFirePdu.fields (x : Dis.DirectedEnergyFirePdu) : List (Ident × Val) := WarfareFamilyPdu.fields x.toWarfareFamilyPdu ++ DirectedEnergyFirePdu.own x

/-- A `DirectedEnergyFirePdu` object (/repo/opendis/dis7.py:6318-6403). -/
abbrev DirectedEnergyFirePdu.enc (x : Dis.DirectedEnergyFirePdu) : Val := .obj I.DirectedEnergyFirePdu (DirectedEnergyFirePdu.fields x)

/-- A `DirectedEnergyFirePdu` object some attributes of which may be what the constructor gives them
(/repo/opendis/dis7.py:6318-6403). -/
structure DirectedEnergyFirePdu.Raw where
  obj : Dis.DirectedEnergyFirePdu
  pulseWidth : Val
  weaponOn : Val

/-- The attributes of such an object (/repo/opendis/dis7.py:6318-6403). -/
abbrev DirectedEnergyFirePdu.rawFields (r : DirectedEnergyFirePdu.Raw) : List (Ident × Val) :=
  WarfareFamilyPdu.fields r.obj.toWarfareFamilyPdu ++ DirectedEnergyFirePdu.ownWith r.pulseWidth r.weaponOn r.obj

/-- What the constructor makes (/repo/opendis/dis7.py:6326-6355). -/
abbrev DirectedEnergyFirePdu.made : DirectedEnergyFirePdu.Raw := ⟨Dis.DirectedEnergyFirePdu.init, .int 0, .bool false⟩

end Dis.Src
'''
open(V+'Source/EncodeDirected.lean','w').write(enc)

W='    ser_cons (ser_write (gives_attr (gives_name rfl) (plain rfl) rfl) rfl rfl rfl) <|\n'
def call(t,k): return f'    ser_cons (ser_call rfl (plain rfl) rfl rfl rfl ({t}.serializes (n + {k}) _)) <|\n'
def count(X,p): return f'    ser_cons (ser_write (gives_property (gives_name rfl) rfl (property_of (n := n + 6) (d := I.{X}) (f := {X}.{p}) rfl rfl rfl (gives_len_map (gives_attr (gives_name rfl) (plain rfl) rfl)))) rfl rfl (packInt_int _ _)) <|\n'
loop='''    ser_last (ser_for (v := svEnc) (gives_attr (gives_name rfl) (plain rfl) rfl) var_record rfl fun a _ =>
      ser_last (ser_var (c := svClass a) (fs := svFields a) rfl rfl (sv_serializes n a)))
'''
R='    par_read (fun _ _ => True) rfl rfl (plain rfl) (fun _ _ => rfl) (fun _ _ _ => trivial) fun _ =>\n'
def pcall(t,k): return f'    par_call (Q\' := fun _ => True) ({t}.parses (n + {k})) rfl (plain rfl) (fun _ => rfl) (fun _ _ => rfl) (fun _ _ _ => trivial) <|\n'
def sup(X): return f'    ser_cons (ser_super (c := I.{X}) rfl (Or.inl rfl) {X}.found rfl rfl (WarfareFamilyPdu.serializes (n + 4) _ _ _)) <|\n'
def ploc(v): return f'    par_local rfl rfl rfl var_{v} fun _ =>\n'
def pfun(v): return f'''    par_funs (Q' := fun _ => True) (fun _ _ => gives_range0 (gives_name rfl)) (by simp) (parseRecord (n + 2) .damageDescription) (by decide +kernel) rfl (plain rfl)
      (fun _ => rfl) (fun _ _ => rfl) (fun _ _ _ => trivial) var__ rfl rfl var_{v} rfl rfl (fun _ _ => trivial) <|
    par_nil
'''
out='''import Verif.Proof.SourceFunctions
import Verif.Proof.SourceSpecialLaw
import Verif.Proof.SourceHand
import Verif.Source.EncodeDirected
import Verif.Spec.SourceDirected

/-!
# The PDUs with records of several classes do what their syntax trees say
-/

namespace Dis.Src

theorem var_vtp : isClass I.vtp = false := by decide +kernel
theorem var_damageDescriptionCount : isClass I.damageDescriptionCount = false := by decide +kernel
theorem var_numberOfDERecords : isClass I.numberOfDERecords = false := by decide +kernel

/-! ## EntityDamageStatusPdu -/

theorem EntityDamageStatusPdu.found : look I.EntityDamageStatusPdu program = some EntityDamageStatusPdu := rfl

theorem EntityDamageStatusPdu.serializes (n : Nat) (x : Dis.EntityDamageStatusPdu) :
    Serializes (run (n + 8)) I.EntityDamageStatusPdu (EntityDamageStatusPdu.enc x) x.serialize :=
  serializes_of (n := n + 7) (d := I.EntityDamageStatusPdu) (f := EntityDamageStatusPdu.serialize) rfl rfl <|
'''+sup('EntityDamageStatusPdu')+call('EntityIdentifier',5)+W+W+count('EntityDamageStatusPdu','damageDescriptionCount')+loop+'''
theorem EntityDamageStatusPdu.makes (n : Nat) : Makes (run (n + 4)) I.EntityDamageStatusPdu (EntityDamageStatusPdu.enc Dis.EntityDamageStatusPdu.init) :=
  makes_of (p := (I.EntityDamageStatusPdu, EntityDamageStatusPdu.__init__)) (by decide +kernel) rfl rfl rfl (by kernel_rfl) fun _ => by kernel_rfl

theorem EntityDamageStatusPdu.parses (n : Nat) :
    Parses (run (n + 8)) I.EntityDamageStatusPdu I.EntityDamageStatusPdu EntityDamageStatusPdu.fields Dis.EntityDamageStatusPdu.parseInto :=
  parses_of (n := n + 7) (d := I.EntityDamageStatusPdu) (f := EntityDamageStatusPdu.parse) rfl rfl <|
    par_super (Q' := fun _ => True) (c := I.EntityDamageStatusPdu) (hs := fun x y => WarfareFamilyPdu.fields y ++ EntityDamageStatusPdu.own x)
      (fun _ => WarfareFamilyPdu.parses (n + 4) _ _) rfl (Or.inl rfl) EntityDamageStatusPdu.found rfl (fun _ => rfl) (fun _ _ => rfl) (fun _ _ _ => trivial) <|
'''+pcall('EntityIdentifier',5)+R+R+ploc('damageDescriptionCount')+pfun('record')+'''
theorem EntityDamageStatusPdu.inj : ∀ {x y : Dis.EntityDamageStatusPdu}, EntityDamageStatusPdu.fields x = EntityDamageStatusPdu.fields y → x = y := by
  rintro ⟨p, a0, a1, a2, a3⟩ ⟨q, b0, b1, b2, b3⟩ h
  obtain rfl : p = q := WarfareFamilyPdu.inj (List.append_inj_left h rfl)
  obtain rfl : a0 = b0 := obj_inj EntityIdentifier.inj (congrArg (look I.damagedEntityID) h)
  obtain rfl : a1 = b1 := int_inj (congrArg (look I.padding1) h)
  obtain rfl : a2 = b2 := int_inj (congrArg (look I.padding2) h)
  obtain rfl : a3 = b3 := list_inj svEnc_inj (congrArg (look I.damageDescriptions) h)
  rfl

theorem EntityDamageStatusPdu.lawful : Sourced.EntityDamageStatusPdu.Lawful where
  serialize n x := EntityDamageStatusPdu.serializes n x
  parse n := EntityDamageStatusPdu.parses n
  inj _ _ := EntityDamageStatusPdu.inj
  makes _ := ⟨_, .rfl' _, fun n => ⟨EntityDamageStatusPdu.makes (n + 4), EntityDamageStatusPdu.serializes n Dis.EntityDamageStatusPdu.init,
    fun io => ⟨_, EntityDamageStatusPdu.parses n Dis.EntityDamageStatusPdu.init io, fun _ _ => rfl⟩⟩⟩

/-! ## DirectedEnergyFirePdu -/

theorem DirectedEnergyFirePdu.found : look I.DirectedEnergyFirePdu program = some DirectedEnergyFirePdu := rfl

theorem ser_float_opt {C : Call} {bs : List (Ident × Val)} {m c f : Ident} {fs : List (Ident × Val)} {o : Option F64}
    {w : F64 → W Unit} (hx : look I.self bs = some (.obj c fs)) (hp : isProperty program c f = false)
    (hf : look f fs = o.map .float) (ho : look I.outputStream bs = some .out)
    (hm : look m streams.writes = some (packFloat w)) :
    Ser1 C bs (.expr (.method (.name I.outputStream) m [.attr (.name I.self) f] [])) (W.using (attr o) w) := by
  cases o with
  | some v => exact ser_write (gives_attr (gives_name hx) hp hf) ho hm rfl
  | none =>
SEROPT

theorem DirectedEnergyFirePdu.serializesWith (n : Nat) (r : DirectedEnergyFirePdu.Raw)
    (hw : packFloat write_float32 r.pulseWidth = write_float32 r.obj.pulseWidth) (hb : asInt r.weaponOn = some r.obj.flags.weaponOn) :
    Serializes (run (n + 8)) I.DirectedEnergyFirePdu (.obj I.DirectedEnergyFirePdu (DirectedEnergyFirePdu.rawFields r)) r.obj.serialize := by
  refine serializes_of (n := n + 7) (d := I.DirectedEnergyFirePdu) (f := DirectedEnergyFirePdu.serialize) rfl rfl <|
'''+sup('DirectedEnergyFirePdu')+call('EntityType',6)+call('ClockTime',6)+'    ser_cons (ser_float_opt rfl (plain rfl) ?_ rfl rfl) <|\n'+call('Vector3Float',6)+W+W+W+W+'    ser_cons (ser_write (gives_attr (gives_name rfl) (plain rfl) rfl) rfl rfl hw) <|\n    ser_cons (ser_call rfl (plain rfl) rfl rfl rfl (DEFireFlags.serializesWith (n + 6) _ _ hb)) <|\n'+W*4+count('DirectedEnergyFirePdu','numberOfDERecords')+loop+'''  rcases r with ⟨⟨_, _, _, _, _ | _, _, _, _, _, _, _, _, _, _, _, _, _⟩, _, _⟩ <;> rfl

theorem DirectedEnergyFirePdu.serializes (n : Nat) (x : Dis.DirectedEnergyFirePdu) :
    Serializes (run (n + 8)) I.DirectedEnergyFirePdu (DirectedEnergyFirePdu.enc x) x.serialize :=
  DirectedEnergyFirePdu.serializesWith n ⟨x, .float x.pulseWidth, .int x.flags.weaponOn⟩ rfl rfl

theorem DirectedEnergyFirePdu.makesRaw (n : Nat) : Makes (run (n + 4)) I.DirectedEnergyFirePdu
    (.obj I.DirectedEnergyFirePdu (DirectedEnergyFirePdu.rawFields DirectedEnergyFirePdu.made)) :=
  makes_of (p := (I.DirectedEnergyFirePdu, DirectedEnergyFirePdu.__init__)) (by decide +kernel) rfl rfl rfl (by kernel_rfl) fun _ => by kernel_rfl
'''
def stm(f,rd,raw=False,opt=False,val=None):
    return (f'  let {f} ← P.read {rd}\n',f)
steps=[('call','munitionType','EntityType'),('call','shotStartTime','ClockTime'),('opt','commulativeShotTime','read_float32'),
 ('call','apertureEmitterLocation','Vector3Float'),('read','apertureDiameter','read_float32'),('read','wavelength','read_float32'),
 ('read','padding1','read_uint32'),('read','pulseRepetitionFrequency','read_float32'),('pw','pulseWidth','read_float32'),('flags','flags',''),
 ('read','pulseShape','read_uint8'),('read','padding2','read_uint8'),('read','padding3','read_uint32'),('read','padding4','read_uint16')]
def parse_model(raw):
    o=''
    if raw: o+='  P.call ⟨(·.obj.toWarfareFamilyPdu), fun o v => { o with obj := { o.obj with toWarfareFamilyPdu := v } }⟩ Dis.WarfareFamilyPdu.parseInto\n'
    for k,f,t in steps:
        if k=='call': o+=f'  P.call ⟨(·.obj.{f}), fun o v => {{ o with obj := {{ o.obj with {f} := v }} }}⟩ Dis.{t}.parseInto\n'
        elif k=='read': o+=f'  let {f} ← P.read {t}\n  P.set fun o => {{ o with obj := {{ o.obj with {f} := {f} }} }}\n'
        elif k=='opt': o+=f'  let {f} ← P.read {t}\n  P.set fun o => {{ o with obj := {{ o.obj with {f} := some {f} }} }}\n'
        elif k=='pw': o+=f'  let {f} ← P.read {t}\n  P.set fun o => {{ o with obj := {{ o.obj with {f} := {f} }}, {f} := .float {f} }}\n'
        else: o+='  P.call ⟨fun o => (o.weaponOn, o.obj.flags), fun o v => { o with obj := { o.obj with flags := v.2 }, weaponOn := v.1 }⟩ DEFireFlags.parseRaw\n'
    o+='''  let numberOfDERecords ← P.read read_uint16
  P.appendReads numberOfDERecords.toNat (Dis.parseStandardVariableRecord .damageDescription) ⟨(·.obj.dERecords), fun o v => { o with obj := { o.obj with dERecords := v } }⟩
  return ()
'''
    return o
pat='⟨_, _, _, _, _ | _, _, _, _, _, _, _, _, _, _, _, _, _⟩'
def chain(raw):
    o=''
    f0='rawFields' if raw else 'fields'
    own='DirectedEnergyFirePdu.ownWith x.pulseWidth x.weaponOn x.obj' if raw else 'DirectedEnergyFirePdu.own x'
    o+=f'''    par_super (Q' := fun _ => True) (c := I.DirectedEnergyFirePdu) (hs := fun x y => WarfareFamilyPdu.fields y ++ {own})
      (fun _ => WarfareFamilyPdu.parses (n + 4) _ _) rfl (Or.inl rfl) DirectedEnergyFirePdu.found rfl (fun _ => rfl) (fun _ _ => rfl) (fun _ _ _ => trivial) <|
'''
    for k,f,t in steps:
        if k=='call': o+=pcall(t,6)
        elif k in('read','pw'): o+=R
        elif k=='opt':
            p=f'⟨{pat}, _, _⟩' if raw else pat
            o+=f'    par_read (fun _ _ => True) rfl rfl (plain rfl) (by rintro {p} _ <;> rfl) (fun _ _ _ => trivial) fun _ =>\n'
        else:
            o+=f'    par_call (Q\' := fun _ => True) (DEFireFlags.{"parsesRaw" if raw else "parses"} (n + 6)) rfl (plain rfl) (fun _ => rfl) (fun _ _ => rfl) (fun _ _ _ => trivial) <|\n'
    o+=ploc('numberOfDERecords')+pfun('vtp')
    return o
out+='''
theorem DirectedEnergyFirePdu.parses (n : Nat) :
    Parses (run (n + 8)) I.DirectedEnergyFirePdu I.DirectedEnergyFirePdu DirectedEnergyFirePdu.fields Dis.DirectedEnergyFirePdu.parseInto :=
  parses_of (n := n + 7) (d := I.DirectedEnergyFirePdu) (f := DirectedEnergyFirePdu.parse) rfl rfl <|
'''+chain(False)+'''
/-- `DirectedEnergyFirePdu.parse` on an object fresh from the constructor (/repo/opendis/dis7.py:6381-6403). -/
def DirectedEnergyFirePdu.parseRaw : P DirectedEnergyFirePdu.Raw Unit := do
'''+parse_model(True)+'''
theorem DirectedEnergyFirePdu.parsesRaw (n : Nat) :
    Parses (run (n + 8)) I.DirectedEnergyFirePdu I.DirectedEnergyFirePdu DirectedEnergyFirePdu.rawFields DirectedEnergyFirePdu.parseRaw :=
  parses_of (n := n + 7) (d := I.DirectedEnergyFirePdu) (f := DirectedEnergyFirePdu.parse) rfl rfl <|
'''+chain(True)
ov='  over_bind (over_same (fun _ => rfl) (fun _ _ => rfl)) fun _ =>\n'
for k,f,t in steps:
    if k=='call': ov+='  over_bind (over_same (fun _ => rfl) (fun _ _ => rfl)) fun _ =>\n'
    elif k=='flags': ov+='  over_bind (over_call DEFireFlags.over (fun _ => rfl) (fun _ _ => rfl)) fun _ =>\n'
    else: ov+='  over_bind over_read fun _ =>\n  over_bind (over_set fun _ => rfl) fun _ =>\n'
ov+='  over_bind over_read fun _ =>\n  over_bind (over_reads (π := DirectedEnergyFirePdu.Raw.obj) (fun _ => rfl) (fun _ _ => rfl) _) fun _ => over_pure\n'
T='(fun _ => True)'; P1='(fun r : DirectedEnergyFirePdu.Raw => r.pulseWidth = .float r.obj.pulseWidth)'
P2='(fun r : DirectedEnergyFirePdu.Raw => r.pulseWidth = .float r.obj.pulseWidth ∧ r.weaponOn = .int r.obj.flags.weaponOn)'
en=f'  ends_bind (Q1 := {T}) (ends_call fun _ _ h => h) fun _ =>\n'
cur=T
for k,f,t in steps:
    if k=='call': en+=f'  ends_bind (Q1 := {cur}) (ends_call fun _ _ h => h) fun _ =>\n'
    elif k=='flags':
        cur=P2
        en+=f'  ends_bind (Q1 := {cur}) (ends_part {cur} DEFireFlags.ends fun _ _ h h\' => ⟨h, h\'⟩) fun _ =>\n'
    elif k=='pw':
        en+=f'  ends_bind (Q1 := {cur}) ends_read fun _ =>\n'
        cur=P1
        en+=f'  ends_bind (Q1 := {cur}) (ends_set {cur} fun _ _ => rfl) fun _ =>\n'
    else: en+=f'  ends_bind (Q1 := {cur}) ends_read fun _ =>\n  ends_bind (Q1 := {cur}) (ends_keep fun _ h => h) fun _ =>\n'
en+=f'  ends_bind (Q1 := {cur}) ends_read fun _ =>\n  ends_bind (Q1 := {cur}) (ends_reads (fun _ _ h => h) _) fun _ => ends_pure\n'
en=en.replace('(Q1 := (fun _ => True))','(Q1 := fun _ => True)')
out+='''
theorem over_reads {ρ σ τ : Type} {π : ρ → σ} {a' : Attr ρ (List τ)} {a : Attr σ (List τ)} {r : R τ}
    (hget : ∀ r, a'.get r = a.get (π r)) (hput : ∀ r t, π (a'.put r t) = a.put (π r) t) (n : Nat) :
    Over π (P.appendReads n r a') (P.appendReads n r a) := by
  induction n with
  | zero => exact over_pure
  | succ n ih =>
    exact over_bind over_read fun t => over_bind (over_set fun r => by rw [hput, hget]) fun _ => ih

theorem ends_reads {ρ τ : Type} {Q : ρ → Prop} {a : Attr ρ (List τ)} {r : R τ} (h : ∀ r t, Q r → Q (a.put r t))
    (n : Nat) : Ends Q (P.appendReads n r a) Q := by
  induction n with
  | zero => exact ends_pure
  | succ n ih => exact ends_bind ends_read fun _ => ends_bind (ends_keep fun r hr => h r _ hr) fun _ => ih

theorem DirectedEnergyFirePdu.over : Over DirectedEnergyFirePdu.Raw.obj DirectedEnergyFirePdu.parseRaw Dis.DirectedEnergyFirePdu.parseInto :=
'''+ov+f'''
theorem DirectedEnergyFirePdu.ends : Ends (fun _ => True) DirectedEnergyFirePdu.parseRaw
    {P2} :=
'''+en+'''
theorem DirectedEnergyFirePdu.fills (n : Nat) : Fills (run (n + 8)) I.DirectedEnergyFirePdu
    (.obj I.DirectedEnergyFirePdu (DirectedEnergyFirePdu.rawFields DirectedEnergyFirePdu.made)) DirectedEnergyFirePdu.fields
      Dis.DirectedEnergyFirePdu.init Dis.DirectedEnergyFirePdu.parseInto :=
  fills_over (π := DirectedEnergyFirePdu.Raw.obj) (DirectedEnergyFirePdu.parsesRaw n) DirectedEnergyFirePdu.over DirectedEnergyFirePdu.ends rfl fun r hr => by
    show WarfareFamilyPdu.fields r.obj.toWarfareFamilyPdu ++ DirectedEnergyFirePdu.ownWith r.pulseWidth r.weaponOn r.obj = _
    rw [hr.1, hr.2]

theorem DirectedEnergyFirePdu.same : SameFields (DirectedEnergyFirePdu.rawFields DirectedEnergyFirePdu.made) (DirectedEnergyFirePdu.fields Dis.DirectedEnergyFirePdu.init) :=
SAME

theorem DirectedEnergyFirePdu.inj : ∀ {x y : Dis.DirectedEnergyFirePdu}, DirectedEnergyFirePdu.fields x = DirectedEnergyFirePdu.fields y → x = y := by
  rintro ⟨p, a0, a1, a2, a3, a4, a5, a6, a7, a8, a9, a10, a11, a12, a13, a14, a15⟩ ⟨q, b0, b1, b2, b3, b4, b5, b6, b7, b8, b9, b10, b11, b12, b13, b14, b15⟩ h
  have hw : WarfareFamilyPdu.fields p = WarfareFamilyPdu.fields q := List.append_inj_left h rfl
  obtain rfl : p = q := WarfareFamilyPdu.inj hw
INJ
'''
fl=[('munitionType','obj_inj EntityType.inj'),('shotStartTime','obj_inj ClockTime.inj'),('cumulativeShotTime','float_inj'),('commulativeShotTime','opt'),('apertureEmitterLocation','obj_inj Vector3Float.inj'),('apertureDiameter','float_inj'),('wavelength','float_inj'),('padding1','int_inj'),('pulseRepetitionFrequency','float_inj'),('pulseWidth','float_inj'),('flags','obj_inj DEFireFlags.inj'),('pulseShape','int_inj'),('padding2','int_inj'),('padding3','int_inj'),('padding4','int_inj'),('dERecords','list_inj svEnc_inj')]
inj=''
for i,(f,t) in enumerate(fl):
    if t=='opt': continue
    inj+=f'  obtain rfl : a{i} = b{i} := {t} (congrArg (look I.{f}) h)\n'
inj+='''  obtain rfl : a3 = b3 := by
    rcases a3 with _ | a3 <;> rcases b3 with _ | b3
    · rfl
    · cases congrArg (look I.commulativeShotTime) h
    · cases congrArg (look I.commulativeShotTime) h
    · obtain rfl : a3 = b3 := float_inj (congrArg (look I.commulativeShotTime) h)
      rfl
  rfl
'''
out=out.replace('INJ\n',inj)
out+='''
theorem DirectedEnergyFirePdu.lawful : Sourced.DirectedEnergyFirePdu.Lawful where
  serialize n x := DirectedEnergyFirePdu.serializes n x
  parse n := DirectedEnergyFirePdu.parses n
  inj _ _ := DirectedEnergyFirePdu.inj
  makes _ := ⟨DirectedEnergyFirePdu.rawFields DirectedEnergyFirePdu.made, DirectedEnergyFirePdu.same, fun n =>
    ⟨DirectedEnergyFirePdu.makesRaw (n + 4), DirectedEnergyFirePdu.serializesWith n DirectedEnergyFirePdu.made (packFloat_zero _) rfl, DirectedEnergyFirePdu.fills n⟩⟩

/-! ## Both -/

theorem DirectedEnergyFirePdu.known : Sourced.DirectedEnergyFirePdu.entry ∈ inPlaceSpecial := KNOWN1

theorem EntityDamageStatusPdu.known : Sourced.EntityDamageStatusPdu.entry ∈ inPlaceSpecial := KNOWN2

theorem sourced7_lawful : ∀ e ∈ sourced7, e.Lawful := by
  unfold sourced7
  refine List.forall_mem_cons.2 ⟨DirectedEnergyFirePdu.lawful, ?_⟩
  refine List.forall_mem_cons.2 ⟨EntityDamageStatusPdu.lawful, ?_⟩
  exact fun e h => nomatch h

theorem sourced7_known : ∀ e ∈ sourced7, e.entry ∈ inPlace := by
  unfold sourced7 inPlace
  refine List.forall_mem_cons.2 ⟨by simp only [List.mem_append, DirectedEnergyFirePdu.known, or_true], ?_⟩
  refine List.forall_mem_cons.2 ⟨by simp only [List.mem_append, EntityDamageStatusPdu.known, or_true], ?_⟩
  exact fun e h => nomatch h

end Dis.Src
'''
import re
s6=open(V+'Proof/Source6.lean').read()
m=re.search(r'theorem ser_write_opt.*?\| none =>\n(.*?)\n\n',s6,re.S)
out=out.replace('SEROPT',m.group(1))
# SAME: 10+? base fields
import subprocess
out=out.replace('SAME','  SAMEBODY')
nb=int(open('/tmp/gen/nb').read()) if __import__('os').path.exists('/tmp/gen/nb') else 10
body='.cons (.refl _) <| '*nb
kinds=['r']*6+['i']+['r']*5+['f']+['r']*2
for k in kinds:
    body+={'r':'.cons (.refl _) <| ','i':'.cons (.int ofInt_zero) <| ','f':'.cons (.obj (.cons (.refl _) <| .cons (.refl _) <| .cons .bool <| .cons (.refl _) .nil)) <| '}[k]
body+='.nil'
out=out.replace('SAMEBODY',body)
out=out.replace('KNOWN1','.head _').replace('KNOWN2','.tail _ (.head _)')
open(V+'Proof/SourceDirected.lean','w').write(out)
spec='''import Verif.Spec.Source
import Verif.Source.EncodeDirected
import Verif.Model.InPlaceSpecial

/-!
# The PDUs with records of several classes, compared with the source
-/

namespace Dis.Src

/-- `DirectedEnergyFirePdu` (/repo/opendis/dis7.py:6318-6403). -/
def Sourced.DirectedEnergyFirePdu : Sourced where
  entry := .DirectedEnergyFirePdu
  cls := I.DirectedEnergyFirePdu
  fields := DirectedEnergyFirePdu.fields
  makes := true

/-- `EntityDamageStatusPdu` (/repo/opendis/dis7.py:6635-6677). -/
def Sourced.EntityDamageStatusPdu : Sourced where
  entry := .EntityDamageStatusPdu
  cls := I.EntityDamageStatusPdu
  fields := EntityDamageStatusPdu.fields
  makes := true

/-- PDUs with records of several classes (/repo/opendis/dis7.py:6318-6403, :6635-6677). -/
def sourced7 : List Sourced :=
  [.DirectedEnergyFirePdu,
   .EntityDamageStatusPdu]

end Dis.Src
'''
open(V+'Spec/SourceDirected.lean','w').write(spec)
