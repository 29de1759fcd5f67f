import Verif.Proof.SourceFunctions
import Verif.Proof.SourceSpecialLaw
import Verif.Proof.SourceHand
import Verif.Source.EncodeDirected
import Verif.Spec.SourceDirected

/-!
# The PDUs with records of several classes do what their syntax trees say
-/

namespace Dis.Src

theorem var_vtp : isClass I.vtp = false := by decide +kernel
theorem var_damageDescriptionCount : isClass I.damageDescriptionCount = false := by decide +kernel
theorem var_numberOfDERecords : isClass I.numberOfDERecords = false := by decide +kernel

/-! ## EntityDamageStatusPdu -/

theorem EntityDamageStatusPdu.found : look I.EntityDamageStatusPdu program = some EntityDamageStatusPdu := rfl

theorem EntityDamageStatusPdu.serializes (n : Nat) (x : Dis.EntityDamageStatusPdu) :
    Serializes (run (n + 8)) I.EntityDamageStatusPdu (EntityDamageStatusPdu.enc x) x.serialize :=
  serializes_of (n := n + 7) (d := I.EntityDamageStatusPdu) (f := EntityDamageStatusPdu.serialize) rfl rfl <|
    ser_cons (ser_super (c := I.EntityDamageStatusPdu) rfl (Or.inl rfl) EntityDamageStatusPdu.found rfl rfl (WarfareFamilyPdu.serializes (n + 4) _ _ _)) <|
    ser_cons (ser_call rfl (plain rfl) rfl rfl rfl (EntityIdentifier.serializes (n + 5) _)) <|
    ser_cons (ser_write (gives_attr (gives_name rfl) (plain rfl) rfl) rfl rfl rfl) <|
    ser_cons (ser_write (gives_attr (gives_name rfl) (plain rfl) rfl) rfl rfl rfl) <|
    ser_cons (ser_write (gives_property (gives_name rfl) rfl (property_of (n := n + 6) (d := I.EntityDamageStatusPdu) (f := EntityDamageStatusPdu.damageDescriptionCount) rfl rfl rfl (gives_len_map (gives_attr (gives_name rfl) (plain rfl) rfl)))) rfl rfl (packInt_int _ _)) <|
    ser_last (ser_for (v := svEnc) (gives_attr (gives_name rfl) (plain rfl) rfl) var_record rfl fun a _ =>
      ser_last (ser_var (c := svClass a) (fs := svFields a) rfl rfl (sv_serializes n a)))

theorem EntityDamageStatusPdu.makes (n : Nat) : Makes (run (n + 4)) I.EntityDamageStatusPdu (EntityDamageStatusPdu.enc Dis.EntityDamageStatusPdu.init) :=
  makes_of (p := (I.EntityDamageStatusPdu, EntityDamageStatusPdu.__init__)) (by decide +kernel) rfl rfl rfl (by kernel_rfl) fun _ => by kernel_rfl

theorem EntityDamageStatusPdu.parses (n : Nat) :
    Parses (run (n + 8)) I.EntityDamageStatusPdu I.EntityDamageStatusPdu EntityDamageStatusPdu.fields Dis.EntityDamageStatusPdu.parseInto :=
  parses_of (n := n + 7) (d := I.EntityDamageStatusPdu) (f := EntityDamageStatusPdu.parse) rfl rfl <|
    par_super (Q' := fun _ => True) (c := I.EntityDamageStatusPdu) (hs := fun x y => WarfareFamilyPdu.fields y ++ EntityDamageStatusPdu.own x)
      (fun _ => WarfareFamilyPdu.parses (n + 4) _ _) rfl (Or.inl rfl) EntityDamageStatusPdu.found rfl (fun _ => rfl) (fun _ _ => rfl) (fun _ _ _ => trivial) <|
    par_call (Q' := fun _ => True) (EntityIdentifier.parses (n + 5)) rfl (plain rfl) (fun _ => rfl) (fun _ _ => rfl) (fun _ _ _ => trivial) <|
    par_read (fun _ _ => True) rfl rfl (plain rfl) (fun _ _ => rfl) (fun _ _ _ => trivial) fun _ =>
    par_read (fun _ _ => True) rfl rfl (plain rfl) (fun _ _ => rfl) (fun _ _ _ => trivial) fun _ =>
    par_local rfl rfl rfl var_damageDescriptionCount fun _ =>
    par_funs (Q' := fun _ => True) (fun _ _ => gives_range0 (gives_name rfl)) (by simp) (parseRecord (n + 2) .damageDescription) (by decide +kernel) rfl (plain rfl)
      (fun _ => rfl) (fun _ _ => rfl) (fun _ _ _ => trivial) var__ rfl rfl var_record rfl rfl (fun _ _ => trivial) <|
    par_nil

theorem EntityDamageStatusPdu.inj : ∀ {x y : Dis.EntityDamageStatusPdu}, EntityDamageStatusPdu.fields x = EntityDamageStatusPdu.fields y → x = y := by
  rintro ⟨p, a0, a1, a2, a3⟩ ⟨q, b0, b1, b2, b3⟩ h
  obtain rfl : p = q := WarfareFamilyPdu.inj (List.append_inj_left h rfl)
  obtain rfl : a0 = b0 := obj_inj EntityIdentifier.inj (congrArg (look I.damagedEntityID) h)
  obtain rfl : a1 = b1 := int_inj (congrArg (look I.padding1) h)
  obtain rfl : a2 = b2 := int_inj (congrArg (look I.padding2) h)
  obtain rfl : a3 = b3 := list_inj svEnc_inj (congrArg (look I.damageDescriptions) h)
  rfl

theorem EntityDamageStatusPdu.lawful : Sourced.EntityDamageStatusPdu.Lawful where
  serialize n x := EntityDamageStatusPdu.serializes n x
  parse n := EntityDamageStatusPdu.parses n
  inj _ _ := EntityDamageStatusPdu.inj
  makes _ := ⟨_, .rfl' _, fun n => ⟨EntityDamageStatusPdu.makes (n + 4), EntityDamageStatusPdu.serializes n Dis.EntityDamageStatusPdu.init,
    fun io => ⟨_, EntityDamageStatusPdu.parses n Dis.EntityDamageStatusPdu.init io, fun _ _ => rfl⟩⟩⟩

/-! ## DirectedEnergyFirePdu -/

theorem DirectedEnergyFirePdu.found : look I.DirectedEnergyFirePdu program = some DirectedEnergyFirePdu := rfl

theorem ser_float_opt {C : Call} {bs : List (Ident × Val)} {m c f : Ident} {fs : List (Ident × Val)} {o : Option F64}
    {w : F64 → W Unit} (hx : look I.self bs = some (.obj c fs)) (hp : isProperty program c f = false)
    (hf : look f fs = o.map .float) (ho : look I.outputStream bs = some .out)
    (hm : look m streams.writes = some (packFloat w)) :
    Ser1 C bs (.expr (.method (.name I.outputStream) m [.attr (.name I.self) f] [])) (W.using (attr o) w) := by
  cases o with
  | some v => exact ser_write (gives_attr (gives_name hx) hp hf) ho hm rfl
  | none =>
    intro st hst
    refine ⟨st, ?_, hst, by show _ = Streams.mk _ (_ ++ []); rw [List.append_nil]⟩
    have h2 : evalList program words streams C [.attr (.name I.self) f] st = (.error .attributeError, st) := by
      unfold evalList
      exact M.bind_error (missing_attr (gives_name hx) hp hf hst)
    unfold ex exec
    refine M.bind_error (?_ : ev C (.method (.name I.outputStream) m [.attr (.name I.self) f] []) st = (.error .attributeError, st))
    unfold ev eval
    exact (M.bind_ok (gives_name ho st hst)).trans (M.bind_error h2)

theorem DirectedEnergyFirePdu.serializesWith (n : Nat) (r : DirectedEnergyFirePdu.Raw)
    (hw : packFloat write_float32 r.pulseWidth = write_float32 r.obj.pulseWidth) (hb : asInt r.weaponOn = some r.obj.flags.weaponOn) :
    Serializes (run (n + 8)) I.DirectedEnergyFirePdu (.obj I.DirectedEnergyFirePdu (DirectedEnergyFirePdu.rawFields r)) r.obj.serialize := by
  refine serializes_of (n := n + 7) (d := I.DirectedEnergyFirePdu) (f := DirectedEnergyFirePdu.serialize) rfl rfl <|
    ser_cons (ser_super (c := I.DirectedEnergyFirePdu) rfl (Or.inl rfl) DirectedEnergyFirePdu.found rfl rfl (WarfareFamilyPdu.serializes (n + 4) _ _ _)) <|
    ser_cons (ser_call rfl (plain rfl) rfl rfl rfl (EntityType.serializes (n + 6) _)) <|
    ser_cons (ser_call rfl (plain rfl) rfl rfl rfl (ClockTime.serializes (n + 6) _)) <|
    ser_cons (ser_float_opt rfl (plain rfl) ?_ rfl rfl) <|
    ser_cons (ser_call rfl (plain rfl) rfl rfl rfl (Vector3Float.serializes (n + 6) _)) <|
    ser_cons (ser_write (gives_attr (gives_name rfl) (plain rfl) rfl) rfl rfl rfl) <|
    ser_cons (ser_write (gives_attr (gives_name rfl) (plain rfl) rfl) rfl rfl rfl) <|
    ser_cons (ser_write (gives_attr (gives_name rfl) (plain rfl) rfl) rfl rfl rfl) <|
    ser_cons (ser_write (gives_attr (gives_name rfl) (plain rfl) rfl) rfl rfl rfl) <|
    ser_cons (ser_write (gives_attr (gives_name rfl) (plain rfl) rfl) rfl rfl hw) <|
    ser_cons (ser_call rfl (plain rfl) rfl rfl rfl (DEFireFlags.serializesWith (n + 6) _ _ hb)) <|
    ser_cons (ser_write (gives_attr (gives_name rfl) (plain rfl) rfl) rfl rfl rfl) <|
    ser_cons (ser_write (gives_attr (gives_name rfl) (plain rfl) rfl) rfl rfl rfl) <|
    ser_cons (ser_write (gives_attr (gives_name rfl) (plain rfl) rfl) rfl rfl rfl) <|
    ser_cons (ser_write (gives_attr (gives_name rfl) (plain rfl) rfl) rfl rfl rfl) <|
    ser_cons (ser_write (gives_property (gives_name rfl) rfl (property_of (n := n + 6) (d := I.DirectedEnergyFirePdu) (f := DirectedEnergyFirePdu.numberOfDERecords) rfl rfl rfl (gives_len_map (gives_attr (gives_name rfl) (plain rfl) rfl)))) rfl rfl (packInt_int _ _)) <|
    ser_last (ser_for (v := svEnc) (gives_attr (gives_name rfl) (plain rfl) rfl) var_record rfl fun a _ =>
      ser_last (ser_var (c := svClass a) (fs := svFields a) rfl rfl (sv_serializes n a)))
  rcases r with ⟨⟨_, _, _, _, _ | _, _, _, _, _, _, _, _, _, _, _, _, _⟩, _, _⟩ <;> rfl

theorem DirectedEnergyFirePdu.serializes (n : Nat) (x : Dis.DirectedEnergyFirePdu) :
    Serializes (run (n + 8)) I.DirectedEnergyFirePdu (DirectedEnergyFirePdu.enc x) x.serialize :=
  DirectedEnergyFirePdu.serializesWith n ⟨x, .float x.pulseWidth, .int x.flags.weaponOn⟩ rfl rfl

theorem DirectedEnergyFirePdu.makesRaw (n : Nat) : Makes (run (n + 4)) I.DirectedEnergyFirePdu
    (.obj I.DirectedEnergyFirePdu (DirectedEnergyFirePdu.rawFields DirectedEnergyFirePdu.made)) :=
  makes_of (p := (I.DirectedEnergyFirePdu, DirectedEnergyFirePdu.__init__)) (by decide +kernel) rfl rfl rfl (by kernel_rfl) fun _ => by kernel_rfl

theorem DirectedEnergyFirePdu.parses (n : Nat) :
    Parses (run (n + 8)) I.DirectedEnergyFirePdu I.DirectedEnergyFirePdu DirectedEnergyFirePdu.fields Dis.DirectedEnergyFirePdu.parseInto :=
  parses_of (n := n + 7) (d := I.DirectedEnergyFirePdu) (f := DirectedEnergyFirePdu.parse) rfl rfl <|
    par_super (Q' := fun _ => True) (c := I.DirectedEnergyFirePdu) (hs := fun x y => WarfareFamilyPdu.fields y ++ DirectedEnergyFirePdu.own x)
      (fun _ => WarfareFamilyPdu.parses (n + 4) _ _) rfl (Or.inl rfl) DirectedEnergyFirePdu.found rfl (fun _ => rfl) (fun _ _ => rfl) (fun _ _ _ => trivial) <|
    par_call (Q' := fun _ => True) (EntityType.parses (n + 6)) rfl (plain rfl) (fun _ => rfl) (fun _ _ => rfl) (fun _ _ _ => trivial) <|
    par_call (Q' := fun _ => True) (ClockTime.parses (n + 6)) rfl (plain rfl) (fun _ => rfl) (fun _ _ => rfl) (fun _ _ _ => trivial) <|
    par_read (fun _ _ => True) rfl rfl (plain rfl) (by rintro ⟨_, _, _, _, _ | _, _, _, _, _, _, _, _, _, _, _, _, _⟩ _ <;> rfl) (fun _ _ _ => trivial) fun _ =>
    par_call (Q' := fun _ => True) (Vector3Float.parses (n + 6)) rfl (plain rfl) (fun _ => rfl) (fun _ _ => rfl) (fun _ _ _ => trivial) <|
    par_read (fun _ _ => True) rfl rfl (plain rfl) (fun _ _ => rfl) (fun _ _ _ => trivial) fun _ =>
    par_read (fun _ _ => True) rfl rfl (plain rfl) (fun _ _ => rfl) (fun _ _ _ => trivial) fun _ =>
    par_read (fun _ _ => True) rfl rfl (plain rfl) (fun _ _ => rfl) (fun _ _ _ => trivial) fun _ =>
    par_read (fun _ _ => True) rfl rfl (plain rfl) (fun _ _ => rfl) (fun _ _ _ => trivial) fun _ =>
    par_read (fun _ _ => True) rfl rfl (plain rfl) (fun _ _ => rfl) (fun _ _ _ => trivial) fun _ =>
    par_call (Q' := fun _ => True) (DEFireFlags.parses (n + 6)) rfl (plain rfl) (fun _ => rfl) (fun _ _ => rfl) (fun _ _ _ => trivial) <|
    par_read (fun _ _ => True) rfl rfl (plain rfl) (fun _ _ => rfl) (fun _ _ _ => trivial) fun _ =>
    par_read (fun _ _ => True) rfl rfl (plain rfl) (fun _ _ => rfl) (fun _ _ _ => trivial) fun _ =>
    par_read (fun _ _ => True) rfl rfl (plain rfl) (fun _ _ => rfl) (fun _ _ _ => trivial) fun _ =>
    par_read (fun _ _ => True) rfl rfl (plain rfl) (fun _ _ => rfl) (fun _ _ _ => trivial) fun _ =>
    par_local rfl rfl rfl var_numberOfDERecords fun _ =>
    par_funs (Q' := fun _ => True) (fun _ _ => gives_range0 (gives_name rfl)) (by simp) (parseRecord (n + 2) .damageDescription) (by decide +kernel) rfl (plain rfl)
      (fun _ => rfl) (fun _ _ => rfl) (fun _ _ _ => trivial) var__ rfl rfl var_vtp rfl rfl (fun _ _ => trivial) <|
    par_nil

/-- `DirectedEnergyFirePdu.parse` on an object fresh from the constructor (/repo/opendis/dis7.py:6381-6403). -/
def DirectedEnergyFirePdu.parseRaw : P DirectedEnergyFirePdu.Raw Unit := do
  P.call ⟨(·.obj.toWarfareFamilyPdu), fun o v => { o with obj := { o.obj with toWarfareFamilyPdu := v } }⟩ Dis.WarfareFamilyPdu.parseInto
  P.call ⟨(·.obj.munitionType), fun o v => { o with obj := { o.obj with munitionType := v } }⟩ Dis.EntityType.parseInto
  P.call ⟨(·.obj.shotStartTime), fun o v => { o with obj := { o.obj with shotStartTime := v } }⟩ Dis.ClockTime.parseInto
  let commulativeShotTime ← P.read read_float32
  P.set fun o => { o with obj := { o.obj with commulativeShotTime := some commulativeShotTime } }
  P.call ⟨(·.obj.apertureEmitterLocation), fun o v => { o with obj := { o.obj with apertureEmitterLocation := v } }⟩ Dis.Vector3Float.parseInto
  let apertureDiameter ← P.read read_float32
  P.set fun o => { o with obj := { o.obj with apertureDiameter := apertureDiameter } }
  let wavelength ← P.read read_float32
  P.set fun o => { o with obj := { o.obj with wavelength := wavelength } }
  let padding1 ← P.read read_uint32
  P.set fun o => { o with obj := { o.obj with padding1 := padding1 } }
  let pulseRepetitionFrequency ← P.read read_float32
  P.set fun o => { o with obj := { o.obj with pulseRepetitionFrequency := pulseRepetitionFrequency } }
  let pulseWidth ← P.read read_float32
  P.set fun o => { o with obj := { o.obj with pulseWidth := pulseWidth }, pulseWidth := .float pulseWidth }
  P.call ⟨fun o => (o.weaponOn, o.obj.flags), fun o v => { o with obj := { o.obj with flags := v.2 }, weaponOn := v.1 }⟩ DEFireFlags.parseRaw
  let pulseShape ← P.read read_uint8
  P.set fun o => { o with obj := { o.obj with pulseShape := pulseShape } }
  let padding2 ← P.read read_uint8
  P.set fun o => { o with obj := { o.obj with padding2 := padding2 } }
  let padding3 ← P.read read_uint32
  P.set fun o => { o with obj := { o.obj with padding3 := padding3 } }
  let padding4 ← P.read read_uint16
  P.set fun o => { o with obj := { o.obj with padding4 := padding4 } }
  let numberOfDERecords ← P.read read_uint16
  P.appendReads numberOfDERecords.toNat (Dis.parseStandardVariableRecord .damageDescription) ⟨(·.obj.dERecords), fun o v => { o with obj := { o.obj with dERecords := v } }⟩
  return ()

theorem DirectedEnergyFirePdu.parsesRaw (n : Nat) :
    Parses (run (n + 8)) I.DirectedEnergyFirePdu I.DirectedEnergyFirePdu DirectedEnergyFirePdu.rawFields DirectedEnergyFirePdu.parseRaw :=
  parses_of (n := n + 7) (d := I.DirectedEnergyFirePdu) (f := DirectedEnergyFirePdu.parse) rfl rfl <|
    par_super (Q' := fun _ => True) (c := I.DirectedEnergyFirePdu) (hs := fun x y => WarfareFamilyPdu.fields y ++ DirectedEnergyFirePdu.ownWith x.pulseWidth x.weaponOn x.obj)
      (fun _ => WarfareFamilyPdu.parses (n + 4) _ _) rfl (Or.inl rfl) DirectedEnergyFirePdu.found rfl (fun _ => rfl) (fun _ _ => rfl) (fun _ _ _ => trivial) <|
    par_call (Q' := fun _ => True) (EntityType.parses (n + 6)) rfl (plain rfl) (fun _ => rfl) (fun _ _ => rfl) (fun _ _ _ => trivial) <|
    par_call (Q' := fun _ => True) (ClockTime.parses (n + 6)) rfl (plain rfl) (fun _ => rfl) (fun _ _ => rfl) (fun _ _ _ => trivial) <|
    par_read (fun _ _ => True) rfl rfl (plain rfl) (by rintro ⟨⟨_, _, _, _, _ | _, _, _, _, _, _, _, _, _, _, _, _, _⟩, _, _⟩ _ <;> rfl) (fun _ _ _ => trivial) fun _ =>
    par_call (Q' := fun _ => True) (Vector3Float.parses (n + 6)) rfl (plain rfl) (fun _ => rfl) (fun _ _ => rfl) (fun _ _ _ => trivial) <|
    par_read (fun _ _ => True) rfl rfl (plain rfl) (fun _ _ => rfl) (fun _ _ _ => trivial) fun _ =>
    par_read (fun _ _ => True) rfl rfl (plain rfl) (fun _ _ => rfl) (fun _ _ _ => trivial) fun _ =>
    par_read (fun _ _ => True) rfl rfl (plain rfl) (fun _ _ => rfl) (fun _ _ _ => trivial) fun _ =>
    par_read (fun _ _ => True) rfl rfl (plain rfl) (fun _ _ => rfl) (fun _ _ _ => trivial) fun _ =>
    par_read (fun _ _ => True) rfl rfl (plain rfl) (fun _ _ => rfl) (fun _ _ _ => trivial) fun _ =>
    par_call (Q' := fun _ => True) (DEFireFlags.parsesRaw (n + 6)) rfl (plain rfl) (fun _ => rfl) (fun _ _ => rfl) (fun _ _ _ => trivial) <|
    par_read (fun _ _ => True) rfl rfl (plain rfl) (fun _ _ => rfl) (fun _ _ _ => trivial) fun _ =>
    par_read (fun _ _ => True) rfl rfl (plain rfl) (fun _ _ => rfl) (fun _ _ _ => trivial) fun _ =>
    par_read (fun _ _ => True) rfl rfl (plain rfl) (fun _ _ => rfl) (fun _ _ _ => trivial) fun _ =>
    par_read (fun _ _ => True) rfl rfl (plain rfl) (fun _ _ => rfl) (fun _ _ _ => trivial) fun _ =>
    par_local rfl rfl rfl var_numberOfDERecords fun _ =>
    par_funs (Q' := fun _ => True) (fun _ _ => gives_range0 (gives_name rfl)) (by simp) (parseRecord (n + 2) .damageDescription) (by decide +kernel) rfl (plain rfl)
      (fun _ => rfl) (fun _ _ => rfl) (fun _ _ _ => trivial) var__ rfl rfl var_vtp rfl rfl (fun _ _ => trivial) <|
    par_nil

theorem over_reads {ρ σ τ : Type} {π : ρ → σ} {a' : Attr ρ (List τ)} {a : Attr σ (List τ)} {r : R τ}
    (hget : ∀ r, a'.get r = a.get (π r)) (hput : ∀ r t, π (a'.put r t) = a.put (π r) t) (n : Nat) :
    Over π (P.appendReads n r a') (P.appendReads n r a) := by
  induction n with
  | zero => exact over_pure
  | succ n ih =>
    exact over_bind over_read fun t => over_bind (over_set fun r => by rw [hput, hget]) fun _ => ih

theorem ends_reads {ρ τ : Type} {Q : ρ → Prop} {a : Attr ρ (List τ)} {r : R τ} (h : ∀ r t, Q r → Q (a.put r t))
    (n : Nat) : Ends Q (P.appendReads n r a) Q := by
  induction n with
  | zero => exact ends_pure
  | succ n ih => exact ends_bind ends_read fun _ => ends_bind (ends_keep fun r hr => h r _ hr) fun _ => ih

theorem DirectedEnergyFirePdu.over : Over DirectedEnergyFirePdu.Raw.obj DirectedEnergyFirePdu.parseRaw Dis.DirectedEnergyFirePdu.parseInto :=
  over_bind (over_same (fun _ => rfl) (fun _ _ => rfl)) fun _ =>
  over_bind (over_same (fun _ => rfl) (fun _ _ => rfl)) fun _ =>
  over_bind (over_same (fun _ => rfl) (fun _ _ => rfl)) fun _ =>
  over_bind over_read fun _ =>
  over_bind (over_set fun _ => rfl) fun _ =>
  over_bind (over_same (fun _ => rfl) (fun _ _ => rfl)) fun _ =>
  over_bind over_read fun _ =>
  over_bind (over_set fun _ => rfl) fun _ =>
  over_bind over_read fun _ =>
  over_bind (over_set fun _ => rfl) fun _ =>
  over_bind over_read fun _ =>
  over_bind (over_set fun _ => rfl) fun _ =>
  over_bind over_read fun _ =>
  over_bind (over_set fun _ => rfl) fun _ =>
  over_bind over_read fun _ =>
  over_bind (over_set fun _ => rfl) fun _ =>
  over_bind (over_call DEFireFlags.over (fun _ => rfl) (fun _ _ => rfl)) fun _ =>
  over_bind over_read fun _ =>
  over_bind (over_set fun _ => rfl) fun _ =>
  over_bind over_read fun _ =>
  over_bind (over_set fun _ => rfl) fun _ =>
  over_bind over_read fun _ =>
  over_bind (over_set fun _ => rfl) fun _ =>
  over_bind over_read fun _ =>
  over_bind (over_set fun _ => rfl) fun _ =>
  over_bind over_read fun _ =>
  over_bind (over_reads (π := DirectedEnergyFirePdu.Raw.obj) (fun _ => rfl) (fun _ _ => rfl) _) fun _ => over_pure

theorem DirectedEnergyFirePdu.ends : Ends (fun _ => True) DirectedEnergyFirePdu.parseRaw
    (fun r : DirectedEnergyFirePdu.Raw => r.pulseWidth = .float r.obj.pulseWidth ∧ r.weaponOn = .int r.obj.flags.weaponOn) :=
  ends_bind (Q1 := fun _ => True) (ends_call fun _ _ h => h) fun _ =>
  ends_bind (Q1 := fun _ => True) (ends_call fun _ _ h => h) fun _ =>
  ends_bind (Q1 := fun _ => True) (ends_call fun _ _ h => h) fun _ =>
  ends_bind (Q1 := fun _ => True) ends_read fun _ =>
  ends_bind (Q1 := fun _ => True) (ends_keep fun _ h => h) fun _ =>
  ends_bind (Q1 := fun _ => True) (ends_call fun _ _ h => h) fun _ =>
  ends_bind (Q1 := fun _ => True) ends_read fun _ =>
  ends_bind (Q1 := fun _ => True) (ends_keep fun _ h => h) fun _ =>
  ends_bind (Q1 := fun _ => True) ends_read fun _ =>
  ends_bind (Q1 := fun _ => True) (ends_keep fun _ h => h) fun _ =>
  ends_bind (Q1 := fun _ => True) ends_read fun _ =>
  ends_bind (Q1 := fun _ => True) (ends_keep fun _ h => h) fun _ =>
  ends_bind (Q1 := fun _ => True) ends_read fun _ =>
  ends_bind (Q1 := fun _ => True) (ends_keep fun _ h => h) fun _ =>
  ends_bind (Q1 := fun _ => True) ends_read fun _ =>
  ends_bind (Q1 := (fun r : DirectedEnergyFirePdu.Raw => r.pulseWidth = .float r.obj.pulseWidth)) (ends_set (fun r : DirectedEnergyFirePdu.Raw => r.pulseWidth = .float r.obj.pulseWidth) fun _ _ => rfl) fun _ =>
  ends_bind (Q1 := (fun r : DirectedEnergyFirePdu.Raw => r.pulseWidth = .float r.obj.pulseWidth ∧ r.weaponOn = .int r.obj.flags.weaponOn)) (ends_part (fun r : DirectedEnergyFirePdu.Raw => r.pulseWidth = .float r.obj.pulseWidth ∧ r.weaponOn = .int r.obj.flags.weaponOn) DEFireFlags.ends fun _ _ h h' => ⟨h, h'⟩) fun _ =>
  ends_bind (Q1 := (fun r : DirectedEnergyFirePdu.Raw => r.pulseWidth = .float r.obj.pulseWidth ∧ r.weaponOn = .int r.obj.flags.weaponOn)) ends_read fun _ =>
  ends_bind (Q1 := (fun r : DirectedEnergyFirePdu.Raw => r.pulseWidth = .float r.obj.pulseWidth ∧ r.weaponOn = .int r.obj.flags.weaponOn)) (ends_keep fun _ h => h) fun _ =>
  ends_bind (Q1 := (fun r : DirectedEnergyFirePdu.Raw => r.pulseWidth = .float r.obj.pulseWidth ∧ r.weaponOn = .int r.obj.flags.weaponOn)) ends_read fun _ =>
  ends_bind (Q1 := (fun r : DirectedEnergyFirePdu.Raw => r.pulseWidth = .float r.obj.pulseWidth ∧ r.weaponOn = .int r.obj.flags.weaponOn)) (ends_keep fun _ h => h) fun _ =>
  ends_bind (Q1 := (fun r : DirectedEnergyFirePdu.Raw => r.pulseWidth = .float r.obj.pulseWidth ∧ r.weaponOn = .int r.obj.flags.weaponOn)) ends_read fun _ =>
  ends_bind (Q1 := (fun r : DirectedEnergyFirePdu.Raw => r.pulseWidth = .float r.obj.pulseWidth ∧ r.weaponOn = .int r.obj.flags.weaponOn)) (ends_keep fun _ h => h) fun _ =>
  ends_bind (Q1 := (fun r : DirectedEnergyFirePdu.Raw => r.pulseWidth = .float r.obj.pulseWidth ∧ r.weaponOn = .int r.obj.flags.weaponOn)) ends_read fun _ =>
  ends_bind (Q1 := (fun r : DirectedEnergyFirePdu.Raw => r.pulseWidth = .float r.obj.pulseWidth ∧ r.weaponOn = .int r.obj.flags.weaponOn)) (ends_keep fun _ h => h) fun _ =>
  ends_bind (Q1 := (fun r : DirectedEnergyFirePdu.Raw => r.pulseWidth = .float r.obj.pulseWidth ∧ r.weaponOn = .int r.obj.flags.weaponOn)) ends_read fun _ =>
  ends_bind (Q1 := (fun r : DirectedEnergyFirePdu.Raw => r.pulseWidth = .float r.obj.pulseWidth ∧ r.weaponOn = .int r.obj.flags.weaponOn)) (ends_reads (fun _ _ h => h) _) fun _ => ends_pure

theorem DirectedEnergyFirePdu.fills (n : Nat) : Fills (run (n + 8)) I.DirectedEnergyFirePdu
    (.obj I.DirectedEnergyFirePdu (DirectedEnergyFirePdu.rawFields DirectedEnergyFirePdu.made)) DirectedEnergyFirePdu.fields
      Dis.DirectedEnergyFirePdu.init Dis.DirectedEnergyFirePdu.parseInto :=
  fills_over (π := DirectedEnergyFirePdu.Raw.obj) (DirectedEnergyFirePdu.parsesRaw n) DirectedEnergyFirePdu.over DirectedEnergyFirePdu.ends rfl fun r hr => by
    show WarfareFamilyPdu.fields r.obj.toWarfareFamilyPdu ++ DirectedEnergyFirePdu.ownWith r.pulseWidth r.weaponOn r.obj = _
    rw [hr.1, hr.2]

theorem DirectedEnergyFirePdu.same : SameFields (DirectedEnergyFirePdu.rawFields DirectedEnergyFirePdu.made) (DirectedEnergyFirePdu.fields Dis.DirectedEnergyFirePdu.init) :=
  .cons (.refl _) <| .cons (.refl _) <| .cons (.refl _) <| .cons (.refl _) <| .cons (.refl _) <| .cons (.refl _) <| .cons (.refl _) <| .cons (.refl _) <| .cons (.refl _) <| .cons (.refl _) <| .cons (.refl _) <| .cons (.refl _) <| .cons (.refl _) <| .cons (.refl _) <| .cons (.refl _) <| .cons (.refl _) <| .cons (.int ofInt_zero) <| .cons (.refl _) <| .cons (.refl _) <| .cons (.refl _) <| .cons (.refl _) <| .cons (.refl _) <| .cons (.obj (.cons (.refl _) <| .cons (.refl _) <| .cons .bool <| .cons (.refl _) .nil)) <| .cons (.refl _) <| .cons (.refl _) <| .nil

theorem DirectedEnergyFirePdu.inj : ∀ {x y : Dis.DirectedEnergyFirePdu}, DirectedEnergyFirePdu.fields x = DirectedEnergyFirePdu.fields y → x = y := by
  rintro ⟨p, a0, a1, a2, a3, a4, a5, a6, a7, a8, a9, a10, a11, a12, a13, a14, a15⟩ ⟨q, b0, b1, b2, b3, b4, b5, b6, b7, b8, b9, b10, b11, b12, b13, b14, b15⟩ h
  have hw : WarfareFamilyPdu.fields p = WarfareFamilyPdu.fields q := List.append_inj_left h rfl
  obtain rfl : p = q := WarfareFamilyPdu.inj hw
  obtain rfl : a0 = b0 := obj_inj EntityType.inj (congrArg (look I.munitionType) h)
  obtain rfl : a1 = b1 := obj_inj ClockTime.inj (congrArg (look I.shotStartTime) h)
  obtain rfl : a2 = b2 := float_inj (congrArg (look I.cumulativeShotTime) h)
  obtain rfl : a4 = b4 := obj_inj Vector3Float.inj (congrArg (look I.apertureEmitterLocation) h)
  obtain rfl : a5 = b5 := float_inj (congrArg (look I.apertureDiameter) h)
  obtain rfl : a6 = b6 := float_inj (congrArg (look I.wavelength) h)
  obtain rfl : a7 = b7 := int_inj (congrArg (look I.padding1) h)
  obtain rfl : a8 = b8 := float_inj (congrArg (look I.pulseRepetitionFrequency) h)
  obtain rfl : a9 = b9 := float_inj (congrArg (look I.pulseWidth) h)
  obtain rfl : a10 = b10 := obj_inj DEFireFlags.inj (congrArg (look I.flags) h)
  obtain rfl : a11 = b11 := int_inj (congrArg (look I.pulseShape) h)
  obtain rfl : a12 = b12 := int_inj (congrArg (look I.padding2) h)
  obtain rfl : a13 = b13 := int_inj (congrArg (look I.padding3) h)
  obtain rfl : a14 = b14 := int_inj (congrArg (look I.padding4) h)
  obtain rfl : a15 = b15 := list_inj svEnc_inj (congrArg (look I.dERecords) h)
  obtain rfl : a3 = b3 := by
    rcases a3 with _ | a3 <;> rcases b3 with _ | b3
    · rfl
    · cases congrArg (look I.commulativeShotTime) h
    · cases congrArg (look I.commulativeShotTime) h
    · obtain rfl : a3 = b3 := float_inj (congrArg (look I.commulativeShotTime) h)
      rfl
  rfl

theorem DirectedEnergyFirePdu.lawful : Sourced.DirectedEnergyFirePdu.Lawful where
  serialize n x := DirectedEnergyFirePdu.serializes n x
  parse n := DirectedEnergyFirePdu.parses n
  inj _ _ := DirectedEnergyFirePdu.inj
  makes _ := ⟨DirectedEnergyFirePdu.rawFields DirectedEnergyFirePdu.made, DirectedEnergyFirePdu.same, fun n =>
    ⟨DirectedEnergyFirePdu.makesRaw (n + 4), DirectedEnergyFirePdu.serializesWith n DirectedEnergyFirePdu.made (packFloat_zero _) rfl, DirectedEnergyFirePdu.fills n⟩⟩

/-! ## Both -/

theorem DirectedEnergyFirePdu.known : Sourced.DirectedEnergyFirePdu.entry ∈ inPlaceSpecial := .head _

theorem EntityDamageStatusPdu.known : Sourced.EntityDamageStatusPdu.entry ∈ inPlaceSpecial := .tail _ (.head _)

theorem sourced7_lawful : ∀ e ∈ sourced7, e.Lawful := by
  unfold sourced7
  refine List.forall_mem_cons.2 ⟨DirectedEnergyFirePdu.lawful, ?_⟩
  refine List.forall_mem_cons.2 ⟨EntityDamageStatusPdu.lawful, ?_⟩
  exact fun e h => nomatch h

theorem sourced7_known : ∀ e ∈ sourced7, e.entry ∈ inPlace := by
  unfold sourced7 inPlace
  refine List.forall_mem_cons.2 ⟨by simp only [List.mem_append, DirectedEnergyFirePdu.known, or_true], ?_⟩
  refine List.forall_mem_cons.2 ⟨by simp only [List.mem_append, EntityDamageStatusPdu.known, or_true], ?_⟩
  exact fun e h => nomatch h

end Dis.Src
