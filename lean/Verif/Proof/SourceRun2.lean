import Verif.Proof.SourceRun1
import Verif.Source.Encode2

/-!
# The classes do what their syntax trees say, part 2

Written by `tools/gensourceproof.py`.
-/

set_option linter.unusedVariables false
set_option linter.unusedSimpArgs false

namespace Dis.Src

theorem EntityMarking.serializes (n : Nat) (x : Dis.EntityMarking) :
    Serializes (run (n + 1)) I.EntityMarking (EntityMarking.enc x) x.serialize :=
  serializes_of (n := n + 0) (d := I.EntityMarking) (f := EntityMarking.serialize) rfl rfl <|
    ser_cons (ser_write (gives_attr (gives_name rfl) (plain rfl) rfl) rfl rfl rfl) <|
    ser_last <| ser_range (gives_range0 gives_int) var_idx rfl fun i =>
      ser_last (ser_index (gives_attr (gives_name rfl) (plain rfl) rfl) (gives_name rfl) rfl rfl fun _ => rfl)

theorem EntityMarking.makes (n : Nat) : Makes (run (n + 1)) I.EntityMarking (EntityMarking.enc Dis.EntityMarking.init) :=
  makes_of (p := (I.EntityMarking, EntityMarking.__init__)) (by decide +kernel) rfl rfl rfl (by kernel_rfl) fun _ => by kernel_rfl

theorem EntityMarking.parses (n : Nat) :
    Parses (run (n + 1)) I.EntityMarking I.EntityMarking EntityMarking.fields Dis.EntityMarking.parseInto :=
  parses_of (n := n + 0) (d := I.EntityMarking) (f := EntityMarking.parse) rfl rfl <|
    par_read (fun _ _ => True) rfl rfl (plain rfl) (fun _ _ => rfl) (fun _ _ _ => trivial) fun _ =>
    par_fill rfl rfl (plain rfl) (fun _ => rfl) (fun _ _ => rfl) (fun _ _ => rfl) var_idx rfl rfl
      var_val rfl rfl rfl (fun _ _ _ => trivial) <|
    par_nil

theorem EntityMarking.builds (n : Nat) : Builds (run (n + 1)) I.EntityMarking EntityMarking.fields Dis.EntityMarking.init Dis.EntityMarking.parseInto :=
  builds_of (EntityMarking.makes (n + 0)) (EntityMarking.parses (n + 0))

theorem UAFundamentalParameter.serializes (n : Nat) (x : Dis.UAFundamentalParameter) :
    Serializes (run (n + 1)) I.UAFundamentalParameter (UAFundamentalParameter.enc x) x.serialize :=
  serializes_of (n := n + 0) (d := I.UAFundamentalParameter) (f := UAFundamentalParameter.serialize) rfl rfl <|
    ser_cons (ser_write (gives_attr (gives_name rfl) (plain rfl) rfl) rfl rfl rfl) <|
    ser_cons (ser_write (gives_attr (gives_name rfl) (plain rfl) rfl) rfl rfl rfl) <|
    ser_cons (ser_write (gives_attr (gives_name rfl) (plain rfl) rfl) rfl rfl rfl) <|
    ser_cons (ser_write (gives_attr (gives_name rfl) (plain rfl) rfl) rfl rfl rfl) <|
    ser_cons (ser_write (gives_attr (gives_name rfl) (plain rfl) rfl) rfl rfl rfl) <|
    ser_last <| ser_write (gives_attr (gives_name rfl) (plain rfl) rfl) rfl rfl rfl

theorem UAFundamentalParameter.makes (n : Nat) : Makes (run (n + 1)) I.UAFundamentalParameter (UAFundamentalParameter.enc Dis.UAFundamentalParameter.init) :=
  makes_of (p := (I.UAFundamentalParameter, UAFundamentalParameter.__init__)) (by decide +kernel) rfl rfl rfl (by kernel_rfl) fun _ => by kernel_rfl

theorem UAFundamentalParameter.parses (n : Nat) :
    Parses (run (n + 1)) I.UAFundamentalParameter I.UAFundamentalParameter UAFundamentalParameter.fields Dis.UAFundamentalParameter.parseInto :=
  parses_of (n := n + 0) (d := I.UAFundamentalParameter) (f := UAFundamentalParameter.parse) rfl rfl <|
    par_read (fun _ _ => True) rfl rfl (plain rfl) (fun _ _ => rfl) (fun _ _ _ => trivial) fun _ =>
    par_read (fun _ _ => True) rfl rfl (plain rfl) (fun _ _ => rfl) (fun _ _ _ => trivial) fun _ =>
    par_read (fun _ _ => True) rfl rfl (plain rfl) (fun _ _ => rfl) (fun _ _ _ => trivial) fun _ =>
    par_read (fun _ _ => True) rfl rfl (plain rfl) (fun _ _ => rfl) (fun _ _ _ => trivial) fun _ =>
    par_read (fun _ _ => True) rfl rfl (plain rfl) (fun _ _ => rfl) (fun _ _ _ => trivial) fun _ =>
    par_read (fun _ _ => True) rfl rfl (plain rfl) (fun _ _ => rfl) (fun _ _ _ => trivial) fun _ =>
    par_nil

theorem UAFundamentalParameter.builds (n : Nat) : Builds (run (n + 1)) I.UAFundamentalParameter UAFundamentalParameter.fields Dis.UAFundamentalParameter.init Dis.UAFundamentalParameter.parseInto :=
  builds_of (UAFundamentalParameter.makes (n + 0)) (UAFundamentalParameter.parses (n + 0))

theorem ExplosionDescriptor.serializes (n : Nat) (x : Dis.ExplosionDescriptor) :
    Serializes (run (n + 2)) I.ExplosionDescriptor (ExplosionDescriptor.enc x) x.serialize :=
  serializes_of (n := n + 1) (d := I.ExplosionDescriptor) (f := ExplosionDescriptor.serialize) rfl rfl <|
    ser_cons (ser_call rfl (plain rfl) rfl rfl rfl (EntityType.serializes (n + 0) _)) <|
    ser_cons (ser_write (gives_attr (gives_name rfl) (plain rfl) rfl) rfl rfl rfl) <|
    ser_cons (ser_write (gives_attr (gives_name rfl) (plain rfl) rfl) rfl rfl rfl) <|
    ser_last <| ser_write (gives_attr (gives_name rfl) (plain rfl) rfl) rfl rfl rfl

theorem ExplosionDescriptor.makes (n : Nat) : Makes (run (n + 2)) I.ExplosionDescriptor (ExplosionDescriptor.enc Dis.ExplosionDescriptor.init) :=
  makes_of (p := (I.ExplosionDescriptor, ExplosionDescriptor.__init__)) (by decide +kernel) rfl rfl rfl (by kernel_rfl) fun _ => by kernel_rfl

theorem ExplosionDescriptor.parses (n : Nat) :
    Parses (run (n + 2)) I.ExplosionDescriptor I.ExplosionDescriptor ExplosionDescriptor.fields Dis.ExplosionDescriptor.parseInto :=
  parses_of (n := n + 1) (d := I.ExplosionDescriptor) (f := ExplosionDescriptor.parse) rfl rfl <|
    par_call (Q' := fun _ => True) (EntityType.parses (n + 0)) rfl (plain rfl) (fun _ => rfl) (fun _ _ => rfl) (fun _ _ _ => trivial) <|
    par_read (fun _ _ => True) rfl rfl (plain rfl) (fun _ _ => rfl) (fun _ _ _ => trivial) fun _ =>
    par_read (fun _ _ => True) rfl rfl (plain rfl) (fun _ _ => rfl) (fun _ _ _ => trivial) fun _ =>
    par_read (fun _ _ => True) rfl rfl (plain rfl) (fun _ _ => rfl) (fun _ _ _ => trivial) fun _ =>
    par_nil

theorem ExplosionDescriptor.builds (n : Nat) : Builds (run (n + 2)) I.ExplosionDescriptor ExplosionDescriptor.fields Dis.ExplosionDescriptor.init Dis.ExplosionDescriptor.parseInto :=
  builds_of (ExplosionDescriptor.makes (n + 0)) (ExplosionDescriptor.parses (n + 0))

theorem ClockTime.serializes (n : Nat) (x : Dis.ClockTime) :
    Serializes (run (n + 1)) I.ClockTime (ClockTime.enc x) x.serialize :=
  serializes_of (n := n + 0) (d := I.ClockTime) (f := ClockTime.serialize) rfl rfl <|
    ser_cons (ser_write (gives_attr (gives_name rfl) (plain rfl) rfl) rfl rfl rfl) <|
    ser_last <| ser_write (gives_attr (gives_name rfl) (plain rfl) rfl) rfl rfl rfl

theorem ClockTime.makes (n : Nat) : Makes (run (n + 1)) I.ClockTime (ClockTime.enc Dis.ClockTime.init) :=
  makes_of (p := (I.ClockTime, ClockTime.__init__)) (by decide +kernel) rfl rfl rfl (by kernel_rfl) fun _ => by kernel_rfl

theorem ClockTime.parses (n : Nat) :
    Parses (run (n + 1)) I.ClockTime I.ClockTime ClockTime.fields Dis.ClockTime.parseInto :=
  parses_of (n := n + 0) (d := I.ClockTime) (f := ClockTime.parse) rfl rfl <|
    par_read (fun _ _ => True) rfl rfl (plain rfl) (fun _ _ => rfl) (fun _ _ _ => trivial) fun _ =>
    par_read (fun _ _ => True) rfl rfl (plain rfl) (fun _ _ => rfl) (fun _ _ _ => trivial) fun _ =>
    par_nil

theorem ClockTime.builds (n : Nat) : Builds (run (n + 1)) I.ClockTime ClockTime.fields Dis.ClockTime.init Dis.ClockTime.parseInto :=
  builds_of (ClockTime.makes (n + 0)) (ClockTime.parses (n + 0))

theorem SecondaryOperationalData.serializes (n : Nat) (x : Dis.SecondaryOperationalData) :
    Serializes (run (n + 1)) I.SecondaryOperationalData (SecondaryOperationalData.enc x) x.serialize :=
  serializes_of (n := n + 0) (d := I.SecondaryOperationalData) (f := SecondaryOperationalData.serialize) rfl rfl <|
    ser_cons (ser_write (gives_attr (gives_name rfl) (plain rfl) rfl) rfl rfl rfl) <|
    ser_cons (ser_write (gives_attr (gives_name rfl) (plain rfl) rfl) rfl rfl rfl) <|
    ser_last <| ser_write (gives_attr (gives_name rfl) (plain rfl) rfl) rfl rfl rfl

theorem SecondaryOperationalData.makes (n : Nat) : Makes (run (n + 1)) I.SecondaryOperationalData (SecondaryOperationalData.enc Dis.SecondaryOperationalData.init) :=
  makes_of (p := (I.SecondaryOperationalData, SecondaryOperationalData.__init__)) (by decide +kernel) rfl rfl rfl (by kernel_rfl) fun _ => by kernel_rfl

theorem SecondaryOperationalData.parses (n : Nat) :
    Parses (run (n + 1)) I.SecondaryOperationalData I.SecondaryOperationalData SecondaryOperationalData.fields Dis.SecondaryOperationalData.parseInto :=
  parses_of (n := n + 0) (d := I.SecondaryOperationalData) (f := SecondaryOperationalData.parse) rfl rfl <|
    par_read (fun _ _ => True) rfl rfl (plain rfl) (fun _ _ => rfl) (fun _ _ _ => trivial) fun _ =>
    par_read (fun _ _ => True) rfl rfl (plain rfl) (fun _ _ => rfl) (fun _ _ _ => trivial) fun _ =>
    par_read (fun _ _ => True) rfl rfl (plain rfl) (fun _ _ => rfl) (fun _ _ _ => trivial) fun _ =>
    par_nil

theorem SecondaryOperationalData.builds (n : Nat) : Builds (run (n + 1)) I.SecondaryOperationalData SecondaryOperationalData.fields Dis.SecondaryOperationalData.init Dis.SecondaryOperationalData.parseInto :=
  builds_of (SecondaryOperationalData.makes (n + 0)) (SecondaryOperationalData.parses (n + 0))

theorem EnvironmentType.serializes (n : Nat) (x : Dis.EnvironmentType) :
    Serializes (run (n + 1)) I.EnvironmentType (EnvironmentType.enc x) x.serialize :=
  serializes_of (n := n + 0) (d := I.EnvironmentType) (f := EnvironmentType.serialize) rfl rfl <|
    ser_cons (ser_write (gives_attr (gives_name rfl) (plain rfl) rfl) rfl rfl rfl) <|
    ser_cons (ser_write (gives_attr (gives_name rfl) (plain rfl) rfl) rfl rfl rfl) <|
    ser_cons (ser_write (gives_attr (gives_name rfl) (plain rfl) rfl) rfl rfl rfl) <|
    ser_cons (ser_write (gives_attr (gives_name rfl) (plain rfl) rfl) rfl rfl rfl) <|
    ser_cons (ser_write (gives_attr (gives_name rfl) (plain rfl) rfl) rfl rfl rfl) <|
    ser_cons (ser_write (gives_attr (gives_name rfl) (plain rfl) rfl) rfl rfl rfl) <|
    ser_last <| ser_write (gives_attr (gives_name rfl) (plain rfl) rfl) rfl rfl rfl

theorem EnvironmentType.makes (n : Nat) : Makes (run (n + 1)) I.EnvironmentType (EnvironmentType.enc Dis.EnvironmentType.init) :=
  makes_of (p := (I.EnvironmentType, EnvironmentType.__init__)) (by decide +kernel) rfl rfl rfl (by kernel_rfl) fun _ => by kernel_rfl

theorem EnvironmentType.parses (n : Nat) :
    Parses (run (n + 1)) I.EnvironmentType I.EnvironmentType EnvironmentType.fields Dis.EnvironmentType.parseInto :=
  parses_of (n := n + 0) (d := I.EnvironmentType) (f := EnvironmentType.parse) rfl rfl <|
    par_read (fun _ _ => True) rfl rfl (plain rfl) (fun _ _ => rfl) (fun _ _ _ => trivial) fun _ =>
    par_read (fun _ _ => True) rfl rfl (plain rfl) (fun _ _ => rfl) (fun _ _ _ => trivial) fun _ =>
    par_read (fun _ _ => True) rfl rfl (plain rfl) (fun _ _ => rfl) (fun _ _ _ => trivial) fun _ =>
    par_read (fun _ _ => True) rfl rfl (plain rfl) (fun _ _ => rfl) (fun _ _ _ => trivial) fun _ =>
    par_read (fun _ _ => True) rfl rfl (plain rfl) (fun _ _ => rfl) (fun _ _ _ => trivial) fun _ =>
    par_read (fun _ _ => True) rfl rfl (plain rfl) (fun _ _ => rfl) (fun _ _ _ => trivial) fun _ =>
    par_read (fun _ _ => True) rfl rfl (plain rfl) (fun _ _ => rfl) (fun _ _ _ => trivial) fun _ =>
    par_nil

theorem EnvironmentType.builds (n : Nat) : Builds (run (n + 1)) I.EnvironmentType EnvironmentType.fields Dis.EnvironmentType.init Dis.EnvironmentType.parseInto :=
  builds_of (EnvironmentType.makes (n + 0)) (EnvironmentType.parses (n + 0))

theorem TotalRecordSets.serializes (n : Nat) (x : Dis.TotalRecordSets) :
    Serializes (run (n + 1)) I.TotalRecordSets (TotalRecordSets.enc x) x.serialize :=
  serializes_of (n := n + 0) (d := I.TotalRecordSets) (f := TotalRecordSets.serialize) rfl rfl <|
    ser_cons (ser_write (gives_attr (gives_name rfl) (plain rfl) rfl) rfl rfl rfl) <|
    ser_last <| ser_write (gives_attr (gives_name rfl) (plain rfl) rfl) rfl rfl rfl

theorem TotalRecordSets.makes (n : Nat) : Makes (run (n + 1)) I.TotalRecordSets (TotalRecordSets.enc Dis.TotalRecordSets.init) :=
  makes_of (p := (I.TotalRecordSets, TotalRecordSets.__init__)) (by decide +kernel) rfl rfl rfl (by kernel_rfl) fun _ => by kernel_rfl

theorem TotalRecordSets.parses (n : Nat) :
    Parses (run (n + 1)) I.TotalRecordSets I.TotalRecordSets TotalRecordSets.fields Dis.TotalRecordSets.parseInto :=
  parses_of (n := n + 0) (d := I.TotalRecordSets) (f := TotalRecordSets.parse) rfl rfl <|
    par_read (fun _ _ => True) rfl rfl (plain rfl) (fun _ _ => rfl) (fun _ _ _ => trivial) fun _ =>
    par_read (fun _ _ => True) rfl rfl (plain rfl) (fun _ _ => rfl) (fun _ _ _ => trivial) fun _ =>
    par_nil

theorem TotalRecordSets.builds (n : Nat) : Builds (run (n + 1)) I.TotalRecordSets TotalRecordSets.fields Dis.TotalRecordSets.init Dis.TotalRecordSets.parseInto :=
  builds_of (TotalRecordSets.makes (n + 0)) (TotalRecordSets.parses (n + 0))

theorem MineEntityIdentifier.serializes (n : Nat) (x : Dis.MineEntityIdentifier) :
    Serializes (run (n + 2)) I.MineEntityIdentifier (MineEntityIdentifier.enc x) x.serialize :=
  serializes_of (n := n + 1) (d := I.MineEntityIdentifier) (f := MineEntityIdentifier.serialize) rfl rfl <|
    ser_cons (ser_call rfl (plain rfl) rfl rfl rfl (SimulationAddress.serializes (n + 0) _)) <|
    ser_last <| ser_write (gives_attr (gives_name rfl) (plain rfl) rfl) rfl rfl rfl

theorem MineEntityIdentifier.makes (n : Nat) : Makes (run (n + 2)) I.MineEntityIdentifier (MineEntityIdentifier.enc Dis.MineEntityIdentifier.init) :=
  makes_of (p := (I.MineEntityIdentifier, MineEntityIdentifier.__init__)) (by decide +kernel) rfl rfl rfl (by kernel_rfl) fun _ => by kernel_rfl

theorem MineEntityIdentifier.parses (n : Nat) :
    Parses (run (n + 2)) I.MineEntityIdentifier I.MineEntityIdentifier MineEntityIdentifier.fields Dis.MineEntityIdentifier.parseInto :=
  parses_of (n := n + 1) (d := I.MineEntityIdentifier) (f := MineEntityIdentifier.parse) rfl rfl <|
    par_call (Q' := fun _ => True) (SimulationAddress.parses (n + 0)) rfl (plain rfl) (fun _ => rfl) (fun _ _ => rfl) (fun _ _ _ => trivial) <|
    par_read (fun _ _ => True) rfl rfl (plain rfl) (fun _ _ => rfl) (fun _ _ _ => trivial) fun _ =>
    par_nil

theorem MineEntityIdentifier.builds (n : Nat) : Builds (run (n + 2)) I.MineEntityIdentifier MineEntityIdentifier.fields Dis.MineEntityIdentifier.init Dis.MineEntityIdentifier.parseInto :=
  builds_of (MineEntityIdentifier.makes (n + 0)) (MineEntityIdentifier.parses (n + 0))

theorem Relationship.serializes (n : Nat) (x : Dis.Relationship) :
    Serializes (run (n + 1)) I.Relationship (Relationship.enc x) x.serialize :=
  serializes_of (n := n + 0) (d := I.Relationship) (f := Relationship.serialize) rfl rfl <|
    ser_cons (ser_write (gives_attr (gives_name rfl) (plain rfl) rfl) rfl rfl rfl) <|
    ser_last <| ser_write (gives_attr (gives_name rfl) (plain rfl) rfl) rfl rfl rfl

theorem Relationship.makes (n : Nat) : Makes (run (n + 1)) I.Relationship (Relationship.enc Dis.Relationship.init) :=
  makes_of (p := (I.Relationship, Relationship.__init__)) (by decide +kernel) rfl rfl rfl (by kernel_rfl) fun _ => by kernel_rfl

theorem Relationship.parses (n : Nat) :
    Parses (run (n + 1)) I.Relationship I.Relationship Relationship.fields Dis.Relationship.parseInto :=
  parses_of (n := n + 0) (d := I.Relationship) (f := Relationship.parse) rfl rfl <|
    par_read (fun _ _ => True) rfl rfl (plain rfl) (fun _ _ => rfl) (fun _ _ _ => trivial) fun _ =>
    par_read (fun _ _ => True) rfl rfl (plain rfl) (fun _ _ => rfl) (fun _ _ _ => trivial) fun _ =>
    par_nil

theorem Relationship.builds (n : Nat) : Builds (run (n + 1)) I.Relationship Relationship.fields Dis.Relationship.init Dis.Relationship.parseInto :=
  builds_of (Relationship.makes (n + 0)) (Relationship.parses (n + 0))

theorem EEFundamentalParameterData.over : Over EEFundamentalParameterData.Raw.out EEFundamentalParameterData.parseRaw Dis.EEFundamentalParameterData.parseInto :=
  over_bind over_read fun _ =>
  over_bind (over_set fun _ => rfl) fun _ =>
  over_bind over_read fun _ =>
  over_bind (over_set fun _ => rfl) fun _ =>
  over_bind over_read fun _ =>
  over_bind (over_set fun _ => rfl) fun _ =>
  over_bind over_read fun _ =>
  over_bind (over_set fun _ => rfl) fun _ =>
  over_bind over_read fun _ =>
  over_bind (over_set fun _ => rfl) fun _ =>
  over_bind over_read fun _ =>
  over_bind (over_set fun _ => rfl) fun _ =>
  over_bind over_read fun _ =>
  over_bind (over_set fun _ => rfl) fun _ =>
  over_bind over_read fun _ =>
  over_bind (over_set fun _ => rfl) fun _ =>
  over_bind over_read fun _ =>
  over_bind (over_set fun _ => rfl) fun _ =>
  over_bind over_read fun _ =>
  over_bind (over_set fun _ => rfl) fun _ =>
  over_pure

theorem EEFundamentalParameterData.ends : Ends (fun _ => True) EEFundamentalParameterData.parseRaw (fun (r : EEFundamentalParameterData.Raw) => r.effectiveRadiatedPower = .float r.obj.effectiveRadiatedPower ∧ r.frequencyRange = .float r.obj.frequencyRange ∧ True) :=
  ends_bind ends_read fun _ =>
  ends_bind (ends_keep fun _ h => h) fun _ =>
  ends_bind ends_read fun _ =>
  ends_bind (ends_set (fun (r : EEFundamentalParameterData.Raw) => r.frequencyRange = .float r.obj.frequencyRange ∧ True) fun _ h => ⟨rfl, h⟩) fun _ =>
  ends_bind ends_read fun _ =>
  ends_bind (ends_set (fun (r : EEFundamentalParameterData.Raw) => r.effectiveRadiatedPower = .float r.obj.effectiveRadiatedPower ∧ r.frequencyRange = .float r.obj.frequencyRange ∧ True) fun _ h => ⟨rfl, h⟩) fun _ =>
  ends_bind ends_read fun _ =>
  ends_bind (ends_keep fun _ h => h) fun _ =>
  ends_bind ends_read fun _ =>
  ends_bind (ends_keep fun _ h => h) fun _ =>
  ends_bind ends_read fun _ =>
  ends_bind (ends_keep fun _ h => h) fun _ =>
  ends_bind ends_read fun _ =>
  ends_bind (ends_keep fun _ h => h) fun _ =>
  ends_bind ends_read fun _ =>
  ends_bind (ends_keep fun _ h => h) fun _ =>
  ends_bind ends_read fun _ =>
  ends_bind (ends_keep fun _ h => h) fun _ =>
  ends_bind ends_read fun _ =>
  ends_bind (ends_keep fun _ h => h) fun _ =>
  ends_pure

theorem EEFundamentalParameterData.done (r : EEFundamentalParameterData.Raw) (h : (fun (r : EEFundamentalParameterData.Raw) => r.effectiveRadiatedPower = .float r.obj.effectiveRadiatedPower ∧ r.frequencyRange = .float r.obj.frequencyRange ∧ True) r) : EEFundamentalParameterData.rawFields r = EEFundamentalParameterData.fields r.out := by
  obtain ⟨h0, h1, -⟩ := h
  simp only [EEFundamentalParameterData.rawFields, EEFundamentalParameterData.fields, h0, h1]

theorem EEFundamentalParameterData.serializes (n : Nat) (x : Dis.EEFundamentalParameterData) :
    Serializes (run (n + 1)) I.EEFundamentalParameterData (EEFundamentalParameterData.enc x) x.serialize :=
  serializes_of (n := n + 0) (d := I.EEFundamentalParameterData) (f := EEFundamentalParameterData.serialize) rfl rfl <|
    ser_cons (ser_write (gives_attr (gives_name rfl) (plain rfl) rfl) rfl rfl rfl) <|
    ser_cons (ser_write (gives_attr (gives_name rfl) (plain rfl) rfl) rfl rfl rfl) <|
    ser_cons (ser_write (gives_attr (gives_name rfl) (plain rfl) rfl) rfl rfl rfl) <|
    ser_cons (ser_write (gives_attr (gives_name rfl) (plain rfl) rfl) rfl rfl rfl) <|
    ser_cons (ser_write (gives_attr (gives_name rfl) (plain rfl) rfl) rfl rfl rfl) <|
    ser_cons (ser_write (gives_attr (gives_name rfl) (plain rfl) rfl) rfl rfl rfl) <|
    ser_cons (ser_write (gives_attr (gives_name rfl) (plain rfl) rfl) rfl rfl rfl) <|
    ser_cons (ser_write (gives_attr (gives_name rfl) (plain rfl) rfl) rfl rfl rfl) <|
    ser_cons (ser_write (gives_attr (gives_name rfl) (plain rfl) rfl) rfl rfl rfl) <|
    ser_last <| ser_write (gives_attr (gives_name rfl) (plain rfl) rfl) rfl rfl rfl

theorem EEFundamentalParameterData.makesRaw (n : Nat) : Makes (run (n + 1)) I.EEFundamentalParameterData (.obj I.EEFundamentalParameterData (EEFundamentalParameterData.rawFields EEFundamentalParameterData.made)) :=
  makes_of (p := (I.EEFundamentalParameterData, EEFundamentalParameterData.__init__)) (by decide +kernel) rfl rfl rfl (by kernel_rfl) fun _ => by kernel_rfl

theorem EEFundamentalParameterData.parses (n : Nat) :
    Parses (run (n + 1)) I.EEFundamentalParameterData I.EEFundamentalParameterData EEFundamentalParameterData.fields Dis.EEFundamentalParameterData.parseInto :=
  parses_of (n := n + 0) (d := I.EEFundamentalParameterData) (f := EEFundamentalParameterData.parse) rfl rfl <|
    par_read (fun _ _ => True) rfl rfl (plain rfl) (fun _ _ => rfl) (fun _ _ _ => trivial) fun _ =>
    par_read (fun _ _ => True) rfl rfl (plain rfl) (fun _ _ => rfl) (fun _ _ _ => trivial) fun _ =>
    par_read (fun _ _ => True) rfl rfl (plain rfl) (fun _ _ => rfl) (fun _ _ _ => trivial) fun _ =>
    par_read (fun _ _ => True) rfl rfl (plain rfl) (fun _ _ => rfl) (fun _ _ _ => trivial) fun _ =>
    par_read (fun _ _ => True) rfl rfl (plain rfl) (fun _ _ => rfl) (fun _ _ _ => trivial) fun _ =>
    par_read (fun _ _ => True) rfl rfl (plain rfl) (fun _ _ => rfl) (fun _ _ _ => trivial) fun _ =>
    par_read (fun _ _ => True) rfl rfl (plain rfl) (fun _ _ => rfl) (fun _ _ _ => trivial) fun _ =>
    par_read (fun _ _ => True) rfl rfl (plain rfl) (fun _ _ => rfl) (fun _ _ _ => trivial) fun _ =>
    par_read (fun _ _ => True) rfl rfl (plain rfl) (fun _ _ => rfl) (fun _ _ _ => trivial) fun _ =>
    par_read (fun _ _ => True) rfl rfl (plain rfl) (fun _ _ => rfl) (fun _ _ _ => trivial) fun _ =>
    par_nil

theorem EEFundamentalParameterData.parsesRaw (n : Nat) :
    Parses (run (n + 1)) I.EEFundamentalParameterData I.EEFundamentalParameterData EEFundamentalParameterData.rawFields EEFundamentalParameterData.parseRaw :=
  parses_of (n := n + 0) (d := I.EEFundamentalParameterData) (f := EEFundamentalParameterData.parse) rfl rfl <|
    par_read (fun _ _ => True) rfl rfl (plain rfl) (fun _ _ => rfl) (fun _ _ _ => trivial) fun _ =>
    par_read (fun _ _ => True) rfl rfl (plain rfl) (fun _ _ => rfl) (fun _ _ _ => trivial) fun _ =>
    par_read (fun _ _ => True) rfl rfl (plain rfl) (fun _ _ => rfl) (fun _ _ _ => trivial) fun _ =>
    par_read (fun _ _ => True) rfl rfl (plain rfl) (fun _ _ => rfl) (fun _ _ _ => trivial) fun _ =>
    par_read (fun _ _ => True) rfl rfl (plain rfl) (fun _ _ => rfl) (fun _ _ _ => trivial) fun _ =>
    par_read (fun _ _ => True) rfl rfl (plain rfl) (fun _ _ => rfl) (fun _ _ _ => trivial) fun _ =>
    par_read (fun _ _ => True) rfl rfl (plain rfl) (fun _ _ => rfl) (fun _ _ _ => trivial) fun _ =>
    par_read (fun _ _ => True) rfl rfl (plain rfl) (fun _ _ => rfl) (fun _ _ _ => trivial) fun _ =>
    par_read (fun _ _ => True) rfl rfl (plain rfl) (fun _ _ => rfl) (fun _ _ _ => trivial) fun _ =>
    par_read (fun _ _ => True) rfl rfl (plain rfl) (fun _ _ => rfl) (fun _ _ _ => trivial) fun _ =>
    par_nil

theorem EEFundamentalParameterData.builds (n : Nat) : Builds (run (n + 1)) I.EEFundamentalParameterData EEFundamentalParameterData.fields Dis.EEFundamentalParameterData.init Dis.EEFundamentalParameterData.parseInto :=
  builds_over (π := EEFundamentalParameterData.Raw.out) (EEFundamentalParameterData.makesRaw (n + 0)) (EEFundamentalParameterData.parsesRaw (n + 0)) EEFundamentalParameterData.over EEFundamentalParameterData.ends rfl
    fun r h => EEFundamentalParameterData.done r h

theorem JammingTechnique.serializes (n : Nat) (x : Dis.JammingTechnique) :
    Serializes (run (n + 1)) I.JammingTechnique (JammingTechnique.enc x) x.serialize :=
  serializes_of (n := n + 0) (d := I.JammingTechnique) (f := JammingTechnique.serialize) rfl rfl <|
    ser_cons (ser_write (gives_attr (gives_name rfl) (plain rfl) rfl) rfl rfl rfl) <|
    ser_cons (ser_write (gives_attr (gives_name rfl) (plain rfl) rfl) rfl rfl rfl) <|
    ser_cons (ser_write (gives_attr (gives_name rfl) (plain rfl) rfl) rfl rfl rfl) <|
    ser_last <| ser_write (gives_attr (gives_name rfl) (plain rfl) rfl) rfl rfl rfl

theorem JammingTechnique.makes (n : Nat) : Makes (run (n + 1)) I.JammingTechnique (JammingTechnique.enc Dis.JammingTechnique.init) :=
  makes_of (p := (I.JammingTechnique, JammingTechnique.__init__)) (by decide +kernel) rfl rfl rfl (by kernel_rfl) fun _ => by kernel_rfl

theorem JammingTechnique.parses (n : Nat) :
    Parses (run (n + 1)) I.JammingTechnique I.JammingTechnique JammingTechnique.fields Dis.JammingTechnique.parseInto :=
  parses_of (n := n + 0) (d := I.JammingTechnique) (f := JammingTechnique.parse) rfl rfl <|
    par_read (fun _ _ => True) rfl rfl (plain rfl) (fun _ _ => rfl) (fun _ _ _ => trivial) fun _ =>
    par_read (fun _ _ => True) rfl rfl (plain rfl) (fun _ _ => rfl) (fun _ _ _ => trivial) fun _ =>
    par_read (fun _ _ => True) rfl rfl (plain rfl) (fun _ _ => rfl) (fun _ _ _ => trivial) fun _ =>
    par_read (fun _ _ => True) rfl rfl (plain rfl) (fun _ _ => rfl) (fun _ _ _ => trivial) fun _ =>
    par_nil

theorem JammingTechnique.builds (n : Nat) : Builds (run (n + 1)) I.JammingTechnique JammingTechnique.fields Dis.JammingTechnique.init Dis.JammingTechnique.parseInto :=
  builds_of (JammingTechnique.makes (n + 0)) (JammingTechnique.parses (n + 0))

theorem Expendable.serializes (n : Nat) (x : Dis.Expendable) :
    Serializes (run (n + 2)) I.Expendable (Expendable.enc x) x.serialize :=
  serializes_of (n := n + 1) (d := I.Expendable) (f := Expendable.serialize) rfl rfl <|
    ser_cons (ser_call rfl (plain rfl) rfl rfl rfl (EntityType.serializes (n + 0) _)) <|
    ser_cons (ser_write (gives_attr (gives_name rfl) (plain rfl) rfl) rfl rfl rfl) <|
    ser_cons (ser_write (gives_attr (gives_name rfl) (plain rfl) rfl) rfl rfl rfl) <|
    ser_cons (ser_write (gives_attr (gives_name rfl) (plain rfl) rfl) rfl rfl rfl) <|
    ser_last <| ser_write (gives_attr (gives_name rfl) (plain rfl) rfl) rfl rfl rfl

theorem Expendable.makes (n : Nat) : Makes (run (n + 2)) I.Expendable (Expendable.enc Dis.Expendable.init) :=
  makes_of (p := (I.Expendable, Expendable.__init__)) (by decide +kernel) rfl rfl rfl (by kernel_rfl) fun _ => by kernel_rfl

theorem Expendable.parses (n : Nat) :
    Parses (run (n + 2)) I.Expendable I.Expendable Expendable.fields Dis.Expendable.parseInto :=
  parses_of (n := n + 1) (d := I.Expendable) (f := Expendable.parse) rfl rfl <|
    par_call (Q' := fun _ => True) (EntityType.parses (n + 0)) rfl (plain rfl) (fun _ => rfl) (fun _ _ => rfl) (fun _ _ _ => trivial) <|
    par_read (fun _ _ => True) rfl rfl (plain rfl) (fun _ _ => rfl) (fun _ _ _ => trivial) fun _ =>
    par_read (fun _ _ => True) rfl rfl (plain rfl) (fun _ _ => rfl) (fun _ _ _ => trivial) fun _ =>
    par_read (fun _ _ => True) rfl rfl (plain rfl) (fun _ _ => rfl) (fun _ _ _ => trivial) fun _ =>
    par_read (fun _ _ => True) rfl rfl (plain rfl) (fun _ _ => rfl) (fun _ _ _ => trivial) fun _ =>
    par_nil

theorem Expendable.builds (n : Nat) : Builds (run (n + 2)) I.Expendable Expendable.fields Dis.Expendable.init Dis.Expendable.parseInto :=
  builds_of (Expendable.makes (n + 0)) (Expendable.parses (n + 0))

theorem CommunicationsNodeID.serializes (n : Nat) (x : Dis.CommunicationsNodeID) :
    Serializes (run (n + 3)) I.CommunicationsNodeID (CommunicationsNodeID.enc x) x.serialize :=
  serializes_of (n := n + 2) (d := I.CommunicationsNodeID) (f := CommunicationsNodeID.serialize) rfl rfl <|
    ser_cons (ser_call rfl (plain rfl) rfl rfl rfl (EntityIdentifier.serializes (n + 0) _)) <|
    ser_last <| ser_write (gives_attr (gives_name rfl) (plain rfl) rfl) rfl rfl rfl

theorem CommunicationsNodeID.makes (n : Nat) : Makes (run (n + 3)) I.CommunicationsNodeID (CommunicationsNodeID.enc Dis.CommunicationsNodeID.init) :=
  makes_of (p := (I.CommunicationsNodeID, CommunicationsNodeID.__init__)) (by decide +kernel) rfl rfl rfl (by kernel_rfl) fun _ => by kernel_rfl

theorem CommunicationsNodeID.parses (n : Nat) :
    Parses (run (n + 3)) I.CommunicationsNodeID I.CommunicationsNodeID CommunicationsNodeID.fields Dis.CommunicationsNodeID.parseInto :=
  parses_of (n := n + 2) (d := I.CommunicationsNodeID) (f := CommunicationsNodeID.parse) rfl rfl <|
    par_call (Q' := fun _ => True) (EntityIdentifier.parses (n + 0)) rfl (plain rfl) (fun _ => rfl) (fun _ _ => rfl) (fun _ _ _ => trivial) <|
    par_read (fun _ _ => True) rfl rfl (plain rfl) (fun _ _ => rfl) (fun _ _ _ => trivial) fun _ =>
    par_nil

theorem CommunicationsNodeID.builds (n : Nat) : Builds (run (n + 3)) I.CommunicationsNodeID CommunicationsNodeID.fields Dis.CommunicationsNodeID.init Dis.CommunicationsNodeID.parseInto :=
  builds_of (CommunicationsNodeID.makes (n + 0)) (CommunicationsNodeID.parses (n + 0))

theorem IOCommunicationsNode.serializes (n : Nat) (x : Dis.IOCommunicationsNode) :
    Serializes (run (n + 4)) I.IOCommunicationsNode (IOCommunicationsNode.enc x) x.serialize :=
  serializes_of (n := n + 3) (d := I.IOCommunicationsNode) (f := IOCommunicationsNode.serialize) rfl rfl <|
    ser_cons (ser_write (gives_attr (gives_name rfl) (plain rfl) rfl) rfl rfl rfl) <|
    ser_cons (ser_write (gives_attr (gives_name rfl) (by decide +kernel : isProperty program I.IOCommunicationsNode I.recordLength = false) rfl) rfl rfl rfl) <|
    ser_cons (ser_write (gives_attr (gives_name rfl) (plain rfl) rfl) rfl rfl rfl) <|
    ser_cons (ser_write (gives_attr (gives_name rfl) (plain rfl) rfl) rfl rfl rfl) <|
    ser_last <| ser_call rfl (plain rfl) rfl rfl rfl (CommunicationsNodeID.serializes (n + 0) _)

theorem IOCommunicationsNode.makes (n : Nat) : Makes (run (n + 4)) I.IOCommunicationsNode (IOCommunicationsNode.enc Dis.IOCommunicationsNode.init) :=
  makes_of (p := (I.IOCommunicationsNode, IOCommunicationsNode.__init__)) (by decide +kernel) rfl rfl rfl (by kernel_rfl) fun _ => by kernel_rfl

theorem IOCommunicationsNode.parses (n : Nat) :
    Parses (run (n + 4)) I.IOCommunicationsNode I.IOCommunicationsNode IOCommunicationsNode.fields Dis.IOCommunicationsNode.parseInto :=
  parses_of (n := n + 3) (d := I.IOCommunicationsNode) (f := IOCommunicationsNode.parse) rfl rfl <|
    par_read (fun _ _ => True) rfl rfl (plain rfl) (fun _ _ => rfl) (fun _ _ _ => trivial) fun _ =>
    par_read (fun _ _ => True) rfl rfl (by decide +kernel : isProperty program I.IOCommunicationsNode I.recordLength = false) (fun _ _ => rfl) (fun _ _ _ => trivial) fun _ =>
    par_read (fun _ _ => True) rfl rfl (plain rfl) (fun _ _ => rfl) (fun _ _ _ => trivial) fun _ =>
    par_read (fun _ _ => True) rfl rfl (plain rfl) (fun _ _ => rfl) (fun _ _ _ => trivial) fun _ =>
    par_call (Q' := fun _ => True) (CommunicationsNodeID.parses (n + 0)) rfl (plain rfl) (fun _ => rfl) (fun _ _ => rfl) (fun _ _ _ => trivial) <|
    par_nil

theorem IOCommunicationsNode.builds (n : Nat) : Builds (run (n + 4)) I.IOCommunicationsNode IOCommunicationsNode.fields Dis.IOCommunicationsNode.init Dis.IOCommunicationsNode.parseInto :=
  builds_of (IOCommunicationsNode.makes (n + 0)) (IOCommunicationsNode.parses (n + 0))

theorem LinearSegmentParameter.serializes (n : Nat) (x : Dis.LinearSegmentParameter) :
    Serializes (run (n + 2)) I.LinearSegmentParameter (LinearSegmentParameter.enc x) x.serialize :=
  serializes_of (n := n + 1) (d := I.LinearSegmentParameter) (f := LinearSegmentParameter.serialize) rfl rfl <|
    ser_cons (ser_write (gives_attr (gives_name rfl) (plain rfl) rfl) rfl rfl rfl) <|
    ser_cons (ser_write (gives_attr (gives_name rfl) (plain rfl) rfl) rfl rfl rfl) <|
    ser_cons (ser_write (gives_attr (gives_name rfl) (plain rfl) rfl) rfl rfl rfl) <|
    ser_cons (ser_write (gives_attr (gives_name rfl) (plain rfl) rfl) rfl rfl rfl) <|
    ser_cons (ser_call rfl (plain rfl) rfl rfl rfl (WorldCoordinates.serializes (n + 0) _)) <|
    ser_cons (ser_call rfl (plain rfl) rfl rfl rfl (EulerAngles.serializes (n + 0) _)) <|
    ser_cons (ser_write (gives_attr (gives_name rfl) (plain rfl) rfl) rfl rfl rfl) <|
    ser_cons (ser_write (gives_attr (gives_name rfl) (plain rfl) rfl) rfl rfl rfl) <|
    ser_cons (ser_write (gives_attr (gives_name rfl) (plain rfl) rfl) rfl rfl rfl) <|
    ser_cons (ser_write (gives_attr (gives_name rfl) (plain rfl) rfl) rfl rfl rfl) <|
    ser_last <| ser_write (gives_attr (gives_name rfl) (plain rfl) rfl) rfl rfl rfl

theorem LinearSegmentParameter.makes (n : Nat) : Makes (run (n + 2)) I.LinearSegmentParameter (LinearSegmentParameter.enc Dis.LinearSegmentParameter.init) :=
  makes_of (p := (I.LinearSegmentParameter, LinearSegmentParameter.__init__)) (by decide +kernel) rfl rfl rfl (by kernel_rfl) fun _ => by kernel_rfl

theorem LinearSegmentParameter.parses (n : Nat) :
    Parses (run (n + 2)) I.LinearSegmentParameter I.LinearSegmentParameter LinearSegmentParameter.fields Dis.LinearSegmentParameter.parseInto :=
  parses_of (n := n + 1) (d := I.LinearSegmentParameter) (f := LinearSegmentParameter.parse) rfl rfl <|
    par_read (fun _ _ => True) rfl rfl (plain rfl) (fun _ _ => rfl) (fun _ _ _ => trivial) fun _ =>
    par_read (fun _ _ => True) rfl rfl (plain rfl) (fun _ _ => rfl) (fun _ _ _ => trivial) fun _ =>
    par_read (fun _ _ => True) rfl rfl (plain rfl) (fun _ _ => rfl) (fun _ _ _ => trivial) fun _ =>
    par_read (fun _ _ => True) rfl rfl (plain rfl) (fun _ _ => rfl) (fun _ _ _ => trivial) fun _ =>
    par_call (Q' := fun _ => True) (WorldCoordinates.parses (n + 0)) rfl (plain rfl) (fun _ => rfl) (fun _ _ => rfl) (fun _ _ _ => trivial) <|
    par_call (Q' := fun _ => True) (EulerAngles.parses (n + 0)) rfl (plain rfl) (fun _ => rfl) (fun _ _ => rfl) (fun _ _ _ => trivial) <|
    par_read (fun _ _ => True) rfl rfl (plain rfl) (fun _ _ => rfl) (fun _ _ _ => trivial) fun _ =>
    par_read (fun _ _ => True) rfl rfl (plain rfl) (fun _ _ => rfl) (fun _ _ _ => trivial) fun _ =>
    par_read (fun _ _ => True) rfl rfl (plain rfl) (fun _ _ => rfl) (fun _ _ _ => trivial) fun _ =>
    par_read (fun _ _ => True) rfl rfl (plain rfl) (fun _ _ => rfl) (fun _ _ _ => trivial) fun _ =>
    par_read (fun _ _ => True) rfl rfl (plain rfl) (fun _ _ => rfl) (fun _ _ _ => trivial) fun _ =>
    par_nil

theorem LinearSegmentParameter.builds (n : Nat) : Builds (run (n + 2)) I.LinearSegmentParameter LinearSegmentParameter.fields Dis.LinearSegmentParameter.init Dis.LinearSegmentParameter.parseInto :=
  builds_of (LinearSegmentParameter.makes (n + 0)) (LinearSegmentParameter.parses (n + 0))

theorem SystemIdentifier.serializes (n : Nat) (x : Dis.SystemIdentifier) :
    Serializes (run (n + 2)) I.SystemIdentifier (SystemIdentifier.enc x) x.serialize :=
  serializes_of (n := n + 1) (d := I.SystemIdentifier) (f := SystemIdentifier.serialize) rfl rfl <|
    ser_cons (ser_write (gives_attr (gives_name rfl) (plain rfl) rfl) rfl rfl rfl) <|
    ser_cons (ser_write (gives_attr (gives_name rfl) (plain rfl) rfl) rfl rfl rfl) <|
    ser_cons (ser_write (gives_attr (gives_name rfl) (plain rfl) rfl) rfl rfl rfl) <|
    ser_last <| ser_call rfl (plain rfl) rfl rfl rfl (ChangeOptions.serializes (n + 0) _)

theorem SystemIdentifier.makes (n : Nat) : Makes (run (n + 2)) I.SystemIdentifier (SystemIdentifier.enc Dis.SystemIdentifier.init) :=
  makes_of (p := (I.SystemIdentifier, SystemIdentifier.__init__)) (by decide +kernel) rfl rfl rfl (by kernel_rfl) fun _ => by kernel_rfl

theorem SystemIdentifier.parses (n : Nat) :
    Parses (run (n + 2)) I.SystemIdentifier I.SystemIdentifier SystemIdentifier.fields Dis.SystemIdentifier.parseInto :=
  parses_of (n := n + 1) (d := I.SystemIdentifier) (f := SystemIdentifier.parse) rfl rfl <|
    par_read (fun _ _ => True) rfl rfl (plain rfl) (fun _ _ => rfl) (fun _ _ _ => trivial) fun _ =>
    par_read (fun _ _ => True) rfl rfl (plain rfl) (fun _ _ => rfl) (fun _ _ _ => trivial) fun _ =>
    par_read (fun _ _ => True) rfl rfl (plain rfl) (fun _ _ => rfl) (fun _ _ _ => trivial) fun _ =>
    par_call (Q' := fun _ => True) (ChangeOptions.parses (n + 0)) rfl (plain rfl) (fun _ => rfl) (fun _ _ => rfl) (fun _ _ _ => trivial) <|
    par_nil

theorem SystemIdentifier.builds (n : Nat) : Builds (run (n + 2)) I.SystemIdentifier SystemIdentifier.fields Dis.SystemIdentifier.init Dis.SystemIdentifier.parseInto :=
  builds_of (SystemIdentifier.makes (n + 0)) (SystemIdentifier.parses (n + 0))

theorem TrackJamData.serializes (n : Nat) (x : Dis.TrackJamData) :
    Serializes (run (n + 3)) I.TrackJamData (TrackJamData.enc x) x.serialize :=
  serializes_of (n := n + 2) (d := I.TrackJamData) (f := TrackJamData.serialize) rfl rfl <|
    ser_cons (ser_call rfl (plain rfl) rfl rfl rfl (EntityIdentifier.serializes (n + 0) _)) <|
    ser_cons (ser_write (gives_attr (gives_name rfl) (plain rfl) rfl) rfl rfl rfl) <|
    ser_last <| ser_write (gives_attr (gives_name rfl) (plain rfl) rfl) rfl rfl rfl

theorem TrackJamData.makes (n : Nat) : Makes (run (n + 3)) I.TrackJamData (TrackJamData.enc Dis.TrackJamData.init) :=
  makes_of (p := (I.TrackJamData, TrackJamData.__init__)) (by decide +kernel) rfl rfl rfl (by kernel_rfl) fun _ => by kernel_rfl

theorem TrackJamData.parses (n : Nat) :
    Parses (run (n + 3)) I.TrackJamData I.TrackJamData TrackJamData.fields Dis.TrackJamData.parseInto :=
  parses_of (n := n + 2) (d := I.TrackJamData) (f := TrackJamData.parse) rfl rfl <|
    par_call (Q' := fun _ => True) (EntityIdentifier.parses (n + 0)) rfl (plain rfl) (fun _ => rfl) (fun _ _ => rfl) (fun _ _ _ => trivial) <|
    par_read (fun _ _ => True) rfl rfl (plain rfl) (fun _ _ => rfl) (fun _ _ _ => trivial) fun _ =>
    par_read (fun _ _ => True) rfl rfl (plain rfl) (fun _ _ => rfl) (fun _ _ _ => trivial) fun _ =>
    par_nil

theorem TrackJamData.builds (n : Nat) : Builds (run (n + 3)) I.TrackJamData TrackJamData.fields Dis.TrackJamData.init Dis.TrackJamData.parseInto :=
  builds_of (TrackJamData.makes (n + 0)) (TrackJamData.parses (n + 0))

theorem AggregateType.serializes (n : Nat) (x : Dis.AggregateType) :
    Serializes (run (n + 1)) I.AggregateType (AggregateType.enc x) x.serialize :=
  serializes_of (n := n + 0) (d := I.AggregateType) (f := AggregateType.serialize) rfl rfl <|
    ser_cons (ser_write (gives_attr (gives_name rfl) (plain rfl) rfl) rfl rfl rfl) <|
    ser_cons (ser_write (gives_attr (gives_name rfl) (plain rfl) rfl) rfl rfl rfl) <|
    ser_cons (ser_write (gives_attr (gives_name rfl) (plain rfl) rfl) rfl rfl rfl) <|
    ser_cons (ser_write (gives_attr (gives_name rfl) (plain rfl) rfl) rfl rfl rfl) <|
    ser_cons (ser_write (gives_attr (gives_name rfl) (plain rfl) rfl) rfl rfl rfl) <|
    ser_cons (ser_write (gives_attr (gives_name rfl) (plain rfl) rfl) rfl rfl rfl) <|
    ser_last <| ser_write (gives_attr (gives_name rfl) (plain rfl) rfl) rfl rfl rfl

theorem AggregateType.makes (n : Nat) : Makes (run (n + 1)) I.AggregateType (AggregateType.enc Dis.AggregateType.init) :=
  makes_of (p := (I.AggregateType, AggregateType.__init__)) (by decide +kernel) rfl rfl rfl (by kernel_rfl) fun _ => by kernel_rfl

theorem AggregateType.parses (n : Nat) :
    Parses (run (n + 1)) I.AggregateType I.AggregateType AggregateType.fields Dis.AggregateType.parseInto :=
  parses_of (n := n + 0) (d := I.AggregateType) (f := AggregateType.parse) rfl rfl <|
    par_read (fun _ _ => True) rfl rfl (plain rfl) (fun _ _ => rfl) (fun _ _ _ => trivial) fun _ =>
    par_read (fun _ _ => True) rfl rfl (plain rfl) (fun _ _ => rfl) (fun _ _ _ => trivial) fun _ =>
    par_read (fun _ _ => True) rfl rfl (plain rfl) (fun _ _ => rfl) (fun _ _ _ => trivial) fun _ =>
    par_read (fun _ _ => True) rfl rfl (plain rfl) (fun _ _ => rfl) (fun _ _ _ => trivial) fun _ =>
    par_read (fun _ _ => True) rfl rfl (plain rfl) (fun _ _ => rfl) (fun _ _ _ => trivial) fun _ =>
    par_read (fun _ _ => True) rfl rfl (plain rfl) (fun _ _ => rfl) (fun _ _ _ => trivial) fun _ =>
    par_read (fun _ _ => True) rfl rfl (plain rfl) (fun _ _ => rfl) (fun _ _ _ => trivial) fun _ =>
    par_nil

theorem AggregateType.builds (n : Nat) : Builds (run (n + 1)) I.AggregateType AggregateType.fields Dis.AggregateType.init Dis.AggregateType.parseInto :=
  builds_of (AggregateType.makes (n + 0)) (AggregateType.parses (n + 0))

theorem SimulationIdentifier.serializes (n : Nat) (x : Dis.SimulationIdentifier) :
    Serializes (run (n + 2)) I.SimulationIdentifier (SimulationIdentifier.enc x) x.serialize :=
  serializes_of (n := n + 1) (d := I.SimulationIdentifier) (f := SimulationIdentifier.serialize) rfl rfl <|
    ser_cons (ser_call rfl (plain rfl) rfl rfl rfl (SimulationAddress.serializes (n + 0) _)) <|
    ser_last <| ser_write (gives_attr (gives_name rfl) (plain rfl) rfl) rfl rfl rfl

theorem SimulationIdentifier.makes (n : Nat) : Makes (run (n + 2)) I.SimulationIdentifier (SimulationIdentifier.enc Dis.SimulationIdentifier.init) :=
  makes_of (p := (I.SimulationIdentifier, SimulationIdentifier.__init__)) (by decide +kernel) rfl rfl rfl (by kernel_rfl) fun _ => by kernel_rfl

theorem SimulationIdentifier.parses (n : Nat) :
    Parses (run (n + 2)) I.SimulationIdentifier I.SimulationIdentifier SimulationIdentifier.fields Dis.SimulationIdentifier.parseInto :=
  parses_of (n := n + 1) (d := I.SimulationIdentifier) (f := SimulationIdentifier.parse) rfl rfl <|
    par_call (Q' := fun _ => True) (SimulationAddress.parses (n + 0)) rfl (plain rfl) (fun _ => rfl) (fun _ _ => rfl) (fun _ _ _ => trivial) <|
    par_read (fun _ _ => True) rfl rfl (plain rfl) (fun _ _ => rfl) (fun _ _ _ => trivial) fun _ =>
    par_nil

theorem SimulationIdentifier.builds (n : Nat) : Builds (run (n + 2)) I.SimulationIdentifier SimulationIdentifier.fields Dis.SimulationIdentifier.init Dis.SimulationIdentifier.parseInto :=
  builds_of (SimulationIdentifier.makes (n + 0)) (SimulationIdentifier.parses (n + 0))

theorem PduHeader.serializes (n : Nat) (x : Dis.PduHeader) :
    Serializes (run (n + 1)) I.PduHeader (PduHeader.enc x) x.serialize :=
  serializes_of (n := n + 0) (d := I.PduHeader) (f := PduHeader.serialize) rfl rfl <|
    ser_cons (ser_write (gives_attr (gives_name rfl) (plain rfl) rfl) rfl rfl rfl) <|
    ser_cons (ser_write (gives_attr (gives_name rfl) (plain rfl) rfl) rfl rfl rfl) <|
    ser_cons (ser_write (gives_attr (gives_name rfl) (plain rfl) rfl) rfl rfl rfl) <|
    ser_cons (ser_write (gives_attr (gives_name rfl) (plain rfl) rfl) rfl rfl rfl) <|
    ser_cons (ser_write (gives_attr (gives_name rfl) (plain rfl) rfl) rfl rfl rfl) <|
    ser_cons (ser_write (gives_attr (gives_name rfl) (plain rfl) rfl) rfl rfl rfl) <|
    ser_cons (ser_write (gives_attr (gives_name rfl) (plain rfl) rfl) rfl rfl rfl) <|
    ser_last <| ser_write (gives_attr (gives_name rfl) (plain rfl) rfl) rfl rfl rfl

theorem PduHeader.makes (n : Nat) : Makes (run (n + 1)) I.PduHeader (PduHeader.enc Dis.PduHeader.init) :=
  makes_of (p := (I.PduHeader, PduHeader.__init__)) (by decide +kernel) rfl rfl rfl (by kernel_rfl) fun _ => by kernel_rfl

theorem PduHeader.parses (n : Nat) :
    Parses (run (n + 1)) I.PduHeader I.PduHeader PduHeader.fields Dis.PduHeader.parseInto :=
  parses_of (n := n + 0) (d := I.PduHeader) (f := PduHeader.parse) rfl rfl <|
    par_read (fun _ _ => True) rfl rfl (plain rfl) (fun _ _ => rfl) (fun _ _ _ => trivial) fun _ =>
    par_read (fun _ _ => True) rfl rfl (plain rfl) (fun _ _ => rfl) (fun _ _ _ => trivial) fun _ =>
    par_read (fun _ _ => True) rfl rfl (plain rfl) (fun _ _ => rfl) (fun _ _ _ => trivial) fun _ =>
    par_read (fun _ _ => True) rfl rfl (plain rfl) (fun _ _ => rfl) (fun _ _ _ => trivial) fun _ =>
    par_read (fun _ _ => True) rfl rfl (plain rfl) (fun _ _ => rfl) (fun _ _ _ => trivial) fun _ =>
    par_read (fun _ _ => True) rfl rfl (plain rfl) (fun _ _ => rfl) (fun _ _ _ => trivial) fun _ =>
    par_read (fun _ _ => True) rfl rfl (plain rfl) (fun _ _ => rfl) (fun _ _ _ => trivial) fun _ =>
    par_read (fun _ _ => True) rfl rfl (plain rfl) (fun _ _ => rfl) (fun _ _ _ => trivial) fun _ =>
    par_nil

theorem PduHeader.builds (n : Nat) : Builds (run (n + 1)) I.PduHeader PduHeader.fields Dis.PduHeader.init Dis.PduHeader.parseInto :=
  builds_of (PduHeader.makes (n + 0)) (PduHeader.parses (n + 0))

theorem SimulationManagementPduHeader.serializes (n : Nat) (x : Dis.SimulationManagementPduHeader) :
    Serializes (run (n + 3)) I.SimulationManagementPduHeader (SimulationManagementPduHeader.enc x) x.serialize :=
  serializes_of (n := n + 2) (d := I.SimulationManagementPduHeader) (f := SimulationManagementPduHeader.serialize) rfl rfl <|
    ser_cons (ser_call rfl (plain rfl) rfl rfl rfl (PduHeader.serializes (n + 1) _)) <|
    ser_cons (ser_call rfl (plain rfl) rfl rfl rfl (SimulationIdentifier.serializes (n + 0) _)) <|
    ser_last <| ser_call rfl (plain rfl) rfl rfl rfl (SimulationIdentifier.serializes (n + 0) _)

theorem SimulationManagementPduHeader.makes (n : Nat) : Makes (run (n + 3)) I.SimulationManagementPduHeader (SimulationManagementPduHeader.enc Dis.SimulationManagementPduHeader.init) :=
  makes_of (p := (I.SimulationManagementPduHeader, SimulationManagementPduHeader.__init__)) (by decide +kernel) rfl rfl rfl (by kernel_rfl) fun _ => by kernel_rfl

theorem SimulationManagementPduHeader.parses (n : Nat) :
    Parses (run (n + 3)) I.SimulationManagementPduHeader I.SimulationManagementPduHeader SimulationManagementPduHeader.fields Dis.SimulationManagementPduHeader.parseInto :=
  parses_of (n := n + 2) (d := I.SimulationManagementPduHeader) (f := SimulationManagementPduHeader.parse) rfl rfl <|
    par_call (Q' := fun _ => True) (PduHeader.parses (n + 1)) rfl (plain rfl) (fun _ => rfl) (fun _ _ => rfl) (fun _ _ _ => trivial) <|
    par_call (Q' := fun _ => True) (SimulationIdentifier.parses (n + 0)) rfl (plain rfl) (fun _ => rfl) (fun _ _ => rfl) (fun _ _ _ => trivial) <|
    par_call (Q' := fun _ => True) (SimulationIdentifier.parses (n + 0)) rfl (plain rfl) (fun _ => rfl) (fun _ _ => rfl) (fun _ _ _ => trivial) <|
    par_nil

theorem SimulationManagementPduHeader.builds (n : Nat) : Builds (run (n + 3)) I.SimulationManagementPduHeader SimulationManagementPduHeader.fields Dis.SimulationManagementPduHeader.init Dis.SimulationManagementPduHeader.parseInto :=
  builds_of (SimulationManagementPduHeader.makes (n + 0)) (SimulationManagementPduHeader.parses (n + 0))

theorem BeamData.serializes (n : Nat) (x : Dis.BeamData) :
    Serializes (run (n + 1)) I.BeamData (BeamData.enc x) x.serialize :=
  serializes_of (n := n + 0) (d := I.BeamData) (f := BeamData.serialize) rfl rfl <|
    ser_cons (ser_write (gives_attr (gives_name rfl) (plain rfl) rfl) rfl rfl rfl) <|
    ser_cons (ser_write (gives_attr (gives_name rfl) (plain rfl) rfl) rfl rfl rfl) <|
    ser_cons (ser_write (gives_attr (gives_name rfl) (plain rfl) rfl) rfl rfl rfl) <|
    ser_cons (ser_write (gives_attr (gives_name rfl) (plain rfl) rfl) rfl rfl rfl) <|
    ser_last <| ser_write (gives_attr (gives_name rfl) (plain rfl) rfl) rfl rfl rfl

theorem BeamData.makes (n : Nat) : Makes (run (n + 1)) I.BeamData (BeamData.enc Dis.BeamData.init) :=
  makes_of (p := (I.BeamData, BeamData.__init__)) (by decide +kernel) rfl rfl rfl (by kernel_rfl) fun _ => by kernel_rfl

theorem BeamData.parses (n : Nat) :
    Parses (run (n + 1)) I.BeamData I.BeamData BeamData.fields Dis.BeamData.parseInto :=
  parses_of (n := n + 0) (d := I.BeamData) (f := BeamData.parse) rfl rfl <|
    par_read (fun _ _ => True) rfl rfl (plain rfl) (fun _ _ => rfl) (fun _ _ _ => trivial) fun _ =>
    par_read (fun _ _ => True) rfl rfl (plain rfl) (fun _ _ => rfl) (fun _ _ _ => trivial) fun _ =>
    par_read (fun _ _ => True) rfl rfl (plain rfl) (fun _ _ => rfl) (fun _ _ _ => trivial) fun _ =>
    par_read (fun _ _ => True) rfl rfl (plain rfl) (fun _ _ => rfl) (fun _ _ _ => trivial) fun _ =>
    par_read (fun _ _ => True) rfl rfl (plain rfl) (fun _ _ => rfl) (fun _ _ _ => trivial) fun _ =>
    par_nil

theorem BeamData.builds (n : Nat) : Builds (run (n + 1)) I.BeamData BeamData.fields Dis.BeamData.init Dis.BeamData.parseInto :=
  builds_of (BeamData.makes (n + 0)) (BeamData.parses (n + 0))

theorem EngineFuel.serializes (n : Nat) (x : Dis.EngineFuel) :
    Serializes (run (n + 1)) I.EngineFuel (EngineFuel.enc x) x.serialize :=
  serializes_of (n := n + 0) (d := I.EngineFuel) (f := EngineFuel.serialize) rfl rfl <|
    ser_cons (ser_write (gives_attr (gives_name rfl) (plain rfl) rfl) rfl rfl rfl) <|
    ser_cons (ser_write (gives_attr (gives_name rfl) (plain rfl) rfl) rfl rfl rfl) <|
    ser_cons (ser_write (gives_attr (gives_name rfl) (plain rfl) rfl) rfl rfl rfl) <|
    ser_cons (ser_write (gives_attr (gives_name rfl) (plain rfl) rfl) rfl rfl rfl) <|
    ser_last <| ser_write (gives_attr (gives_name rfl) (plain rfl) rfl) rfl rfl rfl

theorem EngineFuel.makes (n : Nat) : Makes (run (n + 1)) I.EngineFuel (EngineFuel.enc Dis.EngineFuel.init) :=
  makes_of (p := (I.EngineFuel, EngineFuel.__init__)) (by decide +kernel) rfl rfl rfl (by kernel_rfl) fun _ => by kernel_rfl

theorem EngineFuel.parses (n : Nat) :
    Parses (run (n + 1)) I.EngineFuel I.EngineFuel EngineFuel.fields Dis.EngineFuel.parseInto :=
  parses_of (n := n + 0) (d := I.EngineFuel) (f := EngineFuel.parse) rfl rfl <|
    par_read (fun _ _ => True) rfl rfl (plain rfl) (fun _ _ => rfl) (fun _ _ _ => trivial) fun _ =>
    par_read (fun _ _ => True) rfl rfl (plain rfl) (fun _ _ => rfl) (fun _ _ _ => trivial) fun _ =>
    par_read (fun _ _ => True) rfl rfl (plain rfl) (fun _ _ => rfl) (fun _ _ _ => trivial) fun _ =>
    par_read (fun _ _ => True) rfl rfl (plain rfl) (fun _ _ => rfl) (fun _ _ _ => trivial) fun _ =>
    par_read (fun _ _ => True) rfl rfl (plain rfl) (fun _ _ => rfl) (fun _ _ _ => trivial) fun _ =>
    par_nil

theorem EngineFuel.builds (n : Nat) : Builds (run (n + 1)) I.EngineFuel EngineFuel.fields Dis.EngineFuel.init Dis.EngineFuel.parseInto :=
  builds_of (EngineFuel.makes (n + 0)) (EngineFuel.parses (n + 0))

theorem IOEffect.serializes (n : Nat) (x : Dis.IOEffect) :
    Serializes (run (n + 1)) I.IOEffect (IOEffect.enc x) x.serialize :=
  serializes_of (n := n + 0) (d := I.IOEffect) (f := IOEffect.serialize) rfl rfl <|
    ser_cons (ser_write (gives_attr (gives_name rfl) (plain rfl) rfl) rfl rfl rfl) <|
    ser_cons (ser_write (gives_attr (gives_name rfl) (by decide +kernel : isProperty program I.IOEffect I.recordLength = false) rfl) rfl rfl rfl) <|
    ser_cons (ser_write (gives_attr (gives_name rfl) (plain rfl) rfl) rfl rfl rfl) <|
    ser_cons (ser_write (gives_attr (gives_name rfl) (plain rfl) rfl) rfl rfl rfl) <|
    ser_cons (ser_write (gives_attr (gives_name rfl) (plain rfl) rfl) rfl rfl rfl) <|
    ser_cons (ser_write (gives_attr (gives_name rfl) (plain rfl) rfl) rfl rfl rfl) <|
    ser_cons (ser_write (gives_attr (gives_name rfl) (plain rfl) rfl) rfl rfl rfl) <|
    ser_cons (ser_write (gives_attr (gives_name rfl) (plain rfl) rfl) rfl rfl rfl) <|
    ser_last <| ser_write (gives_attr (gives_name rfl) (plain rfl) rfl) rfl rfl rfl

theorem IOEffect.makes (n : Nat) : Makes (run (n + 1)) I.IOEffect (IOEffect.enc Dis.IOEffect.init) :=
  makes_of (p := (I.IOEffect, IOEffect.__init__)) (by decide +kernel) rfl rfl rfl (by kernel_rfl) fun _ => by kernel_rfl

theorem IOEffect.parses (n : Nat) :
    Parses (run (n + 1)) I.IOEffect I.IOEffect IOEffect.fields Dis.IOEffect.parseInto :=
  parses_of (n := n + 0) (d := I.IOEffect) (f := IOEffect.parse) rfl rfl <|
    par_read (fun _ _ => True) rfl rfl (plain rfl) (fun _ _ => rfl) (fun _ _ _ => trivial) fun _ =>
    par_read (fun _ _ => True) rfl rfl (by decide +kernel : isProperty program I.IOEffect I.recordLength = false) (fun _ _ => rfl) (fun _ _ _ => trivial) fun _ =>
    par_read (fun _ _ => True) rfl rfl (plain rfl) (fun _ _ => rfl) (fun _ _ _ => trivial) fun _ =>
    par_read (fun _ _ => True) rfl rfl (plain rfl) (fun _ _ => rfl) (fun _ _ _ => trivial) fun _ =>
    par_read (fun _ _ => True) rfl rfl (plain rfl) (fun _ _ => rfl) (fun _ _ _ => trivial) fun _ =>
    par_read (fun _ _ => True) rfl rfl (plain rfl) (fun _ _ => rfl) (fun _ _ _ => trivial) fun _ =>
    par_read (fun _ _ => True) rfl rfl (plain rfl) (fun _ _ => rfl) (fun _ _ _ => trivial) fun _ =>
    par_read (fun _ _ => True) rfl rfl (plain rfl) (fun _ _ => rfl) (fun _ _ _ => trivial) fun _ =>
    par_read (fun _ _ => True) rfl rfl (plain rfl) (fun _ _ => rfl) (fun _ _ _ => trivial) fun _ =>
    par_nil

theorem IOEffect.builds (n : Nat) : Builds (run (n + 1)) I.IOEffect IOEffect.fields Dis.IOEffect.init Dis.IOEffect.parseInto :=
  builds_of (IOEffect.makes (n + 0)) (IOEffect.parses (n + 0))

theorem GridAxisDescriptorVariable.serializes (n : Nat) (x : Dis.GridAxisDescriptorVariable) :
    Serializes (run (n + 1)) I.GridAxisDescriptorVariable (GridAxisDescriptorVariable.enc x) x.serialize :=
  serializes_of (n := n + 0) (d := I.GridAxisDescriptorVariable) (f := GridAxisDescriptorVariable.serialize) rfl rfl <|
    ser_cons (ser_write (gives_attr (gives_name rfl) (plain rfl) rfl) rfl rfl rfl) <|
    ser_cons (ser_write (gives_attr (gives_name rfl) (plain rfl) rfl) rfl rfl rfl) <|
    ser_cons (ser_write (gives_attr (gives_name rfl) (plain rfl) rfl) rfl rfl rfl) <|
    ser_cons (ser_write (gives_attr (gives_name rfl) (plain rfl) rfl) rfl rfl rfl) <|
    ser_cons (ser_write (gives_attr (gives_name rfl) (plain rfl) rfl) rfl rfl rfl) <|
    ser_cons (ser_write (gives_len_map (gives_attr (gives_name rfl) (plain rfl) rfl)) rfl rfl (packInt_int _ _)) <|
    ser_cons (ser_write (gives_attr (gives_name rfl) (plain rfl) rfl) rfl rfl rfl) <|
    ser_cons (ser_write (gives_attr (gives_name rfl) (plain rfl) rfl) rfl rfl rfl) <|
    ser_cons (ser_write (gives_attr (gives_name rfl) (plain rfl) rfl) rfl rfl rfl) <|
    ser_last <| ser_for (gives_attr (gives_name rfl) (plain rfl) rfl) var_anObj rfl fun a _ =>
      ser_last (ser_no_method rfl (fun _ _ => rfl) rfl)

theorem GridAxisDescriptorVariable.makes (n : Nat) : Makes (run (n + 1)) I.GridAxisDescriptorVariable (GridAxisDescriptorVariable.enc Dis.GridAxisDescriptorVariable.init) :=
  makes_of (p := (I.GridAxisDescriptorVariable, GridAxisDescriptorVariable.__init__)) (by decide +kernel) rfl rfl rfl (by kernel_rfl) fun _ => by kernel_rfl

theorem GridAxisDescriptorVariable.parses (n : Nat) :
    Parses (run (n + 1)) I.GridAxisDescriptorVariable I.GridAxisDescriptorVariable GridAxisDescriptorVariable.fields Dis.GridAxisDescriptorVariable.parseInto :=
  parses_of (n := n + 0) (d := I.GridAxisDescriptorVariable) (f := GridAxisDescriptorVariable.parse) rfl rfl <|
    par_read (fun _ _ => True) rfl rfl (plain rfl) (fun _ _ => rfl) (fun _ _ _ => trivial) fun _ =>
    par_read (fun _ _ => True) rfl rfl (plain rfl) (fun _ _ => rfl) (fun _ _ _ => trivial) fun _ =>
    par_read (fun _ _ => True) rfl rfl (plain rfl) (fun _ _ => rfl) (fun _ _ _ => trivial) fun _ =>
    par_read (fun _ _ => True) rfl rfl (plain rfl) (fun _ _ => rfl) (fun _ _ _ => trivial) fun _ =>
    par_read (fun _ _ => True) rfl rfl (plain rfl) (fun _ _ => rfl) (fun _ _ _ => trivial) fun _ =>
    par_read (fun v (x : Dis.GridAxisDescriptorVariable) => x.numberOfPointsOnXiAxis = v) rfl rfl (plain rfl) (fun _ _ => rfl) (fun _ _ _ => rfl) fun numberOfPointsOnXiAxis =>
    par_read (fun _ (x : Dis.GridAxisDescriptorVariable) => x.numberOfPointsOnXiAxis = numberOfPointsOnXiAxis) rfl rfl (plain rfl) (fun _ _ => rfl) (fun _ _ h => h) fun _ =>
    par_read (fun _ (x : Dis.GridAxisDescriptorVariable) => x.numberOfPointsOnXiAxis = numberOfPointsOnXiAxis) rfl rfl (plain rfl) (fun _ _ => rfl) (fun _ _ h => h) fun _ =>
    par_read (fun _ (x : Dis.GridAxisDescriptorVariable) => x.numberOfPointsOnXiAxis = numberOfPointsOnXiAxis) rfl rfl (plain rfl) (fun _ _ => rfl) (fun _ _ h => h) fun _ =>
    par_unknown (fun (x : Dis.GridAxisDescriptorVariable) (h : x.numberOfPointsOnXiAxis = numberOfPointsOnXiAxis) => gives_range0 (gives_attr_eq (gives_name rfl) (plain rfl) rfl h)) (by simp) no_null null_taken rfl rfl rfl
      var_idx rfl rfl <|
    par_nil

theorem GridAxisDescriptorVariable.builds (n : Nat) : Builds (run (n + 1)) I.GridAxisDescriptorVariable GridAxisDescriptorVariable.fields Dis.GridAxisDescriptorVariable.init Dis.GridAxisDescriptorVariable.parseInto :=
  builds_of (GridAxisDescriptorVariable.makes (n + 0)) (GridAxisDescriptorVariable.parses (n + 0))

theorem SupplyQuantity.serializes (n : Nat) (x : Dis.SupplyQuantity) :
    Serializes (run (n + 2)) I.SupplyQuantity (SupplyQuantity.enc x) x.serialize :=
  serializes_of (n := n + 1) (d := I.SupplyQuantity) (f := SupplyQuantity.serialize) rfl rfl <|
    ser_cons (ser_call rfl (plain rfl) rfl rfl rfl (EntityType.serializes (n + 0) _)) <|
    ser_last <| ser_write (gives_attr (gives_name rfl) (plain rfl) rfl) rfl rfl rfl

theorem SupplyQuantity.makes (n : Nat) : Makes (run (n + 2)) I.SupplyQuantity (SupplyQuantity.enc Dis.SupplyQuantity.init) :=
  makes_of (p := (I.SupplyQuantity, SupplyQuantity.__init__)) (by decide +kernel) rfl rfl rfl (by kernel_rfl) fun _ => by kernel_rfl

theorem SupplyQuantity.parses (n : Nat) :
    Parses (run (n + 2)) I.SupplyQuantity I.SupplyQuantity SupplyQuantity.fields Dis.SupplyQuantity.parseInto :=
  parses_of (n := n + 1) (d := I.SupplyQuantity) (f := SupplyQuantity.parse) rfl rfl <|
    par_call (Q' := fun _ => True) (EntityType.parses (n + 0)) rfl (plain rfl) (fun _ => rfl) (fun _ _ => rfl) (fun _ _ _ => trivial) <|
    par_read (fun _ _ => True) rfl rfl (plain rfl) (fun _ _ => rfl) (fun _ _ _ => trivial) fun _ =>
    par_nil

theorem SupplyQuantity.builds (n : Nat) : Builds (run (n + 2)) I.SupplyQuantity SupplyQuantity.fields Dis.SupplyQuantity.init Dis.SupplyQuantity.parseInto :=
  builds_of (SupplyQuantity.makes (n + 0)) (SupplyQuantity.parses (n + 0))

theorem SilentEntitySystem.serializes (n : Nat) (x : Dis.SilentEntitySystem) :
    Serializes (run (n + 2)) I.SilentEntitySystem (SilentEntitySystem.enc x) x.serialize :=
  serializes_of (n := n + 1) (d := I.SilentEntitySystem) (f := SilentEntitySystem.serialize) rfl rfl <|
    ser_cons (ser_write (gives_attr (gives_name rfl) (plain rfl) rfl) rfl rfl rfl) <|
    ser_cons (ser_write (gives_property (gives_name rfl) (by decide +kernel)
        (fun io => property_of (n := n + 0) (d := I.SilentEntitySystem) (f := SilentEntitySystem.numberOfAppearanceRecords) rfl rfl rfl (gives_len_map (gives_attr (gives_name rfl) (plain rfl) rfl)) io)) rfl rfl (packInt_int _ _)) <|
    ser_cons (ser_call rfl (plain rfl) rfl rfl rfl (EntityType.serializes (n + 0) _)) <|
    ser_last <| ser_for (gives_attr (gives_name rfl) (plain rfl) rfl) var_anObj rfl fun a _ =>
      ser_last (ser_no_method rfl (fun _ _ => rfl) rfl)

theorem SilentEntitySystem.makes (n : Nat) : Makes (run (n + 2)) I.SilentEntitySystem (SilentEntitySystem.enc Dis.SilentEntitySystem.init) :=
  makes_of (p := (I.SilentEntitySystem, SilentEntitySystem.__init__)) (by decide +kernel) rfl rfl rfl (by kernel_rfl) fun _ => by kernel_rfl

theorem SilentEntitySystem.parses (n : Nat) :
    Parses (run (n + 2)) I.SilentEntitySystem I.SilentEntitySystem SilentEntitySystem.fields Dis.SilentEntitySystem.parseInto :=
  parses_of (n := n + 1) (d := I.SilentEntitySystem) (f := SilentEntitySystem.parse) rfl rfl <|
    par_read (fun _ _ => True) rfl rfl (plain rfl) (fun _ _ => rfl) (fun _ _ _ => trivial) fun _ =>
    par_local rfl rfl var_numberOfAppearanceRecords rfl fun _ =>
    par_call (Q' := fun _ => True) (EntityType.parses (n + 0)) rfl (plain rfl) (fun _ => rfl) (fun _ _ => rfl) (fun _ _ _ => trivial) <|
    par_unknown (fun _ _ => gives_range0 (gives_name rfl)) (by simp) no_null null_taken rfl rfl rfl
      var_idx rfl rfl <|
    par_nil

theorem SilentEntitySystem.builds (n : Nat) : Builds (run (n + 2)) I.SilentEntitySystem SilentEntitySystem.fields Dis.SilentEntitySystem.init Dis.SilentEntitySystem.parseInto :=
  builds_of (SilentEntitySystem.makes (n + 0)) (SilentEntitySystem.parses (n + 0))

theorem BlankingSector.serializes (n : Nat) (x : Dis.BlankingSector) :
    Serializes (run (n + 1)) I.BlankingSector (BlankingSector.enc x) x.serialize :=
  serializes_of (n := n + 0) (d := I.BlankingSector) (f := BlankingSector.serialize) rfl rfl <|
    ser_cons (ser_write (gives_attr (gives_name rfl) (plain rfl) rfl) rfl rfl rfl) <|
    ser_cons (ser_write (gives_attr (gives_name rfl) (by decide +kernel : isProperty program I.BlankingSector I.recordLength = false) rfl) rfl rfl rfl) <|
    ser_cons (ser_write (gives_attr (gives_name rfl) (plain rfl) rfl) rfl rfl rfl) <|
    ser_cons (ser_write (gives_attr (gives_name rfl) (plain rfl) rfl) rfl rfl rfl) <|
    ser_cons (ser_write (gives_attr (gives_name rfl) (plain rfl) rfl) rfl rfl rfl) <|
    ser_cons (ser_write (gives_attr (gives_name rfl) (plain rfl) rfl) rfl rfl rfl) <|
    ser_cons (ser_write (gives_attr (gives_name rfl) (plain rfl) rfl) rfl rfl rfl) <|
    ser_cons (ser_write (gives_attr (gives_name rfl) (plain rfl) rfl) rfl rfl rfl) <|
    ser_cons (ser_write (gives_attr (gives_name rfl) (plain rfl) rfl) rfl rfl rfl) <|
    ser_cons (ser_write (gives_attr (gives_name rfl) (plain rfl) rfl) rfl rfl rfl) <|
    ser_cons (ser_write (gives_attr (gives_name rfl) (plain rfl) rfl) rfl rfl rfl) <|
    ser_cons (ser_write (gives_attr (gives_name rfl) (plain rfl) rfl) rfl rfl rfl) <|
    ser_cons (ser_write (gives_attr (gives_name rfl) (plain rfl) rfl) rfl rfl rfl) <|
    ser_last <| ser_write (gives_attr (gives_name rfl) (plain rfl) rfl) rfl rfl rfl

theorem BlankingSector.makes (n : Nat) : Makes (run (n + 1)) I.BlankingSector (BlankingSector.enc Dis.BlankingSector.init) :=
  makes_of (p := (I.BlankingSector, BlankingSector.__init__)) (by decide +kernel) rfl rfl rfl (by kernel_rfl) fun _ => by kernel_rfl

theorem BlankingSector.parses (n : Nat) :
    Parses (run (n + 1)) I.BlankingSector I.BlankingSector BlankingSector.fields Dis.BlankingSector.parseInto :=
  parses_of (n := n + 0) (d := I.BlankingSector) (f := BlankingSector.parse) rfl rfl <|
    par_read (fun _ _ => True) rfl rfl (plain rfl) (fun _ _ => rfl) (fun _ _ _ => trivial) fun _ =>
    par_read (fun _ _ => True) rfl rfl (by decide +kernel : isProperty program I.BlankingSector I.recordLength = false) (fun _ _ => rfl) (fun _ _ _ => trivial) fun _ =>
    par_read (fun _ _ => True) rfl rfl (plain rfl) (fun _ _ => rfl) (fun _ _ _ => trivial) fun _ =>
    par_read (fun _ _ => True) rfl rfl (plain rfl) (fun _ _ => rfl) (fun _ _ _ => trivial) fun _ =>
    par_read (fun _ _ => True) rfl rfl (plain rfl) (fun _ _ => rfl) (fun _ _ _ => trivial) fun _ =>
    par_read (fun _ _ => True) rfl rfl (plain rfl) (fun _ _ => rfl) (fun _ _ _ => trivial) fun _ =>
    par_read (fun _ _ => True) rfl rfl (plain rfl) (fun _ _ => rfl) (fun _ _ _ => trivial) fun _ =>
    par_read (fun _ _ => True) rfl rfl (plain rfl) (fun _ _ => rfl) (fun _ _ _ => trivial) fun _ =>
    par_read (fun _ _ => True) rfl rfl (plain rfl) (fun _ _ => rfl) (fun _ _ _ => trivial) fun _ =>
    par_read (fun _ _ => True) rfl rfl (plain rfl) (fun _ _ => rfl) (fun _ _ _ => trivial) fun _ =>
    par_read (fun _ _ => True) rfl rfl (plain rfl) (fun _ _ => rfl) (fun _ _ _ => trivial) fun _ =>
    par_read (fun _ _ => True) rfl rfl (plain rfl) (fun _ _ => rfl) (fun _ _ _ => trivial) fun _ =>
    par_read (fun _ _ => True) rfl rfl (plain rfl) (fun _ _ => rfl) (fun _ _ _ => trivial) fun _ =>
    par_read (fun _ _ => True) rfl rfl (plain rfl) (fun _ _ => rfl) (fun _ _ _ => trivial) fun _ =>
    par_nil

theorem BlankingSector.builds (n : Nat) : Builds (run (n + 1)) I.BlankingSector BlankingSector.fields Dis.BlankingSector.init Dis.BlankingSector.parseInto :=
  builds_of (BlankingSector.makes (n + 0)) (BlankingSector.parses (n + 0))

theorem LaunchedMunitionRecord.serializes (n : Nat) (x : Dis.LaunchedMunitionRecord) :
    Serializes (run (n + 3)) I.LaunchedMunitionRecord (LaunchedMunitionRecord.enc x) x.serialize :=
  serializes_of (n := n + 2) (d := I.LaunchedMunitionRecord) (f := LaunchedMunitionRecord.serialize) rfl rfl <|
    ser_cons (ser_call rfl (plain rfl) rfl rfl rfl (EventIdentifier.serializes (n + 0) _)) <|
    ser_cons (ser_write (gives_attr (gives_name rfl) (plain rfl) rfl) rfl rfl rfl) <|
    ser_cons (ser_call rfl (plain rfl) rfl rfl rfl (EventIdentifier.serializes (n + 0) _)) <|
    ser_cons (ser_write (gives_attr (gives_name rfl) (plain rfl) rfl) rfl rfl rfl) <|
    ser_cons (ser_call rfl (plain rfl) rfl rfl rfl (EventIdentifier.serializes (n + 0) _)) <|
    ser_cons (ser_write (gives_attr (gives_name rfl) (plain rfl) rfl) rfl rfl rfl) <|
    ser_last <| ser_call rfl (plain rfl) rfl rfl rfl (WorldCoordinates.serializes (n + 1) _)

theorem LaunchedMunitionRecord.makes (n : Nat) : Makes (run (n + 3)) I.LaunchedMunitionRecord (LaunchedMunitionRecord.enc Dis.LaunchedMunitionRecord.init) :=
  makes_of (p := (I.LaunchedMunitionRecord, LaunchedMunitionRecord.__init__)) (by decide +kernel) rfl rfl rfl (by kernel_rfl) fun _ => by kernel_rfl

theorem LaunchedMunitionRecord.parses (n : Nat) :
    Parses (run (n + 3)) I.LaunchedMunitionRecord I.LaunchedMunitionRecord LaunchedMunitionRecord.fields Dis.LaunchedMunitionRecord.parseInto :=
  parses_of (n := n + 2) (d := I.LaunchedMunitionRecord) (f := LaunchedMunitionRecord.parse) rfl rfl <|
    par_call (Q' := fun _ => True) (EventIdentifier.parses (n + 0)) rfl (plain rfl) (fun _ => rfl) (fun _ _ => rfl) (fun _ _ _ => trivial) <|
    par_read (fun _ _ => True) rfl rfl (plain rfl) (fun _ _ => rfl) (fun _ _ _ => trivial) fun _ =>
    par_call (Q' := fun _ => True) (EventIdentifier.parses (n + 0)) rfl (plain rfl) (fun _ => rfl) (fun _ _ => rfl) (fun _ _ _ => trivial) <|
    par_read (fun _ _ => True) rfl rfl (plain rfl) (fun _ _ => rfl) (fun _ _ _ => trivial) fun _ =>
    par_call (Q' := fun _ => True) (EventIdentifier.parses (n + 0)) rfl (plain rfl) (fun _ => rfl) (fun _ _ => rfl) (fun _ _ _ => trivial) <|
    par_read (fun _ _ => True) rfl rfl (plain rfl) (fun _ _ => rfl) (fun _ _ _ => trivial) fun _ =>
    par_call (Q' := fun _ => True) (WorldCoordinates.parses (n + 1)) rfl (plain rfl) (fun _ => rfl) (fun _ _ => rfl) (fun _ _ _ => trivial) <|
    par_nil

theorem LaunchedMunitionRecord.builds (n : Nat) : Builds (run (n + 3)) I.LaunchedMunitionRecord LaunchedMunitionRecord.fields Dis.LaunchedMunitionRecord.init Dis.LaunchedMunitionRecord.parseInto :=
  builds_of (LaunchedMunitionRecord.makes (n + 0)) (LaunchedMunitionRecord.parses (n + 0))

theorem IFFFundamentalParameterData.serializes (n : Nat) (x : Dis.IFFFundamentalParameterData) :
    Serializes (run (n + 1)) I.IFFFundamentalParameterData (IFFFundamentalParameterData.enc x) x.serialize :=
  serializes_of (n := n + 0) (d := I.IFFFundamentalParameterData) (f := IFFFundamentalParameterData.serialize) rfl rfl <|
    ser_cons (ser_write (gives_attr (gives_name rfl) (plain rfl) rfl) rfl rfl rfl) <|
    ser_cons (ser_write (gives_attr (gives_name rfl) (plain rfl) rfl) rfl rfl rfl) <|
    ser_cons (ser_write (gives_attr (gives_name rfl) (plain rfl) rfl) rfl rfl rfl) <|
    ser_cons (ser_write (gives_attr (gives_name rfl) (plain rfl) rfl) rfl rfl rfl) <|
    ser_cons (ser_write (gives_attr (gives_name rfl) (plain rfl) rfl) rfl rfl rfl) <|
    ser_cons (ser_write (gives_attr (gives_name rfl) (plain rfl) rfl) rfl rfl rfl) <|
    ser_last <| ser_range (gives_range0 gives_int) var_idx rfl fun i =>
      ser_last (ser_index (gives_attr (gives_name rfl) (plain rfl) rfl) (gives_name rfl) rfl rfl fun _ => rfl)

theorem IFFFundamentalParameterData.makes (n : Nat) : Makes (run (n + 1)) I.IFFFundamentalParameterData (IFFFundamentalParameterData.enc Dis.IFFFundamentalParameterData.init) :=
  makes_of (p := (I.IFFFundamentalParameterData, IFFFundamentalParameterData.__init__)) (by decide +kernel) rfl rfl rfl (by kernel_rfl) fun _ => by kernel_rfl

theorem IFFFundamentalParameterData.parses (n : Nat) :
    Parses (run (n + 1)) I.IFFFundamentalParameterData I.IFFFundamentalParameterData IFFFundamentalParameterData.fields Dis.IFFFundamentalParameterData.parseInto :=
  parses_of (n := n + 0) (d := I.IFFFundamentalParameterData) (f := IFFFundamentalParameterData.parse) rfl rfl <|
    par_read (fun _ _ => True) rfl rfl (plain rfl) (fun _ _ => rfl) (fun _ _ _ => trivial) fun _ =>
    par_read (fun _ _ => True) rfl rfl (plain rfl) (fun _ _ => rfl) (fun _ _ _ => trivial) fun _ =>
    par_read (fun _ _ => True) rfl rfl (plain rfl) (fun _ _ => rfl) (fun _ _ _ => trivial) fun _ =>
    par_read (fun _ _ => True) rfl rfl (plain rfl) (fun _ _ => rfl) (fun _ _ _ => trivial) fun _ =>
    par_read (fun _ _ => True) rfl rfl (plain rfl) (fun _ _ => rfl) (fun _ _ _ => trivial) fun _ =>
    par_read (fun _ _ => True) rfl rfl (plain rfl) (fun _ _ => rfl) (fun _ _ _ => trivial) fun _ =>
    par_fill rfl rfl (plain rfl) (fun _ => rfl) (fun _ _ => rfl) (fun _ _ => rfl) var_idx rfl rfl
      var_val rfl rfl rfl (fun _ _ _ => trivial) <|
    par_nil

theorem IFFFundamentalParameterData.builds (n : Nat) : Builds (run (n + 1)) I.IFFFundamentalParameterData IFFFundamentalParameterData.fields Dis.IFFFundamentalParameterData.init Dis.IFFFundamentalParameterData.parseInto :=
  builds_of (IFFFundamentalParameterData.makes (n + 0)) (IFFFundamentalParameterData.parses (n + 0))

theorem FundamentalOperationalData.serializes (n : Nat) (x : Dis.FundamentalOperationalData) :
    Serializes (run (n + 1)) I.FundamentalOperationalData (FundamentalOperationalData.enc x) x.serialize :=
  serializes_of (n := n + 0) (d := I.FundamentalOperationalData) (f := FundamentalOperationalData.serialize) rfl rfl <|
    ser_cons (ser_write (gives_attr (gives_name rfl) (plain rfl) rfl) rfl rfl rfl) <|
    ser_cons (ser_write (gives_attr (gives_name rfl) (plain rfl) rfl) rfl rfl rfl) <|
    ser_cons (ser_write (gives_attr (gives_name rfl) (plain rfl) rfl) rfl rfl rfl) <|
    ser_cons (ser_write (gives_attr (gives_name rfl) (plain rfl) rfl) rfl rfl rfl) <|
    ser_cons (ser_write (gives_attr (gives_name rfl) (plain rfl) rfl) rfl rfl rfl) <|
    ser_cons (ser_write (gives_attr (gives_name rfl) (plain rfl) rfl) rfl rfl rfl) <|
    ser_cons (ser_write (gives_attr (gives_name rfl) (plain rfl) rfl) rfl rfl rfl) <|
    ser_cons (ser_write (gives_attr (gives_name rfl) (plain rfl) rfl) rfl rfl rfl) <|
    ser_cons (ser_write (gives_attr (gives_name rfl) (plain rfl) rfl) rfl rfl rfl) <|
    ser_last <| ser_write (gives_attr (gives_name rfl) (plain rfl) rfl) rfl rfl rfl

theorem FundamentalOperationalData.makes (n : Nat) : Makes (run (n + 1)) I.FundamentalOperationalData (FundamentalOperationalData.enc Dis.FundamentalOperationalData.init) :=
  makes_of (p := (I.FundamentalOperationalData, FundamentalOperationalData.__init__)) (by decide +kernel) rfl rfl rfl (by kernel_rfl) fun _ => by kernel_rfl

theorem FundamentalOperationalData.parses (n : Nat) :
    Parses (run (n + 1)) I.FundamentalOperationalData I.FundamentalOperationalData FundamentalOperationalData.fields Dis.FundamentalOperationalData.parseInto :=
  parses_of (n := n + 0) (d := I.FundamentalOperationalData) (f := FundamentalOperationalData.parse) rfl rfl <|
    par_read (fun _ _ => True) rfl rfl (plain rfl) (fun _ _ => rfl) (fun _ _ _ => trivial) fun _ =>
    par_read (fun _ _ => True) rfl rfl (plain rfl) (fun _ _ => rfl) (fun _ _ _ => trivial) fun _ =>
    par_read (fun _ _ => True) rfl rfl (plain rfl) (fun _ _ => rfl) (fun _ _ _ => trivial) fun _ =>
    par_read (fun _ _ => True) rfl rfl (plain rfl) (fun _ _ => rfl) (fun _ _ _ => trivial) fun _ =>
    par_read (fun _ _ => True) rfl rfl (plain rfl) (fun _ _ => rfl) (fun _ _ _ => trivial) fun _ =>
    par_read (fun _ _ => True) rfl rfl (plain rfl) (fun _ _ => rfl) (fun _ _ _ => trivial) fun _ =>
    par_read (fun _ _ => True) rfl rfl (plain rfl) (fun _ _ => rfl) (fun _ _ _ => trivial) fun _ =>
    par_read (fun _ _ => True) rfl rfl (plain rfl) (fun _ _ => rfl) (fun _ _ _ => trivial) fun _ =>
    par_read (fun _ _ => True) rfl rfl (plain rfl) (fun _ _ => rfl) (fun _ _ _ => trivial) fun _ =>
    par_read (fun _ _ => True) rfl rfl (plain rfl) (fun _ _ => rfl) (fun _ _ _ => trivial) fun _ =>
    par_nil

theorem FundamentalOperationalData.builds (n : Nat) : Builds (run (n + 1)) I.FundamentalOperationalData FundamentalOperationalData.fields Dis.FundamentalOperationalData.init Dis.FundamentalOperationalData.parseInto :=
  builds_of (FundamentalOperationalData.makes (n + 0)) (FundamentalOperationalData.parses (n + 0))

theorem IntercomCommunicationsParameters.serializes (n : Nat) (x : Dis.IntercomCommunicationsParameters) :
    Serializes (run (n + 1)) I.IntercomCommunicationsParameters (IntercomCommunicationsParameters.enc x) x.serialize :=
  serializes_of (n := n + 0) (d := I.IntercomCommunicationsParameters) (f := IntercomCommunicationsParameters.serialize) rfl rfl <|
    ser_cons (ser_write (gives_attr (gives_name rfl) (plain rfl) rfl) rfl rfl rfl) <|
    ser_cons (ser_write (gives_attr (gives_name rfl) (by decide +kernel : isProperty program I.IntercomCommunicationsParameters I.recordLength = false) rfl) rfl rfl rfl) <|
    ser_last <| ser_write (gives_attr (gives_name rfl) (plain rfl) rfl) rfl rfl rfl

theorem IntercomCommunicationsParameters.makes (n : Nat) : Makes (run (n + 1)) I.IntercomCommunicationsParameters (IntercomCommunicationsParameters.enc Dis.IntercomCommunicationsParameters.init) :=
  makes_of (p := (I.IntercomCommunicationsParameters, IntercomCommunicationsParameters.__init__)) (by decide +kernel) rfl rfl rfl (by kernel_rfl) fun _ => by kernel_rfl

theorem IntercomCommunicationsParameters.parses (n : Nat) :
    Parses (run (n + 1)) I.IntercomCommunicationsParameters I.IntercomCommunicationsParameters IntercomCommunicationsParameters.fields Dis.IntercomCommunicationsParameters.parseInto :=
  parses_of (n := n + 0) (d := I.IntercomCommunicationsParameters) (f := IntercomCommunicationsParameters.parse) rfl rfl <|
    par_read (fun _ _ => True) rfl rfl (plain rfl) (fun _ _ => rfl) (fun _ _ _ => trivial) fun _ =>
    par_read (fun _ _ => True) rfl rfl (by decide +kernel : isProperty program I.IntercomCommunicationsParameters I.recordLength = false) (fun _ _ => rfl) (fun _ _ _ => trivial) fun _ =>
    par_read (fun _ _ => True) rfl rfl (plain rfl) (fun _ _ => rfl) (fun _ _ _ => trivial) fun _ =>
    par_nil

theorem IntercomCommunicationsParameters.builds (n : Nat) : Builds (run (n + 1)) I.IntercomCommunicationsParameters IntercomCommunicationsParameters.fields Dis.IntercomCommunicationsParameters.init Dis.IntercomCommunicationsParameters.parseInto :=
  builds_of (IntercomCommunicationsParameters.makes (n + 0)) (IntercomCommunicationsParameters.parses (n + 0))

theorem Munition.serializes (n : Nat) (x : Dis.Munition) :
    Serializes (run (n + 2)) I.Munition (Munition.enc x) x.serialize :=
  serializes_of (n := n + 1) (d := I.Munition) (f := Munition.serialize) rfl rfl <|
    ser_cons (ser_call rfl (plain rfl) rfl rfl rfl (EntityType.serializes (n + 0) _)) <|
    ser_cons (ser_write (gives_attr (gives_name rfl) (plain rfl) rfl) rfl rfl rfl) <|
    ser_cons (ser_write (gives_attr (gives_name rfl) (plain rfl) rfl) rfl rfl rfl) <|
    ser_cons (ser_write (gives_attr (gives_name rfl) (plain rfl) rfl) rfl rfl rfl) <|
    ser_last <| ser_write (gives_attr (gives_name rfl) (plain rfl) rfl) rfl rfl rfl

theorem Munition.makes (n : Nat) : Makes (run (n + 2)) I.Munition (Munition.enc Dis.Munition.init) :=
  makes_of (p := (I.Munition, Munition.__init__)) (by decide +kernel) rfl rfl rfl (by kernel_rfl) fun _ => by kernel_rfl

theorem Munition.parses (n : Nat) :
    Parses (run (n + 2)) I.Munition I.Munition Munition.fields Dis.Munition.parseInto :=
  parses_of (n := n + 1) (d := I.Munition) (f := Munition.parse) rfl rfl <|
    par_call (Q' := fun _ => True) (EntityType.parses (n + 0)) rfl (plain rfl) (fun _ => rfl) (fun _ _ => rfl) (fun _ _ _ => trivial) <|
    par_read (fun _ _ => True) rfl rfl (plain rfl) (fun _ _ => rfl) (fun _ _ _ => trivial) fun _ =>
    par_read (fun _ _ => True) rfl rfl (plain rfl) (fun _ _ => rfl) (fun _ _ _ => trivial) fun _ =>
    par_read (fun _ _ => True) rfl rfl (plain rfl) (fun _ _ => rfl) (fun _ _ _ => trivial) fun _ =>
    par_read (fun _ _ => True) rfl rfl (plain rfl) (fun _ _ => rfl) (fun _ _ _ => trivial) fun _ =>
    par_nil

theorem Munition.builds (n : Nat) : Builds (run (n + 2)) I.Munition Munition.fields Dis.Munition.init Dis.Munition.parseInto :=
  builds_of (Munition.makes (n + 0)) (Munition.parses (n + 0))

theorem StandardVariableSpecification.serializes (n : Nat) (x : Dis.StandardVariableSpecification) :
    Serializes (run (n + 2)) I.StandardVariableSpecification (StandardVariableSpecification.enc x) x.serialize :=
  serializes_of (n := n + 1) (d := I.StandardVariableSpecification) (f := StandardVariableSpecification.serialize) rfl rfl <|
    ser_cons (ser_write (gives_property (gives_name rfl) (by decide +kernel)
        (fun io => property_of (n := n + 0) (d := I.StandardVariableSpecification) (f := StandardVariableSpecification.numberOfStandardVariableRecords) rfl rfl rfl (gives_len_map (gives_attr (gives_name rfl) (plain rfl) rfl)) io)) rfl rfl (packInt_int _ _)) <|
    ser_last <| ser_for (gives_attr (gives_name rfl) (plain rfl) rfl) var_anObj rfl fun a _ =>
      ser_last (ser_no_method rfl (fun _ _ => rfl) rfl)

theorem StandardVariableSpecification.makes (n : Nat) : Makes (run (n + 1)) I.StandardVariableSpecification (StandardVariableSpecification.enc Dis.StandardVariableSpecification.init) :=
  makes_of (p := (I.StandardVariableSpecification, StandardVariableSpecification.__init__)) (by decide +kernel) rfl rfl rfl (by kernel_rfl) fun _ => by kernel_rfl

theorem StandardVariableSpecification.parses (n : Nat) :
    Parses (run (n + 1)) I.StandardVariableSpecification I.StandardVariableSpecification StandardVariableSpecification.fields Dis.StandardVariableSpecification.parseInto :=
  parses_of (n := n + 0) (d := I.StandardVariableSpecification) (f := StandardVariableSpecification.parse) rfl rfl <|
    par_local rfl rfl var_numberOfStandardVariableRecords rfl fun _ =>
    par_unknown (fun _ _ => gives_range0 (gives_name rfl)) (by simp) no_null null_taken rfl rfl rfl
      var_idx rfl rfl <|
    par_nil

theorem StandardVariableSpecification.builds (n : Nat) : Builds (run (n + 1)) I.StandardVariableSpecification StandardVariableSpecification.fields Dis.StandardVariableSpecification.init Dis.StandardVariableSpecification.parseInto :=
  builds_of (StandardVariableSpecification.makes (n + 0)) (StandardVariableSpecification.parses (n + 0))

theorem Vector2Float.serializes (n : Nat) (x : Dis.Vector2Float) :
    Serializes (run (n + 1)) I.Vector2Float (Vector2Float.enc x) x.serialize :=
  serializes_of (n := n + 0) (d := I.Vector2Float) (f := Vector2Float.serialize) rfl rfl <|
    ser_cons (ser_write (gives_attr (gives_name rfl) (plain rfl) rfl) rfl rfl rfl) <|
    ser_last <| ser_write (gives_attr (gives_name rfl) (plain rfl) rfl) rfl rfl rfl

theorem Vector2Float.makes (n : Nat) : Makes (run (n + 1)) I.Vector2Float (Vector2Float.enc Dis.Vector2Float.init) :=
  makes_of (p := (I.Vector2Float, Vector2Float.__init__)) (by decide +kernel) rfl rfl rfl (by kernel_rfl) fun _ => by kernel_rfl

theorem Vector2Float.parses (n : Nat) :
    Parses (run (n + 1)) I.Vector2Float I.Vector2Float Vector2Float.fields Dis.Vector2Float.parseInto :=
  parses_of (n := n + 0) (d := I.Vector2Float) (f := Vector2Float.parse) rfl rfl <|
    par_read (fun _ _ => True) rfl rfl (plain rfl) (fun _ _ => rfl) (fun _ _ _ => trivial) fun _ =>
    par_read (fun _ _ => True) rfl rfl (plain rfl) (fun _ _ => rfl) (fun _ _ _ => trivial) fun _ =>
    par_nil

theorem Vector2Float.builds (n : Nat) : Builds (run (n + 1)) I.Vector2Float Vector2Float.fields Dis.Vector2Float.init Dis.Vector2Float.parseInto :=
  builds_of (Vector2Float.makes (n + 0)) (Vector2Float.parses (n + 0))

theorem AcousticEmitter.serializes (n : Nat) (x : Dis.AcousticEmitter) :
    Serializes (run (n + 1)) I.AcousticEmitter (AcousticEmitter.enc x) x.serialize :=
  serializes_of (n := n + 0) (d := I.AcousticEmitter) (f := AcousticEmitter.serialize) rfl rfl <|
    ser_cons (ser_write (gives_attr (gives_name rfl) (plain rfl) rfl) rfl rfl rfl) <|
    ser_cons (ser_write (gives_attr (gives_name rfl) (plain rfl) rfl) rfl rfl rfl) <|
    ser_last <| ser_write (gives_attr (gives_name rfl) (plain rfl) rfl) rfl rfl rfl

theorem AcousticEmitter.makes (n : Nat) : Makes (run (n + 1)) I.AcousticEmitter (AcousticEmitter.enc Dis.AcousticEmitter.init) :=
  makes_of (p := (I.AcousticEmitter, AcousticEmitter.__init__)) (by decide +kernel) rfl rfl rfl (by kernel_rfl) fun _ => by kernel_rfl

theorem AcousticEmitter.parses (n : Nat) :
    Parses (run (n + 1)) I.AcousticEmitter I.AcousticEmitter AcousticEmitter.fields Dis.AcousticEmitter.parseInto :=
  parses_of (n := n + 0) (d := I.AcousticEmitter) (f := AcousticEmitter.parse) rfl rfl <|
    par_read (fun _ _ => True) rfl rfl (plain rfl) (fun _ _ => rfl) (fun _ _ _ => trivial) fun _ =>
    par_read (fun _ _ => True) rfl rfl (plain rfl) (fun _ _ => rfl) (fun _ _ _ => trivial) fun _ =>
    par_read (fun _ _ => True) rfl rfl (plain rfl) (fun _ _ => rfl) (fun _ _ _ => trivial) fun _ =>
    par_nil

theorem AcousticEmitter.builds (n : Nat) : Builds (run (n + 1)) I.AcousticEmitter AcousticEmitter.fields Dis.AcousticEmitter.init Dis.AcousticEmitter.parseInto :=
  builds_of (AcousticEmitter.makes (n + 0)) (AcousticEmitter.parses (n + 0))

theorem AngularVelocityVector.over : Over AngularVelocityVector.Raw.out AngularVelocityVector.parseRaw Dis.AngularVelocityVector.parseInto :=
  over_bind over_read fun _ =>
  over_bind (over_set fun _ => rfl) fun _ =>
  over_bind over_read fun _ =>
  over_bind (over_set fun _ => rfl) fun _ =>
  over_bind over_read fun _ =>
  over_bind (over_set fun _ => rfl) fun _ =>
  over_pure

theorem AngularVelocityVector.ends : Ends (fun _ => True) AngularVelocityVector.parseRaw (fun (r : AngularVelocityVector.Raw) => r.z = .float r.obj.z ∧ r.y = .float r.obj.y ∧ r.x = .float r.obj.x ∧ True) :=
  ends_bind ends_read fun _ =>
  ends_bind (ends_set (fun (r : AngularVelocityVector.Raw) => r.x = .float r.obj.x ∧ True) fun _ h => ⟨rfl, h⟩) fun _ =>
  ends_bind ends_read fun _ =>
  ends_bind (ends_set (fun (r : AngularVelocityVector.Raw) => r.y = .float r.obj.y ∧ r.x = .float r.obj.x ∧ True) fun _ h => ⟨rfl, h⟩) fun _ =>
  ends_bind ends_read fun _ =>
  ends_bind (ends_set (fun (r : AngularVelocityVector.Raw) => r.z = .float r.obj.z ∧ r.y = .float r.obj.y ∧ r.x = .float r.obj.x ∧ True) fun _ h => ⟨rfl, h⟩) fun _ =>
  ends_pure

theorem AngularVelocityVector.done (r : AngularVelocityVector.Raw) (h : (fun (r : AngularVelocityVector.Raw) => r.z = .float r.obj.z ∧ r.y = .float r.obj.y ∧ r.x = .float r.obj.x ∧ True) r) : AngularVelocityVector.rawFields r = AngularVelocityVector.fields r.out := by
  obtain ⟨h0, h1, h2, -⟩ := h
  simp only [AngularVelocityVector.rawFields, AngularVelocityVector.fields, h0, h1, h2]

theorem AngularVelocityVector.serializes (n : Nat) (x : Dis.AngularVelocityVector) :
    Serializes (run (n + 1)) I.AngularVelocityVector (AngularVelocityVector.enc x) x.serialize :=
  serializes_of (n := n + 0) (d := I.AngularVelocityVector) (f := AngularVelocityVector.serialize) rfl rfl <|
    ser_cons (ser_write (gives_attr (gives_name rfl) (plain rfl) rfl) rfl rfl rfl) <|
    ser_cons (ser_write (gives_attr (gives_name rfl) (plain rfl) rfl) rfl rfl rfl) <|
    ser_last <| ser_write (gives_attr (gives_name rfl) (plain rfl) rfl) rfl rfl rfl

theorem AngularVelocityVector.makesRaw (n : Nat) : Makes (run (n + 1)) I.AngularVelocityVector (.obj I.AngularVelocityVector (AngularVelocityVector.rawFields AngularVelocityVector.made)) :=
  makes_of (p := (I.AngularVelocityVector, AngularVelocityVector.__init__)) (by decide +kernel) rfl rfl rfl (by kernel_rfl) fun _ => by kernel_rfl

theorem AngularVelocityVector.parses (n : Nat) :
    Parses (run (n + 1)) I.AngularVelocityVector I.AngularVelocityVector AngularVelocityVector.fields Dis.AngularVelocityVector.parseInto :=
  parses_of (n := n + 0) (d := I.AngularVelocityVector) (f := AngularVelocityVector.parse) rfl rfl <|
    par_read (fun _ _ => True) rfl rfl (plain rfl) (fun _ _ => rfl) (fun _ _ _ => trivial) fun _ =>
    par_read (fun _ _ => True) rfl rfl (plain rfl) (fun _ _ => rfl) (fun _ _ _ => trivial) fun _ =>
    par_read (fun _ _ => True) rfl rfl (plain rfl) (fun _ _ => rfl) (fun _ _ _ => trivial) fun _ =>
    par_nil

theorem AngularVelocityVector.parsesRaw (n : Nat) :
    Parses (run (n + 1)) I.AngularVelocityVector I.AngularVelocityVector AngularVelocityVector.rawFields AngularVelocityVector.parseRaw :=
  parses_of (n := n + 0) (d := I.AngularVelocityVector) (f := AngularVelocityVector.parse) rfl rfl <|
    par_read (fun _ _ => True) rfl rfl (plain rfl) (fun _ _ => rfl) (fun _ _ _ => trivial) fun _ =>
    par_read (fun _ _ => True) rfl rfl (plain rfl) (fun _ _ => rfl) (fun _ _ _ => trivial) fun _ =>
    par_read (fun _ _ => True) rfl rfl (plain rfl) (fun _ _ => rfl) (fun _ _ _ => trivial) fun _ =>
    par_nil

theorem AngularVelocityVector.builds (n : Nat) : Builds (run (n + 1)) I.AngularVelocityVector AngularVelocityVector.fields Dis.AngularVelocityVector.init Dis.AngularVelocityVector.parseInto :=
  builds_over (π := AngularVelocityVector.Raw.out) (AngularVelocityVector.makesRaw (n + 0)) (AngularVelocityVector.parsesRaw (n + 0)) AngularVelocityVector.over AngularVelocityVector.ends rfl
    fun r h => AngularVelocityVector.done r h

theorem AggregateMarking.serializes (n : Nat) (x : Dis.AggregateMarking) :
    Serializes (run (n + 1)) I.AggregateMarking (AggregateMarking.enc x) x.serialize :=
  serializes_of (n := n + 0) (d := I.AggregateMarking) (f := AggregateMarking.serialize) rfl rfl <|
    ser_cons (ser_write (gives_attr (gives_name rfl) (plain rfl) rfl) rfl rfl rfl) <|
    ser_last <| ser_range (gives_range0 gives_int) var_idx rfl fun i =>
      ser_last (ser_index (gives_attr (gives_name rfl) (plain rfl) rfl) (gives_name rfl) rfl rfl fun _ => rfl)

theorem AggregateMarking.makes (n : Nat) : Makes (run (n + 1)) I.AggregateMarking (AggregateMarking.enc Dis.AggregateMarking.init) :=
  makes_of (p := (I.AggregateMarking, AggregateMarking.__init__)) (by decide +kernel) rfl rfl rfl (by kernel_rfl) fun _ => by kernel_rfl

theorem AggregateMarking.parses (n : Nat) :
    Parses (run (n + 1)) I.AggregateMarking I.AggregateMarking AggregateMarking.fields Dis.AggregateMarking.parseInto :=
  parses_of (n := n + 0) (d := I.AggregateMarking) (f := AggregateMarking.parse) rfl rfl <|
    par_read (fun _ _ => True) rfl rfl (plain rfl) (fun _ _ => rfl) (fun _ _ _ => trivial) fun _ =>
    par_fill rfl rfl (plain rfl) (fun _ => rfl) (fun _ _ => rfl) (fun _ _ => rfl) var_idx rfl rfl
      var_val rfl rfl rfl (fun _ _ _ => trivial) <|
    par_nil

theorem AggregateMarking.builds (n : Nat) : Builds (run (n + 1)) I.AggregateMarking AggregateMarking.fields Dis.AggregateMarking.init Dis.AggregateMarking.parseInto :=
  builds_of (AggregateMarking.makes (n + 0)) (AggregateMarking.parses (n + 0))

theorem DataFilterRecord.serializes (n : Nat) (x : Dis.DataFilterRecord) :
    Serializes (run (n + 1)) I.DataFilterRecord (DataFilterRecord.enc x) x.serialize :=
  serializes_of (n := n + 0) (d := I.DataFilterRecord) (f := DataFilterRecord.serialize) rfl rfl <|
    ser_last <| ser_write (gives_attr (gives_name rfl) (plain rfl) rfl) rfl rfl rfl

theorem DataFilterRecord.makes (n : Nat) : Makes (run (n + 1)) I.DataFilterRecord (DataFilterRecord.enc Dis.DataFilterRecord.init) :=
  makes_of (p := (I.DataFilterRecord, DataFilterRecord.__init__)) (by decide +kernel) rfl rfl rfl (by kernel_rfl) fun _ => by kernel_rfl

theorem DataFilterRecord.parses (n : Nat) :
    Parses (run (n + 1)) I.DataFilterRecord I.DataFilterRecord DataFilterRecord.fields Dis.DataFilterRecord.parseInto :=
  parses_of (n := n + 0) (d := I.DataFilterRecord) (f := DataFilterRecord.parse) rfl rfl <|
    par_read (fun _ _ => True) rfl rfl (plain rfl) (fun _ _ => rfl) (fun _ _ _ => trivial) fun _ =>
    par_nil

theorem DataFilterRecord.builds (n : Nat) : Builds (run (n + 1)) I.DataFilterRecord DataFilterRecord.fields Dis.DataFilterRecord.init Dis.DataFilterRecord.parseInto :=
  builds_of (DataFilterRecord.makes (n + 0)) (DataFilterRecord.parses (n + 0))

theorem IntercomIdentifier.serializes (n : Nat) (x : Dis.IntercomIdentifier) :
    Serializes (run (n + 1)) I.IntercomIdentifier (IntercomIdentifier.enc x) x.serialize :=
  serializes_of (n := n + 0) (d := I.IntercomIdentifier) (f := IntercomIdentifier.serialize) rfl rfl <|
    ser_cons (ser_write (gives_attr (gives_name rfl) (plain rfl) rfl) rfl rfl rfl) <|
    ser_cons (ser_write (gives_attr (gives_name rfl) (plain rfl) rfl) rfl rfl rfl) <|
    ser_cons (ser_write (gives_attr (gives_name rfl) (plain rfl) rfl) rfl rfl rfl) <|
    ser_last <| ser_write (gives_attr (gives_name rfl) (plain rfl) rfl) rfl rfl rfl

theorem IntercomIdentifier.makes (n : Nat) : Makes (run (n + 1)) I.IntercomIdentifier (IntercomIdentifier.enc Dis.IntercomIdentifier.init) :=
  makes_of (p := (I.IntercomIdentifier, IntercomIdentifier.__init__)) (by decide +kernel) rfl rfl rfl (by kernel_rfl) fun _ => by kernel_rfl

theorem IntercomIdentifier.parses (n : Nat) :
    Parses (run (n + 1)) I.IntercomIdentifier I.IntercomIdentifier IntercomIdentifier.fields Dis.IntercomIdentifier.parseInto :=
  parses_of (n := n + 0) (d := I.IntercomIdentifier) (f := IntercomIdentifier.parse) rfl rfl <|
    par_read (fun _ _ => True) rfl rfl (plain rfl) (fun _ _ => rfl) (fun _ _ _ => trivial) fun _ =>
    par_read (fun _ _ => True) rfl rfl (plain rfl) (fun _ _ => rfl) (fun _ _ _ => trivial) fun _ =>
    par_read (fun _ _ => True) rfl rfl (plain rfl) (fun _ _ => rfl) (fun _ _ _ => trivial) fun _ =>
    par_read (fun _ _ => True) rfl rfl (plain rfl) (fun _ _ => rfl) (fun _ _ _ => trivial) fun _ =>
    par_nil

theorem IntercomIdentifier.builds (n : Nat) : Builds (run (n + 1)) I.IntercomIdentifier IntercomIdentifier.fields Dis.IntercomIdentifier.init Dis.IntercomIdentifier.parseInto :=
  builds_of (IntercomIdentifier.makes (n + 0)) (IntercomIdentifier.parses (n + 0))

end Dis.Src
