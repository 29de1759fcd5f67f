import Verif.Proof.Source7
import Verif.Proof.SourceLaw1
import Verif.Source.EncodeSpecial
import Verif.Model.InPlaceSpecial

/-!
# Records with bit fields, and records that are parsed with a length, do what their syntax trees say
-/

set_option linter.unusedVariables false

namespace Dis.Src

theorem var_record_bitfield : isClass I.record_bitfield = false := by decide +kernel

theorem truth_int (i : Int) : truth (.int i) = decide (i ≠ 0) := by
  show (!(i == 0)) = _
  by_cases h : i = 0 <;> simp [h]

theorem bool_inj {a b : Bool} (h : some (Val.bool a) = some (Val.bool b)) : a = b := by cases h; rfl

theorem SpreadSpectrum.makes (n : Nat) : Makes (run (n + 1)) I.SpreadSpectrum (SpreadSpectrum.enc Dis.SpreadSpectrum.init) :=
  makes_of (p := (I.SpreadSpectrum, SpreadSpectrum.__init__)) (by decide +kernel) rfl rfl rfl (by kernel_rfl) fun _ => by kernel_rfl

theorem SpreadSpectrum.serializes (n : Nat) (x : Dis.SpreadSpectrum) :
    Serializes (run (n + 1)) I.SpreadSpectrum (SpreadSpectrum.enc x) x.serialize :=
  serializes_of (n := n + 0) (d := I.SpreadSpectrum) (f := SpreadSpectrum.serialize) rfl rfl <|
    ser_last (ser_bits (fs := SpreadSpectrum.layout) (gives_attr (gives_name rfl) (plain rfl) rfl) (all_cons (gives_toInt (gives_attr (gives_name rfl) (plain rfl) rfl) rfl) <| all_cons (gives_toInt (gives_attr (gives_name rfl) (plain rfl) rfl) rfl) <| all_cons (gives_toInt (gives_attr (gives_name rfl) (plain rfl) rfl) rfl) <| all_cons (gives_attr (gives_name rfl) (plain rfl) rfl) <| all_nil) rfl rfl rfl)

theorem SpreadSpectrum.parses (n : Nat) :
    Parses (run (n + 1)) I.SpreadSpectrum I.SpreadSpectrum SpreadSpectrum.fields Dis.SpreadSpectrum.parseInto :=
  parses_of (n := n + 0) (d := I.SpreadSpectrum) (f := SpreadSpectrum.parse) rfl rfl <|
    par_bits (fs := SpreadSpectrum.layout) (plain rfl) (fun _ => rfl) rfl var_record_bitfield rfl fun _ =>
    par_assign (Q' := fun _ => True) (fun _ _ => gives_toBool (gives_bits (gives_name rfl) rfl) (truth_int _)) (plain rfl) (fun _ => rfl) (fun _ _ => trivial) <|
    par_assign (Q' := fun _ => True) (fun _ _ => gives_toBool (gives_bits (gives_name rfl) rfl) (truth_int _)) (plain rfl) (fun _ => rfl) (fun _ _ => trivial) <|
    par_assign (Q' := fun _ => True) (fun _ _ => gives_toBool (gives_bits (gives_name rfl) rfl) (truth_int _)) (plain rfl) (fun _ => rfl) (fun _ _ => trivial) <|
    par_nil

theorem SpreadSpectrum.inj : ∀ {x y : Dis.SpreadSpectrum}, SpreadSpectrum.fields x = SpreadSpectrum.fields y → x = y := by
  rintro ⟨a0, a1, a2, a3⟩ ⟨b0, b1, b2, b3⟩ h
  obtain rfl : a0 = b0 := bool_inj (congrArg (look I.frequencyHopping) h)
  obtain rfl : a1 = b1 := bool_inj (congrArg (look I.pseudoNoise) h)
  obtain rfl : a2 = b2 := bool_inj (congrArg (look I.timeHopping) h)
  obtain rfl : a3 = b3 := int_inj (congrArg (look I.padding) h)
  rfl

theorem ModulationType.makes (n : Nat) : Makes (run (n + 2)) I.ModulationType (ModulationType.enc Dis.ModulationType.init) :=
  makes_of (p := (I.ModulationType, ModulationType.__init__)) (by decide +kernel) rfl rfl rfl (by kernel_rfl) fun _ => by kernel_rfl

theorem ModulationType.serializes (n : Nat) (x : Dis.ModulationType) :
    Serializes (run (n + 2)) I.ModulationType (ModulationType.enc x) x.serialize :=
  serializes_of (n := n + 1) (d := I.ModulationType) (f := ModulationType.serialize) rfl rfl <|
    ser_cons (ser_call rfl (plain rfl) rfl rfl rfl (SpreadSpectrum.serializes (n) _)) <|
    ser_cons (ser_write (gives_attr (gives_name rfl) (plain rfl) rfl) rfl rfl rfl) <|
    ser_cons (ser_write (gives_attr (gives_name rfl) (plain rfl) rfl) rfl rfl rfl) <|
    ser_last (ser_write (gives_attr (gives_name rfl) (plain rfl) rfl) rfl rfl rfl)

theorem ModulationType.parses (n : Nat) :
    Parses (run (n + 2)) I.ModulationType I.ModulationType ModulationType.fields Dis.ModulationType.parseInto :=
  parses_of (n := n + 1) (d := I.ModulationType) (f := ModulationType.parse) rfl rfl <|
    par_call (Q' := fun _ => True) (SpreadSpectrum.parses (n)) rfl (plain rfl) (fun _ => rfl) (fun _ _ => rfl) (fun _ _ _ => trivial) <|
    par_read (fun _ _ => True) rfl rfl (plain rfl) (fun _ _ => rfl) (fun _ _ _ => trivial) fun _ =>
    par_read (fun _ _ => True) rfl rfl (plain rfl) (fun _ _ => rfl) (fun _ _ _ => trivial) fun _ =>
    par_read (fun _ _ => True) rfl rfl (plain rfl) (fun _ _ => rfl) (fun _ _ _ => trivial) fun _ =>
    par_nil

theorem ModulationType.inj : ∀ {x y : Dis.ModulationType}, ModulationType.fields x = ModulationType.fields y → x = y := by
  rintro ⟨a0, a1, a2, a3⟩ ⟨b0, b1, b2, b3⟩ h
  obtain rfl : a0 = b0 := obj_inj SpreadSpectrum.inj (congrArg (look I.spreadSpectrum) h)
  obtain rfl : a1 = b1 := int_inj (congrArg (look I.majorModulation) h)
  obtain rfl : a2 = b2 := int_inj (congrArg (look I.detail) h)
  obtain rfl : a3 = b3 := int_inj (congrArg (look I.radioSystem) h)
  rfl

theorem NetId.makes (n : Nat) : Makes (run (n + 1)) I.NetId (NetId.enc Dis.NetId.init) :=
  makes_of (p := (I.NetId, NetId.__init__)) (by decide +kernel) rfl rfl rfl (by kernel_rfl) fun _ => by kernel_rfl

theorem NetId.serializes (n : Nat) (x : Dis.NetId) :
    Serializes (run (n + 1)) I.NetId (NetId.enc x) x.serialize :=
  serializes_of (n := n + 0) (d := I.NetId) (f := NetId.serialize) rfl rfl <|
    ser_last (ser_bits (fs := NetId.layout) (gives_attr (gives_name rfl) (plain rfl) rfl) (all_cons (gives_attr (gives_name rfl) (plain rfl) rfl) <| all_cons (gives_attr (gives_name rfl) (plain rfl) rfl) <| all_cons (gives_attr (gives_name rfl) (plain rfl) rfl) <| all_cons (gives_attr (gives_name rfl) (plain rfl) rfl) <| all_nil) rfl rfl rfl)

theorem NetId.parses (n : Nat) :
    Parses (run (n + 1)) I.NetId I.NetId NetId.fields Dis.NetId.parseInto :=
  parses_of (n := n + 0) (d := I.NetId) (f := NetId.parse) rfl rfl <|
    par_bits (fs := NetId.layout) (plain rfl) (fun _ => rfl) rfl var_record_bitfield rfl fun _ =>
    par_assign (Q' := fun _ => True) (fun _ _ => gives_bits (gives_name rfl) rfl) (plain rfl) (fun _ => rfl) (fun _ _ => trivial) <|
    par_assign (Q' := fun _ => True) (fun _ _ => gives_bits (gives_name rfl) rfl) (plain rfl) (fun _ => rfl) (fun _ _ => trivial) <|
    par_assign (Q' := fun _ => True) (fun _ _ => gives_bits (gives_name rfl) rfl) (plain rfl) (fun _ => rfl) (fun _ _ => trivial) <|
    par_assign (Q' := fun _ => True) (fun _ _ => gives_bits (gives_name rfl) rfl) (plain rfl) (fun _ => rfl) (fun _ _ => trivial) <|
    par_nil

theorem NetId.inj : ∀ {x y : Dis.NetId}, NetId.fields x = NetId.fields y → x = y := by
  rintro ⟨a0, a1, a2, a3⟩ ⟨b0, b1, b2, b3⟩ h
  obtain rfl : a0 = b0 := int_inj (congrArg (look I.netNumber) h)
  obtain rfl : a1 = b1 := int_inj (congrArg (look I.frequencyTable) h)
  obtain rfl : a2 = b2 := int_inj (congrArg (look I.mode) h)
  obtain rfl : a3 = b3 := int_inj (congrArg (look I.padding) h)
  rfl

theorem BeamAntennaPattern.makes (n : Nat) : Makes (run (n + 2)) I.BeamAntennaPattern (BeamAntennaPattern.enc Dis.BeamAntennaPattern.init) :=
  makes_of (p := (I.BeamAntennaPattern, BeamAntennaPattern.__init__)) (by decide +kernel) rfl rfl rfl (by kernel_rfl) fun _ => by kernel_rfl

theorem BeamAntennaPattern.serializes (n : Nat) (x : Dis.BeamAntennaPattern) :
    Serializes (run (n + 2)) I.BeamAntennaPattern (BeamAntennaPattern.enc x) x.serialize :=
  serializes_of (n := n + 1) (d := I.BeamAntennaPattern) (f := BeamAntennaPattern.serialize) rfl rfl <|
    ser_skip rfl rfl rfl rfl rfl (serializes_nothing rfl rfl rfl) <|
    ser_cons (ser_call rfl (plain rfl) rfl rfl rfl (EulerAngles.serializes (n) _)) <|
    ser_cons (ser_write (gives_attr (gives_name rfl) (plain rfl) rfl) rfl rfl rfl) <|
    ser_cons (ser_write (gives_attr (gives_name rfl) (plain rfl) rfl) rfl rfl rfl) <|
    ser_cons (ser_write (gives_attr (gives_name rfl) (plain rfl) rfl) rfl rfl rfl) <|
    ser_cons (ser_write (gives_attr (gives_name rfl) (plain rfl) rfl) rfl rfl rfl) <|
    ser_cons (ser_write (gives_attr (gives_name rfl) (plain rfl) rfl) rfl rfl rfl) <|
    ser_cons (ser_write (gives_attr (gives_name rfl) (plain rfl) rfl) rfl rfl rfl) <|
    ser_cons (ser_write (gives_attr (gives_name rfl) (plain rfl) rfl) rfl rfl rfl) <|
    ser_cons (ser_write (gives_attr (gives_name rfl) (plain rfl) rfl) rfl rfl rfl) <|
    ser_last (ser_write (gives_attr (gives_name rfl) (plain rfl) rfl) rfl rfl rfl)

theorem BeamAntennaPattern.body (n : Nat) (b : Option Int) :
    Par (run (n + 2)) I.BeamAntennaPattern BeamAntennaPattern.fields (fun _ => True)
      [(I.__class__, .cls I.BeamAntennaPattern), (I.inputStream, .inp), (I.bytelength, orNone b)] BeamAntennaPattern.parse.body (Dis.BeamAntennaPattern.parseInto b) :=
    par_check (variable_checks (n := n + 0) (c := I.AntennaPatternRecord) rfl rfl rfl rfl) rfl rfl rfl rfl rfl <|
    par_call (Q' := fun _ => True) (EulerAngles.parses (n + 1)) rfl (plain rfl) (fun _ => rfl) (fun _ _ => rfl) (fun _ _ _ => trivial) <|
    par_read (fun _ _ => True) rfl rfl (plain rfl) (fun _ _ => rfl) (fun _ _ _ => trivial) fun _ =>
    par_read (fun _ _ => True) rfl rfl (plain rfl) (fun _ _ => rfl) (fun _ _ _ => trivial) fun _ =>
    par_read (fun _ _ => True) rfl rfl (plain rfl) (fun _ _ => rfl) (fun _ _ _ => trivial) fun _ =>
    par_read (fun _ _ => True) rfl rfl (plain rfl) (fun _ _ => rfl) (fun _ _ _ => trivial) fun _ =>
    par_read (fun _ _ => True) rfl rfl (plain rfl) (fun _ _ => rfl) (fun _ _ _ => trivial) fun _ =>
    par_read (fun _ _ => True) rfl rfl (plain rfl) (fun _ _ => rfl) (fun _ _ _ => trivial) fun _ =>
    par_read (fun _ _ => True) rfl rfl (plain rfl) (fun _ _ => rfl) (fun _ _ _ => trivial) fun _ =>
    par_read (fun _ _ => True) rfl rfl (plain rfl) (fun _ _ => rfl) (fun _ _ _ => trivial) fun _ =>
    par_read (fun _ _ => True) rfl rfl (plain rfl) (fun _ _ => rfl) (fun _ _ _ => trivial) fun _ =>
    par_nil

theorem BeamAntennaPattern.parses (n : Nat) :
    Parses (run (n + 3)) I.BeamAntennaPattern I.BeamAntennaPattern BeamAntennaPattern.fields (Dis.BeamAntennaPattern.parseInto (some 40)) :=
  parses_by (args := [.inp]) (kws := []) (f := BeamAntennaPattern.parse) (b := orNone (some 40)) rfl (fun _ => rfl) (BeamAntennaPattern.body n (some 40))

theorem BeamAntennaPattern.parsesBy (n : Nat) (b : Option Int) :
    ParsesBy (run (n + 3)) I.BeamAntennaPattern I.BeamAntennaPattern BeamAntennaPattern.fields [.inp, orNone b] [] (Dis.BeamAntennaPattern.parseInto b) :=
  parses_by (f := BeamAntennaPattern.parse) (b := orNone b) rfl (fun _ => rfl) (BeamAntennaPattern.body n b)

theorem BeamAntennaPattern.inj : ∀ {x y : Dis.BeamAntennaPattern}, BeamAntennaPattern.fields x = BeamAntennaPattern.fields y → x = y := by
  rintro ⟨a0, a1, a2, a3, a4, a5, a6, a7, a8, a9⟩ ⟨b0, b1, b2, b3, b4, b5, b6, b7, b8, b9⟩ h
  obtain rfl : a0 = b0 := obj_inj EulerAngles.inj (congrArg (look I.beamDirection) h)
  obtain rfl : a1 = b1 := float_inj (congrArg (look I.azimuthBeamwidth) h)
  obtain rfl : a2 = b2 := float_inj (congrArg (look I.elevationBeamwidth) h)
  obtain rfl : a3 = b3 := int_inj (congrArg (look I.referenceSystem) h)
  obtain rfl : a4 = b4 := int_inj (congrArg (look I.padding1) h)
  obtain rfl : a5 = b5 := int_inj (congrArg (look I.padding2) h)
  obtain rfl : a6 = b6 := float_inj (congrArg (look I.ez) h)
  obtain rfl : a7 = b7 := float_inj (congrArg (look I.ex) h)
  obtain rfl : a8 = b8 := float_inj (congrArg (look I.phase) h)
  obtain rfl : a9 = b9 := int_inj (congrArg (look I.padding3) h)
  rfl

theorem BasicHaveQuickMP.makes (n : Nat) : Makes (run (n + 2)) I.BasicHaveQuickMP (BasicHaveQuickMP.enc Dis.BasicHaveQuickMP.init) :=
  makes_of (p := (I.BasicHaveQuickMP, BasicHaveQuickMP.__init__)) (by decide +kernel) rfl rfl rfl (by kernel_rfl) fun _ => by kernel_rfl

theorem BasicHaveQuickMP.serializes (n : Nat) (x : Dis.BasicHaveQuickMP) :
    Serializes (run (n + 2)) I.BasicHaveQuickMP (BasicHaveQuickMP.enc x) x.serialize :=
  serializes_of (n := n + 1) (d := I.BasicHaveQuickMP) (f := BasicHaveQuickMP.serialize) rfl rfl <|
    ser_skip rfl rfl rfl rfl rfl (serializes_nothing rfl rfl rfl) <|
    ser_cons (ser_call rfl (plain rfl) rfl rfl rfl (NetId.serializes (n) _)) <|
    ser_cons (ser_write (gives_attr (gives_name rfl) (plain rfl) rfl) rfl rfl rfl) <|
    ser_cons (ser_write (gives_attr (gives_name rfl) (plain rfl) rfl) rfl rfl rfl) <|
    ser_cons (ser_write (gives_attr (gives_name rfl) (plain rfl) rfl) rfl rfl rfl) <|
    ser_cons (ser_write (gives_attr (gives_name rfl) (plain rfl) rfl) rfl rfl rfl) <|
    ser_cons (ser_write (gives_attr (gives_name rfl) (plain rfl) rfl) rfl rfl rfl) <|
    ser_last (ser_write (gives_attr (gives_name rfl) (plain rfl) rfl) rfl rfl rfl)

theorem BasicHaveQuickMP.body (n : Nat) (b : Option Int) :
    Par (run (n + 2)) I.BasicHaveQuickMP BasicHaveQuickMP.fields (fun _ => True)
      [(I.__class__, .cls I.BasicHaveQuickMP), (I.inputStream, .inp), (I.bytelength, orNone b)] BasicHaveQuickMP.parse.body (Dis.BasicHaveQuickMP.parseInto b) :=
    par_check (variable_checks (n := n + 0) (c := I.ModulationParametersRecord) rfl rfl rfl rfl) rfl rfl rfl rfl rfl <|
    par_call (Q' := fun _ => True) (NetId.parses (n + 1)) rfl (plain rfl) (fun _ => rfl) (fun _ _ => rfl) (fun _ _ _ => trivial) <|
    par_read (fun _ _ => True) rfl rfl (plain rfl) (fun _ _ => rfl) (fun _ _ _ => trivial) fun _ =>
    par_read (fun _ _ => True) rfl rfl (plain rfl) (fun _ _ => rfl) (fun _ _ _ => trivial) fun _ =>
    par_read (fun _ _ => True) rfl rfl (plain rfl) (fun _ _ => rfl) (fun _ _ _ => trivial) fun _ =>
    par_read (fun _ _ => True) rfl rfl (plain rfl) (fun _ _ => rfl) (fun _ _ _ => trivial) fun _ =>
    par_read (fun _ _ => True) rfl rfl (plain rfl) (fun _ _ => rfl) (fun _ _ _ => trivial) fun _ =>
    par_read (fun _ _ => True) rfl rfl (plain rfl) (fun _ _ => rfl) (fun _ _ _ => trivial) fun _ =>
    par_nil

theorem BasicHaveQuickMP.parses (n : Nat) :
    Parses (run (n + 3)) I.BasicHaveQuickMP I.BasicHaveQuickMP BasicHaveQuickMP.fields (Dis.BasicHaveQuickMP.parseInto none) :=
  parses_by (args := [.inp]) (kws := []) (f := BasicHaveQuickMP.parse) (b := orNone none) rfl (fun _ => rfl) (BasicHaveQuickMP.body n none)

theorem BasicHaveQuickMP.parsesBy (n : Nat) (b : Option Int) :
    ParsesBy (run (n + 3)) I.BasicHaveQuickMP I.BasicHaveQuickMP BasicHaveQuickMP.fields [.inp, orNone b] [] (Dis.BasicHaveQuickMP.parseInto b) :=
  parses_by (f := BasicHaveQuickMP.parse) (b := orNone b) rfl (fun _ => rfl) (BasicHaveQuickMP.body n b)

theorem BasicHaveQuickMP.inj : ∀ {x y : Dis.BasicHaveQuickMP}, BasicHaveQuickMP.fields x = BasicHaveQuickMP.fields y → x = y := by
  rintro ⟨a0, a1, a2, a3, a4, a5, a6⟩ ⟨b0, b1, b2, b3, b4, b5, b6⟩ h
  obtain rfl : a0 = b0 := obj_inj NetId.inj (congrArg (look I.net_id) h)
  obtain rfl : a1 = b1 := int_inj (congrArg (look I.mwod_index) h)
  obtain rfl : a2 = b2 := int_inj (congrArg (look I.reserved16) h)
  obtain rfl : a3 = b3 := int_inj (congrArg (look I.reserved8_1) h)
  obtain rfl : a4 = b4 := int_inj (congrArg (look I.reserved8_2) h)
  obtain rfl : a5 = b5 := int_inj (congrArg (look I.time_of_day) h)
  obtain rfl : a6 = b6 := int_inj (congrArg (look I.padding) h)
  rfl

theorem CCTTSincgarsMP.makes (n : Nat) : Makes (run (n + 1)) I.CCTTSincgarsMP (CCTTSincgarsMP.enc Dis.CCTTSincgarsMP.init) :=
  makes_of (p := (I.CCTTSincgarsMP, CCTTSincgarsMP.__init__)) (by decide +kernel) rfl rfl rfl (by kernel_rfl) fun _ => by kernel_rfl

theorem CCTTSincgarsMP.serializes (n : Nat) (x : Dis.CCTTSincgarsMP) :
    Serializes (run (n + 2)) I.CCTTSincgarsMP (CCTTSincgarsMP.enc x) x.serialize :=
  serializes_of (n := n + 1) (d := I.CCTTSincgarsMP) (f := CCTTSincgarsMP.serialize) rfl rfl <|
    ser_skip rfl rfl rfl rfl rfl (serializes_nothing rfl rfl rfl) <|
    ser_cons (ser_write (gives_attr (gives_name rfl) (plain rfl) rfl) rfl rfl rfl) <|
    ser_cons (ser_write (gives_attr (gives_name rfl) (plain rfl) rfl) rfl rfl rfl) <|
    ser_cons (ser_write (gives_attr (gives_name rfl) (plain rfl) rfl) rfl rfl rfl) <|
    ser_cons (ser_write (gives_attr (gives_name rfl) (plain rfl) rfl) rfl rfl rfl) <|
    ser_cons (ser_write (gives_attr (gives_name rfl) (plain rfl) rfl) rfl rfl rfl) <|
    ser_cons (ser_write (gives_attr (gives_name rfl) (plain rfl) rfl) rfl rfl rfl) <|
    ser_cons (ser_write (gives_attr (gives_name rfl) (plain rfl) rfl) rfl rfl rfl) <|
    ser_last (ser_write (gives_attr (gives_name rfl) (plain rfl) rfl) rfl rfl rfl)

theorem CCTTSincgarsMP.body (n : Nat) (b : Option Int) :
    Par (run (n + 2)) I.CCTTSincgarsMP CCTTSincgarsMP.fields (fun _ => True)
      [(I.__class__, .cls I.CCTTSincgarsMP), (I.inputStream, .inp), (I.bytelength, orNone b)] CCTTSincgarsMP.parse.body (Dis.CCTTSincgarsMP.parseInto b) :=
    par_check (variable_checks (n := n + 0) (c := I.ModulationParametersRecord) rfl rfl rfl rfl) rfl rfl rfl rfl rfl <|
    par_read (fun _ _ => True) rfl rfl (plain rfl) (fun _ _ => rfl) (fun _ _ _ => trivial) fun _ =>
    par_read (fun _ _ => True) rfl rfl (plain rfl) (fun _ _ => rfl) (fun _ _ _ => trivial) fun _ =>
    par_read (fun _ _ => True) rfl rfl (plain rfl) (fun _ _ => rfl) (fun _ _ _ => trivial) fun _ =>
    par_read (fun _ _ => True) rfl rfl (plain rfl) (fun _ _ => rfl) (fun _ _ _ => trivial) fun _ =>
    par_read (fun _ _ => True) rfl rfl (plain rfl) (fun _ _ => rfl) (fun _ _ _ => trivial) fun _ =>
    par_read (fun _ _ => True) rfl rfl (plain rfl) (fun _ _ => rfl) (fun _ _ _ => trivial) fun _ =>
    par_read (fun _ _ => True) rfl rfl (plain rfl) (fun _ _ => rfl) (fun _ _ _ => trivial) fun _ =>
    par_read (fun _ _ => True) rfl rfl (plain rfl) (fun _ _ => rfl) (fun _ _ _ => trivial) fun _ =>
    par_nil

theorem CCTTSincgarsMP.parses (n : Nat) :
    Parses (run (n + 3)) I.CCTTSincgarsMP I.CCTTSincgarsMP CCTTSincgarsMP.fields (Dis.CCTTSincgarsMP.parseInto none) :=
  parses_by (args := [.inp]) (kws := []) (f := CCTTSincgarsMP.parse) (b := orNone none) rfl (fun _ => rfl) (CCTTSincgarsMP.body n none)

theorem CCTTSincgarsMP.parsesBy (n : Nat) (b : Option Int) :
    ParsesBy (run (n + 3)) I.CCTTSincgarsMP I.CCTTSincgarsMP CCTTSincgarsMP.fields [.inp, orNone b] [] (Dis.CCTTSincgarsMP.parseInto b) :=
  parses_by (f := CCTTSincgarsMP.parse) (b := orNone b) rfl (fun _ => rfl) (CCTTSincgarsMP.body n b)

theorem CCTTSincgarsMP.inj : ∀ {x y : Dis.CCTTSincgarsMP}, CCTTSincgarsMP.fields x = CCTTSincgarsMP.fields y → x = y := by
  rintro ⟨a0, a1, a2, a3, a4, a5, a6, a7⟩ ⟨b0, b1, b2, b3, b4, b5, b6, b7⟩ h
  obtain rfl : a0 = b0 := int_inj (congrArg (look I.fh_net_id) h)
  obtain rfl : a1 = b1 := int_inj (congrArg (look I.hop_set_id) h)
  obtain rfl : a2 = b2 := int_inj (congrArg (look I.lockout_set_id) h)
  obtain rfl : a3 = b3 := int_inj (congrArg (look I.start_of_message) h)
  obtain rfl : a4 = b4 := int_inj (congrArg (look I.clear_channel) h)
  obtain rfl : a5 = b5 := int_inj (congrArg (look I.fh_sync_time_offset) h)
  obtain rfl : a6 = b6 := int_inj (congrArg (look I.transmission_security_key) h)
  obtain rfl : a7 = b7 := int_inj (congrArg (look I.padding) h)
  rfl

theorem DEFireFlags.serializesWith (n : Nat) (w : Val) (x : Dis.DEFireFlags) (hw : asInt w = some x.weaponOn) :
    Serializes (run (n + 1)) I.DEFireFlags (.obj I.DEFireFlags (DEFireFlags.fieldsWith w x)) x.serialize :=
  serializes_of (n := n) (d := I.DEFireFlags) (f := DEFireFlags.serialize) rfl rfl <|
    ser_last (ser_bits (fs := DEFireFlags.layout) (gives_attr (gives_name rfl) (plain rfl) rfl) (all_cons (gives_attr (gives_name rfl) (plain rfl) rfl) <| all_cons (gives_attr (gives_name rfl) (plain rfl) rfl) <| all_nil) (by unfold integers; rw [hw]; rfl) rfl rfl)

theorem DEFireFlags.serializes (n : Nat) (x : Dis.DEFireFlags) :
    Serializes (run (n + 1)) I.DEFireFlags (DEFireFlags.enc x) x.serialize := DEFireFlags.serializesWith n _ x rfl

theorem DEFireFlags.parses (n : Nat) :
    Parses (run (n + 1)) I.DEFireFlags I.DEFireFlags DEFireFlags.fields Dis.DEFireFlags.parseInto :=
  parses_of (n := n + 0) (d := I.DEFireFlags) (f := DEFireFlags.parse) rfl rfl <|
    par_bits (fs := DEFireFlags.layout) (plain rfl) (fun _ => rfl) rfl var_record_bitfield rfl fun _ =>
    par_assign (Q' := fun _ => True) (fun _ _ => gives_bits (gives_name rfl) rfl) (plain rfl) (fun _ => rfl) (fun _ _ => trivial) <|
    par_assign (Q' := fun _ => True) (fun _ _ => gives_bits (gives_name rfl) rfl) (plain rfl) (fun _ => rfl) (fun _ _ => trivial) <|
    par_assign (Q' := fun _ => True) (fun _ _ => gives_bits (gives_name rfl) rfl) (plain rfl) (fun _ => rfl) (fun _ _ => trivial) <|
    par_nil

theorem DEFireFlags.inj : ∀ {x y : Dis.DEFireFlags}, DEFireFlags.fields x = DEFireFlags.fields y → x = y := by
  rintro ⟨a0, a1, a2⟩ ⟨b0, b1, b2⟩ h
  obtain rfl : a0 = b0 := int_inj (congrArg (look I.weaponOn) h)
  obtain rfl : a1 = b1 := int_inj (congrArg (look I.stateUpdateFlag) h)
  obtain rfl : a2 = b2 := int_inj (congrArg (look I.padding) h)
  rfl

theorem DEFireFlags.makes (n : Nat) : Makes (run (n + 1)) I.DEFireFlags (.obj I.DEFireFlags (DEFireFlags.fieldsWith (.bool false) Dis.DEFireFlags.init)) :=
  makes_of (p := (I.DEFireFlags, DEFireFlags.__init__)) (by decide +kernel) rfl rfl rfl (by kernel_rfl) fun _ => by kernel_rfl

theorem DirectedEnergyTargetEnergyDeposition.makes (n : Nat) : Makes (run (n + 3)) I.DirectedEnergyTargetEnergyDeposition (DirectedEnergyTargetEnergyDeposition.enc Dis.DirectedEnergyTargetEnergyDeposition.init) :=
  makes_of (p := (I.DirectedEnergyTargetEnergyDeposition, DirectedEnergyTargetEnergyDeposition.__init__)) (by decide +kernel) rfl rfl rfl (by kernel_rfl) fun _ => by kernel_rfl

theorem DirectedEnergyTargetEnergyDeposition.serializes (n : Nat) (x : Dis.DirectedEnergyTargetEnergyDeposition) :
    Serializes (run (n + 3)) I.DirectedEnergyTargetEnergyDeposition (DirectedEnergyTargetEnergyDeposition.enc x) x.serialize :=
  serializes_of (n := n + 2) (d := I.DirectedEnergyTargetEnergyDeposition) (f := DirectedEnergyTargetEnergyDeposition.serialize) rfl rfl <|
    ser_skip rfl rfl rfl rfl rfl (serializes_nothing rfl rfl rfl) <|
    ser_cons (ser_call rfl (plain rfl) rfl rfl rfl (EntityIdentifier.serializes (n) _)) <|
    ser_cons (ser_write (gives_attr (gives_name rfl) (plain rfl) rfl) rfl rfl rfl) <|
    ser_last (ser_write (gives_attr (gives_name rfl) (plain rfl) rfl) rfl rfl rfl)

theorem DirectedEnergyTargetEnergyDeposition.parses (n : Nat) :
    Parses (run (n + 3)) I.DirectedEnergyTargetEnergyDeposition I.DirectedEnergyTargetEnergyDeposition DirectedEnergyTargetEnergyDeposition.fields Dis.DirectedEnergyTargetEnergyDeposition.parseInto :=
  parses_of (n := n + 2) (d := I.DirectedEnergyTargetEnergyDeposition) (f := DirectedEnergyTargetEnergyDeposition.parse) rfl rfl <|
    par_super_skip (parses_nothing rfl rfl rfl) rfl rfl rfl rfl <|
    par_call (Q' := fun _ => True) (EntityIdentifier.parses (n)) rfl (plain rfl) (fun _ => rfl) (fun _ _ => rfl) (fun _ _ _ => trivial) <|
    par_read (fun _ _ => True) rfl rfl (plain rfl) (fun _ _ => rfl) (fun _ _ _ => trivial) fun _ =>
    par_read (fun _ _ => True) rfl rfl (plain rfl) (fun _ _ => rfl) (fun _ _ _ => trivial) fun _ =>
    par_nil

theorem DirectedEnergyTargetEnergyDeposition.inj : ∀ {x y : Dis.DirectedEnergyTargetEnergyDeposition}, DirectedEnergyTargetEnergyDeposition.fields x = DirectedEnergyTargetEnergyDeposition.fields y → x = y := by
  rintro ⟨a0, a1, a2⟩ ⟨b0, b1, b2⟩ h
  obtain rfl : a0 = b0 := obj_inj EntityIdentifier.inj (congrArg (look I.targetEntityID) h)
  obtain rfl : a1 = b1 := int_inj (congrArg (look I.padding) h)
  obtain rfl : a2 = b2 := float_inj (congrArg (look I.peakIrradiance) h)
  rfl

end Dis.Src
