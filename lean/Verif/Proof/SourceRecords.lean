import Verif.Proof.Source8
import Verif.Proof.SourceSpecial
import Verif.Source.EncodeRecords

/-!
# The standard variable records do what their syntax trees say
-/

set_option linter.unusedVariables false

namespace Dis.Src

theorem var_size : isClass I.size = false := by decide +kernel

theorem var_record : isClass I.record = false := by decide +kernel

theorem var__ : isClass I.«_» = false := by decide +kernel

theorem var_beamAntennaPatternCount : isClass I.beamAntennaPatternCount = false := by decide +kernel

theorem var_directedEnergyTargetEnergyDepositionCount : isClass I.directedEnergyTargetEnergyDepositionCount = false := by
  decide +kernel

theorem bytes_inj {a b : Bytes} (h : some (Val.bytes a) = some (Val.bytes b)) : a = b := by cases h; rfl

theorem BeamAntennaPattern.sizes (n : Nat) (x : Dis.BeamAntennaPattern) :
    Sizes (run (n + 1)) I.BeamAntennaPattern (BeamAntennaPattern.enc x) x.marshalledSize :=
  property_of (f := BeamAntennaPattern.marshalledSize) rfl rfl rfl gives_int

theorem DirectedEnergyTargetEnergyDeposition.sizes (n : Nat) (x : Dis.DirectedEnergyTargetEnergyDeposition) :
    Sizes (run (n + 3)) I.DirectedEnergyTargetEnergyDeposition (DirectedEnergyTargetEnergyDeposition.enc x) x.marshalledSize :=
  fun _ => by kernel_rfl

theorem HighFidelityHAVEQUICKRadio.makes (n : Nat) : Makes (run (n + 3)) I.HighFidelityHAVEQUICKRadio (HighFidelityHAVEQUICKRadio.enc Dis.HighFidelityHAVEQUICKRadio.init) :=
  makes_of (p := (I.HighFidelityHAVEQUICKRadio, HighFidelityHAVEQUICKRadio.__init__)) (by decide +kernel) rfl rfl rfl (by kernel_rfl) fun _ => by kernel_rfl

theorem HighFidelityHAVEQUICKRadio.sizes (n : Nat) (x : Dis.HighFidelityHAVEQUICKRadio) :
    Sizes (run (n + 4)) I.HighFidelityHAVEQUICKRadio (HighFidelityHAVEQUICKRadio.enc x) x.marshalledSize :=
  property_of (f := HighFidelityHAVEQUICKRadio.marshalledSize) rfl rfl rfl gives_int

theorem HighFidelityHAVEQUICKRadio.serializes (n : Nat) (x : Dis.HighFidelityHAVEQUICKRadio) :
    Serializes (run (n + 7)) I.HighFidelityHAVEQUICKRadio (HighFidelityHAVEQUICKRadio.enc x) x.serialize :=
  serializes_of (n := n + 6) (d := I.HighFidelityHAVEQUICKRadio) (f := HighFidelityHAVEQUICKRadio.serialize) rfl rfl <|
    ser_cons (ser_super (c := I.HighFidelityHAVEQUICKRadio) rfl (.inr ⟨rfl, rfl⟩) rfl rfl rfl (standard_serializes (n := n + 4) rfl rfl rfl (HighFidelityHAVEQUICKRadio.sizes n x))) <|
    ser_cons (ser_write (gives_attr (gives_name rfl) (plain rfl) rfl) rfl rfl rfl) <|
    ser_cons (ser_call rfl (plain rfl) rfl rfl rfl (NetId.serializes (n + 5) _)) <|
    ser_cons (ser_write (gives_attr (gives_name rfl) (plain rfl) rfl) rfl rfl rfl) <|
    ser_cons (ser_write (gives_attr (gives_name rfl) (plain rfl) rfl) rfl rfl rfl) <|
    ser_cons (ser_write (gives_attr (gives_name rfl) (plain rfl) rfl) rfl rfl rfl) <|
    ser_cons (ser_write (gives_attr (gives_name rfl) (plain rfl) rfl) rfl rfl rfl) <|
    ser_cons (ser_write (gives_attr (gives_name rfl) (plain rfl) rfl) rfl rfl rfl) <|
    ser_cons (ser_write (gives_attr (gives_name rfl) (plain rfl) rfl) rfl rfl rfl) <|
    ser_cons (ser_write (gives_attr (gives_name rfl) (plain rfl) rfl) rfl rfl rfl) <|
    ser_cons (ser_write (gives_attr (gives_name rfl) (plain rfl) rfl) rfl rfl rfl) <|
    ser_last (ser_write (gives_attr (gives_name rfl) (plain rfl) rfl) rfl rfl rfl)

theorem HighFidelityHAVEQUICKRadio.parsesBy (n : Nat) (b : Int) :
    ParsesBy (run (n + 4)) I.HighFidelityHAVEQUICKRadio I.HighFidelityHAVEQUICKRadio HighFidelityHAVEQUICKRadio.fields [.inp, .int b] [] (Dis.HighFidelityHAVEQUICKRadio.parseInto b) :=
  parses_by (n := n + 3) (f := HighFidelityHAVEQUICKRadio.parse) (b := .int b) rfl (fun _ => rfl) <|
    par_check (standard_checks (n := n) (c := I.VariableTransmitterParametersRecord) (f := StandardVariableRecord.is_positive_int) rfl rfl rfl rfl) rfl rfl rfl rfl rfl <|
    par_read (fun _ _ => True) rfl rfl (plain rfl) (fun _ _ => rfl) (fun _ _ _ => trivial) fun _ =>
    par_call (Q' := fun _ => True) (NetId.parses (n + 2)) rfl (plain rfl) (fun _ => rfl) (fun _ _ => rfl) (fun _ _ _ => trivial) <|
    par_read (fun _ _ => True) rfl rfl (plain rfl) (fun _ _ => rfl) (fun _ _ _ => trivial) fun _ =>
    par_read (fun _ _ => True) rfl rfl (plain rfl) (fun _ _ => rfl) (fun _ _ _ => trivial) fun _ =>
    par_read (fun _ _ => True) rfl rfl (plain rfl) (fun _ _ => rfl) (fun _ _ _ => trivial) fun _ =>
    par_read (fun _ _ => True) rfl rfl (plain rfl) (fun _ _ => rfl) (fun _ _ _ => trivial) fun _ =>
    par_read (fun _ _ => True) rfl rfl (plain rfl) (fun _ _ => rfl) (fun _ _ _ => trivial) fun _ =>
    par_read (fun _ _ => True) rfl rfl (plain rfl) (fun _ _ => rfl) (fun _ _ _ => trivial) fun _ =>
    par_read (fun _ _ => True) rfl rfl (plain rfl) (fun _ _ => rfl) (fun _ _ _ => trivial) fun _ =>
    par_read (fun _ _ => True) rfl rfl (plain rfl) (fun _ _ => rfl) (fun _ _ _ => trivial) fun _ =>
    par_read (fun _ _ => True) rfl rfl (plain rfl) (fun _ _ => rfl) (fun _ _ _ => trivial) fun _ =>
    par_nil

theorem HighFidelityHAVEQUICKRadio.inj : ∀ {x y : Dis.HighFidelityHAVEQUICKRadio}, HighFidelityHAVEQUICKRadio.fields x = HighFidelityHAVEQUICKRadio.fields y → x = y := by
  rintro ⟨a0, a1, a2, a3, a4, a5, a6, a7, a8, a9, a10⟩ ⟨b0, b1, b2, b3, b4, b5, b6, b7, b8, b9, b10⟩ h
  obtain rfl : a0 = b0 := int_inj (congrArg (look I.padding1) h)
  obtain rfl : a1 = b1 := obj_inj NetId.inj (congrArg (look I.netId) h)
  obtain rfl : a2 = b2 := int_inj (congrArg (look I.todTransmitIndicator) h)
  obtain rfl : a3 = b3 := int_inj (congrArg (look I.padding2) h)
  obtain rfl : a4 = b4 := int_inj (congrArg (look I.todDelta) h)
  obtain rfl : a5 = b5 := int_inj (congrArg (look I.wod1) h)
  obtain rfl : a6 = b6 := int_inj (congrArg (look I.wod2) h)
  obtain rfl : a7 = b7 := int_inj (congrArg (look I.wod3) h)
  obtain rfl : a8 = b8 := int_inj (congrArg (look I.wod4) h)
  obtain rfl : a9 = b9 := int_inj (congrArg (look I.wod5) h)
  obtain rfl : a10 = b10 := int_inj (congrArg (look I.wod6) h)
  rfl

theorem DirectedEnergyDamage.makes (n : Nat) : Makes (run (n + 3)) I.DirectedEnergyDamage (DirectedEnergyDamage.enc Dis.DirectedEnergyDamage.init) :=
  makes_of (p := (I.DirectedEnergyDamage, DirectedEnergyDamage.__init__)) (by decide +kernel) rfl rfl rfl (by kernel_rfl) fun _ => by kernel_rfl

theorem DirectedEnergyDamage.sizes (n : Nat) (x : Dis.DirectedEnergyDamage) :
    Sizes (run (n + 4)) I.DirectedEnergyDamage (DirectedEnergyDamage.enc x) x.marshalledSize :=
  property_of (f := DirectedEnergyDamage.marshalledSize) rfl rfl rfl gives_int

theorem DirectedEnergyDamage.serializes (n : Nat) (x : Dis.DirectedEnergyDamage) :
    Serializes (run (n + 7)) I.DirectedEnergyDamage (DirectedEnergyDamage.enc x) x.serialize :=
  serializes_of (n := n + 6) (d := I.DirectedEnergyDamage) (f := DirectedEnergyDamage.serialize) rfl rfl <|
    ser_cons (ser_super (c := I.DirectedEnergyDamage) rfl (.inr ⟨rfl, rfl⟩) rfl rfl rfl (standard_serializes (n := n + 4) rfl rfl rfl (DirectedEnergyDamage.sizes n x))) <|
    ser_cons (ser_write (gives_attr (gives_name rfl) (plain rfl) rfl) rfl rfl rfl) <|
    ser_cons (ser_write (gives_recordLength (n := n + 5) rfl rfl (DirectedEnergyDamage.sizes (n + 1) x)) rfl rfl rfl) <|
    ser_cons (ser_write (gives_attr (gives_name rfl) (plain rfl) rfl) rfl rfl rfl) <|
    ser_cons (ser_call rfl (plain rfl) rfl rfl rfl (Vector3Float.serializes (n + 5) _)) <|
    ser_cons (ser_write (gives_attr (gives_name rfl) (plain rfl) rfl) rfl rfl rfl) <|
    ser_cons (ser_write (gives_attr (gives_name rfl) (plain rfl) rfl) rfl rfl rfl) <|
    ser_cons (ser_write (gives_attr (gives_name rfl) (plain rfl) rfl) rfl rfl rfl) <|
    ser_cons (ser_write (gives_attr (gives_name rfl) (plain rfl) rfl) rfl rfl rfl) <|
    ser_cons (ser_write (gives_attr (gives_name rfl) (plain rfl) rfl) rfl rfl rfl) <|
    ser_cons (ser_write (gives_attr (gives_name rfl) (plain rfl) rfl) rfl rfl rfl) <|
    ser_cons (ser_call rfl (plain rfl) rfl rfl rfl (EventIdentifier.serializes (n + 4) _)) <|
    ser_last (ser_write (gives_attr (gives_name rfl) (plain rfl) rfl) rfl rfl rfl)

theorem DirectedEnergyDamage.parsesBy (n : Nat) (b : Int) :
    ParsesBy (run (n + 4)) I.DirectedEnergyDamage I.DirectedEnergyDamage DirectedEnergyDamage.fields [.inp, .int b] [] (Dis.DirectedEnergyDamage.parseInto b) :=
  parses_by (n := n + 3) (f := DirectedEnergyDamage.parse) (b := .int b) rfl (fun _ => rfl) <|
    par_check (standard_checks (n := n) (c := I.DamageDescriptionRecord) (f := StandardVariableRecord.is_positive_int) rfl rfl rfl rfl) rfl rfl rfl rfl rfl <|
    par_read (fun _ _ => True) rfl rfl (plain rfl) (fun _ _ => rfl) (fun _ _ _ => trivial) fun _ =>
    par_call (Q' := fun _ => True) (Vector3Float.parses (n + 2)) rfl (plain rfl) (fun _ => rfl) (fun _ _ => rfl) (fun _ _ _ => trivial) <|
    par_read (fun _ _ => True) rfl rfl (plain rfl) (fun _ _ => rfl) (fun _ _ _ => trivial) fun _ =>
    par_read (fun _ _ => True) rfl rfl (plain rfl) (fun _ _ => rfl) (fun _ _ _ => trivial) fun _ =>
    par_read (fun _ _ => True) rfl rfl (plain rfl) (fun _ _ => rfl) (fun _ _ _ => trivial) fun _ =>
    par_read (fun _ _ => True) rfl rfl (plain rfl) (fun _ _ => rfl) (fun _ _ _ => trivial) fun _ =>
    par_read (fun _ _ => True) rfl rfl (plain rfl) (fun _ _ => rfl) (fun _ _ _ => trivial) fun _ =>
    par_read (fun _ _ => True) rfl rfl (plain rfl) (fun _ _ => rfl) (fun _ _ _ => trivial) fun _ =>
    par_call (Q' := fun _ => True) (EventIdentifier.parses (n + 1)) rfl (plain rfl) (fun _ => rfl) (fun _ _ => rfl) (fun _ _ _ => trivial) <|
    par_read (fun _ _ => True) rfl rfl (plain rfl) (fun _ _ => rfl) (fun _ _ _ => trivial) fun _ =>
    par_nil

theorem DirectedEnergyDamage.inj : ∀ {x y : Dis.DirectedEnergyDamage}, DirectedEnergyDamage.fields x = DirectedEnergyDamage.fields y → x = y := by
  rintro ⟨a0, a1, a2, a3, a4, a5, a6, a7, a8, a9⟩ ⟨b0, b1, b2, b3, b4, b5, b6, b7, b8, b9⟩ h
  obtain rfl : a0 = b0 := int_inj (congrArg (look I.padding) h)
  obtain rfl : a1 = b1 := obj_inj Vector3Float.inj (congrArg (look I.damageLocation) h)
  obtain rfl : a2 = b2 := float_inj (congrArg (look I.damageDiameter) h)
  obtain rfl : a3 = b3 := float_inj (congrArg (look I.temperature) h)
  obtain rfl : a4 = b4 := int_inj (congrArg (look I.componentIdentification) h)
  obtain rfl : a5 = b5 := int_inj (congrArg (look I.componentDamageStatus) h)
  obtain rfl : a6 = b6 := int_inj (congrArg (look I.componentVisualDamageStatus) h)
  obtain rfl : a7 = b7 := int_inj (congrArg (look I.componentVisualSmokeColor) h)
  obtain rfl : a8 = b8 := obj_inj EventIdentifier.inj (congrArg (look I.fireEventID) h)
  obtain rfl : a9 = b9 := int_inj (congrArg (look I.padding2) h)
  rfl

theorem DirectedEnergyAreaAimpoint.makes (n : Nat) : Makes (run (n + 3)) I.DirectedEnergyAreaAimpoint (DirectedEnergyAreaAimpoint.enc Dis.DirectedEnergyAreaAimpoint.init) :=
  makes_of (p := (I.DirectedEnergyAreaAimpoint, DirectedEnergyAreaAimpoint.__init__)) (by decide +kernel) rfl rfl rfl (by kernel_rfl) fun _ => by kernel_rfl

theorem DirectedEnergyAreaAimpoint.sizes (n : Nat) (x : Dis.DirectedEnergyAreaAimpoint) :
    Sizes (run (n + 4)) I.DirectedEnergyAreaAimpoint (DirectedEnergyAreaAimpoint.enc x) x.marshalledSize := fun io => by
  have a1 : ex (run (n + 3)) (.assign (.name I.size) (.int 8)) ⟨start I.DirectedEnergyAreaAimpoint (DirectedEnergyAreaAimpoint.enc x) [], io⟩
      = (.ok none, ⟨put I.size (.int 8) (start I.DirectedEnergyAreaAimpoint (DirectedEnergyAreaAimpoint.enc x) []), io⟩) := exec_var (gives_int _ start_env0)
  have hst1 := (start_env0 (d := I.DirectedEnergyAreaAimpoint) (v := DirectedEnergyAreaAimpoint.enc x) (io := io)).set I.size (.int 8) var_size io
  obtain ⟨L2, a2, hst2⟩ := exec_size (l := x.beamAntennaPatterns) (v := BeamAntennaPattern.fields)
    (e := .attr (.name I.self) I.beamAntennaPatterns)
    (fun a => BeamAntennaPattern.sizes (n + 2) a) var_size var_record rfl hst1
    (gives_attr (gives_name rfl) (plain rfl) rfl)
  obtain ⟨L3, a3, hst3⟩ := exec_size (l := x.directedEnergyTargetEnergyDepositions)
    (v := DirectedEnergyTargetEnergyDeposition.fields) (e := .attr (.name I.self) I.directedEnergyTargetEnergyDepositions)
    (fun a => DirectedEnergyTargetEnergyDeposition.sizes n a) var_size var_record rfl hst2
    (gives_attr (gives_name rfl) (plain rfl) rfl)
  have a4 : ex (run (n + 3)) (.ret (.name I.size)) ⟨L3, io⟩ = (.ok (some (.int x.marshalledSize)), ⟨L3, io⟩) := by
    unfold ex exec
    exact (M.bind_ok (gives_name (bs := (I.size, .int x.marshalledSize) :: start I.DirectedEnergyAreaAimpoint (DirectedEnergyAreaAimpoint.enc x) []) rfl _ hst3)).trans rfl
  have a5 : exs (run (n + 3)) [.ret (.name I.size)] ⟨L3, io⟩ = (.ok (some (.int x.marshalledSize)), ⟨L3, io⟩) := by
    unfold exs execs
    exact (M.bind_ok a4).trans rfl
  exact run_method (f := DirectedEnergyAreaAimpoint.marshalledSize) rfl rfl (exs_cons_ok a1 (exs_cons_ok a2 (exs_cons_ok a3 a5)))
    (hst3.1 I.self _ rfl)

theorem DirectedEnergyAreaAimpoint.serializesOf (n : Nat) (x : Dis.DirectedEnergyAreaAimpoint) (i : Int)
    (hi : ∀ n, Sizes (run (n + 4)) I.DirectedEnergyAreaAimpoint (DirectedEnergyAreaAimpoint.enc x) i) :
    Serializes (run (n + 7)) I.DirectedEnergyAreaAimpoint (DirectedEnergyAreaAimpoint.enc x) (do
      Dis.StandardVariableRecord.serialize Dis.DirectedEnergyAreaAimpoint.recordType i
      write_uint32 Dis.DirectedEnergyAreaAimpoint.recordType
      write_uint16 i
      write_uint16 x.padding
      write_uint16 x.beamAntennaPatterns.length
      write_uint16 x.directedEnergyTargetEnergyDepositions.length
      W.forEach x.beamAntennaPatterns Dis.BeamAntennaPattern.serialize
      W.forEach x.directedEnergyTargetEnergyDepositions Dis.DirectedEnergyTargetEnergyDeposition.serialize) :=
  serializes_of (n := n + 6) (d := I.DirectedEnergyAreaAimpoint) (f := DirectedEnergyAreaAimpoint.serialize) rfl rfl <|
    ser_cons (ser_super (c := I.DirectedEnergyAreaAimpoint) rfl (.inr ⟨rfl, rfl⟩) rfl rfl rfl (standard_serializes (n := n + 4) rfl rfl rfl (hi n))) <|
    ser_cons (ser_write (gives_attr (gives_name rfl) (plain rfl) rfl) rfl rfl rfl) <|
    ser_cons (ser_write (gives_recordLength (n := n + 5) rfl rfl (hi (n + 1))) rfl rfl rfl) <|
    ser_cons (ser_write (gives_attr (gives_name rfl) (plain rfl) rfl) rfl rfl rfl) <|
    ser_cons (ser_write (gives_property (gives_name rfl) rfl (property_of (n := n + 5) (d := I.DirectedEnergyAreaAimpoint) (f := DirectedEnergyAreaAimpoint.beamAntennaPatternCount) rfl rfl rfl (gives_len_map (gives_attr (gives_name rfl) (plain rfl) rfl)))) rfl rfl (packInt_int _ _)) <|
    ser_cons (ser_write (gives_property (gives_name rfl) rfl (property_of (n := n + 5) (d := I.DirectedEnergyAreaAimpoint) (f := DirectedEnergyAreaAimpoint.directedEnergyTargetEnergyDepositionCount) rfl rfl rfl (gives_len_map (gives_attr (gives_name rfl) (plain rfl) rfl)))) rfl rfl (packInt_int _ _)) <|
    ser_cons (ser_for (v := BeamAntennaPattern.enc) (gives_attr (gives_name rfl) (plain rfl) rfl) var_record rfl fun a _ =>
      ser_last (ser_var rfl rfl (BeamAntennaPattern.serializes (n + 4) a))) <|
    ser_last (ser_for (v := DirectedEnergyTargetEnergyDeposition.enc) (gives_attr (gives_name rfl) (plain rfl) rfl) var_record rfl fun a _ =>
      ser_last (ser_var rfl rfl (DirectedEnergyTargetEnergyDeposition.serializes (n + 3) a)))

theorem DirectedEnergyAreaAimpoint.serializes (n : Nat) (x : Dis.DirectedEnergyAreaAimpoint) :
    Serializes (run (n + 7)) I.DirectedEnergyAreaAimpoint (DirectedEnergyAreaAimpoint.enc x) x.serialize := by
  unfold Dis.DirectedEnergyAreaAimpoint.serialize
  exact DirectedEnergyAreaAimpoint.serializesOf n x _ fun n => DirectedEnergyAreaAimpoint.sizes n x

theorem DirectedEnergyAreaAimpoint.parsesBy (n : Nat) (b : Int) :
    ParsesBy (run (n + 4)) I.DirectedEnergyAreaAimpoint I.DirectedEnergyAreaAimpoint DirectedEnergyAreaAimpoint.fields [.inp, .int b] [] (Dis.DirectedEnergyAreaAimpoint.parseInto b) :=
  parses_by (n := n + 3) (f := DirectedEnergyAreaAimpoint.parse) (b := .int b) rfl (fun _ => rfl) <|
    par_check (standard_checks (n := n) (c := I.DamageDescriptionRecord) (f := StandardVariableRecord.is_positive_int) rfl rfl rfl rfl) rfl rfl rfl rfl rfl <|
    par_read (fun _ _ => True) rfl rfl (plain rfl) (fun _ _ => rfl) (fun _ _ _ => trivial) fun _ =>
    par_local rfl rfl var_beamAntennaPatternCount rfl fun _ =>
    par_local rfl rfl var_directedEnergyTargetEnergyDepositionCount rfl fun _ =>
    par_objs (hs := BeamAntennaPattern.fields) (fun _ _ => gives_range0 (gives_name rfl)) (by simp) (builds_of (BeamAntennaPattern.makes (n + 1)) (BeamAntennaPattern.parses n)) rfl (plain rfl) (fun _ => rfl) (fun _ _ => rfl) var__ rfl rfl var_record rfl rfl <|
    par_objs (hs := DirectedEnergyTargetEnergyDeposition.fields) (fun _ _ => gives_range0 (gives_name rfl)) (by simp) (builds_of (DirectedEnergyTargetEnergyDeposition.makes (n + 0)) (DirectedEnergyTargetEnergyDeposition.parses n)) rfl (plain rfl) (fun _ => rfl) (fun _ _ => rfl) var__ rfl rfl var_record rfl rfl <|
    par_nil

theorem DirectedEnergyAreaAimpoint.inj : ∀ {x y : Dis.DirectedEnergyAreaAimpoint}, DirectedEnergyAreaAimpoint.fields x = DirectedEnergyAreaAimpoint.fields y → x = y := by
  rintro ⟨a0, a1, a2⟩ ⟨b0, b1, b2⟩ h
  obtain rfl : a0 = b0 := int_inj (congrArg (look I.padding) h)
  obtain rfl : a1 = b1 := list_inj (enc_inj BeamAntennaPattern.inj) (congrArg (look I.beamAntennaPatterns) h)
  obtain rfl : a2 = b2 := list_inj (enc_inj DirectedEnergyTargetEnergyDeposition.inj) (congrArg (look I.directedEnergyTargetEnergyDepositions) h)
  rfl

theorem DirectedEnergyPrecisionAimpoint.makes (n : Nat) : Makes (run (n + 3)) I.DirectedEnergyPrecisionAimpoint (DirectedEnergyPrecisionAimpoint.enc Dis.DirectedEnergyPrecisionAimpoint.init) :=
  makes_of (p := (I.DirectedEnergyPrecisionAimpoint, DirectedEnergyPrecisionAimpoint.__init__)) (by decide +kernel) rfl rfl rfl (by kernel_rfl) fun _ => by kernel_rfl

theorem DirectedEnergyPrecisionAimpoint.sizes (n : Nat) (x : Dis.DirectedEnergyPrecisionAimpoint) :
    Sizes (run (n + 4)) I.DirectedEnergyPrecisionAimpoint (DirectedEnergyPrecisionAimpoint.enc x) x.marshalledSize :=
  property_of (f := DirectedEnergyPrecisionAimpoint.marshalledSize) rfl rfl rfl gives_int

theorem DirectedEnergyPrecisionAimpoint.serializes (n : Nat) (x : Dis.DirectedEnergyPrecisionAimpoint) :
    Serializes (run (n + 7)) I.DirectedEnergyPrecisionAimpoint (DirectedEnergyPrecisionAimpoint.enc x) x.serialize :=
  serializes_of (n := n + 6) (d := I.DirectedEnergyPrecisionAimpoint) (f := DirectedEnergyPrecisionAimpoint.serialize) rfl rfl <|
    ser_cons (ser_super (c := I.DirectedEnergyPrecisionAimpoint) rfl (.inr ⟨rfl, rfl⟩) rfl rfl rfl (standard_serializes (n := n + 4) rfl rfl rfl (DirectedEnergyPrecisionAimpoint.sizes n x))) <|
    ser_cons (ser_write (gives_attr (gives_name rfl) (plain rfl) rfl) rfl rfl rfl) <|
    ser_cons (ser_write (gives_recordLength (n := n + 5) rfl rfl (DirectedEnergyPrecisionAimpoint.sizes (n + 1) x)) rfl rfl rfl) <|
    ser_cons (ser_write (gives_attr (gives_name rfl) (plain rfl) rfl) rfl rfl rfl) <|
    ser_cons (ser_call rfl (plain rfl) rfl rfl rfl (WorldCoordinates.serializes (n + 5) _)) <|
    ser_cons (ser_call rfl (plain rfl) rfl rfl rfl (Vector3Float.serializes (n + 5) _)) <|
    ser_cons (ser_call rfl (plain rfl) rfl rfl rfl (Vector3Float.serializes (n + 5) _)) <|
    ser_cons (ser_call rfl (plain rfl) rfl rfl rfl (Vector3Float.serializes (n + 5) _)) <|
    ser_cons (ser_call rfl (plain rfl) rfl rfl rfl (EntityIdentifier.serializes (n + 4) _)) <|
    ser_cons (ser_write (gives_attr (gives_name rfl) (plain rfl) rfl) rfl rfl rfl) <|
    ser_cons (ser_write (gives_attr (gives_name rfl) (plain rfl) rfl) rfl rfl rfl) <|
    ser_cons (ser_write (gives_attr (gives_name rfl) (plain rfl) rfl) rfl rfl rfl) <|
    ser_cons (ser_write (gives_attr (gives_name rfl) (plain rfl) rfl) rfl rfl rfl) <|
    ser_cons (ser_write (gives_attr (gives_name rfl) (plain rfl) rfl) rfl rfl rfl) <|
    ser_cons (ser_write (gives_attr (gives_name rfl) (plain rfl) rfl) rfl rfl rfl) <|
    ser_last (ser_write (gives_attr (gives_name rfl) (plain rfl) rfl) rfl rfl rfl)

theorem DirectedEnergyPrecisionAimpoint.parsesBy (n : Nat) (b : Int) :
    ParsesBy (run (n + 4)) I.DirectedEnergyPrecisionAimpoint I.DirectedEnergyPrecisionAimpoint DirectedEnergyPrecisionAimpoint.fields [.inp, .int b] [] (Dis.DirectedEnergyPrecisionAimpoint.parseInto b) :=
  parses_by (n := n + 3) (f := DirectedEnergyPrecisionAimpoint.parse) (b := .int b) rfl (fun _ => rfl) <|
    par_check (standard_checks (n := n) (c := I.DamageDescriptionRecord) (f := StandardVariableRecord.is_positive_int) rfl rfl rfl rfl) rfl rfl rfl rfl rfl <|
    par_read (fun _ _ => True) rfl rfl (plain rfl) (fun _ _ => rfl) (fun _ _ _ => trivial) fun _ =>
    par_call (Q' := fun _ => True) (WorldCoordinates.parses (n + 2)) rfl (plain rfl) (fun _ => rfl) (fun _ _ => rfl) (fun _ _ _ => trivial) <|
    par_call (Q' := fun _ => True) (Vector3Float.parses (n + 2)) rfl (plain rfl) (fun _ => rfl) (fun _ _ => rfl) (fun _ _ _ => trivial) <|
    par_call (Q' := fun _ => True) (Vector3Float.parses (n + 2)) rfl (plain rfl) (fun _ => rfl) (fun _ _ => rfl) (fun _ _ _ => trivial) <|
    par_call (Q' := fun _ => True) (Vector3Float.parses (n + 2)) rfl (plain rfl) (fun _ => rfl) (fun _ _ => rfl) (fun _ _ _ => trivial) <|
    par_call (Q' := fun _ => True) (EntityIdentifier.parses (n + 1)) rfl (plain rfl) (fun _ => rfl) (fun _ _ => rfl) (fun _ _ _ => trivial) <|
    par_read (fun _ _ => True) rfl rfl (plain rfl) (fun _ _ => rfl) (fun _ _ _ => trivial) fun _ =>
    par_read (fun _ _ => True) rfl rfl (plain rfl) (fun _ _ => rfl) (fun _ _ _ => trivial) fun _ =>
    par_read (fun _ _ => True) rfl rfl (plain rfl) (fun _ _ => rfl) (fun _ _ _ => trivial) fun _ =>
    par_read (fun _ _ => True) rfl rfl (plain rfl) (fun _ _ => rfl) (fun _ _ _ => trivial) fun _ =>
    par_read (fun _ _ => True) rfl rfl (plain rfl) (fun _ _ => rfl) (fun _ _ _ => trivial) fun _ =>
    par_read (fun _ _ => True) rfl rfl (plain rfl) (fun _ _ => rfl) (fun _ _ _ => trivial) fun _ =>
    par_read (fun _ _ => True) rfl rfl (plain rfl) (fun _ _ => rfl) (fun _ _ _ => trivial) fun _ =>
    par_nil

theorem DirectedEnergyPrecisionAimpoint.inj : ∀ {x y : Dis.DirectedEnergyPrecisionAimpoint}, DirectedEnergyPrecisionAimpoint.fields x = DirectedEnergyPrecisionAimpoint.fields y → x = y := by
  rintro ⟨a0, a1, a2, a3, a4, a5, a6, a7, a8, a9, a10, a11, a12⟩ ⟨b0, b1, b2, b3, b4, b5, b6, b7, b8, b9, b10, b11, b12⟩ h
  obtain rfl : a0 = b0 := int_inj (congrArg (look I.padding) h)
  obtain rfl : a1 = b1 := obj_inj WorldCoordinates.inj (congrArg (look I.targetSpotLocation) h)
  obtain rfl : a2 = b2 := obj_inj Vector3Float.inj (congrArg (look I.targetSpotEntityLocation) h)
  obtain rfl : a3 = b3 := obj_inj Vector3Float.inj (congrArg (look I.targetSpotVelocity) h)
  obtain rfl : a4 = b4 := obj_inj Vector3Float.inj (congrArg (look I.targetSpotAcceleration) h)
  obtain rfl : a5 = b5 := obj_inj EntityIdentifier.inj (congrArg (look I.targetEntityID) h)
  obtain rfl : a6 = b6 := int_inj (congrArg (look I.targetComponentID) h)
  obtain rfl : a7 = b7 := int_inj (congrArg (look I.beamSpotType) h)
  obtain rfl : a8 = b8 := float_inj (congrArg (look I.beamSpotCrossSectionSemiMajorAxis) h)
  obtain rfl : a9 = b9 := float_inj (congrArg (look I.beamSpotCrossSectionSemiMinorAxis) h)
  obtain rfl : a10 = b10 := float_inj (congrArg (look I.beamSpotCrossSectionOrientationAngle) h)
  obtain rfl : a11 = b11 := float_inj (congrArg (look I.peakIrradiance) h)
  obtain rfl : a12 = b12 := int_inj (congrArg (look I.padding2) h)
  rfl

theorem UnknownStandardVariableRecord.sizes (n : Nat) (x : Dis.UnknownStandardVariableRecord) :
    Sizes (run (n + 4)) I.UnknownStandardVariableRecord (UnknownStandardVariableRecord.enc x) x.marshalledSize :=
  property_of (f := UnknownStandardVariableRecord.marshalledSize) rfl rfl rfl
    (gives_bin gives_int (gives_len_bytes (gives_attr (gives_name rfl) (plain rfl) rfl)) fun _ => rfl)

theorem UnknownStandardVariableRecord.serializesOf (n : Nat) (x : Dis.UnknownStandardVariableRecord) (i : Int)
    (hi : ∀ n, Sizes (run (n + 4)) I.UnknownStandardVariableRecord (UnknownStandardVariableRecord.enc x) i) :
    Serializes (run (n + 7)) I.UnknownStandardVariableRecord (UnknownStandardVariableRecord.enc x) (do
      Dis.StandardVariableRecord.serialize x.recordType i
      write_uint32 x.recordType
      write_uint16 i
      write_bytes x.data) :=
  serializes_of (n := n + 6) (d := I.UnknownStandardVariableRecord) (f := UnknownStandardVariableRecord.serialize) rfl rfl <|
    ser_cons (ser_super (c := I.UnknownStandardVariableRecord) rfl (.inr ⟨rfl, rfl⟩) rfl rfl rfl (standard_serializes (n := n + 4) rfl rfl rfl (hi n))) <|
    ser_cons (ser_write (gives_attr (gives_name rfl) (plain rfl) rfl) rfl rfl rfl) <|
    ser_cons (ser_write (gives_recordLength (n := n + 5) rfl rfl (hi (n + 1))) rfl rfl rfl) <|
    ser_last (ser_write (gives_attr (gives_name rfl) (plain rfl) rfl) rfl rfl rfl)

theorem UnknownStandardVariableRecord.serializes (n : Nat) (x : Dis.UnknownStandardVariableRecord) :
    Serializes (run (n + 7)) I.UnknownStandardVariableRecord (UnknownStandardVariableRecord.enc x) x.serialize := by
  unfold Dis.UnknownStandardVariableRecord.serialize
  exact UnknownStandardVariableRecord.serializesOf n x _ fun n => UnknownStandardVariableRecord.sizes n x

theorem UnknownStandardVariableRecord.parsesBy (n : Nat) (b : Int) :
    ParsesBy (run (n + 4)) I.UnknownStandardVariableRecord I.UnknownStandardVariableRecord UnknownStandardVariableRecord.fields [.inp, .int b] [] (Dis.UnknownStandardVariableRecord.parseInto b) :=
  parses_by (n := n + 3) (f := UnknownStandardVariableRecord.parse) (b := .int b) rfl (fun _ => rfl) <|
    par_check (standard_checks (n := n) (c := I.StandardVariableRecord) (f := StandardVariableRecord.is_positive_int) rfl rfl rfl rfl) rfl rfl rfl rfl rfl <|
    par_bytes (fun _ _ => True) (fun _ => gives_bin (gives_name rfl) gives_int fun _ => rfl) rfl (plain rfl) (fun _ _ => rfl) (fun _ _ _ => trivial) fun _ =>
    par_nil

theorem UnknownStandardVariableRecord.inj : ∀ {x y : Dis.UnknownStandardVariableRecord}, UnknownStandardVariableRecord.fields x = UnknownStandardVariableRecord.fields y → x = y := by
  rintro ⟨a0, a1⟩ ⟨b0, b1⟩ h
  obtain rfl : a0 = b0 := int_inj (congrArg (look I.recordType) h)
  obtain rfl : a1 = b1 := bytes_inj (congrArg (look I.data) h)
  rfl

end Dis.Src
