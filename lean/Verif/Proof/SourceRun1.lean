import Verif.Proof.SourceVars
import Verif.Source.Encode1

/-!
# The classes do what their syntax trees say, part 1

Written by `tools/gensourceproof.py`.
-/

set_option linter.unusedVariables false
set_option linter.unusedSimpArgs false

namespace Dis.Src

theorem SimulationAddress.serializes (n : Nat) (x : Dis.SimulationAddress) :
    Serializes (run (n + 1)) I.SimulationAddress (SimulationAddress.enc x) x.serialize :=
  serializes_of (n := n + 0) (d := I.SimulationAddress) (f := SimulationAddress.serialize) rfl rfl <|
    ser_cons (ser_write (gives_attr (gives_name rfl) (plain rfl) rfl) rfl rfl rfl) <|
    ser_last <| ser_write (gives_attr (gives_name rfl) (plain rfl) rfl) rfl rfl rfl

theorem SimulationAddress.makes (n : Nat) : Makes (run (n + 1)) I.SimulationAddress (SimulationAddress.enc Dis.SimulationAddress.init) :=
  makes_of (p := (I.SimulationAddress, SimulationAddress.__init__)) (by decide +kernel) rfl rfl rfl (by kernel_rfl) fun _ => by kernel_rfl

theorem SimulationAddress.parses (n : Nat) :
    Parses (run (n + 1)) I.SimulationAddress I.SimulationAddress SimulationAddress.fields Dis.SimulationAddress.parseInto :=
  parses_of (n := n + 0) (d := I.SimulationAddress) (f := SimulationAddress.parse) rfl rfl <|
    par_read (fun _ _ => True) rfl rfl (plain rfl) (fun _ _ => rfl) (fun _ _ _ => trivial) fun _ =>
    par_read (fun _ _ => True) rfl rfl (plain rfl) (fun _ _ => rfl) (fun _ _ _ => trivial) fun _ =>
    par_nil

theorem SimulationAddress.builds (n : Nat) : Builds (run (n + 1)) I.SimulationAddress SimulationAddress.fields Dis.SimulationAddress.init Dis.SimulationAddress.parseInto :=
  builds_of (SimulationAddress.makes (n + 0)) (SimulationAddress.parses (n + 0))

theorem EntityIdentifier.serializes (n : Nat) (x : Dis.EntityIdentifier) :
    Serializes (run (n + 2)) I.EntityIdentifier (EntityIdentifier.enc x) x.serialize :=
  serializes_of (n := n + 1) (d := I.EntityIdentifier) (f := EntityIdentifier.serialize) rfl rfl <|
    ser_cons (ser_call rfl (plain rfl) rfl rfl rfl (SimulationAddress.serializes (n + 0) _)) <|
    ser_last <| ser_write (gives_attr (gives_name rfl) (plain rfl) rfl) rfl rfl rfl

theorem EntityIdentifier.makes (n : Nat) : Makes (run (n + 2)) I.EntityIdentifier (EntityIdentifier.enc Dis.EntityIdentifier.init) :=
  makes_of (p := (I.EntityIdentifier, EntityIdentifier.__init__)) (by decide +kernel) rfl rfl rfl (by kernel_rfl) fun _ => by kernel_rfl

theorem EntityIdentifier.parses (n : Nat) :
    Parses (run (n + 2)) I.EntityIdentifier I.EntityIdentifier EntityIdentifier.fields Dis.EntityIdentifier.parseInto :=
  parses_of (n := n + 1) (d := I.EntityIdentifier) (f := EntityIdentifier.parse) rfl rfl <|
    par_call (Q' := fun _ => True) (SimulationAddress.parses (n + 0)) rfl (plain rfl) (fun _ => rfl) (fun _ _ => rfl) (fun _ _ _ => trivial) <|
    par_read (fun _ _ => True) rfl rfl (plain rfl) (fun _ _ => rfl) (fun _ _ _ => trivial) fun _ =>
    par_nil

theorem EntityIdentifier.builds (n : Nat) : Builds (run (n + 2)) I.EntityIdentifier EntityIdentifier.fields Dis.EntityIdentifier.init Dis.EntityIdentifier.parseInto :=
  builds_of (EntityIdentifier.makes (n + 0)) (EntityIdentifier.parses (n + 0))

theorem EulerAngles.serializes (n : Nat) (x : Dis.EulerAngles) :
    Serializes (run (n + 1)) I.EulerAngles (EulerAngles.enc x) x.serialize :=
  serializes_of (n := n + 0) (d := I.EulerAngles) (f := EulerAngles.serialize) rfl rfl <|
    ser_cons (ser_write (gives_attr (gives_name rfl) (plain rfl) rfl) rfl rfl rfl) <|
    ser_cons (ser_write (gives_attr (gives_name rfl) (plain rfl) rfl) rfl rfl rfl) <|
    ser_last <| ser_write (gives_attr (gives_name rfl) (plain rfl) rfl) rfl rfl rfl

theorem EulerAngles.makes (n : Nat) : Makes (run (n + 1)) I.EulerAngles (EulerAngles.enc Dis.EulerAngles.init) :=
  makes_of (p := (I.EulerAngles, EulerAngles.__init__)) (by decide +kernel) rfl rfl rfl (by kernel_rfl) fun _ => by kernel_rfl

theorem EulerAngles.parses (n : Nat) :
    Parses (run (n + 1)) I.EulerAngles I.EulerAngles EulerAngles.fields Dis.EulerAngles.parseInto :=
  parses_of (n := n + 0) (d := I.EulerAngles) (f := EulerAngles.parse) rfl rfl <|
    par_read (fun _ _ => True) rfl rfl (plain rfl) (fun _ _ => rfl) (fun _ _ _ => trivial) fun _ =>
    par_read (fun _ _ => True) rfl rfl (plain rfl) (fun _ _ => rfl) (fun _ _ _ => trivial) fun _ =>
    par_read (fun _ _ => True) rfl rfl (plain rfl) (fun _ _ => rfl) (fun _ _ _ => trivial) fun _ =>
    par_nil

theorem EulerAngles.builds (n : Nat) : Builds (run (n + 1)) I.EulerAngles EulerAngles.fields Dis.EulerAngles.init Dis.EulerAngles.parseInto :=
  builds_of (EulerAngles.makes (n + 0)) (EulerAngles.parses (n + 0))

theorem EventIdentifier.serializes (n : Nat) (x : Dis.EventIdentifier) :
    Serializes (run (n + 2)) I.EventIdentifier (EventIdentifier.enc x) x.serialize :=
  serializes_of (n := n + 1) (d := I.EventIdentifier) (f := EventIdentifier.serialize) rfl rfl <|
    ser_cons (ser_call rfl (plain rfl) rfl rfl rfl (SimulationAddress.serializes (n + 0) _)) <|
    ser_last <| ser_write (gives_attr (gives_name rfl) (plain rfl) rfl) rfl rfl rfl

theorem EventIdentifier.makes (n : Nat) : Makes (run (n + 2)) I.EventIdentifier (EventIdentifier.enc Dis.EventIdentifier.init) :=
  makes_of (p := (I.EventIdentifier, EventIdentifier.__init__)) (by decide +kernel) rfl rfl rfl (by kernel_rfl) fun _ => by kernel_rfl

theorem EventIdentifier.parses (n : Nat) :
    Parses (run (n + 2)) I.EventIdentifier I.EventIdentifier EventIdentifier.fields Dis.EventIdentifier.parseInto :=
  parses_of (n := n + 1) (d := I.EventIdentifier) (f := EventIdentifier.parse) rfl rfl <|
    par_call (Q' := fun _ => True) (SimulationAddress.parses (n + 0)) rfl (plain rfl) (fun _ => rfl) (fun _ _ => rfl) (fun _ _ _ => trivial) <|
    par_read (fun _ _ => True) rfl rfl (plain rfl) (fun _ _ => rfl) (fun _ _ _ => trivial) fun _ =>
    par_nil

theorem EventIdentifier.builds (n : Nat) : Builds (run (n + 2)) I.EventIdentifier EventIdentifier.fields Dis.EventIdentifier.init Dis.EventIdentifier.parseInto :=
  builds_of (EventIdentifier.makes (n + 0)) (EventIdentifier.parses (n + 0))

theorem Vector3Float.serializes (n : Nat) (x : Dis.Vector3Float) :
    Serializes (run (n + 1)) I.Vector3Float (Vector3Float.enc x) x.serialize :=
  serializes_of (n := n + 0) (d := I.Vector3Float) (f := Vector3Float.serialize) rfl rfl <|
    ser_cons (ser_write (gives_attr (gives_name rfl) (plain rfl) rfl) rfl rfl rfl) <|
    ser_cons (ser_write (gives_attr (gives_name rfl) (plain rfl) rfl) rfl rfl rfl) <|
    ser_last <| ser_write (gives_attr (gives_name rfl) (plain rfl) rfl) rfl rfl rfl

theorem Vector3Float.makes (n : Nat) : Makes (run (n + 1)) I.Vector3Float (Vector3Float.enc Dis.Vector3Float.init) :=
  makes_of (p := (I.Vector3Float, Vector3Float.__init__)) (by decide +kernel) rfl rfl rfl (by kernel_rfl) fun _ => by kernel_rfl

theorem Vector3Float.parses (n : Nat) :
    Parses (run (n + 1)) I.Vector3Float I.Vector3Float Vector3Float.fields Dis.Vector3Float.parseInto :=
  parses_of (n := n + 0) (d := I.Vector3Float) (f := Vector3Float.parse) rfl rfl <|
    par_read (fun _ _ => True) rfl rfl (plain rfl) (fun _ _ => rfl) (fun _ _ _ => trivial) fun _ =>
    par_read (fun _ _ => True) rfl rfl (plain rfl) (fun _ _ => rfl) (fun _ _ _ => trivial) fun _ =>
    par_read (fun _ _ => True) rfl rfl (plain rfl) (fun _ _ => rfl) (fun _ _ _ => trivial) fun _ =>
    par_nil

theorem Vector3Float.builds (n : Nat) : Builds (run (n + 1)) I.Vector3Float Vector3Float.fields Dis.Vector3Float.init Dis.Vector3Float.parseInto :=
  builds_of (Vector3Float.makes (n + 0)) (Vector3Float.parses (n + 0))

theorem WorldCoordinates.serializes (n : Nat) (x : Dis.WorldCoordinates) :
    Serializes (run (n + 1)) I.WorldCoordinates (WorldCoordinates.enc x) x.serialize :=
  serializes_of (n := n + 0) (d := I.WorldCoordinates) (f := WorldCoordinates.serialize) rfl rfl <|
    ser_cons (ser_write (gives_attr (gives_name rfl) (plain rfl) rfl) rfl rfl rfl) <|
    ser_cons (ser_write (gives_attr (gives_name rfl) (plain rfl) rfl) rfl rfl rfl) <|
    ser_last <| ser_write (gives_attr (gives_name rfl) (plain rfl) rfl) rfl rfl rfl

theorem WorldCoordinates.makes (n : Nat) : Makes (run (n + 1)) I.WorldCoordinates (WorldCoordinates.enc Dis.WorldCoordinates.init) :=
  makes_of (p := (I.WorldCoordinates, WorldCoordinates.__init__)) (by decide +kernel) rfl rfl rfl (by kernel_rfl) fun _ => by kernel_rfl

theorem WorldCoordinates.parses (n : Nat) :
    Parses (run (n + 1)) I.WorldCoordinates I.WorldCoordinates WorldCoordinates.fields Dis.WorldCoordinates.parseInto :=
  parses_of (n := n + 0) (d := I.WorldCoordinates) (f := WorldCoordinates.parse) rfl rfl <|
    par_read (fun _ _ => True) rfl rfl (plain rfl) (fun _ _ => rfl) (fun _ _ _ => trivial) fun _ =>
    par_read (fun _ _ => True) rfl rfl (plain rfl) (fun _ _ => rfl) (fun _ _ _ => trivial) fun _ =>
    par_read (fun _ _ => True) rfl rfl (plain rfl) (fun _ _ => rfl) (fun _ _ _ => trivial) fun _ =>
    par_nil

theorem WorldCoordinates.builds (n : Nat) : Builds (run (n + 1)) I.WorldCoordinates WorldCoordinates.fields Dis.WorldCoordinates.init Dis.WorldCoordinates.parseInto :=
  builds_of (WorldCoordinates.makes (n + 0)) (WorldCoordinates.parses (n + 0))

theorem DataQueryDatumSpecification.serializes (n : Nat) (x : Dis.DataQueryDatumSpecification) :
    Serializes (run (n + 2)) I.DataQueryDatumSpecification (DataQueryDatumSpecification.enc x) x.serialize :=
  serializes_of (n := n + 1) (d := I.DataQueryDatumSpecification) (f := DataQueryDatumSpecification.serialize) rfl rfl <|
    ser_cons (ser_write (gives_property (gives_name rfl) (by decide +kernel)
        (fun io => property_of (n := n + 0) (d := I.DataQueryDatumSpecification) (f := DataQueryDatumSpecification.numberOfFixedDatumIDs) rfl rfl rfl (gives_len_map (gives_attr (gives_name rfl) (by decide +kernel : isProperty program I.DataQueryDatumSpecification I.fixedDatumIDs = false) rfl)) io)) rfl rfl (packInt_int _ _)) <|
    ser_cons (ser_write (gives_property (gives_name rfl) (by decide +kernel)
        (fun io => property_of (n := n + 0) (d := I.DataQueryDatumSpecification) (f := DataQueryDatumSpecification.numberOfVariableDatumIDs) rfl rfl rfl (gives_len_map (gives_attr (gives_name rfl) (by decide +kernel : isProperty program I.DataQueryDatumSpecification I.variableDatumIDs = false) rfl)) io)) rfl rfl (packInt_int _ _)) <|
    ser_cons (ser_for (gives_attr (gives_name rfl) (by decide +kernel : isProperty program I.DataQueryDatumSpecification I.fixedDatumIDs = false) rfl) var_datumID rfl fun a _ =>
      ser_last (ser_write (gives_name rfl) rfl rfl rfl)) <|
    ser_last <| ser_for (gives_attr (gives_name rfl) (by decide +kernel : isProperty program I.DataQueryDatumSpecification I.variableDatumIDs = false) rfl) var_datumID rfl fun a _ =>
      ser_last (ser_write (gives_name rfl) rfl rfl rfl)

theorem DataQueryDatumSpecification.makes (n : Nat) : Makes (run (n + 1)) I.DataQueryDatumSpecification (DataQueryDatumSpecification.enc Dis.DataQueryDatumSpecification.init) :=
  makes_of (p := (I.DataQueryDatumSpecification, DataQueryDatumSpecification.__init__)) (by decide +kernel) rfl rfl rfl (by kernel_rfl) fun _ => by kernel_rfl

theorem DataQueryDatumSpecification.parses (n : Nat) :
    Parses (run (n + 1)) I.DataQueryDatumSpecification I.DataQueryDatumSpecification DataQueryDatumSpecification.fields Dis.DataQueryDatumSpecification.parseInto :=
  parses_of (n := n + 0) (d := I.DataQueryDatumSpecification) (f := DataQueryDatumSpecification.parse) rfl rfl <|
    par_local rfl rfl var_numberOfFixedDatumIDs rfl fun _ =>
    par_local rfl rfl var_numberOfVariableDatumIDs rfl fun _ =>
    par_reads (Q' := fun _ => True) (fun _ _ => gives_range0 (gives_name rfl)) (by simp) rfl rfl (by decide +kernel : isProperty program I.DataQueryDatumSpecification I.fixedDatumIDs = false) (fun _ => rfl)
      (fun _ _ => rfl) (fun _ _ _ => trivial) var_idx rfl rfl var_datumID rfl rfl (fun _ _ => trivial) <|
    par_reads (Q' := fun _ => True) (fun _ _ => gives_range0 (gives_name rfl)) (by simp) rfl rfl (by decide +kernel : isProperty program I.DataQueryDatumSpecification I.variableDatumIDs = false) (fun _ => rfl)
      (fun _ _ => rfl) (fun _ _ _ => trivial) var_idx rfl rfl var_datumID rfl rfl (fun _ _ => trivial) <|
    par_nil

theorem DataQueryDatumSpecification.builds (n : Nat) : Builds (run (n + 1)) I.DataQueryDatumSpecification DataQueryDatumSpecification.fields Dis.DataQueryDatumSpecification.init Dis.DataQueryDatumSpecification.parseInto :=
  builds_of (DataQueryDatumSpecification.makes (n + 0)) (DataQueryDatumSpecification.parses (n + 0))

theorem RadioIdentifier.serializes (n : Nat) (x : Dis.RadioIdentifier) :
    Serializes (run (n + 1)) I.RadioIdentifier (RadioIdentifier.enc x) x.serialize :=
  serializes_of (n := n + 0) (d := I.RadioIdentifier) (f := RadioIdentifier.serialize) rfl rfl <|
    ser_cons (ser_write (gives_attr (gives_name rfl) (plain rfl) rfl) rfl rfl rfl) <|
    ser_cons (ser_write (gives_attr (gives_name rfl) (plain rfl) rfl) rfl rfl rfl) <|
    ser_cons (ser_write (gives_attr (gives_name rfl) (plain rfl) rfl) rfl rfl rfl) <|
    ser_last <| ser_write (gives_attr (gives_name rfl) (plain rfl) rfl) rfl rfl rfl

theorem RadioIdentifier.makes (n : Nat) : Makes (run (n + 1)) I.RadioIdentifier (RadioIdentifier.enc Dis.RadioIdentifier.init) :=
  makes_of (p := (I.RadioIdentifier, RadioIdentifier.__init__)) (by decide +kernel) rfl rfl rfl (by kernel_rfl) fun _ => by kernel_rfl

theorem RadioIdentifier.parses (n : Nat) :
    Parses (run (n + 1)) I.RadioIdentifier I.RadioIdentifier RadioIdentifier.fields Dis.RadioIdentifier.parseInto :=
  parses_of (n := n + 0) (d := I.RadioIdentifier) (f := RadioIdentifier.parse) rfl rfl <|
    par_read (fun _ _ => True) rfl rfl (plain rfl) (fun _ _ => rfl) (fun _ _ _ => trivial) fun _ =>
    par_read (fun _ _ => True) rfl rfl (plain rfl) (fun _ _ => rfl) (fun _ _ _ => trivial) fun _ =>
    par_read (fun _ _ => True) rfl rfl (plain rfl) (fun _ _ => rfl) (fun _ _ _ => trivial) fun _ =>
    par_read (fun _ _ => True) rfl rfl (plain rfl) (fun _ _ => rfl) (fun _ _ _ => trivial) fun _ =>
    par_nil

theorem RadioIdentifier.builds (n : Nat) : Builds (run (n + 1)) I.RadioIdentifier RadioIdentifier.fields Dis.RadioIdentifier.init Dis.RadioIdentifier.parseInto :=
  builds_of (RadioIdentifier.makes (n + 0)) (RadioIdentifier.parses (n + 0))

theorem RequestID.serializes (n : Nat) (x : Dis.RequestID) :
    Serializes (run (n + 1)) I.RequestID (RequestID.enc x) x.serialize :=
  serializes_of (n := n + 0) (d := I.RequestID) (f := RequestID.serialize) rfl rfl <|
    ser_last <| ser_write (gives_attr (gives_name rfl) (plain rfl) rfl) rfl rfl rfl

theorem RequestID.makes (n : Nat) : Makes (run (n + 1)) I.RequestID (RequestID.enc Dis.RequestID.init) :=
  makes_of (p := (I.RequestID, RequestID.__init__)) (by decide +kernel) rfl rfl rfl (by kernel_rfl) fun _ => by kernel_rfl

theorem RequestID.parses (n : Nat) :
    Parses (run (n + 1)) I.RequestID I.RequestID RequestID.fields Dis.RequestID.parseInto :=
  parses_of (n := n + 0) (d := I.RequestID) (f := RequestID.parse) rfl rfl <|
    par_read (fun _ _ => True) rfl rfl (plain rfl) (fun _ _ => rfl) (fun _ _ _ => trivial) fun _ =>
    par_nil

theorem RequestID.builds (n : Nat) : Builds (run (n + 1)) I.RequestID RequestID.fields Dis.RequestID.init Dis.RequestID.parseInto :=
  builds_of (RequestID.makes (n + 0)) (RequestID.parses (n + 0))

theorem IFFData.serializes (n : Nat) (x : Dis.IFFData) :
    Serializes (run (n + 1)) I.IFFData (IFFData.enc x) x.serialize :=
  serializes_of (n := n + 0) (d := I.IFFData) (f := IFFData.serialize) rfl rfl <|
    ser_cons (ser_write (gives_attr (gives_name rfl) (plain rfl) rfl) rfl rfl rfl) <|
    ser_cons (ser_write (gives_len_map (gives_attr (gives_name rfl) (plain rfl) rfl)) rfl rfl (packInt_int _ _)) <|
    ser_last <| ser_for (gives_attr (gives_name rfl) (plain rfl) rfl) var_anObj rfl fun a _ =>
      ser_last (ser_write (gives_name rfl) rfl rfl rfl)

theorem IFFData.makes (n : Nat) : Makes (run (n + 1)) I.IFFData (IFFData.enc Dis.IFFData.init) :=
  makes_of (p := (I.IFFData, IFFData.__init__)) (by decide +kernel) rfl rfl rfl (by kernel_rfl) fun _ => by kernel_rfl

theorem IFFData.parses (n : Nat) :
    Parses (run (n + 1)) I.IFFData I.IFFData IFFData.fields Dis.IFFData.parseInto :=
  parses_of (n := n + 0) (d := I.IFFData) (f := IFFData.parse) rfl rfl <|
    par_read (fun _ _ => True) rfl rfl (plain rfl) (fun _ _ => rfl) (fun _ _ _ => trivial) fun _ =>
    par_read (fun v (x : Dis.IFFData) => x.recordLength = v) rfl rfl (by decide +kernel : isProperty program I.IFFData I.recordLength = false) (fun _ _ => rfl) (fun _ _ _ => rfl) fun recordLength =>
    par_reads (Q' := fun _ => True) (fun (x : Dis.IFFData) (h : x.recordLength = recordLength) => gives_range0 (gives_bin (gives_attr_eq (gives_name rfl) (by decide +kernel : isProperty program I.IFFData I.recordLength = false) rfl h) gives_int fun _ => rfl)) (by simp) rfl rfl (plain rfl) (fun _ => rfl)
      (fun _ _ => rfl) (fun _ _ h => h) var_idx rfl rfl var_val rfl rfl (fun _ _ => trivial) <|
    par_nil

theorem IFFData.builds (n : Nat) : Builds (run (n + 1)) I.IFFData IFFData.fields Dis.IFFData.init Dis.IFFData.parseInto :=
  builds_of (IFFData.makes (n + 0)) (IFFData.parses (n + 0))

theorem EntityType.serializes (n : Nat) (x : Dis.EntityType) :
    Serializes (run (n + 1)) I.EntityType (EntityType.enc x) x.serialize :=
  serializes_of (n := n + 0) (d := I.EntityType) (f := EntityType.serialize) rfl rfl <|
    ser_cons (ser_write (gives_attr (gives_name rfl) (plain rfl) rfl) rfl rfl rfl) <|
    ser_cons (ser_write (gives_attr (gives_name rfl) (plain rfl) rfl) rfl rfl rfl) <|
    ser_cons (ser_write (gives_attr (gives_name rfl) (plain rfl) rfl) rfl rfl rfl) <|
    ser_cons (ser_write (gives_attr (gives_name rfl) (plain rfl) rfl) rfl rfl rfl) <|
    ser_cons (ser_write (gives_attr (gives_name rfl) (plain rfl) rfl) rfl rfl rfl) <|
    ser_cons (ser_write (gives_attr (gives_name rfl) (plain rfl) rfl) rfl rfl rfl) <|
    ser_last <| ser_write (gives_attr (gives_name rfl) (plain rfl) rfl) rfl rfl rfl

theorem EntityType.makes (n : Nat) : Makes (run (n + 1)) I.EntityType (EntityType.enc Dis.EntityType.init) :=
  makes_of (p := (I.EntityType, EntityType.__init__)) (by decide +kernel) rfl rfl rfl (by kernel_rfl) fun _ => by kernel_rfl

theorem EntityType.parses (n : Nat) :
    Parses (run (n + 1)) I.EntityType I.EntityType EntityType.fields Dis.EntityType.parseInto :=
  parses_of (n := n + 0) (d := I.EntityType) (f := EntityType.parse) rfl rfl <|
    par_read (fun _ _ => True) rfl rfl (plain rfl) (fun _ _ => rfl) (fun _ _ _ => trivial) fun _ =>
    par_read (fun _ _ => True) rfl rfl (plain rfl) (fun _ _ => rfl) (fun _ _ _ => trivial) fun _ =>
    par_read (fun _ _ => True) rfl rfl (plain rfl) (fun _ _ => rfl) (fun _ _ _ => trivial) fun _ =>
    par_read (fun _ _ => True) rfl rfl (plain rfl) (fun _ _ => rfl) (fun _ _ _ => trivial) fun _ =>
    par_read (fun _ _ => True) rfl rfl (plain rfl) (fun _ _ => rfl) (fun _ _ _ => trivial) fun _ =>
    par_read (fun _ _ => True) rfl rfl (plain rfl) (fun _ _ => rfl) (fun _ _ _ => trivial) fun _ =>
    par_read (fun _ _ => True) rfl rfl (plain rfl) (fun _ _ => rfl) (fun _ _ _ => trivial) fun _ =>
    par_nil

theorem EntityType.builds (n : Nat) : Builds (run (n + 1)) I.EntityType EntityType.fields Dis.EntityType.init Dis.EntityType.parseInto :=
  builds_of (EntityType.makes (n + 0)) (EntityType.parses (n + 0))

theorem MunitionDescriptor.serializes (n : Nat) (x : Dis.MunitionDescriptor) :
    Serializes (run (n + 2)) I.MunitionDescriptor (MunitionDescriptor.enc x) x.serialize :=
  serializes_of (n := n + 1) (d := I.MunitionDescriptor) (f := MunitionDescriptor.serialize) rfl rfl <|
    ser_cons (ser_call rfl (plain rfl) rfl rfl rfl (EntityType.serializes (n + 0) _)) <|
    ser_cons (ser_write (gives_attr (gives_name rfl) (plain rfl) rfl) rfl rfl rfl) <|
    ser_cons (ser_write (gives_attr (gives_name rfl) (plain rfl) rfl) rfl rfl rfl) <|
    ser_cons (ser_write (gives_attr (gives_name rfl) (plain rfl) rfl) rfl rfl rfl) <|
    ser_last <| ser_write (gives_attr (gives_name rfl) (plain rfl) rfl) rfl rfl rfl

theorem MunitionDescriptor.makes (n : Nat) : Makes (run (n + 2)) I.MunitionDescriptor (MunitionDescriptor.enc Dis.MunitionDescriptor.init) :=
  makes_of (p := (I.MunitionDescriptor, MunitionDescriptor.__init__)) (by decide +kernel) rfl rfl rfl (by kernel_rfl) fun _ => by kernel_rfl

theorem MunitionDescriptor.parses (n : Nat) :
    Parses (run (n + 2)) I.MunitionDescriptor I.MunitionDescriptor MunitionDescriptor.fields Dis.MunitionDescriptor.parseInto :=
  parses_of (n := n + 1) (d := I.MunitionDescriptor) (f := MunitionDescriptor.parse) rfl rfl <|
    par_call (Q' := fun _ => True) (EntityType.parses (n + 0)) rfl (plain rfl) (fun _ => rfl) (fun _ _ => rfl) (fun _ _ _ => trivial) <|
    par_read (fun _ _ => True) rfl rfl (plain rfl) (fun _ _ => rfl) (fun _ _ _ => trivial) fun _ =>
    par_read (fun _ _ => True) rfl rfl (plain rfl) (fun _ _ => rfl) (fun _ _ _ => trivial) fun _ =>
    par_read (fun _ _ => True) rfl rfl (plain rfl) (fun _ _ => rfl) (fun _ _ _ => trivial) fun _ =>
    par_read (fun _ _ => True) rfl rfl (plain rfl) (fun _ _ => rfl) (fun _ _ _ => trivial) fun _ =>
    par_nil

theorem MunitionDescriptor.builds (n : Nat) : Builds (run (n + 2)) I.MunitionDescriptor MunitionDescriptor.fields Dis.MunitionDescriptor.init Dis.MunitionDescriptor.parseInto :=
  builds_of (MunitionDescriptor.makes (n + 0)) (MunitionDescriptor.parses (n + 0))

theorem MinefieldSensorType.serializes (n : Nat) (x : Dis.MinefieldSensorType) :
    Serializes (run (n + 1)) I.MinefieldSensorType (MinefieldSensorType.enc x) x.serialize :=
  serializes_of (n := n + 0) (d := I.MinefieldSensorType) (f := MinefieldSensorType.serialize) rfl rfl <|
    ser_last <| ser_write (gives_attr (gives_name rfl) (plain rfl) rfl) rfl rfl rfl

theorem MinefieldSensorType.makes (n : Nat) : Makes (run (n + 1)) I.MinefieldSensorType (MinefieldSensorType.enc Dis.MinefieldSensorType.init) :=
  makes_of (p := (I.MinefieldSensorType, MinefieldSensorType.__init__)) (by decide +kernel) rfl rfl rfl (by kernel_rfl) fun _ => by kernel_rfl

theorem MinefieldSensorType.parses (n : Nat) :
    Parses (run (n + 1)) I.MinefieldSensorType I.MinefieldSensorType MinefieldSensorType.fields Dis.MinefieldSensorType.parseInto :=
  parses_of (n := n + 0) (d := I.MinefieldSensorType) (f := MinefieldSensorType.parse) rfl rfl <|
    par_read (fun _ _ => True) rfl rfl (plain rfl) (fun _ _ => rfl) (fun _ _ _ => trivial) fun _ =>
    par_nil

theorem MinefieldSensorType.builds (n : Nat) : Builds (run (n + 1)) I.MinefieldSensorType MinefieldSensorType.fields Dis.MinefieldSensorType.init Dis.MinefieldSensorType.parseInto :=
  builds_of (MinefieldSensorType.makes (n + 0)) (MinefieldSensorType.parses (n + 0))

theorem GroupID.serializes (n : Nat) (x : Dis.GroupID) :
    Serializes (run (n + 2)) I.GroupID (GroupID.enc x) x.serialize :=
  serializes_of (n := n + 1) (d := I.GroupID) (f := GroupID.serialize) rfl rfl <|
    ser_cons (ser_call rfl (plain rfl) rfl rfl rfl (SimulationAddress.serializes (n + 0) _)) <|
    ser_last <| ser_write (gives_attr (gives_name rfl) (plain rfl) rfl) rfl rfl rfl

theorem GroupID.makes (n : Nat) : Makes (run (n + 2)) I.GroupID (GroupID.enc Dis.GroupID.init) :=
  makes_of (p := (I.GroupID, GroupID.__init__)) (by decide +kernel) rfl rfl rfl (by kernel_rfl) fun _ => by kernel_rfl

theorem GroupID.parses (n : Nat) :
    Parses (run (n + 2)) I.GroupID I.GroupID GroupID.fields Dis.GroupID.parseInto :=
  parses_of (n := n + 1) (d := I.GroupID) (f := GroupID.parse) rfl rfl <|
    par_call (Q' := fun _ => True) (SimulationAddress.parses (n + 0)) rfl (plain rfl) (fun _ => rfl) (fun _ _ => rfl) (fun _ _ _ => trivial) <|
    par_read (fun _ _ => True) rfl rfl (plain rfl) (fun _ _ => rfl) (fun _ _ _ => trivial) fun _ =>
    par_nil

theorem GroupID.builds (n : Nat) : Builds (run (n + 2)) I.GroupID GroupID.fields Dis.GroupID.init Dis.GroupID.parseInto :=
  builds_of (GroupID.makes (n + 0)) (GroupID.parses (n + 0))

theorem LayerHeader.serializes (n : Nat) (x : Dis.LayerHeader) :
    Serializes (run (n + 1)) I.LayerHeader (LayerHeader.enc x) x.serialize :=
  serializes_of (n := n + 0) (d := I.LayerHeader) (f := LayerHeader.serialize) rfl rfl <|
    ser_cons (ser_write (gives_attr (gives_name rfl) (plain rfl) rfl) rfl rfl rfl) <|
    ser_cons (ser_write (gives_attr (gives_name rfl) (plain rfl) rfl) rfl rfl rfl) <|
    ser_last <| ser_write (gives_attr (gives_name rfl) (plain rfl) rfl) rfl rfl rfl

theorem LayerHeader.makes (n : Nat) : Makes (run (n + 1)) I.LayerHeader (LayerHeader.enc Dis.LayerHeader.init) :=
  makes_of (p := (I.LayerHeader, LayerHeader.__init__)) (by decide +kernel) rfl rfl rfl (by kernel_rfl) fun _ => by kernel_rfl

theorem LayerHeader.parses (n : Nat) :
    Parses (run (n + 1)) I.LayerHeader I.LayerHeader LayerHeader.fields Dis.LayerHeader.parseInto :=
  parses_of (n := n + 0) (d := I.LayerHeader) (f := LayerHeader.parse) rfl rfl <|
    par_read (fun _ _ => True) rfl rfl (plain rfl) (fun _ _ => rfl) (fun _ _ _ => trivial) fun _ =>
    par_read (fun _ _ => True) rfl rfl (plain rfl) (fun _ _ => rfl) (fun _ _ _ => trivial) fun _ =>
    par_read (fun _ _ => True) rfl rfl (plain rfl) (fun _ _ => rfl) (fun _ _ _ => trivial) fun _ =>
    par_nil

theorem LayerHeader.builds (n : Nat) : Builds (run (n + 1)) I.LayerHeader LayerHeader.fields Dis.LayerHeader.init Dis.LayerHeader.parseInto :=
  builds_of (LayerHeader.makes (n + 0)) (LayerHeader.parses (n + 0))

theorem UnsignedDISInteger.serializes (n : Nat) (x : Dis.UnsignedDISInteger) :
    Serializes (run (n + 1)) I.UnsignedDISInteger (UnsignedDISInteger.enc x) x.serialize :=
  serializes_of (n := n + 0) (d := I.UnsignedDISInteger) (f := UnsignedDISInteger.serialize) rfl rfl <|
    ser_last <| ser_write (gives_attr (gives_name rfl) (plain rfl) rfl) rfl rfl rfl

theorem UnsignedDISInteger.makes (n : Nat) : Makes (run (n + 1)) I.UnsignedDISInteger (UnsignedDISInteger.enc Dis.UnsignedDISInteger.init) :=
  makes_of (p := (I.UnsignedDISInteger, UnsignedDISInteger.__init__)) (by decide +kernel) rfl rfl rfl (by kernel_rfl) fun _ => by kernel_rfl

theorem UnsignedDISInteger.parses (n : Nat) :
    Parses (run (n + 1)) I.UnsignedDISInteger I.UnsignedDISInteger UnsignedDISInteger.fields Dis.UnsignedDISInteger.parseInto :=
  parses_of (n := n + 0) (d := I.UnsignedDISInteger) (f := UnsignedDISInteger.parse) rfl rfl <|
    par_read (fun _ _ => True) rfl rfl (plain rfl) (fun _ _ => rfl) (fun _ _ _ => trivial) fun _ =>
    par_nil

theorem UnsignedDISInteger.builds (n : Nat) : Builds (run (n + 1)) I.UnsignedDISInteger UnsignedDISInteger.fields Dis.UnsignedDISInteger.init Dis.UnsignedDISInteger.parseInto :=
  builds_of (UnsignedDISInteger.makes (n + 0)) (UnsignedDISInteger.parses (n + 0))

theorem DeadReckoningParameters.serializes (n : Nat) (x : Dis.DeadReckoningParameters) :
    Serializes (run (n + 2)) I.DeadReckoningParameters (DeadReckoningParameters.enc x) x.serialize :=
  serializes_of (n := n + 1) (d := I.DeadReckoningParameters) (f := DeadReckoningParameters.serialize) rfl rfl <|
    ser_cons (ser_write (gives_attr (gives_name rfl) (plain rfl) rfl) rfl rfl rfl) <|
    ser_cons (ser_range (gives_range0 gives_int) var_idx rfl fun i =>
      ser_last (ser_index (gives_attr (gives_name rfl) (plain rfl) rfl) (gives_name rfl) rfl rfl fun _ => rfl)) <|
    ser_cons (ser_call rfl (plain rfl) rfl rfl rfl (Vector3Float.serializes (n + 0) _)) <|
    ser_last <| ser_call rfl (plain rfl) rfl rfl rfl (Vector3Float.serializes (n + 0) _)

theorem DeadReckoningParameters.makes (n : Nat) : Makes (run (n + 2)) I.DeadReckoningParameters (DeadReckoningParameters.enc Dis.DeadReckoningParameters.init) :=
  makes_of (p := (I.DeadReckoningParameters, DeadReckoningParameters.__init__)) (by decide +kernel) rfl rfl rfl (by kernel_rfl) fun _ => by kernel_rfl

theorem DeadReckoningParameters.parses (n : Nat) :
    Parses (run (n + 2)) I.DeadReckoningParameters I.DeadReckoningParameters DeadReckoningParameters.fields Dis.DeadReckoningParameters.parseInto :=
  parses_of (n := n + 1) (d := I.DeadReckoningParameters) (f := DeadReckoningParameters.parse) rfl rfl <|
    par_read (fun _ _ => True) rfl rfl (plain rfl) (fun _ _ => rfl) (fun _ _ _ => trivial) fun _ =>
    par_fill rfl rfl (plain rfl) (fun _ => rfl) (fun _ _ => rfl) (fun _ _ => rfl) var_idx rfl rfl
      var_val rfl rfl rfl (fun _ _ _ => trivial) <|
    par_call (Q' := fun _ => True) (Vector3Float.parses (n + 0)) rfl (plain rfl) (fun _ => rfl) (fun _ _ => rfl) (fun _ _ _ => trivial) <|
    par_call (Q' := fun _ => True) (Vector3Float.parses (n + 0)) rfl (plain rfl) (fun _ => rfl) (fun _ _ => rfl) (fun _ _ _ => trivial) <|
    par_nil

theorem DeadReckoningParameters.builds (n : Nat) : Builds (run (n + 2)) I.DeadReckoningParameters DeadReckoningParameters.fields Dis.DeadReckoningParameters.init Dis.DeadReckoningParameters.parseInto :=
  builds_of (DeadReckoningParameters.makes (n + 0)) (DeadReckoningParameters.parses (n + 0))

theorem ProtocolMode.serializes (n : Nat) (x : Dis.ProtocolMode) :
    Serializes (run (n + 1)) I.ProtocolMode (ProtocolMode.enc x) x.serialize :=
  serializes_of (n := n + 0) (d := I.ProtocolMode) (f := ProtocolMode.serialize) rfl rfl <|
    ser_last <| ser_write (gives_attr (gives_name rfl) (plain rfl) rfl) rfl rfl rfl

theorem ProtocolMode.makes (n : Nat) : Makes (run (n + 1)) I.ProtocolMode (ProtocolMode.enc Dis.ProtocolMode.init) :=
  makes_of (p := (I.ProtocolMode, ProtocolMode.__init__)) (by decide +kernel) rfl rfl rfl (by kernel_rfl) fun _ => by kernel_rfl

theorem ProtocolMode.parses (n : Nat) :
    Parses (run (n + 1)) I.ProtocolMode I.ProtocolMode ProtocolMode.fields Dis.ProtocolMode.parseInto :=
  parses_of (n := n + 0) (d := I.ProtocolMode) (f := ProtocolMode.parse) rfl rfl <|
    par_read (fun _ _ => True) rfl rfl (plain rfl) (fun _ _ => rfl) (fun _ _ _ => trivial) fun _ =>
    par_nil

theorem ProtocolMode.builds (n : Nat) : Builds (run (n + 1)) I.ProtocolMode ProtocolMode.fields Dis.ProtocolMode.init Dis.ProtocolMode.parseInto :=
  builds_of (ProtocolMode.makes (n + 0)) (ProtocolMode.parses (n + 0))

theorem AngleDeception.serializes (n : Nat) (x : Dis.AngleDeception) :
    Serializes (run (n + 1)) I.AngleDeception (AngleDeception.enc x) x.serialize :=
  serializes_of (n := n + 0) (d := I.AngleDeception) (f := AngleDeception.serialize) rfl rfl <|
    ser_cons (ser_write (gives_attr (gives_name rfl) (plain rfl) rfl) rfl rfl rfl) <|
    ser_cons (ser_write (gives_attr (gives_name rfl) (by decide +kernel : isProperty program I.AngleDeception I.recordLength = false) rfl) rfl rfl rfl) <|
    ser_cons (ser_write (gives_attr (gives_name rfl) (plain rfl) rfl) rfl rfl rfl) <|
    ser_cons (ser_write (gives_attr (gives_name rfl) (plain rfl) rfl) rfl rfl rfl) <|
    ser_cons (ser_write (gives_attr (gives_name rfl) (plain rfl) rfl) rfl rfl rfl) <|
    ser_cons (ser_write (gives_attr (gives_name rfl) (plain rfl) rfl) rfl rfl rfl) <|
    ser_cons (ser_write (gives_attr (gives_name rfl) (plain rfl) rfl) rfl rfl rfl) <|
    ser_cons (ser_write (gives_attr (gives_name rfl) (plain rfl) rfl) rfl rfl rfl) <|
    ser_cons (ser_write (gives_attr (gives_name rfl) (plain rfl) rfl) rfl rfl rfl) <|
    ser_cons (ser_write (gives_attr (gives_name rfl) (plain rfl) rfl) rfl rfl rfl) <|
    ser_cons (ser_write (gives_attr (gives_name rfl) (plain rfl) rfl) rfl rfl rfl) <|
    ser_cons (ser_write (gives_attr (gives_name rfl) (plain rfl) rfl) rfl rfl rfl) <|
    ser_cons (ser_write (gives_attr (gives_name rfl) (plain rfl) rfl) rfl rfl rfl) <|
    ser_cons (ser_write (gives_attr (gives_name rfl) (plain rfl) rfl) rfl rfl rfl) <|
    ser_cons (ser_write (gives_attr (gives_name rfl) (plain rfl) rfl) rfl rfl rfl) <|
    ser_last <| ser_write (gives_attr (gives_name rfl) (plain rfl) rfl) rfl rfl rfl

theorem AngleDeception.makes (n : Nat) : Makes (run (n + 1)) I.AngleDeception (AngleDeception.enc Dis.AngleDeception.init) :=
  makes_of (p := (I.AngleDeception, AngleDeception.__init__)) (by decide +kernel) rfl rfl rfl (by kernel_rfl) fun _ => by kernel_rfl

theorem AngleDeception.parses (n : Nat) :
    Parses (run (n + 1)) I.AngleDeception I.AngleDeception AngleDeception.fields Dis.AngleDeception.parseInto :=
  parses_of (n := n + 0) (d := I.AngleDeception) (f := AngleDeception.parse) rfl rfl <|
    par_read (fun _ _ => True) rfl rfl (plain rfl) (fun _ _ => rfl) (fun _ _ _ => trivial) fun _ =>
    par_read (fun _ _ => True) rfl rfl (by decide +kernel : isProperty program I.AngleDeception I.recordLength = false) (fun _ _ => rfl) (fun _ _ _ => trivial) fun _ =>
    par_read (fun _ _ => True) rfl rfl (plain rfl) (fun _ _ => rfl) (fun _ _ _ => trivial) fun _ =>
    par_read (fun _ _ => True) rfl rfl (plain rfl) (fun _ _ => rfl) (fun _ _ _ => trivial) fun _ =>
    par_read (fun _ _ => True) rfl rfl (plain rfl) (fun _ _ => rfl) (fun _ _ _ => trivial) fun _ =>
    par_read (fun _ _ => True) rfl rfl (plain rfl) (fun _ _ => rfl) (fun _ _ _ => trivial) fun _ =>
    par_read (fun _ _ => True) rfl rfl (plain rfl) (fun _ _ => rfl) (fun _ _ _ => trivial) fun _ =>
    par_read (fun _ _ => True) rfl rfl (plain rfl) (fun _ _ => rfl) (fun _ _ _ => trivial) fun _ =>
    par_read (fun _ _ => True) rfl rfl (plain rfl) (fun _ _ => rfl) (fun _ _ _ => trivial) fun _ =>
    par_read (fun _ _ => True) rfl rfl (plain rfl) (fun _ _ => rfl) (fun _ _ _ => trivial) fun _ =>
    par_read (fun _ _ => True) rfl rfl (plain rfl) (fun _ _ => rfl) (fun _ _ _ => trivial) fun _ =>
    par_read (fun _ _ => True) rfl rfl (plain rfl) (fun _ _ => rfl) (fun _ _ _ => trivial) fun _ =>
    par_read (fun _ _ => True) rfl rfl (plain rfl) (fun _ _ => rfl) (fun _ _ _ => trivial) fun _ =>
    par_read (fun _ _ => True) rfl rfl (plain rfl) (fun _ _ => rfl) (fun _ _ _ => trivial) fun _ =>
    par_read (fun _ _ => True) rfl rfl (plain rfl) (fun _ _ => rfl) (fun _ _ _ => trivial) fun _ =>
    par_read (fun _ _ => True) rfl rfl (plain rfl) (fun _ _ => rfl) (fun _ _ _ => trivial) fun _ =>
    par_nil

theorem AngleDeception.builds (n : Nat) : Builds (run (n + 1)) I.AngleDeception AngleDeception.fields Dis.AngleDeception.init Dis.AngleDeception.parseInto :=
  builds_of (AngleDeception.makes (n + 0)) (AngleDeception.parses (n + 0))

theorem EntityAssociation.serializes (n : Nat) (x : Dis.EntityAssociation) :
    Serializes (run (n + 3)) I.EntityAssociation (EntityAssociation.enc x) x.serialize :=
  serializes_of (n := n + 2) (d := I.EntityAssociation) (f := EntityAssociation.serialize) rfl rfl <|
    ser_cons (ser_write (gives_attr (gives_name rfl) (plain rfl) rfl) rfl rfl rfl) <|
    ser_cons (ser_write (gives_attr (gives_name rfl) (plain rfl) rfl) rfl rfl rfl) <|
    ser_cons (ser_write (gives_attr (gives_name rfl) (plain rfl) rfl) rfl rfl rfl) <|
    ser_cons (ser_write (gives_attr (gives_name rfl) (plain rfl) rfl) rfl rfl rfl) <|
    ser_cons (ser_call rfl (plain rfl) rfl rfl rfl (EntityIdentifier.serializes (n + 0) _)) <|
    ser_cons (ser_write (gives_attr (gives_name rfl) (plain rfl) rfl) rfl rfl rfl) <|
    ser_cons (ser_write (gives_attr (gives_name rfl) (plain rfl) rfl) rfl rfl rfl) <|
    ser_cons (ser_write (gives_attr (gives_name rfl) (plain rfl) rfl) rfl rfl rfl) <|
    ser_last <| ser_write (gives_attr (gives_name rfl) (plain rfl) rfl) rfl rfl rfl

theorem EntityAssociation.makes (n : Nat) : Makes (run (n + 3)) I.EntityAssociation (EntityAssociation.enc Dis.EntityAssociation.init) :=
  makes_of (p := (I.EntityAssociation, EntityAssociation.__init__)) (by decide +kernel) rfl rfl rfl (by kernel_rfl) fun _ => by kernel_rfl

theorem EntityAssociation.parses (n : Nat) :
    Parses (run (n + 3)) I.EntityAssociation I.EntityAssociation EntityAssociation.fields Dis.EntityAssociation.parseInto :=
  parses_of (n := n + 2) (d := I.EntityAssociation) (f := EntityAssociation.parse) rfl rfl <|
    par_read (fun _ _ => True) rfl rfl (plain rfl) (fun _ _ => rfl) (fun _ _ _ => trivial) fun _ =>
    par_read (fun _ _ => True) rfl rfl (plain rfl) (fun _ _ => rfl) (fun _ _ _ => trivial) fun _ =>
    par_read (fun _ _ => True) rfl rfl (plain rfl) (fun _ _ => rfl) (fun _ _ _ => trivial) fun _ =>
    par_read (fun _ _ => True) rfl rfl (plain rfl) (fun _ _ => rfl) (fun _ _ _ => trivial) fun _ =>
    par_call (Q' := fun _ => True) (EntityIdentifier.parses (n + 0)) rfl (plain rfl) (fun _ => rfl) (fun _ _ => rfl) (fun _ _ _ => trivial) <|
    par_read (fun _ _ => True) rfl rfl (plain rfl) (fun _ _ => rfl) (fun _ _ _ => trivial) fun _ =>
    par_read (fun _ _ => True) rfl rfl (plain rfl) (fun _ _ => rfl) (fun _ _ _ => trivial) fun _ =>
    par_read (fun _ _ => True) rfl rfl (plain rfl) (fun _ _ => rfl) (fun _ _ _ => trivial) fun _ =>
    par_read (fun _ _ => True) rfl rfl (plain rfl) (fun _ _ => rfl) (fun _ _ _ => trivial) fun _ =>
    par_nil

theorem EntityAssociation.builds (n : Nat) : Builds (run (n + 3)) I.EntityAssociation EntityAssociation.fields Dis.EntityAssociation.init Dis.EntityAssociation.parseInto :=
  builds_of (EntityAssociation.makes (n + 0)) (EntityAssociation.parses (n + 0))

theorem VectoringNozzleSystem.serializes (n : Nat) (x : Dis.VectoringNozzleSystem) :
    Serializes (run (n + 1)) I.VectoringNozzleSystem (VectoringNozzleSystem.enc x) x.serialize :=
  serializes_of (n := n + 0) (d := I.VectoringNozzleSystem) (f := VectoringNozzleSystem.serialize) rfl rfl <|
    ser_cons (ser_write (gives_attr (gives_name rfl) (plain rfl) rfl) rfl rfl rfl) <|
    ser_last <| ser_write (gives_attr (gives_name rfl) (plain rfl) rfl) rfl rfl rfl

theorem VectoringNozzleSystem.makes (n : Nat) : Makes (run (n + 1)) I.VectoringNozzleSystem (VectoringNozzleSystem.enc Dis.VectoringNozzleSystem.init) :=
  makes_of (p := (I.VectoringNozzleSystem, VectoringNozzleSystem.__init__)) (by decide +kernel) rfl rfl rfl (by kernel_rfl) fun _ => by kernel_rfl

theorem VectoringNozzleSystem.parses (n : Nat) :
    Parses (run (n + 1)) I.VectoringNozzleSystem I.VectoringNozzleSystem VectoringNozzleSystem.fields Dis.VectoringNozzleSystem.parseInto :=
  parses_of (n := n + 0) (d := I.VectoringNozzleSystem) (f := VectoringNozzleSystem.parse) rfl rfl <|
    par_read (fun _ _ => True) rfl rfl (plain rfl) (fun _ _ => rfl) (fun _ _ _ => trivial) fun _ =>
    par_read (fun _ _ => True) rfl rfl (plain rfl) (fun _ _ => rfl) (fun _ _ _ => trivial) fun _ =>
    par_nil

theorem VectoringNozzleSystem.builds (n : Nat) : Builds (run (n + 1)) I.VectoringNozzleSystem VectoringNozzleSystem.fields Dis.VectoringNozzleSystem.init Dis.VectoringNozzleSystem.parseInto :=
  builds_of (VectoringNozzleSystem.makes (n + 0)) (VectoringNozzleSystem.parses (n + 0))

theorem FalseTargetsAttribute.serializes (n : Nat) (x : Dis.FalseTargetsAttribute) :
    Serializes (run (n + 1)) I.FalseTargetsAttribute (FalseTargetsAttribute.enc x) x.serialize :=
  serializes_of (n := n + 0) (d := I.FalseTargetsAttribute) (f := FalseTargetsAttribute.serialize) rfl rfl <|
    ser_cons (ser_write (gives_attr (gives_name rfl) (plain rfl) rfl) rfl rfl rfl) <|
    ser_cons (ser_write (gives_attr (gives_name rfl) (by decide +kernel : isProperty program I.FalseTargetsAttribute I.recordLength = false) rfl) rfl rfl rfl) <|
    ser_cons (ser_write (gives_attr (gives_name rfl) (plain rfl) rfl) rfl rfl rfl) <|
    ser_cons (ser_write (gives_attr (gives_name rfl) (plain rfl) rfl) rfl rfl rfl) <|
    ser_cons (ser_write (gives_attr (gives_name rfl) (plain rfl) rfl) rfl rfl rfl) <|
    ser_cons (ser_write (gives_attr (gives_name rfl) (plain rfl) rfl) rfl rfl rfl) <|
    ser_cons (ser_write (gives_attr (gives_name rfl) (plain rfl) rfl) rfl rfl rfl) <|
    ser_cons (ser_write (gives_attr (gives_name rfl) (plain rfl) rfl) rfl rfl rfl) <|
    ser_cons (ser_write (gives_attr (gives_name rfl) (plain rfl) rfl) rfl rfl rfl) <|
    ser_cons (ser_write (gives_attr (gives_name rfl) (plain rfl) rfl) rfl rfl rfl) <|
    ser_cons (ser_write (gives_attr (gives_name rfl) (plain rfl) rfl) rfl rfl rfl) <|
    ser_cons (ser_write (gives_attr (gives_name rfl) (plain rfl) rfl) rfl rfl rfl) <|
    ser_last <| ser_write (gives_attr (gives_name rfl) (plain rfl) rfl) rfl rfl rfl

theorem FalseTargetsAttribute.makes (n : Nat) : Makes (run (n + 1)) I.FalseTargetsAttribute (FalseTargetsAttribute.enc Dis.FalseTargetsAttribute.init) :=
  makes_of (p := (I.FalseTargetsAttribute, FalseTargetsAttribute.__init__)) (by decide +kernel) rfl rfl rfl (by kernel_rfl) fun _ => by kernel_rfl

theorem FalseTargetsAttribute.parses (n : Nat) :
    Parses (run (n + 1)) I.FalseTargetsAttribute I.FalseTargetsAttribute FalseTargetsAttribute.fields Dis.FalseTargetsAttribute.parseInto :=
  parses_of (n := n + 0) (d := I.FalseTargetsAttribute) (f := FalseTargetsAttribute.parse) rfl rfl <|
    par_read (fun _ _ => True) rfl rfl (plain rfl) (fun _ _ => rfl) (fun _ _ _ => trivial) fun _ =>
    par_read (fun _ _ => True) rfl rfl (by decide +kernel : isProperty program I.FalseTargetsAttribute I.recordLength = false) (fun _ _ => rfl) (fun _ _ _ => trivial) fun _ =>
    par_read (fun _ _ => True) rfl rfl (plain rfl) (fun _ _ => rfl) (fun _ _ _ => trivial) fun _ =>
    par_read (fun _ _ => True) rfl rfl (plain rfl) (fun _ _ => rfl) (fun _ _ _ => trivial) fun _ =>
    par_read (fun _ _ => True) rfl rfl (plain rfl) (fun _ _ => rfl) (fun _ _ _ => trivial) fun _ =>
    par_read (fun _ _ => True) rfl rfl (plain rfl) (fun _ _ => rfl) (fun _ _ _ => trivial) fun _ =>
    par_read (fun _ _ => True) rfl rfl (plain rfl) (fun _ _ => rfl) (fun _ _ _ => trivial) fun _ =>
    par_read (fun _ _ => True) rfl rfl (plain rfl) (fun _ _ => rfl) (fun _ _ _ => trivial) fun _ =>
    par_read (fun _ _ => True) rfl rfl (plain rfl) (fun _ _ => rfl) (fun _ _ _ => trivial) fun _ =>
    par_read (fun _ _ => True) rfl rfl (plain rfl) (fun _ _ => rfl) (fun _ _ _ => trivial) fun _ =>
    par_read (fun _ _ => True) rfl rfl (plain rfl) (fun _ _ => rfl) (fun _ _ _ => trivial) fun _ =>
    par_read (fun _ _ => True) rfl rfl (plain rfl) (fun _ _ => rfl) (fun _ _ _ => trivial) fun _ =>
    par_read (fun _ _ => True) rfl rfl (plain rfl) (fun _ _ => rfl) (fun _ _ _ => trivial) fun _ =>
    par_nil

theorem FalseTargetsAttribute.builds (n : Nat) : Builds (run (n + 1)) I.FalseTargetsAttribute FalseTargetsAttribute.fields Dis.FalseTargetsAttribute.init Dis.FalseTargetsAttribute.parseInto :=
  builds_of (FalseTargetsAttribute.makes (n + 0)) (FalseTargetsAttribute.parses (n + 0))

theorem MinefieldIdentifier.serializes (n : Nat) (x : Dis.MinefieldIdentifier) :
    Serializes (run (n + 2)) I.MinefieldIdentifier (MinefieldIdentifier.enc x) x.serialize :=
  serializes_of (n := n + 1) (d := I.MinefieldIdentifier) (f := MinefieldIdentifier.serialize) rfl rfl <|
    ser_cons (ser_call rfl (plain rfl) rfl rfl rfl (SimulationAddress.serializes (n + 0) _)) <|
    ser_last <| ser_write (gives_attr (gives_name rfl) (plain rfl) rfl) rfl rfl rfl

theorem MinefieldIdentifier.makes (n : Nat) : Makes (run (n + 2)) I.MinefieldIdentifier (MinefieldIdentifier.enc Dis.MinefieldIdentifier.init) :=
  makes_of (p := (I.MinefieldIdentifier, MinefieldIdentifier.__init__)) (by decide +kernel) rfl rfl rfl (by kernel_rfl) fun _ => by kernel_rfl

theorem MinefieldIdentifier.parses (n : Nat) :
    Parses (run (n + 2)) I.MinefieldIdentifier I.MinefieldIdentifier MinefieldIdentifier.fields Dis.MinefieldIdentifier.parseInto :=
  parses_of (n := n + 1) (d := I.MinefieldIdentifier) (f := MinefieldIdentifier.parse) rfl rfl <|
    par_call (Q' := fun _ => True) (SimulationAddress.parses (n + 0)) rfl (plain rfl) (fun _ => rfl) (fun _ _ => rfl) (fun _ _ _ => trivial) <|
    par_read (fun _ _ => True) rfl rfl (plain rfl) (fun _ _ => rfl) (fun _ _ _ => trivial) fun _ =>
    par_nil

theorem MinefieldIdentifier.builds (n : Nat) : Builds (run (n + 2)) I.MinefieldIdentifier MinefieldIdentifier.fields Dis.MinefieldIdentifier.init Dis.MinefieldIdentifier.parseInto :=
  builds_of (MinefieldIdentifier.makes (n + 0)) (MinefieldIdentifier.parses (n + 0))

theorem RadioType.serializes (n : Nat) (x : Dis.RadioType) :
    Serializes (run (n + 1)) I.RadioType (RadioType.enc x) x.serialize :=
  serializes_of (n := n + 0) (d := I.RadioType) (f := RadioType.serialize) rfl rfl <|
    ser_cons (ser_write (gives_attr (gives_name rfl) (plain rfl) rfl) rfl rfl rfl) <|
    ser_cons (ser_write (gives_attr (gives_name rfl) (plain rfl) rfl) rfl rfl rfl) <|
    ser_cons (ser_write (gives_attr (gives_name rfl) (plain rfl) rfl) rfl rfl rfl) <|
    ser_cons (ser_write (gives_attr (gives_name rfl) (plain rfl) rfl) rfl rfl rfl) <|
    ser_cons (ser_write (gives_attr (gives_name rfl) (plain rfl) rfl) rfl rfl rfl) <|
    ser_cons (ser_write (gives_attr (gives_name rfl) (plain rfl) rfl) rfl rfl rfl) <|
    ser_last <| ser_write (gives_attr (gives_name rfl) (plain rfl) rfl) rfl rfl rfl

theorem RadioType.makes (n : Nat) : Makes (run (n + 1)) I.RadioType (RadioType.enc Dis.RadioType.init) :=
  makes_of (p := (I.RadioType, RadioType.__init__)) (by decide +kernel) rfl rfl rfl (by kernel_rfl) fun _ => by kernel_rfl

theorem RadioType.parses (n : Nat) :
    Parses (run (n + 1)) I.RadioType I.RadioType RadioType.fields Dis.RadioType.parseInto :=
  parses_of (n := n + 0) (d := I.RadioType) (f := RadioType.parse) rfl rfl <|
    par_read (fun _ _ => True) rfl rfl (plain rfl) (fun _ _ => rfl) (fun _ _ _ => trivial) fun _ =>
    par_read (fun _ _ => True) rfl rfl (plain rfl) (fun _ _ => rfl) (fun _ _ _ => trivial) fun _ =>
    par_read (fun _ _ => True) rfl rfl (plain rfl) (fun _ _ => rfl) (fun _ _ _ => trivial) fun _ =>
    par_read (fun _ _ => True) rfl rfl (plain rfl) (fun _ _ => rfl) (fun _ _ _ => trivial) fun _ =>
    par_read (fun _ _ => True) rfl rfl (plain rfl) (fun _ _ => rfl) (fun _ _ _ => trivial) fun _ =>
    par_read (fun _ _ => True) rfl rfl (plain rfl) (fun _ _ => rfl) (fun _ _ _ => trivial) fun _ =>
    par_read (fun _ _ => True) rfl rfl (plain rfl) (fun _ _ => rfl) (fun _ _ _ => trivial) fun _ =>
    par_nil

theorem RadioType.builds (n : Nat) : Builds (run (n + 1)) I.RadioType RadioType.fields Dis.RadioType.init Dis.RadioType.parseInto :=
  builds_of (RadioType.makes (n + 0)) (RadioType.parses (n + 0))

theorem NamedLocationIdentification.serializes (n : Nat) (x : Dis.NamedLocationIdentification) :
    Serializes (run (n + 1)) I.NamedLocationIdentification (NamedLocationIdentification.enc x) x.serialize :=
  serializes_of (n := n + 0) (d := I.NamedLocationIdentification) (f := NamedLocationIdentification.serialize) rfl rfl <|
    ser_cons (ser_write (gives_attr (gives_name rfl) (plain rfl) rfl) rfl rfl rfl) <|
    ser_last <| ser_write (gives_attr (gives_name rfl) (plain rfl) rfl) rfl rfl rfl

theorem NamedLocationIdentification.makes (n : Nat) : Makes (run (n + 1)) I.NamedLocationIdentification (NamedLocationIdentification.enc Dis.NamedLocationIdentification.init) :=
  makes_of (p := (I.NamedLocationIdentification, NamedLocationIdentification.__init__)) (by decide +kernel) rfl rfl rfl (by kernel_rfl) fun _ => by kernel_rfl

theorem NamedLocationIdentification.parses (n : Nat) :
    Parses (run (n + 1)) I.NamedLocationIdentification I.NamedLocationIdentification NamedLocationIdentification.fields Dis.NamedLocationIdentification.parseInto :=
  parses_of (n := n + 0) (d := I.NamedLocationIdentification) (f := NamedLocationIdentification.parse) rfl rfl <|
    par_read (fun _ _ => True) rfl rfl (plain rfl) (fun _ _ => rfl) (fun _ _ _ => trivial) fun _ =>
    par_read (fun _ _ => True) rfl rfl (plain rfl) (fun _ _ => rfl) (fun _ _ _ => trivial) fun _ =>
    par_nil

theorem NamedLocationIdentification.builds (n : Nat) : Builds (run (n + 1)) I.NamedLocationIdentification NamedLocationIdentification.fields Dis.NamedLocationIdentification.init Dis.NamedLocationIdentification.parseInto :=
  builds_of (NamedLocationIdentification.makes (n + 0)) (NamedLocationIdentification.parses (n + 0))

theorem IFFDataSpecification.serializes (n : Nat) (x : Dis.IFFDataSpecification) :
    Serializes (run (n + 2)) I.IFFDataSpecification (IFFDataSpecification.enc x) x.serialize :=
  serializes_of (n := n + 1) (d := I.IFFDataSpecification) (f := IFFDataSpecification.serialize) rfl rfl <|
    ser_cons (ser_write (gives_property (gives_name rfl) (by decide +kernel)
        (fun io => property_of (n := n + 0) (d := I.IFFDataSpecification) (f := IFFDataSpecification.numberOfIFFDataRecords) rfl rfl rfl (gives_len_map (gives_attr (gives_name rfl) (plain rfl) rfl)) io)) rfl rfl (packInt_int _ _)) <|
    ser_last <| ser_for (gives_attr (gives_name rfl) (plain rfl) rfl) var_anObj rfl fun a _ =>
      ser_last (ser_var rfl rfl (IFFData.serializes (n + 0) a))

theorem IFFDataSpecification.makes (n : Nat) : Makes (run (n + 1)) I.IFFDataSpecification (IFFDataSpecification.enc Dis.IFFDataSpecification.init) :=
  makes_of (p := (I.IFFDataSpecification, IFFDataSpecification.__init__)) (by decide +kernel) rfl rfl rfl (by kernel_rfl) fun _ => by kernel_rfl

theorem IFFDataSpecification.parses (n : Nat) :
    Parses (run (n + 2)) I.IFFDataSpecification I.IFFDataSpecification IFFDataSpecification.fields Dis.IFFDataSpecification.parseInto :=
  parses_of (n := n + 1) (d := I.IFFDataSpecification) (f := IFFDataSpecification.parse) rfl rfl <|
    par_local rfl rfl var_numberOfIFFDataRecords rfl fun _ =>
    par_objs (fun _ _ => gives_range0 (gives_name rfl)) (by simp) (IFFData.builds (n + 0)) rfl
      (plain rfl) (fun _ => rfl) (fun _ _ => rfl) var_idx rfl rfl var_element rfl rfl <|
    par_nil

theorem IFFDataSpecification.builds (n : Nat) : Builds (run (n + 2)) I.IFFDataSpecification IFFDataSpecification.fields Dis.IFFDataSpecification.init Dis.IFFDataSpecification.parseInto :=
  builds_of (IFFDataSpecification.makes (n + 1)) (IFFDataSpecification.parses (n + 0))

theorem OwnershipStatus.serializes (n : Nat) (x : Dis.OwnershipStatus) :
    Serializes (run (n + 3)) I.OwnershipStatus (OwnershipStatus.enc x) x.serialize :=
  serializes_of (n := n + 2) (d := I.OwnershipStatus) (f := OwnershipStatus.serialize) rfl rfl <|
    ser_cons (ser_call rfl (plain rfl) rfl rfl rfl (EntityIdentifier.serializes (n + 0) _)) <|
    ser_cons (ser_write (gives_attr (gives_name rfl) (plain rfl) rfl) rfl rfl rfl) <|
    ser_last <| ser_write (gives_attr (gives_name rfl) (plain rfl) rfl) rfl rfl rfl

theorem OwnershipStatus.makes (n : Nat) : Makes (run (n + 3)) I.OwnershipStatus (OwnershipStatus.enc Dis.OwnershipStatus.init) :=
  makes_of (p := (I.OwnershipStatus, OwnershipStatus.__init__)) (by decide +kernel) rfl rfl rfl (by kernel_rfl) fun _ => by kernel_rfl

theorem OwnershipStatus.parses (n : Nat) :
    Parses (run (n + 3)) I.OwnershipStatus I.OwnershipStatus OwnershipStatus.fields Dis.OwnershipStatus.parseInto :=
  parses_of (n := n + 2) (d := I.OwnershipStatus) (f := OwnershipStatus.parse) rfl rfl <|
    par_call (Q' := fun _ => True) (EntityIdentifier.parses (n + 0)) rfl (plain rfl) (fun _ => rfl) (fun _ _ => rfl) (fun _ _ _ => trivial) <|
    par_read (fun _ _ => True) rfl rfl (plain rfl) (fun _ _ => rfl) (fun _ _ _ => trivial) fun _ =>
    par_read (fun _ _ => True) rfl rfl (plain rfl) (fun _ _ => rfl) (fun _ _ _ => trivial) fun _ =>
    par_nil

theorem OwnershipStatus.builds (n : Nat) : Builds (run (n + 3)) I.OwnershipStatus OwnershipStatus.fields Dis.OwnershipStatus.init Dis.OwnershipStatus.parseInto :=
  builds_of (OwnershipStatus.makes (n + 0)) (OwnershipStatus.parses (n + 0))

theorem Attribute.serializes (n : Nat) (x : Dis.Attribute) :
    Serializes (run (n + 1)) I.Attribute (Attribute.enc x) x.serialize :=
  serializes_of (n := n + 0) (d := I.Attribute) (f := Attribute.serialize) rfl rfl <|
    ser_cons (ser_write (gives_attr (gives_name rfl) (plain rfl) rfl) rfl rfl rfl) <|
    ser_cons (ser_write (gives_attr (gives_name rfl) (by decide +kernel : isProperty program I.Attribute I.recordLength = false) rfl) rfl rfl rfl) <|
    ser_last <| ser_write (gives_attr (gives_name rfl) (plain rfl) rfl) rfl rfl rfl

theorem Attribute.makes (n : Nat) : Makes (run (n + 1)) I.Attribute (Attribute.enc Dis.Attribute.init) :=
  makes_of (p := (I.Attribute, Attribute.__init__)) (by decide +kernel) rfl rfl rfl (by kernel_rfl) fun _ => by kernel_rfl

theorem Attribute.parses (n : Nat) :
    Parses (run (n + 1)) I.Attribute I.Attribute Attribute.fields Dis.Attribute.parseInto :=
  parses_of (n := n + 0) (d := I.Attribute) (f := Attribute.parse) rfl rfl <|
    par_read (fun _ _ => True) rfl rfl (plain rfl) (fun _ _ => rfl) (fun _ _ _ => trivial) fun _ =>
    par_read (fun _ _ => True) rfl rfl (by decide +kernel : isProperty program I.Attribute I.recordLength = false) (fun _ _ => rfl) (fun _ _ _ => trivial) fun _ =>
    par_read (fun _ _ => True) rfl rfl (plain rfl) (fun _ _ => rfl) (fun _ _ _ => trivial) fun _ =>
    par_nil

theorem Attribute.builds (n : Nat) : Builds (run (n + 1)) I.Attribute Attribute.fields Dis.Attribute.init Dis.Attribute.parseInto :=
  builds_of (Attribute.makes (n + 0)) (Attribute.parses (n + 0))

theorem RecordQuerySpecification.serializes (n : Nat) (x : Dis.RecordQuerySpecification) :
    Serializes (run (n + 2)) I.RecordQuerySpecification (RecordQuerySpecification.enc x) x.serialize :=
  serializes_of (n := n + 1) (d := I.RecordQuerySpecification) (f := RecordQuerySpecification.serialize) rfl rfl <|
    ser_cons (ser_write (gives_property (gives_name rfl) (by decide +kernel)
        (fun io => property_of (n := n + 0) (d := I.RecordQuerySpecification) (f := RecordQuerySpecification.numberOfRecords) rfl rfl rfl (gives_len_map (gives_attr (gives_name rfl) (plain rfl) rfl)) io)) rfl rfl (packInt_int _ _)) <|
    ser_last <| ser_for (gives_attr (gives_name rfl) (plain rfl) rfl) var_anObj rfl fun a _ =>
      ser_last (ser_write (gives_name rfl) rfl rfl rfl)

theorem RecordQuerySpecification.makes (n : Nat) : Makes (run (n + 1)) I.RecordQuerySpecification (RecordQuerySpecification.enc Dis.RecordQuerySpecification.init) :=
  makes_of (p := (I.RecordQuerySpecification, RecordQuerySpecification.__init__)) (by decide +kernel) rfl rfl rfl (by kernel_rfl) fun _ => by kernel_rfl

theorem RecordQuerySpecification.parses (n : Nat) :
    Parses (run (n + 1)) I.RecordQuerySpecification I.RecordQuerySpecification RecordQuerySpecification.fields Dis.RecordQuerySpecification.parseInto :=
  parses_of (n := n + 0) (d := I.RecordQuerySpecification) (f := RecordQuerySpecification.parse) rfl rfl <|
    par_local rfl rfl var_numberOfRecords rfl fun _ =>
    par_reads (Q' := fun _ => True) (fun _ _ => gives_range0 (gives_name rfl)) (by simp) rfl rfl (plain rfl) (fun _ => rfl)
      (fun _ _ => rfl) (fun _ _ _ => trivial) var_idx rfl rfl var_val rfl rfl (fun _ _ => trivial) <|
    par_nil

theorem RecordQuerySpecification.builds (n : Nat) : Builds (run (n + 1)) I.RecordQuerySpecification RecordQuerySpecification.fields Dis.RecordQuerySpecification.init Dis.RecordQuerySpecification.parseInto :=
  builds_of (RecordQuerySpecification.makes (n + 0)) (RecordQuerySpecification.parses (n + 0))

theorem ArticulatedParts.serializes (n : Nat) (x : Dis.ArticulatedParts) :
    Serializes (run (n + 1)) I.ArticulatedParts (ArticulatedParts.enc x) x.serialize :=
  serializes_of (n := n + 0) (d := I.ArticulatedParts) (f := ArticulatedParts.serialize) rfl rfl <|
    ser_cons (ser_write (gives_attr (gives_name rfl) (plain rfl) rfl) rfl rfl rfl) <|
    ser_cons (ser_write (gives_attr (gives_name rfl) (plain rfl) rfl) rfl rfl rfl) <|
    ser_cons (ser_write (gives_attr (gives_name rfl) (plain rfl) rfl) rfl rfl rfl) <|
    ser_cons (ser_write (gives_attr (gives_name rfl) (plain rfl) rfl) rfl rfl rfl) <|
    ser_last <| ser_write (gives_attr (gives_name rfl) (plain rfl) rfl) rfl rfl rfl

theorem ArticulatedParts.makes (n : Nat) : Makes (run (n + 1)) I.ArticulatedParts (ArticulatedParts.enc Dis.ArticulatedParts.init) :=
  makes_of (p := (I.ArticulatedParts, ArticulatedParts.__init__)) (by decide +kernel) rfl rfl rfl (by kernel_rfl) fun _ => by kernel_rfl

theorem ArticulatedParts.parses (n : Nat) :
    Parses (run (n + 1)) I.ArticulatedParts I.ArticulatedParts ArticulatedParts.fields Dis.ArticulatedParts.parseInto :=
  parses_of (n := n + 0) (d := I.ArticulatedParts) (f := ArticulatedParts.parse) rfl rfl <|
    par_read (fun _ _ => True) rfl rfl (plain rfl) (fun _ _ => rfl) (fun _ _ _ => trivial) fun _ =>
    par_read (fun _ _ => True) rfl rfl (plain rfl) (fun _ _ => rfl) (fun _ _ _ => trivial) fun _ =>
    par_read (fun _ _ => True) rfl rfl (plain rfl) (fun _ _ => rfl) (fun _ _ _ => trivial) fun _ =>
    par_read (fun _ _ => True) rfl rfl (plain rfl) (fun _ _ => rfl) (fun _ _ _ => trivial) fun _ =>
    par_read (fun _ _ => True) rfl rfl (plain rfl) (fun _ _ => rfl) (fun _ _ _ => trivial) fun _ =>
    par_nil

theorem ArticulatedParts.builds (n : Nat) : Builds (run (n + 1)) I.ArticulatedParts ArticulatedParts.fields Dis.ArticulatedParts.init Dis.ArticulatedParts.parseInto :=
  builds_of (ArticulatedParts.makes (n + 0)) (ArticulatedParts.parses (n + 0))

theorem ObjectType.serializes (n : Nat) (x : Dis.ObjectType) :
    Serializes (run (n + 1)) I.ObjectType (ObjectType.enc x) x.serialize :=
  serializes_of (n := n + 0) (d := I.ObjectType) (f := ObjectType.serialize) rfl rfl <|
    ser_cons (ser_write (gives_attr (gives_name rfl) (plain rfl) rfl) rfl rfl rfl) <|
    ser_cons (ser_write (gives_attr (gives_name rfl) (plain rfl) rfl) rfl rfl rfl) <|
    ser_cons (ser_write (gives_attr (gives_name rfl) (plain rfl) rfl) rfl rfl rfl) <|
    ser_last <| ser_write (gives_attr (gives_name rfl) (plain rfl) rfl) rfl rfl rfl

theorem ObjectType.makes (n : Nat) : Makes (run (n + 1)) I.ObjectType (ObjectType.enc Dis.ObjectType.init) :=
  makes_of (p := (I.ObjectType, ObjectType.__init__)) (by decide +kernel) rfl rfl rfl (by kernel_rfl) fun _ => by kernel_rfl

theorem ObjectType.parses (n : Nat) :
    Parses (run (n + 1)) I.ObjectType I.ObjectType ObjectType.fields Dis.ObjectType.parseInto :=
  parses_of (n := n + 0) (d := I.ObjectType) (f := ObjectType.parse) rfl rfl <|
    par_read (fun _ _ => True) rfl rfl (plain rfl) (fun _ _ => rfl) (fun _ _ _ => trivial) fun _ =>
    par_read (fun _ _ => True) rfl rfl (plain rfl) (fun _ _ => rfl) (fun _ _ _ => trivial) fun _ =>
    par_read (fun _ _ => True) rfl rfl (plain rfl) (fun _ _ => rfl) (fun _ _ _ => trivial) fun _ =>
    par_read (fun _ _ => True) rfl rfl (plain rfl) (fun _ _ => rfl) (fun _ _ _ => trivial) fun _ =>
    par_nil

theorem ObjectType.builds (n : Nat) : Builds (run (n + 1)) I.ObjectType ObjectType.fields Dis.ObjectType.init Dis.ObjectType.parseInto :=
  builds_of (ObjectType.makes (n + 0)) (ObjectType.parses (n + 0))

theorem Association.serializes (n : Nat) (x : Dis.Association) :
    Serializes (run (n + 3)) I.Association (Association.enc x) x.serialize :=
  serializes_of (n := n + 2) (d := I.Association) (f := Association.serialize) rfl rfl <|
    ser_cons (ser_write (gives_attr (gives_name rfl) (plain rfl) rfl) rfl rfl rfl) <|
    ser_cons (ser_write (gives_attr (gives_name rfl) (plain rfl) rfl) rfl rfl rfl) <|
    ser_cons (ser_call rfl (plain rfl) rfl rfl rfl (EntityIdentifier.serializes (n + 0) _)) <|
    ser_last <| ser_call rfl (plain rfl) rfl rfl rfl (WorldCoordinates.serializes (n + 1) _)

theorem Association.makes (n : Nat) : Makes (run (n + 3)) I.Association (Association.enc Dis.Association.init) :=
  makes_of (p := (I.Association, Association.__init__)) (by decide +kernel) rfl rfl rfl (by kernel_rfl) fun _ => by kernel_rfl

theorem Association.parses (n : Nat) :
    Parses (run (n + 3)) I.Association I.Association Association.fields Dis.Association.parseInto :=
  parses_of (n := n + 2) (d := I.Association) (f := Association.parse) rfl rfl <|
    par_read (fun _ _ => True) rfl rfl (plain rfl) (fun _ _ => rfl) (fun _ _ _ => trivial) fun _ =>
    par_read (fun _ _ => True) rfl rfl (plain rfl) (fun _ _ => rfl) (fun _ _ _ => trivial) fun _ =>
    par_call (Q' := fun _ => True) (EntityIdentifier.parses (n + 0)) rfl (plain rfl) (fun _ => rfl) (fun _ _ => rfl) (fun _ _ _ => trivial) <|
    par_call (Q' := fun _ => True) (WorldCoordinates.parses (n + 1)) rfl (plain rfl) (fun _ => rfl) (fun _ _ => rfl) (fun _ _ _ => trivial) <|
    par_nil

theorem Association.builds (n : Nat) : Builds (run (n + 3)) I.Association Association.fields Dis.Association.init Dis.Association.parseInto :=
  builds_of (Association.makes (n + 0)) (Association.parses (n + 0))

theorem RecordSpecificationElement.serializes (n : Nat) (x : Dis.RecordSpecificationElement) :
    Serializes (run (n + 1)) I.RecordSpecificationElement (RecordSpecificationElement.enc x) x.serialize :=
  serializes_of (n := n + 0) (d := I.RecordSpecificationElement) (f := RecordSpecificationElement.serialize) rfl rfl <|
    ser_cons (ser_write (gives_attr (gives_name rfl) (plain rfl) rfl) rfl rfl rfl) <|
    ser_cons (ser_write (gives_attr (gives_name rfl) (plain rfl) rfl) rfl rfl rfl) <|
    ser_cons (ser_write (gives_attr (gives_name rfl) (by decide +kernel : isProperty program I.RecordSpecificationElement I.recordLength = false) rfl) rfl rfl rfl) <|
    ser_cons (ser_write (gives_attr (gives_name rfl) (plain rfl) rfl) rfl rfl rfl) <|
    ser_cons (ser_write (gives_attr (gives_name rfl) (plain rfl) rfl) rfl rfl rfl) <|
    ser_last <| ser_write (gives_attr (gives_name rfl) (plain rfl) rfl) rfl rfl rfl

theorem RecordSpecificationElement.makes (n : Nat) : Makes (run (n + 1)) I.RecordSpecificationElement (RecordSpecificationElement.enc Dis.RecordSpecificationElement.init) :=
  makes_of (p := (I.RecordSpecificationElement, RecordSpecificationElement.__init__)) (by decide +kernel) rfl rfl rfl (by kernel_rfl) fun _ => by kernel_rfl

theorem RecordSpecificationElement.parses (n : Nat) :
    Parses (run (n + 1)) I.RecordSpecificationElement I.RecordSpecificationElement RecordSpecificationElement.fields Dis.RecordSpecificationElement.parseInto :=
  parses_of (n := n + 0) (d := I.RecordSpecificationElement) (f := RecordSpecificationElement.parse) rfl rfl <|
    par_read (fun _ _ => True) rfl rfl (plain rfl) (fun _ _ => rfl) (fun _ _ _ => trivial) fun _ =>
    par_read (fun _ _ => True) rfl rfl (plain rfl) (fun _ _ => rfl) (fun _ _ _ => trivial) fun _ =>
    par_read (fun _ _ => True) rfl rfl (by decide +kernel : isProperty program I.RecordSpecificationElement I.recordLength = false) (fun _ _ => rfl) (fun _ _ _ => trivial) fun _ =>
    par_read (fun _ _ => True) rfl rfl (plain rfl) (fun _ _ => rfl) (fun _ _ _ => trivial) fun _ =>
    par_read (fun _ _ => True) rfl rfl (plain rfl) (fun _ _ => rfl) (fun _ _ _ => trivial) fun _ =>
    par_read (fun _ _ => True) rfl rfl (plain rfl) (fun _ _ => rfl) (fun _ _ _ => trivial) fun _ =>
    par_nil

theorem RecordSpecificationElement.builds (n : Nat) : Builds (run (n + 1)) I.RecordSpecificationElement RecordSpecificationElement.fields Dis.RecordSpecificationElement.init Dis.RecordSpecificationElement.parseInto :=
  builds_of (RecordSpecificationElement.makes (n + 0)) (RecordSpecificationElement.parses (n + 0))

theorem AntennaLocation.serializes (n : Nat) (x : Dis.AntennaLocation) :
    Serializes (run (n + 2)) I.AntennaLocation (AntennaLocation.enc x) x.serialize :=
  serializes_of (n := n + 1) (d := I.AntennaLocation) (f := AntennaLocation.serialize) rfl rfl <|
    ser_cons (ser_call rfl (plain rfl) rfl rfl rfl (WorldCoordinates.serializes (n + 0) _)) <|
    ser_last <| ser_call rfl (plain rfl) rfl rfl rfl (Vector3Float.serializes (n + 0) _)

theorem AntennaLocation.makes (n : Nat) : Makes (run (n + 2)) I.AntennaLocation (AntennaLocation.enc Dis.AntennaLocation.init) :=
  makes_of (p := (I.AntennaLocation, AntennaLocation.__init__)) (by decide +kernel) rfl rfl rfl (by kernel_rfl) fun _ => by kernel_rfl

theorem AntennaLocation.parses (n : Nat) :
    Parses (run (n + 2)) I.AntennaLocation I.AntennaLocation AntennaLocation.fields Dis.AntennaLocation.parseInto :=
  parses_of (n := n + 1) (d := I.AntennaLocation) (f := AntennaLocation.parse) rfl rfl <|
    par_call (Q' := fun _ => True) (WorldCoordinates.parses (n + 0)) rfl (plain rfl) (fun _ => rfl) (fun _ _ => rfl) (fun _ _ _ => trivial) <|
    par_call (Q' := fun _ => True) (Vector3Float.parses (n + 0)) rfl (plain rfl) (fun _ => rfl) (fun _ _ => rfl) (fun _ _ _ => trivial) <|
    par_nil

theorem AntennaLocation.builds (n : Nat) : Builds (run (n + 2)) I.AntennaLocation AntennaLocation.fields Dis.AntennaLocation.init Dis.AntennaLocation.parseInto :=
  builds_of (AntennaLocation.makes (n + 0)) (AntennaLocation.parses (n + 0))

theorem ObjectIdentifier.serializes (n : Nat) (x : Dis.ObjectIdentifier) :
    Serializes (run (n + 2)) I.ObjectIdentifier (ObjectIdentifier.enc x) x.serialize :=
  serializes_of (n := n + 1) (d := I.ObjectIdentifier) (f := ObjectIdentifier.serialize) rfl rfl <|
    ser_cons (ser_call rfl (plain rfl) rfl rfl rfl (SimulationAddress.serializes (n + 0) _)) <|
    ser_last <| ser_write (gives_attr (gives_name rfl) (plain rfl) rfl) rfl rfl rfl

theorem ObjectIdentifier.makes (n : Nat) : Makes (run (n + 2)) I.ObjectIdentifier (ObjectIdentifier.enc Dis.ObjectIdentifier.init) :=
  makes_of (p := (I.ObjectIdentifier, ObjectIdentifier.__init__)) (by decide +kernel) rfl rfl rfl (by kernel_rfl) fun _ => by kernel_rfl

theorem ObjectIdentifier.parses (n : Nat) :
    Parses (run (n + 2)) I.ObjectIdentifier I.ObjectIdentifier ObjectIdentifier.fields Dis.ObjectIdentifier.parseInto :=
  parses_of (n := n + 1) (d := I.ObjectIdentifier) (f := ObjectIdentifier.parse) rfl rfl <|
    par_call (Q' := fun _ => True) (SimulationAddress.parses (n + 0)) rfl (plain rfl) (fun _ => rfl) (fun _ _ => rfl) (fun _ _ _ => trivial) <|
    par_read (fun _ _ => True) rfl rfl (plain rfl) (fun _ _ => rfl) (fun _ _ _ => trivial) fun _ =>
    par_nil

theorem ObjectIdentifier.builds (n : Nat) : Builds (run (n + 2)) I.ObjectIdentifier ObjectIdentifier.fields Dis.ObjectIdentifier.init Dis.ObjectIdentifier.parseInto :=
  builds_of (ObjectIdentifier.makes (n + 0)) (ObjectIdentifier.parses (n + 0))

theorem AggregateIdentifier.serializes (n : Nat) (x : Dis.AggregateIdentifier) :
    Serializes (run (n + 2)) I.AggregateIdentifier (AggregateIdentifier.enc x) x.serialize :=
  serializes_of (n := n + 1) (d := I.AggregateIdentifier) (f := AggregateIdentifier.serialize) rfl rfl <|
    ser_cons (ser_call rfl (plain rfl) rfl rfl rfl (SimulationAddress.serializes (n + 0) _)) <|
    ser_last <| ser_write (gives_attr (gives_name rfl) (plain rfl) rfl) rfl rfl rfl

theorem AggregateIdentifier.makes (n : Nat) : Makes (run (n + 2)) I.AggregateIdentifier (AggregateIdentifier.enc Dis.AggregateIdentifier.init) :=
  makes_of (p := (I.AggregateIdentifier, AggregateIdentifier.__init__)) (by decide +kernel) rfl rfl rfl (by kernel_rfl) fun _ => by kernel_rfl

theorem AggregateIdentifier.parses (n : Nat) :
    Parses (run (n + 2)) I.AggregateIdentifier I.AggregateIdentifier AggregateIdentifier.fields Dis.AggregateIdentifier.parseInto :=
  parses_of (n := n + 1) (d := I.AggregateIdentifier) (f := AggregateIdentifier.parse) rfl rfl <|
    par_call (Q' := fun _ => True) (SimulationAddress.parses (n + 0)) rfl (plain rfl) (fun _ => rfl) (fun _ _ => rfl) (fun _ _ _ => trivial) <|
    par_read (fun _ _ => True) rfl rfl (plain rfl) (fun _ _ => rfl) (fun _ _ _ => trivial) fun _ =>
    par_nil

theorem AggregateIdentifier.builds (n : Nat) : Builds (run (n + 2)) I.AggregateIdentifier AggregateIdentifier.fields Dis.AggregateIdentifier.init Dis.AggregateIdentifier.parseInto :=
  builds_of (AggregateIdentifier.makes (n + 0)) (AggregateIdentifier.parses (n + 0))

theorem FixedDatum.serializes (n : Nat) (x : Dis.FixedDatum) :
    Serializes (run (n + 1)) I.FixedDatum (FixedDatum.enc x) x.serialize :=
  serializes_of (n := n + 0) (d := I.FixedDatum) (f := FixedDatum.serialize) rfl rfl <|
    ser_cons (ser_write (gives_attr (gives_name rfl) (plain rfl) rfl) rfl rfl rfl) <|
    ser_last <| ser_write (gives_attr (gives_name rfl) (plain rfl) rfl) rfl rfl rfl

theorem FixedDatum.makes (n : Nat) : Makes (run (n + 1)) I.FixedDatum (FixedDatum.enc Dis.FixedDatum.init) :=
  makes_of (p := (I.FixedDatum, FixedDatum.__init__)) (by decide +kernel) rfl rfl rfl (by kernel_rfl) fun _ => by kernel_rfl

theorem FixedDatum.parses (n : Nat) :
    Parses (run (n + 1)) I.FixedDatum I.FixedDatum FixedDatum.fields Dis.FixedDatum.parseInto :=
  parses_of (n := n + 0) (d := I.FixedDatum) (f := FixedDatum.parse) rfl rfl <|
    par_read (fun _ _ => True) rfl rfl (plain rfl) (fun _ _ => rfl) (fun _ _ _ => trivial) fun _ =>
    par_read (fun _ _ => True) rfl rfl (plain rfl) (fun _ _ => rfl) (fun _ _ _ => trivial) fun _ =>
    par_nil

theorem FixedDatum.builds (n : Nat) : Builds (run (n + 1)) I.FixedDatum FixedDatum.fields Dis.FixedDatum.init Dis.FixedDatum.parseInto :=
  builds_of (FixedDatum.makes (n + 0)) (FixedDatum.parses (n + 0))

theorem VariableParameter.over : Over VariableParameter.Raw.out VariableParameter.parseRaw Dis.VariableParameter.parseInto :=
  over_bind over_read fun _ =>
  over_bind (over_set fun _ => rfl) fun _ =>
  over_bind over_read fun _ =>
  over_bind (over_set fun _ => rfl) fun _ =>
  over_bind over_read fun _ =>
  over_bind (over_set fun _ => rfl) fun _ =>
  over_bind over_read fun _ =>
  over_bind (over_set fun _ => rfl) fun _ =>
  over_bind over_read fun _ =>
  over_bind (over_set fun _ => rfl) fun _ =>
  over_pure

theorem VariableParameter.ends : Ends (fun _ => True) VariableParameter.parseRaw (fun (r : VariableParameter.Raw) => r.variableParameterFields1 = .float r.obj.variableParameterFields1 ∧ True) :=
  ends_bind ends_read fun _ =>
  ends_bind (ends_keep fun _ h => h) fun _ =>
  ends_bind ends_read fun _ =>
  ends_bind (ends_set (fun (r : VariableParameter.Raw) => r.variableParameterFields1 = .float r.obj.variableParameterFields1 ∧ True) fun _ h => ⟨rfl, h⟩) fun _ =>
  ends_bind ends_read fun _ =>
  ends_bind (ends_keep fun _ h => h) fun _ =>
  ends_bind ends_read fun _ =>
  ends_bind (ends_keep fun _ h => h) fun _ =>
  ends_bind ends_read fun _ =>
  ends_bind (ends_keep fun _ h => h) fun _ =>
  ends_pure

theorem VariableParameter.done (r : VariableParameter.Raw) (h : (fun (r : VariableParameter.Raw) => r.variableParameterFields1 = .float r.obj.variableParameterFields1 ∧ True) r) : VariableParameter.rawFields r = VariableParameter.fields r.out := by
  obtain ⟨h0, -⟩ := h
  simp only [VariableParameter.rawFields, VariableParameter.fields, h0]

theorem VariableParameter.serializes (n : Nat) (x : Dis.VariableParameter) :
    Serializes (run (n + 1)) I.VariableParameter (VariableParameter.enc x) x.serialize :=
  serializes_of (n := n + 0) (d := I.VariableParameter) (f := VariableParameter.serialize) rfl rfl <|
    ser_cons (ser_write (gives_attr (gives_name rfl) (plain rfl) rfl) rfl rfl rfl) <|
    ser_cons (ser_write (gives_attr (gives_name rfl) (plain rfl) rfl) rfl rfl rfl) <|
    ser_cons (ser_write (gives_attr (gives_name rfl) (plain rfl) rfl) rfl rfl rfl) <|
    ser_cons (ser_write (gives_attr (gives_name rfl) (plain rfl) rfl) rfl rfl rfl) <|
    ser_last <| ser_write (gives_attr (gives_name rfl) (plain rfl) rfl) rfl rfl rfl

theorem VariableParameter.makesRaw (n : Nat) : Makes (run (n + 1)) I.VariableParameter (.obj I.VariableParameter (VariableParameter.rawFields VariableParameter.made)) :=
  makes_of (p := (I.VariableParameter, VariableParameter.__init__)) (by decide +kernel) rfl rfl rfl (by kernel_rfl) fun _ => by kernel_rfl

theorem VariableParameter.parses (n : Nat) :
    Parses (run (n + 1)) I.VariableParameter I.VariableParameter VariableParameter.fields Dis.VariableParameter.parseInto :=
  parses_of (n := n + 0) (d := I.VariableParameter) (f := VariableParameter.parse) rfl rfl <|
    par_read (fun _ _ => True) rfl rfl (plain rfl) (fun _ _ => rfl) (fun _ _ _ => trivial) fun _ =>
    par_read (fun _ _ => True) rfl rfl (plain rfl) (fun _ _ => rfl) (fun _ _ _ => trivial) fun _ =>
    par_read (fun _ _ => True) rfl rfl (plain rfl) (fun _ _ => rfl) (fun _ _ _ => trivial) fun _ =>
    par_read (fun _ _ => True) rfl rfl (plain rfl) (fun _ _ => rfl) (fun _ _ _ => trivial) fun _ =>
    par_read (fun _ _ => True) rfl rfl (plain rfl) (fun _ _ => rfl) (fun _ _ _ => trivial) fun _ =>
    par_nil

theorem VariableParameter.parsesRaw (n : Nat) :
    Parses (run (n + 1)) I.VariableParameter I.VariableParameter VariableParameter.rawFields VariableParameter.parseRaw :=
  parses_of (n := n + 0) (d := I.VariableParameter) (f := VariableParameter.parse) rfl rfl <|
    par_read (fun _ _ => True) rfl rfl (plain rfl) (fun _ _ => rfl) (fun _ _ _ => trivial) fun _ =>
    par_read (fun _ _ => True) rfl rfl (plain rfl) (fun _ _ => rfl) (fun _ _ _ => trivial) fun _ =>
    par_read (fun _ _ => True) rfl rfl (plain rfl) (fun _ _ => rfl) (fun _ _ _ => trivial) fun _ =>
    par_read (fun _ _ => True) rfl rfl (plain rfl) (fun _ _ => rfl) (fun _ _ _ => trivial) fun _ =>
    par_read (fun _ _ => True) rfl rfl (plain rfl) (fun _ _ => rfl) (fun _ _ _ => trivial) fun _ =>
    par_nil

theorem VariableParameter.builds (n : Nat) : Builds (run (n + 1)) I.VariableParameter VariableParameter.fields Dis.VariableParameter.init Dis.VariableParameter.parseInto :=
  builds_over (π := VariableParameter.Raw.out) (VariableParameter.makesRaw (n + 0)) (VariableParameter.parsesRaw (n + 0)) VariableParameter.over VariableParameter.ends rfl
    fun r h => VariableParameter.done r h

theorem ChangeOptions.serializes (n : Nat) (x : Dis.ChangeOptions) :
    Serializes (run (n + 1)) I.ChangeOptions (ChangeOptions.enc x) x.serialize :=
  serializes_of (n := n + 0) (d := I.ChangeOptions) (f := ChangeOptions.serialize) rfl rfl <|
    ser_last <| ser_pass

theorem ChangeOptions.makes (n : Nat) : Makes (run (n + 1)) I.ChangeOptions (ChangeOptions.enc Dis.ChangeOptions.init) :=
  makes_of (p := (I.ChangeOptions, ChangeOptions.__init__)) (by decide +kernel) rfl rfl rfl (by kernel_rfl) fun _ => by kernel_rfl

theorem ChangeOptions.parses (n : Nat) :
    Parses (run (n + 1)) I.ChangeOptions I.ChangeOptions ChangeOptions.fields Dis.ChangeOptions.parseInto :=
  parses_of (n := n + 0) (d := I.ChangeOptions) (f := ChangeOptions.parse) rfl rfl <|
    par_pass <|
    par_nil

theorem ChangeOptions.builds (n : Nat) : Builds (run (n + 1)) I.ChangeOptions ChangeOptions.fields Dis.ChangeOptions.init Dis.ChangeOptions.parseInto :=
  builds_of (ChangeOptions.makes (n + 0)) (ChangeOptions.parses (n + 0))

theorem LiveSimulationAddress.serializes (n : Nat) (x : Dis.LiveSimulationAddress) :
    Serializes (run (n + 1)) I.LiveSimulationAddress (LiveSimulationAddress.enc x) x.serialize :=
  serializes_of (n := n + 0) (d := I.LiveSimulationAddress) (f := LiveSimulationAddress.serialize) rfl rfl <|
    ser_cons (ser_write (gives_attr (gives_name rfl) (plain rfl) rfl) rfl rfl rfl) <|
    ser_last <| ser_write (gives_attr (gives_name rfl) (plain rfl) rfl) rfl rfl rfl

theorem LiveSimulationAddress.makes (n : Nat) : Makes (run (n + 1)) I.LiveSimulationAddress (LiveSimulationAddress.enc Dis.LiveSimulationAddress.init) :=
  makes_of (p := (I.LiveSimulationAddress, LiveSimulationAddress.__init__)) (by decide +kernel) rfl rfl rfl (by kernel_rfl) fun _ => by kernel_rfl

theorem LiveSimulationAddress.parses (n : Nat) :
    Parses (run (n + 1)) I.LiveSimulationAddress I.LiveSimulationAddress LiveSimulationAddress.fields Dis.LiveSimulationAddress.parseInto :=
  parses_of (n := n + 0) (d := I.LiveSimulationAddress) (f := LiveSimulationAddress.parse) rfl rfl <|
    par_read (fun _ _ => True) rfl rfl (plain rfl) (fun _ _ => rfl) (fun _ _ _ => trivial) fun _ =>
    par_read (fun _ _ => True) rfl rfl (plain rfl) (fun _ _ => rfl) (fun _ _ _ => trivial) fun _ =>
    par_nil

theorem LiveSimulationAddress.builds (n : Nat) : Builds (run (n + 1)) I.LiveSimulationAddress LiveSimulationAddress.fields Dis.LiveSimulationAddress.init Dis.LiveSimulationAddress.parseInto :=
  builds_of (LiveSimulationAddress.makes (n + 0)) (LiveSimulationAddress.parses (n + 0))

end Dis.Src
