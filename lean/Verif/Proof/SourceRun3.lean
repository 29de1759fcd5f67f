import Verif.Proof.SourceRun2
import Verif.Source.Encode3

/-!
# The classes do what their syntax trees say, part 3

Written by `tools/gensourceproof.py`.
-/

set_option linter.unusedVariables false
set_option linter.unusedSimpArgs false

namespace Dis.Src

theorem StorageFuel.serializes (n : Nat) (x : Dis.StorageFuel) :
    Serializes (run (n + 1)) I.StorageFuel (StorageFuel.enc x) x.serialize :=
  serializes_of (n := n + 0) (d := I.StorageFuel) (f := StorageFuel.serialize) rfl rfl <|
    ser_cons (ser_write (gives_attr (gives_name rfl) (plain rfl) rfl) rfl rfl rfl) <|
    ser_cons (ser_write (gives_attr (gives_name rfl) (plain rfl) rfl) rfl rfl rfl) <|
    ser_cons (ser_write (gives_attr (gives_name rfl) (plain rfl) rfl) rfl rfl rfl) <|
    ser_cons (ser_write (gives_attr (gives_name rfl) (plain rfl) rfl) rfl rfl rfl) <|
    ser_last <| ser_write (gives_attr (gives_name rfl) (plain rfl) rfl) rfl rfl rfl

theorem StorageFuel.makes (n : Nat) : Makes (run (n + 1)) I.StorageFuel (StorageFuel.enc Dis.StorageFuel.init) :=
  makes_of (p := (I.StorageFuel, StorageFuel.__init__)) (by decide +kernel) rfl rfl rfl (by kernel_rfl) fun _ => by kernel_rfl

theorem StorageFuel.parses (n : Nat) :
    Parses (run (n + 1)) I.StorageFuel I.StorageFuel StorageFuel.fields Dis.StorageFuel.parseInto :=
  parses_of (n := n + 0) (d := I.StorageFuel) (f := StorageFuel.parse) rfl rfl <|
    par_read (fun _ _ => True) rfl rfl (plain rfl) (fun _ _ => rfl) (fun _ _ _ => trivial) fun _ =>
    par_read (fun _ _ => True) rfl rfl (plain rfl) (fun _ _ => rfl) (fun _ _ _ => trivial) fun _ =>
    par_read (fun _ _ => True) rfl rfl (plain rfl) (fun _ _ => rfl) (fun _ _ _ => trivial) fun _ =>
    par_read (fun _ _ => True) rfl rfl (plain rfl) (fun _ _ => rfl) (fun _ _ _ => trivial) fun _ =>
    par_read (fun _ _ => True) rfl rfl (plain rfl) (fun _ _ => rfl) (fun _ _ _ => trivial) fun _ =>
    par_nil

theorem StorageFuel.builds (n : Nat) : Builds (run (n + 1)) I.StorageFuel StorageFuel.fields Dis.StorageFuel.init Dis.StorageFuel.parseInto :=
  builds_of (StorageFuel.makes (n + 0)) (StorageFuel.parses (n + 0))

theorem Sensor.serializes (n : Nat) (x : Dis.Sensor) :
    Serializes (run (n + 1)) I.Sensor (Sensor.enc x) x.serialize :=
  serializes_of (n := n + 0) (d := I.Sensor) (f := Sensor.serialize) rfl rfl <|
    ser_cons (ser_write (gives_attr (gives_name rfl) (plain rfl) rfl) rfl rfl rfl) <|
    ser_cons (ser_write (gives_attr (gives_name rfl) (plain rfl) rfl) rfl rfl rfl) <|
    ser_cons (ser_write (gives_attr (gives_name rfl) (plain rfl) rfl) rfl rfl rfl) <|
    ser_cons (ser_write (gives_attr (gives_name rfl) (plain rfl) rfl) rfl rfl rfl) <|
    ser_cons (ser_write (gives_attr (gives_name rfl) (plain rfl) rfl) rfl rfl rfl) <|
    ser_last <| ser_write (gives_attr (gives_name rfl) (plain rfl) rfl) rfl rfl rfl

theorem Sensor.makes (n : Nat) : Makes (run (n + 1)) I.Sensor (Sensor.enc Dis.Sensor.init) :=
  makes_of (p := (I.Sensor, Sensor.__init__)) (by decide +kernel) rfl rfl rfl (by kernel_rfl) fun _ => by kernel_rfl

theorem Sensor.parses (n : Nat) :
    Parses (run (n + 1)) I.Sensor I.Sensor Sensor.fields Dis.Sensor.parseInto :=
  parses_of (n := n + 0) (d := I.Sensor) (f := Sensor.parse) rfl rfl <|
    par_read (fun _ _ => True) rfl rfl (plain rfl) (fun _ _ => rfl) (fun _ _ _ => trivial) fun _ =>
    par_read (fun _ _ => True) rfl rfl (plain rfl) (fun _ _ => rfl) (fun _ _ _ => trivial) fun _ =>
    par_read (fun _ _ => True) rfl rfl (plain rfl) (fun _ _ => rfl) (fun _ _ _ => trivial) fun _ =>
    par_read (fun _ _ => True) rfl rfl (plain rfl) (fun _ _ => rfl) (fun _ _ _ => trivial) fun _ =>
    par_read (fun _ _ => True) rfl rfl (plain rfl) (fun _ _ => rfl) (fun _ _ _ => trivial) fun _ =>
    par_read (fun _ _ => True) rfl rfl (plain rfl) (fun _ _ => rfl) (fun _ _ _ => trivial) fun _ =>
    par_nil

theorem Sensor.builds (n : Nat) : Builds (run (n + 1)) I.Sensor Sensor.fields Dis.Sensor.init Dis.Sensor.parseInto :=
  builds_of (Sensor.makes (n + 0)) (Sensor.parses (n + 0))

theorem MunitionReload.serializes (n : Nat) (x : Dis.MunitionReload) :
    Serializes (run (n + 2)) I.MunitionReload (MunitionReload.enc x) x.serialize :=
  serializes_of (n := n + 1) (d := I.MunitionReload) (f := MunitionReload.serialize) rfl rfl <|
    ser_cons (ser_call rfl (plain rfl) rfl rfl rfl (EntityType.serializes (n + 0) _)) <|
    ser_cons (ser_write (gives_attr (gives_name rfl) (plain rfl) rfl) rfl rfl rfl) <|
    ser_cons (ser_write (gives_attr (gives_name rfl) (plain rfl) rfl) rfl rfl rfl) <|
    ser_cons (ser_write (gives_attr (gives_name rfl) (plain rfl) rfl) rfl rfl rfl) <|
    ser_cons (ser_write (gives_attr (gives_name rfl) (plain rfl) rfl) rfl rfl rfl) <|
    ser_last <| ser_write (gives_attr (gives_name rfl) (plain rfl) rfl) rfl rfl rfl

theorem MunitionReload.makes (n : Nat) : Makes (run (n + 2)) I.MunitionReload (MunitionReload.enc Dis.MunitionReload.init) :=
  makes_of (p := (I.MunitionReload, MunitionReload.__init__)) (by decide +kernel) rfl rfl rfl (by kernel_rfl) fun _ => by kernel_rfl

theorem MunitionReload.parses (n : Nat) :
    Parses (run (n + 2)) I.MunitionReload I.MunitionReload MunitionReload.fields Dis.MunitionReload.parseInto :=
  parses_of (n := n + 1) (d := I.MunitionReload) (f := MunitionReload.parse) rfl rfl <|
    par_call (Q' := fun _ => True) (EntityType.parses (n + 0)) rfl (plain rfl) (fun _ => rfl) (fun _ _ => rfl) (fun _ _ _ => trivial) <|
    par_read (fun _ _ => True) rfl rfl (plain rfl) (fun _ _ => rfl) (fun _ _ _ => trivial) fun _ =>
    par_read (fun _ _ => True) rfl rfl (plain rfl) (fun _ _ => rfl) (fun _ _ _ => trivial) fun _ =>
    par_read (fun _ _ => True) rfl rfl (plain rfl) (fun _ _ => rfl) (fun _ _ _ => trivial) fun _ =>
    par_read (fun _ _ => True) rfl rfl (plain rfl) (fun _ _ => rfl) (fun _ _ _ => trivial) fun _ =>
    par_read (fun _ _ => True) rfl rfl (plain rfl) (fun _ _ => rfl) (fun _ _ _ => trivial) fun _ =>
    par_nil

theorem MunitionReload.builds (n : Nat) : Builds (run (n + 2)) I.MunitionReload MunitionReload.fields Dis.MunitionReload.init Dis.MunitionReload.parseInto :=
  builds_of (MunitionReload.makes (n + 0)) (MunitionReload.parses (n + 0))

theorem StorageFuelReload.serializes (n : Nat) (x : Dis.StorageFuelReload) :
    Serializes (run (n + 1)) I.StorageFuelReload (StorageFuelReload.enc x) x.serialize :=
  serializes_of (n := n + 0) (d := I.StorageFuelReload) (f := StorageFuelReload.serialize) rfl rfl <|
    ser_cons (ser_write (gives_attr (gives_name rfl) (plain rfl) rfl) rfl rfl rfl) <|
    ser_cons (ser_write (gives_attr (gives_name rfl) (plain rfl) rfl) rfl rfl rfl) <|
    ser_cons (ser_write (gives_attr (gives_name rfl) (plain rfl) rfl) rfl rfl rfl) <|
    ser_cons (ser_write (gives_attr (gives_name rfl) (plain rfl) rfl) rfl rfl rfl) <|
    ser_cons (ser_write (gives_attr (gives_name rfl) (plain rfl) rfl) rfl rfl rfl) <|
    ser_cons (ser_write (gives_attr (gives_name rfl) (plain rfl) rfl) rfl rfl rfl) <|
    ser_cons (ser_write (gives_attr (gives_name rfl) (plain rfl) rfl) rfl rfl rfl) <|
    ser_last <| ser_write (gives_attr (gives_name rfl) (plain rfl) rfl) rfl rfl rfl

theorem StorageFuelReload.makes (n : Nat) : Makes (run (n + 1)) I.StorageFuelReload (StorageFuelReload.enc Dis.StorageFuelReload.init) :=
  makes_of (p := (I.StorageFuelReload, StorageFuelReload.__init__)) (by decide +kernel) rfl rfl rfl (by kernel_rfl) fun _ => by kernel_rfl

theorem StorageFuelReload.parses (n : Nat) :
    Parses (run (n + 1)) I.StorageFuelReload I.StorageFuelReload StorageFuelReload.fields Dis.StorageFuelReload.parseInto :=
  parses_of (n := n + 0) (d := I.StorageFuelReload) (f := StorageFuelReload.parse) rfl rfl <|
    par_read (fun _ _ => True) rfl rfl (plain rfl) (fun _ _ => rfl) (fun _ _ _ => trivial) fun _ =>
    par_read (fun _ _ => True) rfl rfl (plain rfl) (fun _ _ => rfl) (fun _ _ _ => trivial) fun _ =>
    par_read (fun _ _ => True) rfl rfl (plain rfl) (fun _ _ => rfl) (fun _ _ _ => trivial) fun _ =>
    par_read (fun _ _ => True) rfl rfl (plain rfl) (fun _ _ => rfl) (fun _ _ _ => trivial) fun _ =>
    par_read (fun _ _ => True) rfl rfl (plain rfl) (fun _ _ => rfl) (fun _ _ _ => trivial) fun _ =>
    par_read (fun _ _ => True) rfl rfl (plain rfl) (fun _ _ => rfl) (fun _ _ _ => trivial) fun _ =>
    par_read (fun _ _ => True) rfl rfl (plain rfl) (fun _ _ => rfl) (fun _ _ _ => trivial) fun _ =>
    par_read (fun _ _ => True) rfl rfl (plain rfl) (fun _ _ => rfl) (fun _ _ _ => trivial) fun _ =>
    par_nil

theorem StorageFuelReload.builds (n : Nat) : Builds (run (n + 1)) I.StorageFuelReload StorageFuelReload.fields Dis.StorageFuelReload.init Dis.StorageFuelReload.parseInto :=
  builds_of (StorageFuelReload.makes (n + 0)) (StorageFuelReload.parses (n + 0))

theorem ExpendableReload.serializes (n : Nat) (x : Dis.ExpendableReload) :
    Serializes (run (n + 2)) I.ExpendableReload (ExpendableReload.enc x) x.serialize :=
  serializes_of (n := n + 1) (d := I.ExpendableReload) (f := ExpendableReload.serialize) rfl rfl <|
    ser_cons (ser_call rfl (plain rfl) rfl rfl rfl (EntityType.serializes (n + 0) _)) <|
    ser_cons (ser_write (gives_attr (gives_name rfl) (plain rfl) rfl) rfl rfl rfl) <|
    ser_cons (ser_write (gives_attr (gives_name rfl) (plain rfl) rfl) rfl rfl rfl) <|
    ser_cons (ser_write (gives_attr (gives_name rfl) (plain rfl) rfl) rfl rfl rfl) <|
    ser_cons (ser_write (gives_attr (gives_name rfl) (plain rfl) rfl) rfl rfl rfl) <|
    ser_last <| ser_write (gives_attr (gives_name rfl) (plain rfl) rfl) rfl rfl rfl

theorem ExpendableReload.makes (n : Nat) : Makes (run (n + 2)) I.ExpendableReload (ExpendableReload.enc Dis.ExpendableReload.init) :=
  makes_of (p := (I.ExpendableReload, ExpendableReload.__init__)) (by decide +kernel) rfl rfl rfl (by kernel_rfl) fun _ => by kernel_rfl

theorem ExpendableReload.parses (n : Nat) :
    Parses (run (n + 2)) I.ExpendableReload I.ExpendableReload ExpendableReload.fields Dis.ExpendableReload.parseInto :=
  parses_of (n := n + 1) (d := I.ExpendableReload) (f := ExpendableReload.parse) rfl rfl <|
    par_call (Q' := fun _ => True) (EntityType.parses (n + 0)) rfl (plain rfl) (fun _ => rfl) (fun _ _ => rfl) (fun _ _ _ => trivial) <|
    par_read (fun _ _ => True) rfl rfl (plain rfl) (fun _ _ => rfl) (fun _ _ _ => trivial) fun _ =>
    par_read (fun _ _ => True) rfl rfl (plain rfl) (fun _ _ => rfl) (fun _ _ _ => trivial) fun _ =>
    par_read (fun _ _ => True) rfl rfl (plain rfl) (fun _ _ => rfl) (fun _ _ _ => trivial) fun _ =>
    par_read (fun _ _ => True) rfl rfl (plain rfl) (fun _ _ => rfl) (fun _ _ _ => trivial) fun _ =>
    par_read (fun _ _ => True) rfl rfl (plain rfl) (fun _ _ => rfl) (fun _ _ _ => trivial) fun _ =>
    par_nil

theorem ExpendableReload.builds (n : Nat) : Builds (run (n + 2)) I.ExpendableReload ExpendableReload.fields Dis.ExpendableReload.init Dis.ExpendableReload.parseInto :=
  builds_of (ExpendableReload.makes (n + 0)) (ExpendableReload.parses (n + 0))

theorem EngineFuelReload.serializes (n : Nat) (x : Dis.EngineFuelReload) :
    Serializes (run (n + 1)) I.EngineFuelReload (EngineFuelReload.enc x) x.serialize :=
  serializes_of (n := n + 0) (d := I.EngineFuelReload) (f := EngineFuelReload.serialize) rfl rfl <|
    ser_cons (ser_write (gives_attr (gives_name rfl) (plain rfl) rfl) rfl rfl rfl) <|
    ser_cons (ser_write (gives_attr (gives_name rfl) (plain rfl) rfl) rfl rfl rfl) <|
    ser_cons (ser_write (gives_attr (gives_name rfl) (plain rfl) rfl) rfl rfl rfl) <|
    ser_cons (ser_write (gives_attr (gives_name rfl) (plain rfl) rfl) rfl rfl rfl) <|
    ser_cons (ser_write (gives_attr (gives_name rfl) (plain rfl) rfl) rfl rfl rfl) <|
    ser_cons (ser_write (gives_attr (gives_name rfl) (plain rfl) rfl) rfl rfl rfl) <|
    ser_last <| ser_write (gives_attr (gives_name rfl) (plain rfl) rfl) rfl rfl rfl

theorem EngineFuelReload.makes (n : Nat) : Makes (run (n + 1)) I.EngineFuelReload (EngineFuelReload.enc Dis.EngineFuelReload.init) :=
  makes_of (p := (I.EngineFuelReload, EngineFuelReload.__init__)) (by decide +kernel) rfl rfl rfl (by kernel_rfl) fun _ => by kernel_rfl

theorem EngineFuelReload.parses (n : Nat) :
    Parses (run (n + 1)) I.EngineFuelReload I.EngineFuelReload EngineFuelReload.fields Dis.EngineFuelReload.parseInto :=
  parses_of (n := n + 0) (d := I.EngineFuelReload) (f := EngineFuelReload.parse) rfl rfl <|
    par_read (fun _ _ => True) rfl rfl (plain rfl) (fun _ _ => rfl) (fun _ _ _ => trivial) fun _ =>
    par_read (fun _ _ => True) rfl rfl (plain rfl) (fun _ _ => rfl) (fun _ _ _ => trivial) fun _ =>
    par_read (fun _ _ => True) rfl rfl (plain rfl) (fun _ _ => rfl) (fun _ _ _ => trivial) fun _ =>
    par_read (fun _ _ => True) rfl rfl (plain rfl) (fun _ _ => rfl) (fun _ _ _ => trivial) fun _ =>
    par_read (fun _ _ => True) rfl rfl (plain rfl) (fun _ _ => rfl) (fun _ _ _ => trivial) fun _ =>
    par_read (fun _ _ => True) rfl rfl (plain rfl) (fun _ _ => rfl) (fun _ _ _ => trivial) fun _ =>
    par_read (fun _ _ => True) rfl rfl (plain rfl) (fun _ _ => rfl) (fun _ _ _ => trivial) fun _ =>
    par_nil

theorem EngineFuelReload.builds (n : Nat) : Builds (run (n + 1)) I.EngineFuelReload EngineFuelReload.fields Dis.EngineFuelReload.init Dis.EngineFuelReload.parseInto :=
  builds_of (EngineFuelReload.makes (n + 0)) (EngineFuelReload.parses (n + 0))

theorem UnattachedIdentifier.serializes (n : Nat) (x : Dis.UnattachedIdentifier) :
    Serializes (run (n + 2)) I.UnattachedIdentifier (UnattachedIdentifier.enc x) x.serialize :=
  serializes_of (n := n + 1) (d := I.UnattachedIdentifier) (f := UnattachedIdentifier.serialize) rfl rfl <|
    ser_cons (ser_call rfl (plain rfl) rfl rfl rfl (SimulationAddress.serializes (n + 0) _)) <|
    ser_last <| ser_write (gives_attr (gives_name rfl) (plain rfl) rfl) rfl rfl rfl

theorem UnattachedIdentifier.makes (n : Nat) : Makes (run (n + 2)) I.UnattachedIdentifier (UnattachedIdentifier.enc Dis.UnattachedIdentifier.init) :=
  makes_of (p := (I.UnattachedIdentifier, UnattachedIdentifier.__init__)) (by decide +kernel) rfl rfl rfl (by kernel_rfl) fun _ => by kernel_rfl

theorem UnattachedIdentifier.parses (n : Nat) :
    Parses (run (n + 2)) I.UnattachedIdentifier I.UnattachedIdentifier UnattachedIdentifier.fields Dis.UnattachedIdentifier.parseInto :=
  parses_of (n := n + 1) (d := I.UnattachedIdentifier) (f := UnattachedIdentifier.parse) rfl rfl <|
    par_call (Q' := fun _ => True) (SimulationAddress.parses (n + 0)) rfl (plain rfl) (fun _ => rfl) (fun _ _ => rfl) (fun _ _ _ => trivial) <|
    par_read (fun _ _ => True) rfl rfl (plain rfl) (fun _ _ => rfl) (fun _ _ _ => trivial) fun _ =>
    par_nil

theorem UnattachedIdentifier.builds (n : Nat) : Builds (run (n + 2)) I.UnattachedIdentifier UnattachedIdentifier.fields Dis.UnattachedIdentifier.init Dis.UnattachedIdentifier.parseInto :=
  builds_of (UnattachedIdentifier.makes (n + 0)) (UnattachedIdentifier.parses (n + 0))

theorem EntityTypeVP.serializes (n : Nat) (x : Dis.EntityTypeVP) :
    Serializes (run (n + 2)) I.EntityTypeVP (EntityTypeVP.enc x) x.serialize :=
  serializes_of (n := n + 1) (d := I.EntityTypeVP) (f := EntityTypeVP.serialize) rfl rfl <|
    ser_cons (ser_write (gives_attr (gives_name rfl) (plain rfl) rfl) rfl rfl rfl) <|
    ser_cons (ser_write (gives_attr (gives_name rfl) (plain rfl) rfl) rfl rfl rfl) <|
    ser_cons (ser_call rfl (plain rfl) rfl rfl rfl (EntityType.serializes (n + 0) _)) <|
    ser_cons (ser_write (gives_attr (gives_name rfl) (plain rfl) rfl) rfl rfl rfl) <|
    ser_last <| ser_write (gives_attr (gives_name rfl) (plain rfl) rfl) rfl rfl rfl

theorem EntityTypeVP.makes (n : Nat) : Makes (run (n + 2)) I.EntityTypeVP (EntityTypeVP.enc Dis.EntityTypeVP.init) :=
  makes_of (p := (I.EntityTypeVP, EntityTypeVP.__init__)) (by decide +kernel) rfl rfl rfl (by kernel_rfl) fun _ => by kernel_rfl

theorem EntityTypeVP.parses (n : Nat) :
    Parses (run (n + 2)) I.EntityTypeVP I.EntityTypeVP EntityTypeVP.fields Dis.EntityTypeVP.parseInto :=
  parses_of (n := n + 1) (d := I.EntityTypeVP) (f := EntityTypeVP.parse) rfl rfl <|
    par_read (fun _ _ => True) rfl rfl (plain rfl) (fun _ _ => rfl) (fun _ _ _ => trivial) fun _ =>
    par_read (fun _ _ => True) rfl rfl (plain rfl) (fun _ _ => rfl) (fun _ _ _ => trivial) fun _ =>
    par_call (Q' := fun _ => True) (EntityType.parses (n + 0)) rfl (plain rfl) (fun _ => rfl) (fun _ _ => rfl) (fun _ _ _ => trivial) <|
    par_read (fun _ _ => True) rfl rfl (plain rfl) (fun _ _ => rfl) (fun _ _ _ => trivial) fun _ =>
    par_read (fun _ _ => True) rfl rfl (plain rfl) (fun _ _ => rfl) (fun _ _ _ => trivial) fun _ =>
    par_nil

theorem EntityTypeVP.builds (n : Nat) : Builds (run (n + 2)) I.EntityTypeVP EntityTypeVP.fields Dis.EntityTypeVP.init Dis.EntityTypeVP.parseInto :=
  builds_of (EntityTypeVP.makes (n + 0)) (EntityTypeVP.parses (n + 0))

theorem BeamStatus.serializes (n : Nat) (x : Dis.BeamStatus) :
    Serializes (run (n + 1)) I.BeamStatus (BeamStatus.enc x) x.serialize :=
  serializes_of (n := n + 0) (d := I.BeamStatus) (f := BeamStatus.serialize) rfl rfl <|
    ser_last <| ser_write (gives_bin (gives_attr (gives_name rfl) (plain rfl) rfl) gives_int fun _ => rfl) rfl rfl (packInt_int _ _)

theorem BeamStatus.makes (n : Nat) : Makes (run (n + 1)) I.BeamStatus (BeamStatus.enc Dis.BeamStatus.init) :=
  makes_of (p := (I.BeamStatus, BeamStatus.__init__)) (by decide +kernel) rfl rfl rfl (by kernel_rfl) fun _ => by kernel_rfl

theorem BeamStatus.parses (n : Nat) :
    Parses (run (n + 1)) I.BeamStatus I.BeamStatus BeamStatus.fields Dis.BeamStatus.parseInto :=
  parses_of (n := n + 0) (d := I.BeamStatus) (f := BeamStatus.parse) rfl rfl <|
    par_local_bin rfl rfl (fun _ _ => rfl) var_value rfl fun _ =>
    par_assign (Q' := fun _ => True) (fun _ _ => gives_name rfl) (plain rfl) (fun _ => rfl) (fun _ _ => trivial) <|
    par_nil

theorem BeamStatus.builds (n : Nat) : Builds (run (n + 1)) I.BeamStatus BeamStatus.fields Dis.BeamStatus.init Dis.BeamStatus.parseInto :=
  builds_of (BeamStatus.makes (n + 0)) (BeamStatus.parses (n + 0))

theorem GridAxis.serializes (n : Nat) (x : Dis.GridAxis) :
    Serializes (run (n + 1)) I.GridAxis (GridAxis.enc x) x.serialize :=
  serializes_of (n := n + 0) (d := I.GridAxis) (f := GridAxis.serialize) rfl rfl <|
    ser_cons (ser_write (gives_attr (gives_name rfl) (plain rfl) rfl) rfl rfl rfl) <|
    ser_cons (ser_write (gives_attr (gives_name rfl) (plain rfl) rfl) rfl rfl rfl) <|
    ser_cons (ser_write (gives_attr (gives_name rfl) (plain rfl) rfl) rfl rfl rfl) <|
    ser_cons (ser_write (gives_attr (gives_name rfl) (plain rfl) rfl) rfl rfl rfl) <|
    ser_cons (ser_write (gives_attr (gives_name rfl) (plain rfl) rfl) rfl rfl rfl) <|
    ser_cons (ser_write (gives_attr (gives_name rfl) (plain rfl) rfl) rfl rfl rfl) <|
    ser_last <| ser_write (gives_attr (gives_name rfl) (plain rfl) rfl) rfl rfl rfl

theorem GridAxis.makes (n : Nat) : Makes (run (n + 1)) I.GridAxis (GridAxis.enc Dis.GridAxis.init) :=
  makes_of (p := (I.GridAxis, GridAxis.__init__)) (by decide +kernel) rfl rfl rfl (by kernel_rfl) fun _ => by kernel_rfl

theorem GridAxis.parses (n : Nat) :
    Parses (run (n + 1)) I.GridAxis I.GridAxis GridAxis.fields Dis.GridAxis.parseInto :=
  parses_of (n := n + 0) (d := I.GridAxis) (f := GridAxis.parse) rfl rfl <|
    par_read (fun _ _ => True) rfl rfl (plain rfl) (fun _ _ => rfl) (fun _ _ _ => trivial) fun _ =>
    par_read (fun _ _ => True) rfl rfl (plain rfl) (fun _ _ => rfl) (fun _ _ _ => trivial) fun _ =>
    par_read (fun _ _ => True) rfl rfl (plain rfl) (fun _ _ => rfl) (fun _ _ _ => trivial) fun _ =>
    par_read (fun _ _ => True) rfl rfl (plain rfl) (fun _ _ => rfl) (fun _ _ _ => trivial) fun _ =>
    par_read (fun _ _ => True) rfl rfl (plain rfl) (fun _ _ => rfl) (fun _ _ _ => trivial) fun _ =>
    par_read (fun _ _ => True) rfl rfl (plain rfl) (fun _ _ => rfl) (fun _ _ _ => trivial) fun _ =>
    par_read (fun _ _ => True) rfl rfl (plain rfl) (fun _ _ => rfl) (fun _ _ _ => trivial) fun _ =>
    par_nil

theorem GridAxis.builds (n : Nat) : Builds (run (n + 1)) I.GridAxis GridAxis.fields Dis.GridAxis.init Dis.GridAxis.parseInto :=
  builds_of (GridAxis.makes (n + 0)) (GridAxis.parses (n + 0))

theorem RecordSpecification.serializes (n : Nat) (x : Dis.RecordSpecification) :
    Serializes (run (n + 2)) I.RecordSpecification (RecordSpecification.enc x) x.serialize :=
  serializes_of (n := n + 1) (d := I.RecordSpecification) (f := RecordSpecification.serialize) rfl rfl <|
    ser_cons (ser_write (gives_property (gives_name rfl) (by decide +kernel)
        (fun io => property_of (n := n + 0) (d := I.RecordSpecification) (f := RecordSpecification.numberOfRecordSets) rfl rfl rfl (gives_len_map (gives_attr (gives_name rfl) (plain rfl) rfl)) io)) rfl rfl (packInt_int _ _)) <|
    ser_last <| ser_for (gives_attr (gives_name rfl) (plain rfl) rfl) var_anObj rfl fun a _ =>
      ser_last (ser_var rfl rfl (RecordSpecificationElement.serializes (n + 0) a))

theorem RecordSpecification.makes (n : Nat) : Makes (run (n + 1)) I.RecordSpecification (RecordSpecification.enc Dis.RecordSpecification.init) :=
  makes_of (p := (I.RecordSpecification, RecordSpecification.__init__)) (by decide +kernel) rfl rfl rfl (by kernel_rfl) fun _ => by kernel_rfl

theorem RecordSpecification.parses (n : Nat) :
    Parses (run (n + 1)) I.RecordSpecification I.RecordSpecification RecordSpecification.fields Dis.RecordSpecification.parseInto :=
  parses_of (n := n + 0) (d := I.RecordSpecification) (f := RecordSpecification.parse) rfl rfl <|
    par_local rfl rfl var_numberOfRecordSets rfl fun _ =>
    par_unknown (fun _ _ => gives_range0 (gives_name rfl)) (by simp) no_null null_taken rfl rfl rfl
      var_idx rfl rfl <|
    par_nil

theorem RecordSpecification.builds (n : Nat) : Builds (run (n + 1)) I.RecordSpecification RecordSpecification.fields Dis.RecordSpecification.init Dis.RecordSpecification.parseInto :=
  builds_of (RecordSpecification.makes (n + 0)) (RecordSpecification.parses (n + 0))

theorem EventIdentifierLiveEntity.serializes (n : Nat) (x : Dis.EventIdentifierLiveEntity) :
    Serializes (run (n + 1)) I.EventIdentifierLiveEntity (EventIdentifierLiveEntity.enc x) x.serialize :=
  serializes_of (n := n + 0) (d := I.EventIdentifierLiveEntity) (f := EventIdentifierLiveEntity.serialize) rfl rfl <|
    ser_cons (ser_write (gives_attr (gives_name rfl) (plain rfl) rfl) rfl rfl rfl) <|
    ser_cons (ser_write (gives_attr (gives_name rfl) (plain rfl) rfl) rfl rfl rfl) <|
    ser_last <| ser_write (gives_attr (gives_name rfl) (plain rfl) rfl) rfl rfl rfl

theorem EventIdentifierLiveEntity.makes (n : Nat) : Makes (run (n + 1)) I.EventIdentifierLiveEntity (EventIdentifierLiveEntity.enc Dis.EventIdentifierLiveEntity.init) :=
  makes_of (p := (I.EventIdentifierLiveEntity, EventIdentifierLiveEntity.__init__)) (by decide +kernel) rfl rfl rfl (by kernel_rfl) fun _ => by kernel_rfl

theorem EventIdentifierLiveEntity.parses (n : Nat) :
    Parses (run (n + 1)) I.EventIdentifierLiveEntity I.EventIdentifierLiveEntity EventIdentifierLiveEntity.fields Dis.EventIdentifierLiveEntity.parseInto :=
  parses_of (n := n + 0) (d := I.EventIdentifierLiveEntity) (f := EventIdentifierLiveEntity.parse) rfl rfl <|
    par_read (fun _ _ => True) rfl rfl (plain rfl) (fun _ _ => rfl) (fun _ _ _ => trivial) fun _ =>
    par_read (fun _ _ => True) rfl rfl (plain rfl) (fun _ _ => rfl) (fun _ _ _ => trivial) fun _ =>
    par_read (fun _ _ => True) rfl rfl (plain rfl) (fun _ _ => rfl) (fun _ _ _ => trivial) fun _ =>
    par_nil

theorem EventIdentifierLiveEntity.builds (n : Nat) : Builds (run (n + 1)) I.EventIdentifierLiveEntity EventIdentifierLiveEntity.fields Dis.EventIdentifierLiveEntity.init Dis.EventIdentifierLiveEntity.parseInto :=
  builds_of (EventIdentifierLiveEntity.makes (n + 0)) (EventIdentifierLiveEntity.parses (n + 0))

theorem ExpendableDescriptor.serializes (n : Nat) (x : Dis.ExpendableDescriptor) :
    Serializes (run (n + 2)) I.ExpendableDescriptor (ExpendableDescriptor.enc x) x.serialize :=
  serializes_of (n := n + 1) (d := I.ExpendableDescriptor) (f := ExpendableDescriptor.serialize) rfl rfl <|
    ser_cons (ser_call rfl (plain rfl) rfl rfl rfl (EntityType.serializes (n + 0) _)) <|
    ser_last <| ser_write (gives_attr (gives_name rfl) (plain rfl) rfl) rfl rfl rfl

theorem ExpendableDescriptor.makes (n : Nat) : Makes (run (n + 2)) I.ExpendableDescriptor (ExpendableDescriptor.enc Dis.ExpendableDescriptor.init) :=
  makes_of (p := (I.ExpendableDescriptor, ExpendableDescriptor.__init__)) (by decide +kernel) rfl rfl rfl (by kernel_rfl) fun _ => by kernel_rfl

theorem ExpendableDescriptor.parses (n : Nat) :
    Parses (run (n + 2)) I.ExpendableDescriptor I.ExpendableDescriptor ExpendableDescriptor.fields Dis.ExpendableDescriptor.parseInto :=
  parses_of (n := n + 1) (d := I.ExpendableDescriptor) (f := ExpendableDescriptor.parse) rfl rfl <|
    par_call (Q' := fun _ => True) (EntityType.parses (n + 0)) rfl (plain rfl) (fun _ => rfl) (fun _ _ => rfl) (fun _ _ _ => trivial) <|
    par_read (fun _ _ => True) rfl rfl (plain rfl) (fun _ _ => rfl) (fun _ _ _ => trivial) fun _ =>
    par_nil

theorem ExpendableDescriptor.builds (n : Nat) : Builds (run (n + 2)) I.ExpendableDescriptor ExpendableDescriptor.fields Dis.ExpendableDescriptor.init Dis.ExpendableDescriptor.parseInto :=
  builds_of (ExpendableDescriptor.makes (n + 0)) (ExpendableDescriptor.parses (n + 0))

theorem PropulsionSystemData.serializes (n : Nat) (x : Dis.PropulsionSystemData) :
    Serializes (run (n + 1)) I.PropulsionSystemData (PropulsionSystemData.enc x) x.serialize :=
  serializes_of (n := n + 0) (d := I.PropulsionSystemData) (f := PropulsionSystemData.serialize) rfl rfl <|
    ser_cons (ser_write (gives_attr (gives_name rfl) (plain rfl) rfl) rfl rfl rfl) <|
    ser_last <| ser_write (gives_attr (gives_name rfl) (plain rfl) rfl) rfl rfl rfl

theorem PropulsionSystemData.makes (n : Nat) : Makes (run (n + 1)) I.PropulsionSystemData (PropulsionSystemData.enc Dis.PropulsionSystemData.init) :=
  makes_of (p := (I.PropulsionSystemData, PropulsionSystemData.__init__)) (by decide +kernel) rfl rfl rfl (by kernel_rfl) fun _ => by kernel_rfl

theorem PropulsionSystemData.parses (n : Nat) :
    Parses (run (n + 1)) I.PropulsionSystemData I.PropulsionSystemData PropulsionSystemData.fields Dis.PropulsionSystemData.parseInto :=
  parses_of (n := n + 0) (d := I.PropulsionSystemData) (f := PropulsionSystemData.parse) rfl rfl <|
    par_read (fun _ _ => True) rfl rfl (plain rfl) (fun _ _ => rfl) (fun _ _ _ => trivial) fun _ =>
    par_read (fun _ _ => True) rfl rfl (plain rfl) (fun _ _ => rfl) (fun _ _ _ => trivial) fun _ =>
    par_nil

theorem PropulsionSystemData.builds (n : Nat) : Builds (run (n + 1)) I.PropulsionSystemData PropulsionSystemData.fields Dis.PropulsionSystemData.init Dis.PropulsionSystemData.parseInto :=
  builds_of (PropulsionSystemData.makes (n + 0)) (PropulsionSystemData.parses (n + 0))

theorem LiveEntityIdentifier.serializes (n : Nat) (x : Dis.LiveEntityIdentifier) :
    Serializes (run (n + 2)) I.LiveEntityIdentifier (LiveEntityIdentifier.enc x) x.serialize :=
  serializes_of (n := n + 1) (d := I.LiveEntityIdentifier) (f := LiveEntityIdentifier.serialize) rfl rfl <|
    ser_cons (ser_call rfl (plain rfl) rfl rfl rfl (LiveSimulationAddress.serializes (n + 0) _)) <|
    ser_last <| ser_write (gives_attr (gives_name rfl) (plain rfl) rfl) rfl rfl rfl

theorem LiveEntityIdentifier.makes (n : Nat) : Makes (run (n + 2)) I.LiveEntityIdentifier (LiveEntityIdentifier.enc Dis.LiveEntityIdentifier.init) :=
  makes_of (p := (I.LiveEntityIdentifier, LiveEntityIdentifier.__init__)) (by decide +kernel) rfl rfl rfl (by kernel_rfl) fun _ => by kernel_rfl

theorem LiveEntityIdentifier.parses (n : Nat) :
    Parses (run (n + 2)) I.LiveEntityIdentifier I.LiveEntityIdentifier LiveEntityIdentifier.fields Dis.LiveEntityIdentifier.parseInto :=
  parses_of (n := n + 1) (d := I.LiveEntityIdentifier) (f := LiveEntityIdentifier.parse) rfl rfl <|
    par_call (Q' := fun _ => True) (LiveSimulationAddress.parses (n + 0)) rfl (plain rfl) (fun _ => rfl) (fun _ _ => rfl) (fun _ _ _ => trivial) <|
    par_read (fun _ _ => True) rfl rfl (plain rfl) (fun _ _ => rfl) (fun _ _ _ => trivial) fun _ =>
    par_nil

theorem LiveEntityIdentifier.builds (n : Nat) : Builds (run (n + 2)) I.LiveEntityIdentifier LiveEntityIdentifier.fields Dis.LiveEntityIdentifier.init Dis.LiveEntityIdentifier.parseInto :=
  builds_of (LiveEntityIdentifier.makes (n + 0)) (LiveEntityIdentifier.parses (n + 0))

theorem EmitterSystem.serializes (n : Nat) (x : Dis.EmitterSystem) :
    Serializes (run (n + 1)) I.EmitterSystem (EmitterSystem.enc x) x.serialize :=
  serializes_of (n := n + 0) (d := I.EmitterSystem) (f := EmitterSystem.serialize) rfl rfl <|
    ser_cons (ser_write (gives_attr (gives_name rfl) (plain rfl) rfl) rfl rfl rfl) <|
    ser_cons (ser_write (gives_attr (gives_name rfl) (plain rfl) rfl) rfl rfl rfl) <|
    ser_last <| ser_write (gives_attr (gives_name rfl) (plain rfl) rfl) rfl rfl rfl

theorem EmitterSystem.makes (n : Nat) : Makes (run (n + 1)) I.EmitterSystem (EmitterSystem.enc Dis.EmitterSystem.init) :=
  makes_of (p := (I.EmitterSystem, EmitterSystem.__init__)) (by decide +kernel) rfl rfl rfl (by kernel_rfl) fun _ => by kernel_rfl

theorem EmitterSystem.parses (n : Nat) :
    Parses (run (n + 1)) I.EmitterSystem I.EmitterSystem EmitterSystem.fields Dis.EmitterSystem.parseInto :=
  parses_of (n := n + 0) (d := I.EmitterSystem) (f := EmitterSystem.parse) rfl rfl <|
    par_read (fun _ _ => True) rfl rfl (plain rfl) (fun _ _ => rfl) (fun _ _ _ => trivial) fun _ =>
    par_read (fun _ _ => True) rfl rfl (plain rfl) (fun _ _ => rfl) (fun _ _ _ => trivial) fun _ =>
    par_read (fun _ _ => True) rfl rfl (plain rfl) (fun _ _ => rfl) (fun _ _ _ => trivial) fun _ =>
    par_nil

theorem EmitterSystem.builds (n : Nat) : Builds (run (n + 1)) I.EmitterSystem EmitterSystem.fields Dis.EmitterSystem.init Dis.EmitterSystem.parseInto :=
  builds_of (EmitterSystem.makes (n + 0)) (EmitterSystem.parses (n + 0))

theorem PduStatus.serializes (n : Nat) (x : Dis.PduStatus) :
    Serializes (run (n + 1)) I.PduStatus (PduStatus.enc x) x.serialize :=
  serializes_of (n := n + 0) (d := I.PduStatus) (f := PduStatus.serialize) rfl rfl <|
    ser_last <| ser_write (gives_attr (gives_name rfl) (plain rfl) rfl) rfl rfl rfl

theorem PduStatus.makes (n : Nat) : Makes (run (n + 1)) I.PduStatus (PduStatus.enc Dis.PduStatus.init) :=
  makes_of (p := (I.PduStatus, PduStatus.__init__)) (by decide +kernel) rfl rfl rfl (by kernel_rfl) fun _ => by kernel_rfl

theorem PduStatus.parses (n : Nat) :
    Parses (run (n + 1)) I.PduStatus I.PduStatus PduStatus.fields Dis.PduStatus.parseInto :=
  parses_of (n := n + 0) (d := I.PduStatus) (f := PduStatus.parse) rfl rfl <|
    par_read (fun _ _ => True) rfl rfl (plain rfl) (fun _ _ => rfl) (fun _ _ _ => trivial) fun _ =>
    par_nil

theorem PduStatus.builds (n : Nat) : Builds (run (n + 1)) I.PduStatus PduStatus.fields Dis.PduStatus.init Dis.PduStatus.parseInto :=
  builds_of (PduStatus.makes (n + 0)) (PduStatus.parses (n + 0))

theorem EmissionSystemBeamRecord.over : Over EmissionSystemBeamRecord.Raw.out EmissionSystemBeamRecord.parseRaw Dis.EmissionSystemBeamRecord.parseInto :=
  over_bind over_read fun _ =>
  over_bind (over_set fun _ => rfl) fun _ =>
  over_bind over_read fun _ =>
  over_bind (over_set fun _ => rfl) fun _ =>
  over_bind over_read fun _ =>
  over_bind (over_set fun _ => rfl) fun _ =>
  over_bind (over_call EEFundamentalParameterData.over (fun _ => rfl) (fun _ _ => rfl)) fun _ =>
  over_bind over_read fun _ =>
  over_bind (over_set fun _ => rfl) fun _ =>
  over_bind over_read fun _ =>
  over_bind over_read fun _ =>
  over_bind (over_set fun _ => rfl) fun _ =>
  over_bind (over_same (fun _ => rfl) (fun _ _ => rfl)) fun _ =>
  over_bind over_read fun _ =>
  over_bind (over_set fun _ => rfl) fun _ =>
  over_bind (over_objs (π := EmissionSystemBeamRecord.Raw.out) (fun _ => rfl) (fun _ _ => rfl) _) fun _ =>
  over_pure

theorem EmissionSystemBeamRecord.ends : Ends (fun _ => True) EmissionSystemBeamRecord.parseRaw (fun (r : EmissionSystemBeamRecord.Raw) => EEFundamentalParameterData.rawFields r.fundamentalParameterData = EEFundamentalParameterData.fields r.fundamentalParameterData.out ∧ True) :=
  ends_bind ends_read fun _ =>
  ends_bind (ends_keep fun _ h => h) fun _ =>
  ends_bind ends_read fun _ =>
  ends_bind (ends_keep fun _ h => h) fun _ =>
  ends_bind ends_read fun _ =>
  ends_bind (ends_keep fun _ h => h) fun _ =>
  ends_bind (ends_part (fun (r : EmissionSystemBeamRecord.Raw) => EEFundamentalParameterData.rawFields r.fundamentalParameterData = EEFundamentalParameterData.fields r.fundamentalParameterData.out ∧ True) EEFundamentalParameterData.ends (fun _ t h h1 => ⟨EEFundamentalParameterData.done t h1, h⟩)) fun _ =>
  ends_bind ends_read fun _ =>
  ends_bind (ends_keep fun _ h => h) fun _ =>
  ends_bind ends_read fun _ =>
  ends_bind ends_read fun _ =>
  ends_bind (ends_keep fun _ h => h) fun _ =>
  ends_bind (ends_call fun _ _ h => h) fun _ =>
  ends_bind ends_read fun _ =>
  ends_bind (ends_keep fun _ h => h) fun _ =>
  ends_bind (ends_objs (fun _ _ h => h) _) fun _ =>
  ends_pure

theorem EmissionSystemBeamRecord.done (r : EmissionSystemBeamRecord.Raw) (h : (fun (r : EmissionSystemBeamRecord.Raw) => EEFundamentalParameterData.rawFields r.fundamentalParameterData = EEFundamentalParameterData.fields r.fundamentalParameterData.out ∧ True) r) : EmissionSystemBeamRecord.rawFields r = EmissionSystemBeamRecord.fields r.out := by
  obtain ⟨h0, -⟩ := h
  simp only [EmissionSystemBeamRecord.rawFields, EmissionSystemBeamRecord.fields, h0]

theorem EmissionSystemBeamRecord.serializes (n : Nat) (x : Dis.EmissionSystemBeamRecord) :
    Serializes (run (n + 4)) I.EmissionSystemBeamRecord (EmissionSystemBeamRecord.enc x) x.serialize :=
  serializes_of (n := n + 3) (d := I.EmissionSystemBeamRecord) (f := EmissionSystemBeamRecord.serialize) rfl rfl <|
    ser_cons (ser_write (gives_attr (gives_name rfl) (plain rfl) rfl) rfl rfl rfl) <|
    ser_cons (ser_write (gives_attr (gives_name rfl) (plain rfl) rfl) rfl rfl rfl) <|
    ser_cons (ser_write (gives_attr (gives_name rfl) (plain rfl) rfl) rfl rfl rfl) <|
    ser_cons (ser_call rfl (plain rfl) rfl rfl rfl (EEFundamentalParameterData.serializes (n + 2) _)) <|
    ser_cons (ser_write (gives_attr (gives_name rfl) (plain rfl) rfl) rfl rfl rfl) <|
    ser_cons (ser_write (gives_property (gives_name rfl) (by decide +kernel)
        (fun io => property_of (n := n + 2) (d := I.EmissionSystemBeamRecord) (f := EmissionSystemBeamRecord.numberOfTargetsInTrackJam) rfl rfl rfl (gives_len_map (gives_attr (gives_name rfl) (plain rfl) rfl)) io)) rfl rfl (packInt_int _ _)) <|
    ser_cons (ser_write (gives_attr (gives_name rfl) (plain rfl) rfl) rfl rfl rfl) <|
    ser_cons (ser_call rfl (plain rfl) rfl rfl rfl (BeamStatus.serializes (n + 2) _)) <|
    ser_cons (ser_write (gives_attr (gives_name rfl) (plain rfl) rfl) rfl rfl rfl) <|
    ser_last <| ser_for (gives_attr (gives_name rfl) (plain rfl) rfl) var_anObj rfl fun a _ =>
      ser_last (ser_var rfl rfl (TrackJamData.serializes (n + 0) a))

theorem EmissionSystemBeamRecord.makesRaw (n : Nat) : Makes (run (n + 2)) I.EmissionSystemBeamRecord (.obj I.EmissionSystemBeamRecord (EmissionSystemBeamRecord.rawFields EmissionSystemBeamRecord.made)) :=
  makes_of (p := (I.EmissionSystemBeamRecord, EmissionSystemBeamRecord.__init__)) (by decide +kernel) rfl rfl rfl (by kernel_rfl) fun _ => by kernel_rfl

theorem EmissionSystemBeamRecord.parses (n : Nat) :
    Parses (run (n + 4)) I.EmissionSystemBeamRecord I.EmissionSystemBeamRecord EmissionSystemBeamRecord.fields Dis.EmissionSystemBeamRecord.parseInto :=
  parses_of (n := n + 3) (d := I.EmissionSystemBeamRecord) (f := EmissionSystemBeamRecord.parse) rfl rfl <|
    par_read (fun _ _ => True) rfl rfl (plain rfl) (fun _ _ => rfl) (fun _ _ _ => trivial) fun _ =>
    par_read (fun _ _ => True) rfl rfl (plain rfl) (fun _ _ => rfl) (fun _ _ _ => trivial) fun _ =>
    par_read (fun _ _ => True) rfl rfl (plain rfl) (fun _ _ => rfl) (fun _ _ _ => trivial) fun _ =>
    par_call (Q' := fun _ => True) (EEFundamentalParameterData.parses (n + 2)) rfl (plain rfl) (fun _ => rfl) (fun _ _ => rfl) (fun _ _ _ => trivial) <|
    par_read (fun _ _ => True) rfl rfl (plain rfl) (fun _ _ => rfl) (fun _ _ _ => trivial) fun _ =>
    par_local rfl rfl var_numberOfTargetsInTrackJam rfl fun _ =>
    par_read (fun _ _ => True) rfl rfl (plain rfl) (fun _ _ => rfl) (fun _ _ _ => trivial) fun _ =>
    par_call (Q' := fun _ => True) (BeamStatus.parses (n + 2)) rfl (plain rfl) (fun _ => rfl) (fun _ _ => rfl) (fun _ _ _ => trivial) <|
    par_read (fun _ _ => True) rfl rfl (plain rfl) (fun _ _ => rfl) (fun _ _ _ => trivial) fun _ =>
    par_objs (fun _ _ => gives_range0 (gives_name rfl)) (by simp) (TrackJamData.builds (n + 0)) rfl
      (plain rfl) (fun _ => rfl) (fun _ _ => rfl) var_idx rfl rfl var_element rfl rfl <|
    par_nil

theorem EmissionSystemBeamRecord.parsesRaw (n : Nat) :
    Parses (run (n + 4)) I.EmissionSystemBeamRecord I.EmissionSystemBeamRecord EmissionSystemBeamRecord.rawFields EmissionSystemBeamRecord.parseRaw :=
  parses_of (n := n + 3) (d := I.EmissionSystemBeamRecord) (f := EmissionSystemBeamRecord.parse) rfl rfl <|
    par_read (fun _ _ => True) rfl rfl (plain rfl) (fun _ _ => rfl) (fun _ _ _ => trivial) fun _ =>
    par_read (fun _ _ => True) rfl rfl (plain rfl) (fun _ _ => rfl) (fun _ _ _ => trivial) fun _ =>
    par_read (fun _ _ => True) rfl rfl (plain rfl) (fun _ _ => rfl) (fun _ _ _ => trivial) fun _ =>
    par_call (Q' := fun _ => True) (EEFundamentalParameterData.parsesRaw (n + 2)) rfl (plain rfl) (fun _ => rfl) (fun _ _ => rfl) (fun _ _ _ => trivial) <|
    par_read (fun _ _ => True) rfl rfl (plain rfl) (fun _ _ => rfl) (fun _ _ _ => trivial) fun _ =>
    par_local rfl rfl var_numberOfTargetsInTrackJam rfl fun _ =>
    par_read (fun _ _ => True) rfl rfl (plain rfl) (fun _ _ => rfl) (fun _ _ _ => trivial) fun _ =>
    par_call (Q' := fun _ => True) (BeamStatus.parses (n + 2)) rfl (plain rfl) (fun _ => rfl) (fun _ _ => rfl) (fun _ _ _ => trivial) <|
    par_read (fun _ _ => True) rfl rfl (plain rfl) (fun _ _ => rfl) (fun _ _ _ => trivial) fun _ =>
    par_objs (fun _ _ => gives_range0 (gives_name rfl)) (by simp) (TrackJamData.builds (n + 0)) rfl
      (plain rfl) (fun _ => rfl) (fun _ _ => rfl) var_idx rfl rfl var_element rfl rfl <|
    par_nil

theorem EmissionSystemBeamRecord.builds (n : Nat) : Builds (run (n + 4)) I.EmissionSystemBeamRecord EmissionSystemBeamRecord.fields Dis.EmissionSystemBeamRecord.init Dis.EmissionSystemBeamRecord.parseInto :=
  builds_over (π := EmissionSystemBeamRecord.Raw.out) (EmissionSystemBeamRecord.makesRaw (n + 2)) (EmissionSystemBeamRecord.parsesRaw (n + 0)) EmissionSystemBeamRecord.over EmissionSystemBeamRecord.ends rfl
    fun r h => EmissionSystemBeamRecord.done r h

theorem EmissionSystemRecord.serializes (n : Nat) (x : Dis.EmissionSystemRecord) :
    Serializes (run (n + 5)) I.EmissionSystemRecord (EmissionSystemRecord.enc x) x.serialize :=
  serializes_of (n := n + 4) (d := I.EmissionSystemRecord) (f := EmissionSystemRecord.serialize) rfl rfl <|
    ser_cons (ser_write (gives_attr (gives_name rfl) (plain rfl) rfl) rfl rfl rfl) <|
    ser_cons (ser_write (gives_property (gives_name rfl) (by decide +kernel)
        (fun io => property_of (n := n + 3) (d := I.EmissionSystemRecord) (f := EmissionSystemRecord.numberOfBeams) rfl rfl rfl (gives_len_map (gives_attr (gives_name rfl) (plain rfl) rfl)) io)) rfl rfl (packInt_int _ _)) <|
    ser_cons (ser_write gives_int rfl rfl (packInt_int _ _)) <|
    ser_cons (ser_call rfl (plain rfl) rfl rfl rfl (EmitterSystem.serializes (n + 3) _)) <|
    ser_cons (ser_call rfl (plain rfl) rfl rfl rfl (Vector3Float.serializes (n + 3) _)) <|
    ser_last <| ser_for (gives_attr (gives_name rfl) (plain rfl) rfl) var_anObj rfl fun a _ =>
      ser_last (ser_var rfl rfl (EmissionSystemBeamRecord.serializes (n + 0) a))

theorem EmissionSystemRecord.makes (n : Nat) : Makes (run (n + 2)) I.EmissionSystemRecord (EmissionSystemRecord.enc Dis.EmissionSystemRecord.init) :=
  makes_of (p := (I.EmissionSystemRecord, EmissionSystemRecord.__init__)) (by decide +kernel) rfl rfl rfl (by kernel_rfl) fun _ => by kernel_rfl

theorem EmissionSystemRecord.parses (n : Nat) :
    Parses (run (n + 5)) I.EmissionSystemRecord I.EmissionSystemRecord EmissionSystemRecord.fields Dis.EmissionSystemRecord.parseInto :=
  parses_of (n := n + 4) (d := I.EmissionSystemRecord) (f := EmissionSystemRecord.parse) rfl rfl <|
    par_read (fun _ _ => True) rfl rfl (plain rfl) (fun _ _ => rfl) (fun _ _ _ => trivial) fun _ =>
    par_local rfl rfl var_numberOfBeams rfl fun _ =>
    par_drop rfl rfl <|
    par_call (Q' := fun _ => True) (EmitterSystem.parses (n + 3)) rfl (plain rfl) (fun _ => rfl) (fun _ _ => rfl) (fun _ _ _ => trivial) <|
    par_call (Q' := fun _ => True) (Vector3Float.parses (n + 3)) rfl (plain rfl) (fun _ => rfl) (fun _ _ => rfl) (fun _ _ _ => trivial) <|
    par_objs (fun _ _ => gives_range0 (gives_name rfl)) (by simp) (EmissionSystemBeamRecord.builds (n + 0)) rfl
      (plain rfl) (fun _ => rfl) (fun _ _ => rfl) var_idx rfl rfl var_element rfl rfl <|
    par_nil

theorem EmissionSystemRecord.builds (n : Nat) : Builds (run (n + 5)) I.EmissionSystemRecord EmissionSystemRecord.fields Dis.EmissionSystemRecord.init Dis.EmissionSystemRecord.parseInto :=
  builds_of (EmissionSystemRecord.makes (n + 3)) (EmissionSystemRecord.parses (n + 0))

theorem PduSuperclass.serializes (n : Nat) (k : Ident) (rest : List (Ident × Val)) (x : Dis.PduSuperclass) :
    Serializes (run (n + 1)) I.PduSuperclass (.obj k (PduSuperclass.fields x ++ rest)) x.serialize :=
  serializes_of (n := n + 0) (d := I.PduSuperclass) (f := PduSuperclass.serialize) rfl rfl <|
    ser_cons (ser_write (gives_attr (gives_name rfl) (plain rfl) rfl) rfl rfl rfl) <|
    ser_cons (ser_write (gives_attr (gives_name rfl) (plain rfl) rfl) rfl rfl rfl) <|
    ser_cons (ser_write (gives_attr (gives_name rfl) (plain rfl) rfl) rfl rfl rfl) <|
    ser_cons (ser_write (gives_attr (gives_name rfl) (plain rfl) rfl) rfl rfl rfl) <|
    ser_cons (ser_write (gives_attr (gives_name rfl) (plain rfl) rfl) rfl rfl rfl) <|
    ser_last <| ser_write (gives_attr (gives_name rfl) (plain rfl) rfl) rfl rfl rfl

theorem PduSuperclass.parses (n : Nat) (k : Ident) (rest : List (Ident × Val)) :
    Parses (run (n + 1)) I.PduSuperclass k (fun x => PduSuperclass.fields x ++ rest) Dis.PduSuperclass.parseInto :=
  parses_of (n := n + 0) (d := I.PduSuperclass) (f := PduSuperclass.parse) rfl rfl <|
    par_read (fun _ _ => True) rfl rfl (plain rfl) (fun _ _ => rfl) (fun _ _ _ => trivial) fun _ =>
    par_read (fun _ _ => True) rfl rfl (plain rfl) (fun _ _ => rfl) (fun _ _ _ => trivial) fun _ =>
    par_read (fun _ _ => True) rfl rfl (plain rfl) (fun _ _ => rfl) (fun _ _ _ => trivial) fun _ =>
    par_read (fun _ _ => True) rfl rfl (plain rfl) (fun _ _ => rfl) (fun _ _ _ => trivial) fun _ =>
    par_read (fun _ _ => True) rfl rfl (plain rfl) (fun _ _ => rfl) (fun _ _ _ => trivial) fun _ =>
    par_read (fun _ _ => True) rfl rfl (plain rfl) (fun _ _ => rfl) (fun _ _ _ => trivial) fun _ =>
    par_nil

theorem LiveEntityPdu.found : look I.LiveEntityPdu program = some LiveEntityPdu := rfl

theorem LiveEntityPdu.serializes (n : Nat) (x : Dis.LiveEntityPdu) :
    Serializes (run (n + 2)) I.LiveEntityPdu (LiveEntityPdu.enc x) x.serialize :=
  serializes_of (n := n + 1) (d := I.LiveEntityPdu) (f := LiveEntityPdu.serialize) rfl rfl <|
    ser_cons (ser_super (c := I.LiveEntityPdu) rfl (Or.inl rfl) LiveEntityPdu.found rfl rfl (PduSuperclass.serializes (n + 0) _ _ _)) <|
    ser_cons (ser_write (gives_attr (gives_name rfl) (plain rfl) rfl) rfl rfl rfl) <|
    ser_last <| ser_write (gives_attr (gives_name rfl) (plain rfl) rfl) rfl rfl rfl

theorem LiveEntityPdu.parses (n : Nat) :
    Parses (run (n + 2)) I.LiveEntityPdu I.LiveEntityPdu LiveEntityPdu.fields Dis.LiveEntityPdu.parseInto :=
  parses_of (n := n + 1) (d := I.LiveEntityPdu) (f := LiveEntityPdu.parse) rfl rfl <|
    par_super (Q' := fun _ => True) (c := I.LiveEntityPdu) (hs := fun x y => PduSuperclass.fields y ++ (LiveEntityPdu.own x))
      (fun _ => PduSuperclass.parses (n + 0) _ _) rfl (Or.inl rfl) LiveEntityPdu.found rfl (fun _ => rfl) (fun _ _ => rfl) (fun _ _ _ => trivial) <|
    par_read (fun _ _ => True) rfl rfl (plain rfl) (fun _ _ => rfl) (fun _ _ _ => trivial) fun _ =>
    par_read (fun _ _ => True) rfl rfl (plain rfl) (fun _ _ => rfl) (fun _ _ _ => trivial) fun _ =>
    par_nil

theorem Pdu.found : look I.Pdu program = some Pdu := rfl

theorem Pdu.serializes (n : Nat) (k : Ident) (rest : List (Ident × Val)) (x : Dis.Pdu) :
    Serializes (run (n + 2)) I.Pdu (.obj k (Pdu.fields x ++ rest)) x.serialize :=
  serializes_of (n := n + 1) (d := I.Pdu) (f := Pdu.serialize) rfl rfl <|
    ser_cons (ser_super (c := I.Pdu) rfl (Or.inl rfl) Pdu.found rfl rfl (PduSuperclass.serializes (n + 0) _ _ _)) <|
    ser_cons (ser_write (gives_attr (gives_name rfl) (plain rfl) rfl) rfl rfl rfl) <|
    ser_last <| ser_write (gives_attr (gives_name rfl) (plain rfl) rfl) rfl rfl rfl

theorem Pdu.parses (n : Nat) (k : Ident) (rest : List (Ident × Val)) :
    Parses (run (n + 2)) I.Pdu k (fun x => Pdu.fields x ++ rest) Dis.Pdu.parseInto :=
  parses_of (n := n + 1) (d := I.Pdu) (f := Pdu.parse) rfl rfl <|
    par_super (Q' := fun _ => True) (c := I.Pdu) (hs := fun x y => PduSuperclass.fields y ++ (Pdu.own x ++ rest))
      (fun _ => PduSuperclass.parses (n + 0) _ _) rfl (Or.inl rfl) Pdu.found rfl (fun _ => rfl) (fun _ _ => rfl) (fun _ _ _ => trivial) <|
    par_read (fun _ _ => True) rfl rfl (plain rfl) (fun _ _ => rfl) (fun _ _ _ => trivial) fun _ =>
    par_read (fun _ _ => True) rfl rfl (plain rfl) (fun _ _ => rfl) (fun _ _ _ => trivial) fun _ =>
    par_nil

theorem EntityInformationFamilyPdu.found : look I.EntityInformationFamilyPdu program = some EntityInformationFamilyPdu := rfl

theorem EntityInformationFamilyPdu.serializes (n : Nat) (k : Ident) (rest : List (Ident × Val)) (x : Dis.EntityInformationFamilyPdu) :
    Serializes (run (n + 3)) I.EntityInformationFamilyPdu (.obj k (EntityInformationFamilyPdu.fields x ++ rest)) x.serialize :=
  serializes_of (n := n + 2) (d := I.EntityInformationFamilyPdu) (f := EntityInformationFamilyPdu.serialize) rfl rfl <|
    ser_last <| ser_super (c := I.EntityInformationFamilyPdu) rfl (Or.inl rfl) EntityInformationFamilyPdu.found rfl rfl (Pdu.serializes (n + 0) _ _ _)

theorem EntityInformationFamilyPdu.parses (n : Nat) (k : Ident) (rest : List (Ident × Val)) :
    Parses (run (n + 3)) I.EntityInformationFamilyPdu k (fun x => EntityInformationFamilyPdu.fields x ++ rest) Dis.EntityInformationFamilyPdu.parseInto :=
  parses_of (n := n + 2) (d := I.EntityInformationFamilyPdu) (f := EntityInformationFamilyPdu.parse) rfl rfl <|
    par_super (Q' := fun _ => True) (c := I.EntityInformationFamilyPdu) (hs := fun x y => Pdu.fields y ++ (EntityInformationFamilyPdu.own x ++ rest))
      (fun _ => Pdu.parses (n + 0) _ _) rfl (Or.inl rfl) EntityInformationFamilyPdu.found rfl (fun _ => rfl) (fun _ _ => rfl) (fun _ _ _ => trivial) <|
    par_nil

theorem LogisticsFamilyPdu.found : look I.LogisticsFamilyPdu program = some LogisticsFamilyPdu := rfl

theorem LogisticsFamilyPdu.serializes (n : Nat) (k : Ident) (rest : List (Ident × Val)) (x : Dis.LogisticsFamilyPdu) :
    Serializes (run (n + 3)) I.LogisticsFamilyPdu (.obj k (LogisticsFamilyPdu.fields x ++ rest)) x.serialize :=
  serializes_of (n := n + 2) (d := I.LogisticsFamilyPdu) (f := LogisticsFamilyPdu.serialize) rfl rfl <|
    ser_last <| ser_super (c := I.LogisticsFamilyPdu) rfl (Or.inl rfl) LogisticsFamilyPdu.found rfl rfl (Pdu.serializes (n + 0) _ _ _)

theorem LogisticsFamilyPdu.parses (n : Nat) (k : Ident) (rest : List (Ident × Val)) :
    Parses (run (n + 3)) I.LogisticsFamilyPdu k (fun x => LogisticsFamilyPdu.fields x ++ rest) Dis.LogisticsFamilyPdu.parseInto :=
  parses_of (n := n + 2) (d := I.LogisticsFamilyPdu) (f := LogisticsFamilyPdu.parse) rfl rfl <|
    par_super (Q' := fun _ => True) (c := I.LogisticsFamilyPdu) (hs := fun x y => Pdu.fields y ++ (LogisticsFamilyPdu.own x ++ rest))
      (fun _ => Pdu.parses (n + 0) _ _) rfl (Or.inl rfl) LogisticsFamilyPdu.found rfl (fun _ => rfl) (fun _ _ => rfl) (fun _ _ _ => trivial) <|
    par_nil

theorem EntityStateUpdatePdu.found : look I.EntityStateUpdatePdu program = some EntityStateUpdatePdu := rfl

theorem EntityStateUpdatePdu.serializes (n : Nat) (x : Dis.EntityStateUpdatePdu) :
    Serializes (run (n + 4)) I.EntityStateUpdatePdu (EntityStateUpdatePdu.enc x) x.serialize :=
  serializes_of (n := n + 3) (d := I.EntityStateUpdatePdu) (f := EntityStateUpdatePdu.serialize) rfl rfl <|
    ser_cons (ser_super (c := I.EntityStateUpdatePdu) rfl (Or.inl rfl) EntityStateUpdatePdu.found rfl rfl (EntityInformationFamilyPdu.serializes (n + 0) _ _ _)) <|
    ser_cons (ser_call rfl (plain rfl) rfl rfl rfl (EntityIdentifier.serializes (n + 1) _)) <|
    ser_cons (ser_write (gives_attr (gives_name rfl) (plain rfl) rfl) rfl rfl rfl) <|
    ser_cons (ser_write (gives_property (gives_name rfl) (by decide +kernel)
        (fun io => property_of (n := n + 2) (d := I.EntityStateUpdatePdu) (f := EntityStateUpdatePdu.numberOfVariableParameters) rfl rfl rfl (gives_len_map (gives_attr (gives_name rfl) (plain rfl) rfl)) io)) rfl rfl (packInt_int _ _)) <|
    ser_cons (ser_call rfl (plain rfl) rfl rfl rfl (Vector3Float.serializes (n + 2) _)) <|
    ser_cons (ser_call rfl (plain rfl) rfl rfl rfl (WorldCoordinates.serializes (n + 2) _)) <|
    ser_cons (ser_call rfl (plain rfl) rfl rfl rfl (EulerAngles.serializes (n + 2) _)) <|
    ser_cons (ser_write (gives_attr (gives_name rfl) (plain rfl) rfl) rfl rfl rfl) <|
    ser_last <| ser_for (gives_attr (gives_name rfl) (plain rfl) rfl) var_anObj rfl fun a _ =>
      ser_last (ser_var rfl rfl (VariableParameter.serializes (n + 2) a))

theorem EntityStateUpdatePdu.makes (n : Nat) : Makes (run (n + 4)) I.EntityStateUpdatePdu (EntityStateUpdatePdu.enc Dis.EntityStateUpdatePdu.init) :=
  makes_of (p := (I.EntityStateUpdatePdu, EntityStateUpdatePdu.__init__)) (by decide +kernel) rfl rfl rfl (by kernel_rfl) fun _ => by kernel_rfl

theorem EntityStateUpdatePdu.parses (n : Nat) :
    Parses (run (n + 4)) I.EntityStateUpdatePdu I.EntityStateUpdatePdu EntityStateUpdatePdu.fields Dis.EntityStateUpdatePdu.parseInto :=
  parses_of (n := n + 3) (d := I.EntityStateUpdatePdu) (f := EntityStateUpdatePdu.parse) rfl rfl <|
    par_super (Q' := fun _ => True) (c := I.EntityStateUpdatePdu) (hs := fun x y => EntityInformationFamilyPdu.fields y ++ (EntityStateUpdatePdu.own x))
      (fun _ => EntityInformationFamilyPdu.parses (n + 0) _ _) rfl (Or.inl rfl) EntityStateUpdatePdu.found rfl (fun _ => rfl) (fun _ _ => rfl) (fun _ _ _ => trivial) <|
    par_call (Q' := fun _ => True) (EntityIdentifier.parses (n + 1)) rfl (plain rfl) (fun _ => rfl) (fun _ _ => rfl) (fun _ _ _ => trivial) <|
    par_read (fun _ _ => True) rfl rfl (plain rfl) (fun _ _ => rfl) (fun _ _ _ => trivial) fun _ =>
    par_local rfl rfl var_numberOfVariableParameters rfl fun _ =>
    par_call (Q' := fun _ => True) (Vector3Float.parses (n + 2)) rfl (plain rfl) (fun _ => rfl) (fun _ _ => rfl) (fun _ _ _ => trivial) <|
    par_call (Q' := fun _ => True) (WorldCoordinates.parses (n + 2)) rfl (plain rfl) (fun _ => rfl) (fun _ _ => rfl) (fun _ _ _ => trivial) <|
    par_call (Q' := fun _ => True) (EulerAngles.parses (n + 2)) rfl (plain rfl) (fun _ => rfl) (fun _ _ => rfl) (fun _ _ _ => trivial) <|
    par_read (fun _ _ => True) rfl rfl (plain rfl) (fun _ _ => rfl) (fun _ _ _ => trivial) fun _ =>
    par_objs (fun _ _ => gives_range0 (gives_name rfl)) (by simp) (VariableParameter.builds (n + 2)) rfl
      (plain rfl) (fun _ => rfl) (fun _ _ => rfl) var_idx rfl rfl var_element rfl rfl <|
    par_nil

theorem EntityStateUpdatePdu.builds (n : Nat) : Builds (run (n + 4)) I.EntityStateUpdatePdu EntityStateUpdatePdu.fields Dis.EntityStateUpdatePdu.init Dis.EntityStateUpdatePdu.parseInto :=
  builds_of (EntityStateUpdatePdu.makes (n + 0)) (EntityStateUpdatePdu.parses (n + 0))

theorem ServiceRequestPdu.found : look I.ServiceRequestPdu program = some ServiceRequestPdu := rfl

theorem ServiceRequestPdu.serializes (n : Nat) (x : Dis.ServiceRequestPdu) :
    Serializes (run (n + 4)) I.ServiceRequestPdu (ServiceRequestPdu.enc x) x.serialize :=
  serializes_of (n := n + 3) (d := I.ServiceRequestPdu) (f := ServiceRequestPdu.serialize) rfl rfl <|
    ser_cons (ser_super (c := I.ServiceRequestPdu) rfl (Or.inl rfl) ServiceRequestPdu.found rfl rfl (LogisticsFamilyPdu.serializes (n + 0) _ _ _)) <|
    ser_cons (ser_call rfl (plain rfl) rfl rfl rfl (EntityIdentifier.serializes (n + 1) _)) <|
    ser_cons (ser_call rfl (plain rfl) rfl rfl rfl (EntityIdentifier.serializes (n + 1) _)) <|
    ser_cons (ser_write (gives_attr (gives_name rfl) (plain rfl) rfl) rfl rfl rfl) <|
    ser_cons (ser_write (gives_property (gives_name rfl) (by decide +kernel)
        (fun io => property_of (n := n + 2) (d := I.ServiceRequestPdu) (f := ServiceRequestPdu.numberOfSupplyTypes) rfl rfl rfl (gives_len_map (gives_attr (gives_name rfl) (plain rfl) rfl)) io)) rfl rfl (packInt_int _ _)) <|
    ser_cons (ser_write (gives_attr (gives_name rfl) (plain rfl) rfl) rfl rfl rfl) <|
    ser_last <| ser_for (gives_attr (gives_name rfl) (plain rfl) rfl) var_anObj rfl fun a _ =>
      ser_last (ser_var rfl rfl (SupplyQuantity.serializes (n + 1) a))

theorem ServiceRequestPdu.makes (n : Nat) : Makes (run (n + 4)) I.ServiceRequestPdu (ServiceRequestPdu.enc Dis.ServiceRequestPdu.init) :=
  makes_of (p := (I.ServiceRequestPdu, ServiceRequestPdu.__init__)) (by decide +kernel) rfl rfl rfl (by kernel_rfl) fun _ => by kernel_rfl

theorem ServiceRequestPdu.parses (n : Nat) :
    Parses (run (n + 4)) I.ServiceRequestPdu I.ServiceRequestPdu ServiceRequestPdu.fields Dis.ServiceRequestPdu.parseInto :=
  parses_of (n := n + 3) (d := I.ServiceRequestPdu) (f := ServiceRequestPdu.parse) rfl rfl <|
    par_super (Q' := fun _ => True) (c := I.ServiceRequestPdu) (hs := fun x y => LogisticsFamilyPdu.fields y ++ (ServiceRequestPdu.own x))
      (fun _ => LogisticsFamilyPdu.parses (n + 0) _ _) rfl (Or.inl rfl) ServiceRequestPdu.found rfl (fun _ => rfl) (fun _ _ => rfl) (fun _ _ _ => trivial) <|
    par_call (Q' := fun _ => True) (EntityIdentifier.parses (n + 1)) rfl (plain rfl) (fun _ => rfl) (fun _ _ => rfl) (fun _ _ _ => trivial) <|
    par_call (Q' := fun _ => True) (EntityIdentifier.parses (n + 1)) rfl (plain rfl) (fun _ => rfl) (fun _ _ => rfl) (fun _ _ _ => trivial) <|
    par_read (fun _ _ => True) rfl rfl (plain rfl) (fun _ _ => rfl) (fun _ _ _ => trivial) fun _ =>
    par_local rfl rfl var_numberOfSupplyTypes rfl fun _ =>
    par_read (fun _ _ => True) rfl rfl (plain rfl) (fun _ _ => rfl) (fun _ _ _ => trivial) fun _ =>
    par_objs (fun _ _ => gives_range0 (gives_name rfl)) (by simp) (SupplyQuantity.builds (n + 1)) rfl
      (plain rfl) (fun _ => rfl) (fun _ _ => rfl) var_idx rfl rfl var_element rfl rfl <|
    par_nil

theorem ServiceRequestPdu.builds (n : Nat) : Builds (run (n + 4)) I.ServiceRequestPdu ServiceRequestPdu.fields Dis.ServiceRequestPdu.init Dis.ServiceRequestPdu.parseInto :=
  builds_of (ServiceRequestPdu.makes (n + 0)) (ServiceRequestPdu.parses (n + 0))

theorem RepairCompletePdu.found : look I.RepairCompletePdu program = some RepairCompletePdu := rfl

theorem RepairCompletePdu.serializes (n : Nat) (x : Dis.RepairCompletePdu) :
    Serializes (run (n + 4)) I.RepairCompletePdu (RepairCompletePdu.enc x) x.serialize :=
  serializes_of (n := n + 3) (d := I.RepairCompletePdu) (f := RepairCompletePdu.serialize) rfl rfl <|
    ser_cons (ser_super (c := I.RepairCompletePdu) rfl (Or.inl rfl) RepairCompletePdu.found rfl rfl (LogisticsFamilyPdu.serializes (n + 0) _ _ _)) <|
    ser_cons (ser_call rfl (plain rfl) rfl rfl rfl (EntityIdentifier.serializes (n + 1) _)) <|
    ser_cons (ser_call rfl (plain rfl) rfl rfl rfl (EntityIdentifier.serializes (n + 1) _)) <|
    ser_cons (ser_write (gives_attr (gives_name rfl) (plain rfl) rfl) rfl rfl rfl) <|
    ser_last <| ser_write (gives_attr (gives_name rfl) (plain rfl) rfl) rfl rfl rfl

theorem RepairCompletePdu.makes (n : Nat) : Makes (run (n + 4)) I.RepairCompletePdu (RepairCompletePdu.enc Dis.RepairCompletePdu.init) :=
  makes_of (p := (I.RepairCompletePdu, RepairCompletePdu.__init__)) (by decide +kernel) rfl rfl rfl (by kernel_rfl) fun _ => by kernel_rfl

theorem RepairCompletePdu.parses (n : Nat) :
    Parses (run (n + 4)) I.RepairCompletePdu I.RepairCompletePdu RepairCompletePdu.fields Dis.RepairCompletePdu.parseInto :=
  parses_of (n := n + 3) (d := I.RepairCompletePdu) (f := RepairCompletePdu.parse) rfl rfl <|
    par_super (Q' := fun _ => True) (c := I.RepairCompletePdu) (hs := fun x y => LogisticsFamilyPdu.fields y ++ (RepairCompletePdu.own x))
      (fun _ => LogisticsFamilyPdu.parses (n + 0) _ _) rfl (Or.inl rfl) RepairCompletePdu.found rfl (fun _ => rfl) (fun _ _ => rfl) (fun _ _ _ => trivial) <|
    par_call (Q' := fun _ => True) (EntityIdentifier.parses (n + 1)) rfl (plain rfl) (fun _ => rfl) (fun _ _ => rfl) (fun _ _ _ => trivial) <|
    par_call (Q' := fun _ => True) (EntityIdentifier.parses (n + 1)) rfl (plain rfl) (fun _ => rfl) (fun _ _ => rfl) (fun _ _ _ => trivial) <|
    par_read (fun _ _ => True) rfl rfl (plain rfl) (fun _ _ => rfl) (fun _ _ _ => trivial) fun _ =>
    par_read (fun _ _ => True) rfl rfl (plain rfl) (fun _ _ => rfl) (fun _ _ _ => trivial) fun _ =>
    par_nil

theorem RepairCompletePdu.builds (n : Nat) : Builds (run (n + 4)) I.RepairCompletePdu RepairCompletePdu.fields Dis.RepairCompletePdu.init Dis.RepairCompletePdu.parseInto :=
  builds_of (RepairCompletePdu.makes (n + 0)) (RepairCompletePdu.parses (n + 0))

theorem SyntheticEnvironmentFamilyPdu.found : look I.SyntheticEnvironmentFamilyPdu program = some SyntheticEnvironmentFamilyPdu := rfl

theorem SyntheticEnvironmentFamilyPdu.serializes (n : Nat) (k : Ident) (rest : List (Ident × Val)) (x : Dis.SyntheticEnvironmentFamilyPdu) :
    Serializes (run (n + 3)) I.SyntheticEnvironmentFamilyPdu (.obj k (SyntheticEnvironmentFamilyPdu.fields x ++ rest)) x.serialize :=
  serializes_of (n := n + 2) (d := I.SyntheticEnvironmentFamilyPdu) (f := SyntheticEnvironmentFamilyPdu.serialize) rfl rfl <|
    ser_last <| ser_super (c := I.SyntheticEnvironmentFamilyPdu) rfl (Or.inl rfl) SyntheticEnvironmentFamilyPdu.found rfl rfl (Pdu.serializes (n + 0) _ _ _)

theorem SyntheticEnvironmentFamilyPdu.parses (n : Nat) (k : Ident) (rest : List (Ident × Val)) :
    Parses (run (n + 3)) I.SyntheticEnvironmentFamilyPdu k (fun x => SyntheticEnvironmentFamilyPdu.fields x ++ rest) Dis.SyntheticEnvironmentFamilyPdu.parseInto :=
  parses_of (n := n + 2) (d := I.SyntheticEnvironmentFamilyPdu) (f := SyntheticEnvironmentFamilyPdu.parse) rfl rfl <|
    par_super (Q' := fun _ => True) (c := I.SyntheticEnvironmentFamilyPdu) (hs := fun x y => Pdu.fields y ++ (SyntheticEnvironmentFamilyPdu.own x ++ rest))
      (fun _ => Pdu.parses (n + 0) _ _) rfl (Or.inl rfl) SyntheticEnvironmentFamilyPdu.found rfl (fun _ => rfl) (fun _ _ => rfl) (fun _ _ _ => trivial) <|
    par_nil

theorem CollisionPdu.found : look I.CollisionPdu program = some CollisionPdu := rfl

theorem CollisionPdu.serializes (n : Nat) (x : Dis.CollisionPdu) :
    Serializes (run (n + 4)) I.CollisionPdu (CollisionPdu.enc x) x.serialize :=
  serializes_of (n := n + 3) (d := I.CollisionPdu) (f := CollisionPdu.serialize) rfl rfl <|
    ser_cons (ser_super (c := I.CollisionPdu) rfl (Or.inl rfl) CollisionPdu.found rfl rfl (EntityInformationFamilyPdu.serializes (n + 0) _ _ _)) <|
    ser_cons (ser_call rfl (plain rfl) rfl rfl rfl (EntityIdentifier.serializes (n + 1) _)) <|
    ser_cons (ser_call rfl (plain rfl) rfl rfl rfl (EntityIdentifier.serializes (n + 1) _)) <|
    ser_cons (ser_call rfl (plain rfl) rfl rfl rfl (EventIdentifier.serializes (n + 1) _)) <|
    ser_cons (ser_write (gives_attr (gives_name rfl) (plain rfl) rfl) rfl rfl rfl) <|
    ser_cons (ser_write (gives_attr (gives_name rfl) (plain rfl) rfl) rfl rfl rfl) <|
    ser_cons (ser_call rfl (plain rfl) rfl rfl rfl (Vector3Float.serializes (n + 2) _)) <|
    ser_cons (ser_write (gives_attr (gives_name rfl) (plain rfl) rfl) rfl rfl rfl) <|
    ser_last <| ser_call rfl (plain rfl) rfl rfl rfl (Vector3Float.serializes (n + 2) _)

theorem CollisionPdu.makes (n : Nat) : Makes (run (n + 4)) I.CollisionPdu (CollisionPdu.enc Dis.CollisionPdu.init) :=
  makes_of (p := (I.CollisionPdu, CollisionPdu.__init__)) (by decide +kernel) rfl rfl rfl (by kernel_rfl) fun _ => by kernel_rfl

theorem CollisionPdu.parses (n : Nat) :
    Parses (run (n + 4)) I.CollisionPdu I.CollisionPdu CollisionPdu.fields Dis.CollisionPdu.parseInto :=
  parses_of (n := n + 3) (d := I.CollisionPdu) (f := CollisionPdu.parse) rfl rfl <|
    par_super (Q' := fun _ => True) (c := I.CollisionPdu) (hs := fun x y => EntityInformationFamilyPdu.fields y ++ (CollisionPdu.own x))
      (fun _ => EntityInformationFamilyPdu.parses (n + 0) _ _) rfl (Or.inl rfl) CollisionPdu.found rfl (fun _ => rfl) (fun _ _ => rfl) (fun _ _ _ => trivial) <|
    par_call (Q' := fun _ => True) (EntityIdentifier.parses (n + 1)) rfl (plain rfl) (fun _ => rfl) (fun _ _ => rfl) (fun _ _ _ => trivial) <|
    par_call (Q' := fun _ => True) (EntityIdentifier.parses (n + 1)) rfl (plain rfl) (fun _ => rfl) (fun _ _ => rfl) (fun _ _ _ => trivial) <|
    par_call (Q' := fun _ => True) (EventIdentifier.parses (n + 1)) rfl (plain rfl) (fun _ => rfl) (fun _ _ => rfl) (fun _ _ _ => trivial) <|
    par_read (fun _ _ => True) rfl rfl (plain rfl) (fun _ _ => rfl) (fun _ _ _ => trivial) fun _ =>
    par_read (fun _ _ => True) rfl rfl (plain rfl) (fun _ _ => rfl) (fun _ _ _ => trivial) fun _ =>
    par_call (Q' := fun _ => True) (Vector3Float.parses (n + 2)) rfl (plain rfl) (fun _ => rfl) (fun _ _ => rfl) (fun _ _ _ => trivial) <|
    par_read (fun _ _ => True) rfl rfl (plain rfl) (fun _ _ => rfl) (fun _ _ _ => trivial) fun _ =>
    par_call (Q' := fun _ => True) (Vector3Float.parses (n + 2)) rfl (plain rfl) (fun _ => rfl) (fun _ _ => rfl) (fun _ _ _ => trivial) <|
    par_nil

theorem CollisionPdu.builds (n : Nat) : Builds (run (n + 4)) I.CollisionPdu CollisionPdu.fields Dis.CollisionPdu.init Dis.CollisionPdu.parseInto :=
  builds_of (CollisionPdu.makes (n + 0)) (CollisionPdu.parses (n + 0))

theorem RepairResponsePdu.found : look I.RepairResponsePdu program = some RepairResponsePdu := rfl

theorem RepairResponsePdu.serializes (n : Nat) (x : Dis.RepairResponsePdu) :
    Serializes (run (n + 4)) I.RepairResponsePdu (RepairResponsePdu.enc x) x.serialize :=
  serializes_of (n := n + 3) (d := I.RepairResponsePdu) (f := RepairResponsePdu.serialize) rfl rfl <|
    ser_cons (ser_super (c := I.RepairResponsePdu) rfl (Or.inl rfl) RepairResponsePdu.found rfl rfl (LogisticsFamilyPdu.serializes (n + 0) _ _ _)) <|
    ser_cons (ser_call rfl (plain rfl) rfl rfl rfl (EntityIdentifier.serializes (n + 1) _)) <|
    ser_cons (ser_call rfl (plain rfl) rfl rfl rfl (EntityIdentifier.serializes (n + 1) _)) <|
    ser_cons (ser_write (gives_attr (gives_name rfl) (plain rfl) rfl) rfl rfl rfl) <|
    ser_cons (ser_write (gives_attr (gives_name rfl) (plain rfl) rfl) rfl rfl rfl) <|
    ser_last <| ser_write (gives_attr (gives_name rfl) (plain rfl) rfl) rfl rfl rfl

theorem RepairResponsePdu.makes (n : Nat) : Makes (run (n + 4)) I.RepairResponsePdu (RepairResponsePdu.enc Dis.RepairResponsePdu.init) :=
  makes_of (p := (I.RepairResponsePdu, RepairResponsePdu.__init__)) (by decide +kernel) rfl rfl rfl (by kernel_rfl) fun _ => by kernel_rfl

theorem RepairResponsePdu.parses (n : Nat) :
    Parses (run (n + 4)) I.RepairResponsePdu I.RepairResponsePdu RepairResponsePdu.fields Dis.RepairResponsePdu.parseInto :=
  parses_of (n := n + 3) (d := I.RepairResponsePdu) (f := RepairResponsePdu.parse) rfl rfl <|
    par_super (Q' := fun _ => True) (c := I.RepairResponsePdu) (hs := fun x y => LogisticsFamilyPdu.fields y ++ (RepairResponsePdu.own x))
      (fun _ => LogisticsFamilyPdu.parses (n + 0) _ _) rfl (Or.inl rfl) RepairResponsePdu.found rfl (fun _ => rfl) (fun _ _ => rfl) (fun _ _ _ => trivial) <|
    par_call (Q' := fun _ => True) (EntityIdentifier.parses (n + 1)) rfl (plain rfl) (fun _ => rfl) (fun _ _ => rfl) (fun _ _ _ => trivial) <|
    par_call (Q' := fun _ => True) (EntityIdentifier.parses (n + 1)) rfl (plain rfl) (fun _ => rfl) (fun _ _ => rfl) (fun _ _ _ => trivial) <|
    par_read (fun _ _ => True) rfl rfl (plain rfl) (fun _ _ => rfl) (fun _ _ _ => trivial) fun _ =>
    par_read (fun _ _ => True) rfl rfl (plain rfl) (fun _ _ => rfl) (fun _ _ _ => trivial) fun _ =>
    par_read (fun _ _ => True) rfl rfl (plain rfl) (fun _ _ => rfl) (fun _ _ _ => trivial) fun _ =>
    par_nil

theorem RepairResponsePdu.builds (n : Nat) : Builds (run (n + 4)) I.RepairResponsePdu RepairResponsePdu.fields Dis.RepairResponsePdu.init Dis.RepairResponsePdu.parseInto :=
  builds_of (RepairResponsePdu.makes (n + 0)) (RepairResponsePdu.parses (n + 0))

theorem SimulationManagementFamilyPdu.found : look I.SimulationManagementFamilyPdu program = some SimulationManagementFamilyPdu := rfl

theorem SimulationManagementFamilyPdu.serializes (n : Nat) (k : Ident) (rest : List (Ident × Val)) (x : Dis.SimulationManagementFamilyPdu) :
    Serializes (run (n + 3)) I.SimulationManagementFamilyPdu (.obj k (SimulationManagementFamilyPdu.fields x ++ rest)) x.serialize :=
  serializes_of (n := n + 2) (d := I.SimulationManagementFamilyPdu) (f := SimulationManagementFamilyPdu.serialize) rfl rfl <|
    ser_cons (ser_super (c := I.SimulationManagementFamilyPdu) rfl (Or.inl rfl) SimulationManagementFamilyPdu.found rfl rfl (Pdu.serializes (n + 0) _ _ _)) <|
    ser_cons (ser_call rfl (plain rfl) rfl rfl rfl (EntityIdentifier.serializes (n + 0) _)) <|
    ser_last <| ser_call rfl (plain rfl) rfl rfl rfl (EntityIdentifier.serializes (n + 0) _)

theorem SimulationManagementFamilyPdu.parses (n : Nat) (k : Ident) (rest : List (Ident × Val)) :
    Parses (run (n + 3)) I.SimulationManagementFamilyPdu k (fun x => SimulationManagementFamilyPdu.fields x ++ rest) Dis.SimulationManagementFamilyPdu.parseInto :=
  parses_of (n := n + 2) (d := I.SimulationManagementFamilyPdu) (f := SimulationManagementFamilyPdu.parse) rfl rfl <|
    par_super (Q' := fun _ => True) (c := I.SimulationManagementFamilyPdu) (hs := fun x y => Pdu.fields y ++ (SimulationManagementFamilyPdu.own x ++ rest))
      (fun _ => Pdu.parses (n + 0) _ _) rfl (Or.inl rfl) SimulationManagementFamilyPdu.found rfl (fun _ => rfl) (fun _ _ => rfl) (fun _ _ _ => trivial) <|
    par_call (Q' := fun _ => True) (EntityIdentifier.parses (n + 0)) rfl (plain rfl) (fun _ => rfl) (fun _ _ => rfl) (fun _ _ _ => trivial) <|
    par_call (Q' := fun _ => True) (EntityIdentifier.parses (n + 0)) rfl (plain rfl) (fun _ => rfl) (fun _ _ => rfl) (fun _ _ _ => trivial) <|
    par_nil

theorem DataQueryPdu.found : look I.DataQueryPdu program = some DataQueryPdu := rfl

theorem DataQueryPdu.serializes (n : Nat) (x : Dis.DataQueryPdu) :
    Serializes (run (n + 4)) I.DataQueryPdu (DataQueryPdu.enc x) x.serialize :=
  serializes_of (n := n + 3) (d := I.DataQueryPdu) (f := DataQueryPdu.serialize) rfl rfl <|
    ser_cons (ser_super (c := I.DataQueryPdu) rfl (Or.inl rfl) DataQueryPdu.found rfl rfl (SimulationManagementFamilyPdu.serializes (n + 0) _ _ _)) <|
    ser_cons (ser_write (gives_attr (gives_name rfl) (plain rfl) rfl) rfl rfl rfl) <|
    ser_cons (ser_write (gives_attr (gives_name rfl) (plain rfl) rfl) rfl rfl rfl) <|
    ser_last <| ser_call rfl (plain rfl) rfl rfl rfl (DataQueryDatumSpecification.serializes (n + 1) _)

theorem DataQueryPdu.makes (n : Nat) : Makes (run (n + 4)) I.DataQueryPdu (DataQueryPdu.enc Dis.DataQueryPdu.init) :=
  makes_of (p := (I.DataQueryPdu, DataQueryPdu.__init__)) (by decide +kernel) rfl rfl rfl (by kernel_rfl) fun _ => by kernel_rfl

theorem DataQueryPdu.parses (n : Nat) :
    Parses (run (n + 4)) I.DataQueryPdu I.DataQueryPdu DataQueryPdu.fields Dis.DataQueryPdu.parseInto :=
  parses_of (n := n + 3) (d := I.DataQueryPdu) (f := DataQueryPdu.parse) rfl rfl <|
    par_super (Q' := fun _ => True) (c := I.DataQueryPdu) (hs := fun x y => SimulationManagementFamilyPdu.fields y ++ (DataQueryPdu.own x))
      (fun _ => SimulationManagementFamilyPdu.parses (n + 0) _ _) rfl (Or.inl rfl) DataQueryPdu.found rfl (fun _ => rfl) (fun _ _ => rfl) (fun _ _ _ => trivial) <|
    par_read (fun _ _ => True) rfl rfl (plain rfl) (fun _ _ => rfl) (fun _ _ _ => trivial) fun _ =>
    par_read (fun _ _ => True) rfl rfl (plain rfl) (fun _ _ => rfl) (fun _ _ _ => trivial) fun _ =>
    par_call (Q' := fun _ => True) (DataQueryDatumSpecification.parses (n + 2)) rfl (plain rfl) (fun _ => rfl) (fun _ _ => rfl) (fun _ _ _ => trivial) <|
    par_nil

theorem DataQueryPdu.builds (n : Nat) : Builds (run (n + 4)) I.DataQueryPdu DataQueryPdu.fields Dis.DataQueryPdu.init Dis.DataQueryPdu.parseInto :=
  builds_of (DataQueryPdu.makes (n + 0)) (DataQueryPdu.parses (n + 0))

theorem LinearObjectStatePdu.found : look I.LinearObjectStatePdu program = some LinearObjectStatePdu := rfl

theorem LinearObjectStatePdu.serializes (n : Nat) (x : Dis.LinearObjectStatePdu) :
    Serializes (run (n + 4)) I.LinearObjectStatePdu (LinearObjectStatePdu.enc x) x.serialize :=
  serializes_of (n := n + 3) (d := I.LinearObjectStatePdu) (f := LinearObjectStatePdu.serialize) rfl rfl <|
    ser_cons (ser_super (c := I.LinearObjectStatePdu) rfl (Or.inl rfl) LinearObjectStatePdu.found rfl rfl (SyntheticEnvironmentFamilyPdu.serializes (n + 0) _ _ _)) <|
    ser_cons (ser_call rfl (plain rfl) rfl rfl rfl (EntityIdentifier.serializes (n + 1) _)) <|
    ser_cons (ser_call rfl (plain rfl) rfl rfl rfl (EntityIdentifier.serializes (n + 1) _)) <|
    ser_cons (ser_write (gives_attr (gives_name rfl) (plain rfl) rfl) rfl rfl rfl) <|
    ser_cons (ser_write (gives_attr (gives_name rfl) (plain rfl) rfl) rfl rfl rfl) <|
    ser_cons (ser_write (gives_property (gives_name rfl) (by decide +kernel)
        (fun io => property_of (n := n + 2) (d := I.LinearObjectStatePdu) (f := LinearObjectStatePdu.numberOfSegments) rfl rfl rfl (gives_len_map (gives_attr (gives_name rfl) (plain rfl) rfl)) io)) rfl rfl (packInt_int _ _)) <|
    ser_cons (ser_call rfl (plain rfl) rfl rfl rfl (SimulationAddress.serializes (n + 2) _)) <|
    ser_cons (ser_call rfl (plain rfl) rfl rfl rfl (SimulationAddress.serializes (n + 2) _)) <|
    ser_cons (ser_call rfl (plain rfl) rfl rfl rfl (ObjectType.serializes (n + 2) _)) <|
    ser_last <| ser_for (gives_attr (gives_name rfl) (plain rfl) rfl) var_anObj rfl fun a _ =>
      ser_last (ser_var rfl rfl (LinearSegmentParameter.serializes (n + 1) a))

theorem LinearObjectStatePdu.parses (n : Nat) :
    Parses (run (n + 4)) I.LinearObjectStatePdu I.LinearObjectStatePdu LinearObjectStatePdu.fields Dis.LinearObjectStatePdu.parseInto :=
  parses_of (n := n + 3) (d := I.LinearObjectStatePdu) (f := LinearObjectStatePdu.parse) rfl rfl <|
    par_super (Q' := fun _ => True) (c := I.LinearObjectStatePdu) (hs := fun x y => SyntheticEnvironmentFamilyPdu.fields y ++ (LinearObjectStatePdu.own x))
      (fun _ => SyntheticEnvironmentFamilyPdu.parses (n + 0) _ _) rfl (Or.inl rfl) LinearObjectStatePdu.found rfl (fun _ => rfl) (fun _ _ => rfl) (fun _ _ _ => trivial) <|
    par_call (Q' := fun _ => True) (EntityIdentifier.parses (n + 1)) rfl (plain rfl) (fun _ => rfl) (fun _ _ => rfl) (fun _ _ _ => trivial) <|
    par_call (Q' := fun _ => True) (EntityIdentifier.parses (n + 1)) rfl (plain rfl) (fun _ => rfl) (fun _ _ => rfl) (fun _ _ _ => trivial) <|
    par_read (fun _ _ => True) rfl rfl (plain rfl) (fun _ _ => rfl) (fun _ _ _ => trivial) fun _ =>
    par_read (fun _ _ => True) rfl rfl (plain rfl) (fun _ _ => rfl) (fun _ _ _ => trivial) fun _ =>
    par_local rfl rfl var_numberOfSegments rfl fun _ =>
    par_call (Q' := fun _ => True) (SimulationAddress.parses (n + 2)) rfl (plain rfl) (fun _ => rfl) (fun _ _ => rfl) (fun _ _ _ => trivial) <|
    par_call (Q' := fun _ => True) (SimulationAddress.parses (n + 2)) rfl (plain rfl) (fun _ => rfl) (fun _ _ => rfl) (fun _ _ _ => trivial) <|
    par_call (Q' := fun _ => True) (ObjectType.parses (n + 2)) rfl (plain rfl) (fun _ => rfl) (fun _ _ => rfl) (fun _ _ _ => trivial) <|
    par_objs (fun _ _ => gives_range0 (gives_name rfl)) (by simp) (LinearSegmentParameter.builds (n + 1)) rfl
      (plain rfl) (fun _ => rfl) (fun _ _ => rfl) var_idx rfl rfl var_element rfl rfl <|
    par_nil

theorem CreateEntityPdu.found : look I.CreateEntityPdu program = some CreateEntityPdu := rfl

theorem CreateEntityPdu.serializes (n : Nat) (x : Dis.CreateEntityPdu) :
    Serializes (run (n + 4)) I.CreateEntityPdu (CreateEntityPdu.enc x) x.serialize :=
  serializes_of (n := n + 3) (d := I.CreateEntityPdu) (f := CreateEntityPdu.serialize) rfl rfl <|
    ser_cons (ser_super (c := I.CreateEntityPdu) rfl (Or.inl rfl) CreateEntityPdu.found rfl rfl (SimulationManagementFamilyPdu.serializes (n + 0) _ _ _)) <|
    ser_last <| ser_write (gives_attr (gives_name rfl) (plain rfl) rfl) rfl rfl rfl

theorem CreateEntityPdu.makes (n : Nat) : Makes (run (n + 4)) I.CreateEntityPdu (CreateEntityPdu.enc Dis.CreateEntityPdu.init) :=
  makes_of (p := (I.CreateEntityPdu, CreateEntityPdu.__init__)) (by decide +kernel) rfl rfl rfl (by kernel_rfl) fun _ => by kernel_rfl

theorem CreateEntityPdu.parses (n : Nat) :
    Parses (run (n + 4)) I.CreateEntityPdu I.CreateEntityPdu CreateEntityPdu.fields Dis.CreateEntityPdu.parseInto :=
  parses_of (n := n + 3) (d := I.CreateEntityPdu) (f := CreateEntityPdu.parse) rfl rfl <|
    par_super (Q' := fun _ => True) (c := I.CreateEntityPdu) (hs := fun x y => SimulationManagementFamilyPdu.fields y ++ (CreateEntityPdu.own x))
      (fun _ => SimulationManagementFamilyPdu.parses (n + 0) _ _) rfl (Or.inl rfl) CreateEntityPdu.found rfl (fun _ => rfl) (fun _ _ => rfl) (fun _ _ _ => trivial) <|
    par_read (fun _ _ => True) rfl rfl (plain rfl) (fun _ _ => rfl) (fun _ _ _ => trivial) fun _ =>
    par_nil

theorem CreateEntityPdu.builds (n : Nat) : Builds (run (n + 4)) I.CreateEntityPdu CreateEntityPdu.fields Dis.CreateEntityPdu.init Dis.CreateEntityPdu.parseInto :=
  builds_of (CreateEntityPdu.makes (n + 0)) (CreateEntityPdu.parses (n + 0))

theorem RadioCommunicationsFamilyPdu.found : look I.RadioCommunicationsFamilyPdu program = some RadioCommunicationsFamilyPdu := rfl

theorem RadioCommunicationsFamilyPdu.serializes (n : Nat) (k : Ident) (rest : List (Ident × Val)) (x : Dis.RadioCommunicationsFamilyPdu) :
    Serializes (run (n + 3)) I.RadioCommunicationsFamilyPdu (.obj k (RadioCommunicationsFamilyPdu.fields x ++ rest)) x.serialize :=
  serializes_of (n := n + 2) (d := I.RadioCommunicationsFamilyPdu) (f := RadioCommunicationsFamilyPdu.serialize) rfl rfl <|
    ser_last <| ser_super (c := I.RadioCommunicationsFamilyPdu) rfl (Or.inl rfl) RadioCommunicationsFamilyPdu.found rfl rfl (Pdu.serializes (n + 0) _ _ _)

theorem RadioCommunicationsFamilyPdu.parses (n : Nat) (k : Ident) (rest : List (Ident × Val)) :
    Parses (run (n + 3)) I.RadioCommunicationsFamilyPdu k (fun x => RadioCommunicationsFamilyPdu.fields x ++ rest) Dis.RadioCommunicationsFamilyPdu.parseInto :=
  parses_of (n := n + 2) (d := I.RadioCommunicationsFamilyPdu) (f := RadioCommunicationsFamilyPdu.parse) rfl rfl <|
    par_super (Q' := fun _ => True) (c := I.RadioCommunicationsFamilyPdu) (hs := fun x y => Pdu.fields y ++ (RadioCommunicationsFamilyPdu.own x ++ rest))
      (fun _ => Pdu.parses (n + 0) _ _) rfl (Or.inl rfl) RadioCommunicationsFamilyPdu.found rfl (fun _ => rfl) (fun _ _ => rfl) (fun _ _ _ => trivial) <|
    par_nil

theorem IntercomSignalPdu.found : look I.IntercomSignalPdu program = some IntercomSignalPdu := rfl

theorem IntercomSignalPdu.serializes (n : Nat) (x : Dis.IntercomSignalPdu) :
    Serializes (run (n + 4)) I.IntercomSignalPdu (IntercomSignalPdu.enc x) x.serialize :=
  serializes_of (n := n + 3) (d := I.IntercomSignalPdu) (f := IntercomSignalPdu.serialize) rfl rfl <|
    ser_cons (ser_super (c := I.IntercomSignalPdu) rfl (Or.inl rfl) IntercomSignalPdu.found rfl rfl (RadioCommunicationsFamilyPdu.serializes (n + 0) _ _ _)) <|
    ser_cons (ser_call rfl (plain rfl) rfl rfl rfl (EntityIdentifier.serializes (n + 1) _)) <|
    ser_cons (ser_write (gives_attr (gives_name rfl) (plain rfl) rfl) rfl rfl rfl) <|
    ser_cons (ser_write (gives_attr (gives_name rfl) (plain rfl) rfl) rfl rfl rfl) <|
    ser_cons (ser_write (gives_attr (gives_name rfl) (plain rfl) rfl) rfl rfl rfl) <|
    ser_cons (ser_write (gives_attr (gives_name rfl) (plain rfl) rfl) rfl rfl rfl) <|
    ser_cons (ser_write (gives_property (gives_name rfl) (by decide +kernel)
        (fun io => property_of (n := n + 2) (d := I.IntercomSignalPdu) (f := IntercomSignalPdu.dataLength) rfl rfl rfl (gives_bin (gives_len_map (gives_attr (gives_name rfl) (plain rfl) rfl)) gives_int fun _ => rfl) io)) rfl rfl (packInt_int _ _)) <|
    ser_cons (ser_write (gives_attr (gives_name rfl) (plain rfl) rfl) rfl rfl rfl) <|
    ser_last <| ser_for (gives_attr (gives_name rfl) (plain rfl) rfl) var_anObj rfl fun a _ =>
      ser_last (ser_no_method rfl (fun _ _ => rfl) rfl)

theorem IntercomSignalPdu.makes (n : Nat) : Makes (run (n + 4)) I.IntercomSignalPdu (IntercomSignalPdu.enc Dis.IntercomSignalPdu.init) :=
  makes_of (p := (I.IntercomSignalPdu, IntercomSignalPdu.__init__)) (by decide +kernel) rfl rfl rfl (by kernel_rfl) fun _ => by kernel_rfl

theorem IntercomSignalPdu.parses (n : Nat) :
    Parses (run (n + 4)) I.IntercomSignalPdu I.IntercomSignalPdu IntercomSignalPdu.fields Dis.IntercomSignalPdu.parseInto :=
  parses_of (n := n + 3) (d := I.IntercomSignalPdu) (f := IntercomSignalPdu.parse) rfl rfl <|
    par_super (Q' := fun _ => True) (c := I.IntercomSignalPdu) (hs := fun x y => RadioCommunicationsFamilyPdu.fields y ++ (IntercomSignalPdu.own x))
      (fun _ => RadioCommunicationsFamilyPdu.parses (n + 0) _ _) rfl (Or.inl rfl) IntercomSignalPdu.found rfl (fun _ => rfl) (fun _ _ => rfl) (fun _ _ _ => trivial) <|
    par_call (Q' := fun _ => True) (EntityIdentifier.parses (n + 1)) rfl (plain rfl) (fun _ => rfl) (fun _ _ => rfl) (fun _ _ _ => trivial) <|
    par_read (fun _ _ => True) rfl rfl (plain rfl) (fun _ _ => rfl) (fun _ _ _ => trivial) fun _ =>
    par_read (fun _ _ => True) rfl rfl (plain rfl) (fun _ _ => rfl) (fun _ _ _ => trivial) fun _ =>
    par_read (fun _ _ => True) rfl rfl (plain rfl) (fun _ _ => rfl) (fun _ _ _ => trivial) fun _ =>
    par_read (fun _ _ => True) rfl rfl (plain rfl) (fun _ _ => rfl) (fun _ _ _ => trivial) fun _ =>
    par_local rfl rfl var_dataLength rfl fun _ =>
    par_read (fun _ _ => True) rfl rfl (plain rfl) (fun _ _ => rfl) (fun _ _ _ => trivial) fun _ =>
    par_unknown (fun _ _ => gives_range0 (gives_bin (gives_name rfl) gives_int fun _ => rfl)) (by simp [Int.fdiv_eq_ediv_of_nonneg]) no_null null_taken rfl rfl rfl
      var_idx rfl rfl <|
    par_nil

theorem IntercomSignalPdu.builds (n : Nat) : Builds (run (n + 4)) I.IntercomSignalPdu IntercomSignalPdu.fields Dis.IntercomSignalPdu.init Dis.IntercomSignalPdu.parseInto :=
  builds_of (IntercomSignalPdu.makes (n + 0)) (IntercomSignalPdu.parses (n + 0))

theorem RemoveEntityPdu.found : look I.RemoveEntityPdu program = some RemoveEntityPdu := rfl

theorem RemoveEntityPdu.serializes (n : Nat) (x : Dis.RemoveEntityPdu) :
    Serializes (run (n + 4)) I.RemoveEntityPdu (RemoveEntityPdu.enc x) x.serialize :=
  serializes_of (n := n + 3) (d := I.RemoveEntityPdu) (f := RemoveEntityPdu.serialize) rfl rfl <|
    ser_cons (ser_super (c := I.RemoveEntityPdu) rfl (Or.inl rfl) RemoveEntityPdu.found rfl rfl (SimulationManagementFamilyPdu.serializes (n + 0) _ _ _)) <|
    ser_last <| ser_write (gives_attr (gives_name rfl) (plain rfl) rfl) rfl rfl rfl

theorem RemoveEntityPdu.makes (n : Nat) : Makes (run (n + 4)) I.RemoveEntityPdu (RemoveEntityPdu.enc Dis.RemoveEntityPdu.init) :=
  makes_of (p := (I.RemoveEntityPdu, RemoveEntityPdu.__init__)) (by decide +kernel) rfl rfl rfl (by kernel_rfl) fun _ => by kernel_rfl

theorem RemoveEntityPdu.parses (n : Nat) :
    Parses (run (n + 4)) I.RemoveEntityPdu I.RemoveEntityPdu RemoveEntityPdu.fields Dis.RemoveEntityPdu.parseInto :=
  parses_of (n := n + 3) (d := I.RemoveEntityPdu) (f := RemoveEntityPdu.parse) rfl rfl <|
    par_super (Q' := fun _ => True) (c := I.RemoveEntityPdu) (hs := fun x y => SimulationManagementFamilyPdu.fields y ++ (RemoveEntityPdu.own x))
      (fun _ => SimulationManagementFamilyPdu.parses (n + 0) _ _) rfl (Or.inl rfl) RemoveEntityPdu.found rfl (fun _ => rfl) (fun _ _ => rfl) (fun _ _ _ => trivial) <|
    par_read (fun _ _ => True) rfl rfl (plain rfl) (fun _ _ => rfl) (fun _ _ _ => trivial) fun _ =>
    par_nil

theorem RemoveEntityPdu.builds (n : Nat) : Builds (run (n + 4)) I.RemoveEntityPdu RemoveEntityPdu.fields Dis.RemoveEntityPdu.init Dis.RemoveEntityPdu.parseInto :=
  builds_of (RemoveEntityPdu.makes (n + 0)) (RemoveEntityPdu.parses (n + 0))

theorem ResupplyReceivedPdu.found : look I.ResupplyReceivedPdu program = some ResupplyReceivedPdu := rfl

theorem ResupplyReceivedPdu.serializes (n : Nat) (x : Dis.ResupplyReceivedPdu) :
    Serializes (run (n + 4)) I.ResupplyReceivedPdu (ResupplyReceivedPdu.enc x) x.serialize :=
  serializes_of (n := n + 3) (d := I.ResupplyReceivedPdu) (f := ResupplyReceivedPdu.serialize) rfl rfl <|
    ser_cons (ser_super (c := I.ResupplyReceivedPdu) rfl (Or.inl rfl) ResupplyReceivedPdu.found rfl rfl (LogisticsFamilyPdu.serializes (n + 0) _ _ _)) <|
    ser_cons (ser_call rfl (plain rfl) rfl rfl rfl (EntityIdentifier.serializes (n + 1) _)) <|
    ser_cons (ser_call rfl (plain rfl) rfl rfl rfl (EntityIdentifier.serializes (n + 1) _)) <|
    ser_cons (ser_write (gives_property (gives_name rfl) (by decide +kernel)
        (fun io => property_of (n := n + 2) (d := I.ResupplyReceivedPdu) (f := ResupplyReceivedPdu.numberOfSupplyTypes) rfl rfl rfl (gives_len_map (gives_attr (gives_name rfl) (plain rfl) rfl)) io)) rfl rfl (packInt_int _ _)) <|
    ser_cons (ser_write (gives_attr (gives_name rfl) (plain rfl) rfl) rfl rfl rfl) <|
    ser_cons (ser_write (gives_attr (gives_name rfl) (plain rfl) rfl) rfl rfl rfl) <|
    ser_last <| ser_for (gives_attr (gives_name rfl) (plain rfl) rfl) var_anObj rfl fun a _ =>
      ser_last (ser_var rfl rfl (SupplyQuantity.serializes (n + 1) a))

theorem ResupplyReceivedPdu.makes (n : Nat) : Makes (run (n + 4)) I.ResupplyReceivedPdu (ResupplyReceivedPdu.enc Dis.ResupplyReceivedPdu.init) :=
  makes_of (p := (I.ResupplyReceivedPdu, ResupplyReceivedPdu.__init__)) (by decide +kernel) rfl rfl rfl (by kernel_rfl) fun _ => by kernel_rfl

theorem ResupplyReceivedPdu.parses (n : Nat) :
    Parses (run (n + 4)) I.ResupplyReceivedPdu I.ResupplyReceivedPdu ResupplyReceivedPdu.fields Dis.ResupplyReceivedPdu.parseInto :=
  parses_of (n := n + 3) (d := I.ResupplyReceivedPdu) (f := ResupplyReceivedPdu.parse) rfl rfl <|
    par_super (Q' := fun _ => True) (c := I.ResupplyReceivedPdu) (hs := fun x y => LogisticsFamilyPdu.fields y ++ (ResupplyReceivedPdu.own x))
      (fun _ => LogisticsFamilyPdu.parses (n + 0) _ _) rfl (Or.inl rfl) ResupplyReceivedPdu.found rfl (fun _ => rfl) (fun _ _ => rfl) (fun _ _ _ => trivial) <|
    par_call (Q' := fun _ => True) (EntityIdentifier.parses (n + 1)) rfl (plain rfl) (fun _ => rfl) (fun _ _ => rfl) (fun _ _ _ => trivial) <|
    par_call (Q' := fun _ => True) (EntityIdentifier.parses (n + 1)) rfl (plain rfl) (fun _ => rfl) (fun _ _ => rfl) (fun _ _ _ => trivial) <|
    par_local rfl rfl var_numberOfSupplyTypes rfl fun _ =>
    par_read (fun _ _ => True) rfl rfl (plain rfl) (fun _ _ => rfl) (fun _ _ _ => trivial) fun _ =>
    par_read (fun _ _ => True) rfl rfl (plain rfl) (fun _ _ => rfl) (fun _ _ _ => trivial) fun _ =>
    par_unknown (fun _ _ => gives_range0 (gives_name rfl)) (by simp) no_null null_taken rfl rfl rfl
      var_idx rfl rfl <|
    par_nil

theorem ResupplyReceivedPdu.builds (n : Nat) : Builds (run (n + 4)) I.ResupplyReceivedPdu ResupplyReceivedPdu.fields Dis.ResupplyReceivedPdu.init Dis.ResupplyReceivedPdu.parseInto :=
  builds_of (ResupplyReceivedPdu.makes (n + 0)) (ResupplyReceivedPdu.parses (n + 0))

theorem WarfareFamilyPdu.found : look I.WarfareFamilyPdu program = some WarfareFamilyPdu := rfl

theorem WarfareFamilyPdu.serializes (n : Nat) (k : Ident) (rest : List (Ident × Val)) (x : Dis.WarfareFamilyPdu) :
    Serializes (run (n + 3)) I.WarfareFamilyPdu (.obj k (WarfareFamilyPdu.fields x ++ rest)) x.serialize :=
  serializes_of (n := n + 2) (d := I.WarfareFamilyPdu) (f := WarfareFamilyPdu.serialize) rfl rfl <|
    ser_cons (ser_super (c := I.WarfareFamilyPdu) rfl (Or.inl rfl) WarfareFamilyPdu.found rfl rfl (Pdu.serializes (n + 0) _ _ _)) <|
    ser_cons (ser_call rfl (plain rfl) rfl rfl rfl (EntityIdentifier.serializes (n + 0) _)) <|
    ser_last <| ser_call rfl (plain rfl) rfl rfl rfl (EntityIdentifier.serializes (n + 0) _)

theorem WarfareFamilyPdu.parses (n : Nat) (k : Ident) (rest : List (Ident × Val)) :
    Parses (run (n + 3)) I.WarfareFamilyPdu k (fun x => WarfareFamilyPdu.fields x ++ rest) Dis.WarfareFamilyPdu.parseInto :=
  parses_of (n := n + 2) (d := I.WarfareFamilyPdu) (f := WarfareFamilyPdu.parse) rfl rfl <|
    par_super (Q' := fun _ => True) (c := I.WarfareFamilyPdu) (hs := fun x y => Pdu.fields y ++ (WarfareFamilyPdu.own x ++ rest))
      (fun _ => Pdu.parses (n + 0) _ _) rfl (Or.inl rfl) WarfareFamilyPdu.found rfl (fun _ => rfl) (fun _ _ => rfl) (fun _ _ _ => trivial) <|
    par_call (Q' := fun _ => True) (EntityIdentifier.parses (n + 0)) rfl (plain rfl) (fun _ => rfl) (fun _ _ => rfl) (fun _ _ _ => trivial) <|
    par_call (Q' := fun _ => True) (EntityIdentifier.parses (n + 0)) rfl (plain rfl) (fun _ => rfl) (fun _ _ => rfl) (fun _ _ _ => trivial) <|
    par_nil

theorem CollisionElasticPdu.found : look I.CollisionElasticPdu program = some CollisionElasticPdu := rfl

theorem CollisionElasticPdu.serializes (n : Nat) (x : Dis.CollisionElasticPdu) :
    Serializes (run (n + 4)) I.CollisionElasticPdu (CollisionElasticPdu.enc x) x.serialize :=
  serializes_of (n := n + 3) (d := I.CollisionElasticPdu) (f := CollisionElasticPdu.serialize) rfl rfl <|
    ser_cons (ser_super (c := I.CollisionElasticPdu) rfl (Or.inl rfl) CollisionElasticPdu.found rfl rfl (EntityInformationFamilyPdu.serializes (n + 0) _ _ _)) <|
    ser_cons (ser_call rfl (plain rfl) rfl rfl rfl (EntityIdentifier.serializes (n + 1) _)) <|
    ser_cons (ser_call rfl (plain rfl) rfl rfl rfl (EntityIdentifier.serializes (n + 1) _)) <|
    ser_cons (ser_call rfl (plain rfl) rfl rfl rfl (EventIdentifier.serializes (n + 1) _)) <|
    ser_cons (ser_write (gives_attr (gives_name rfl) (plain rfl) rfl) rfl rfl rfl) <|
    ser_cons (ser_call rfl (plain rfl) rfl rfl rfl (Vector3Float.serializes (n + 2) _)) <|
    ser_cons (ser_write (gives_attr (gives_name rfl) (plain rfl) rfl) rfl rfl rfl) <|
    ser_cons (ser_call rfl (plain rfl) rfl rfl rfl (Vector3Float.serializes (n + 2) _)) <|
    ser_cons (ser_write (gives_attr (gives_name rfl) (plain rfl) rfl) rfl rfl rfl) <|
    ser_cons (ser_write (gives_attr (gives_name rfl) (plain rfl) rfl) rfl rfl rfl) <|
    ser_cons (ser_write (gives_attr (gives_name rfl) (plain rfl) rfl) rfl rfl rfl) <|
    ser_cons (ser_write (gives_attr (gives_name rfl) (plain rfl) rfl) rfl rfl rfl) <|
    ser_cons (ser_write (gives_attr (gives_name rfl) (plain rfl) rfl) rfl rfl rfl) <|
    ser_cons (ser_write (gives_attr (gives_name rfl) (plain rfl) rfl) rfl rfl rfl) <|
    ser_cons (ser_call rfl (plain rfl) rfl rfl rfl (Vector3Float.serializes (n + 2) _)) <|
    ser_last <| ser_write (gives_attr (gives_name rfl) (plain rfl) rfl) rfl rfl rfl

theorem CollisionElasticPdu.makes (n : Nat) : Makes (run (n + 4)) I.CollisionElasticPdu (CollisionElasticPdu.enc Dis.CollisionElasticPdu.init) :=
  makes_of (p := (I.CollisionElasticPdu, CollisionElasticPdu.__init__)) (by decide +kernel) rfl rfl rfl (by kernel_rfl) fun _ => by kernel_rfl

theorem CollisionElasticPdu.parses (n : Nat) :
    Parses (run (n + 4)) I.CollisionElasticPdu I.CollisionElasticPdu CollisionElasticPdu.fields Dis.CollisionElasticPdu.parseInto :=
  parses_of (n := n + 3) (d := I.CollisionElasticPdu) (f := CollisionElasticPdu.parse) rfl rfl <|
    par_super (Q' := fun _ => True) (c := I.CollisionElasticPdu) (hs := fun x y => EntityInformationFamilyPdu.fields y ++ (CollisionElasticPdu.own x))
      (fun _ => EntityInformationFamilyPdu.parses (n + 0) _ _) rfl (Or.inl rfl) CollisionElasticPdu.found rfl (fun _ => rfl) (fun _ _ => rfl) (fun _ _ _ => trivial) <|
    par_call (Q' := fun _ => True) (EntityIdentifier.parses (n + 1)) rfl (plain rfl) (fun _ => rfl) (fun _ _ => rfl) (fun _ _ _ => trivial) <|
    par_call (Q' := fun _ => True) (EntityIdentifier.parses (n + 1)) rfl (plain rfl) (fun _ => rfl) (fun _ _ => rfl) (fun _ _ _ => trivial) <|
    par_call (Q' := fun _ => True) (EventIdentifier.parses (n + 1)) rfl (plain rfl) (fun _ => rfl) (fun _ _ => rfl) (fun _ _ _ => trivial) <|
    par_read (fun _ _ => True) rfl rfl (plain rfl) (fun _ _ => rfl) (fun _ _ _ => trivial) fun _ =>
    par_call (Q' := fun _ => True) (Vector3Float.parses (n + 2)) rfl (plain rfl) (fun _ => rfl) (fun _ _ => rfl) (fun _ _ _ => trivial) <|
    par_read (fun _ _ => True) rfl rfl (plain rfl) (fun _ _ => rfl) (fun _ _ _ => trivial) fun _ =>
    par_call (Q' := fun _ => True) (Vector3Float.parses (n + 2)) rfl (plain rfl) (fun _ => rfl) (fun _ _ => rfl) (fun _ _ _ => trivial) <|
    par_read (fun _ _ => True) rfl rfl (plain rfl) (fun _ _ => rfl) (fun _ _ _ => trivial) fun _ =>
    par_read (fun _ _ => True) rfl rfl (plain rfl) (fun _ _ => rfl) (fun _ _ _ => trivial) fun _ =>
    par_read (fun _ _ => True) rfl rfl (plain rfl) (fun _ _ => rfl) (fun _ _ _ => trivial) fun _ =>
    par_read (fun _ _ => True) rfl rfl (plain rfl) (fun _ _ => rfl) (fun _ _ _ => trivial) fun _ =>
    par_read (fun _ _ => True) rfl rfl (plain rfl) (fun _ _ => rfl) (fun _ _ _ => trivial) fun _ =>
    par_read (fun _ _ => True) rfl rfl (plain rfl) (fun _ _ => rfl) (fun _ _ _ => trivial) fun _ =>
    par_call (Q' := fun _ => True) (Vector3Float.parses (n + 2)) rfl (plain rfl) (fun _ => rfl) (fun _ _ => rfl) (fun _ _ _ => trivial) <|
    par_read (fun _ _ => True) rfl rfl (plain rfl) (fun _ _ => rfl) (fun _ _ _ => trivial) fun _ =>
    par_nil

theorem CollisionElasticPdu.builds (n : Nat) : Builds (run (n + 4)) I.CollisionElasticPdu CollisionElasticPdu.fields Dis.CollisionElasticPdu.init Dis.CollisionElasticPdu.parseInto :=
  builds_of (CollisionElasticPdu.makes (n + 0)) (CollisionElasticPdu.parses (n + 0))

end Dis.Src
