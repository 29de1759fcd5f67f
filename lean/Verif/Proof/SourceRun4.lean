import Verif.Proof.SourceRun3
import Verif.Source.Encode4

/-!
# The classes do what their syntax trees say, part 4

Written by `tools/gensourceproof.py`.
-/

set_option linter.unusedVariables false
set_option linter.unusedSimpArgs false

namespace Dis.Src

theorem AcknowledgePdu.found : look I.AcknowledgePdu program = some AcknowledgePdu := rfl

theorem AcknowledgePdu.serializes (n : Nat) (x : Dis.AcknowledgePdu) :
    Serializes (run (n + 4)) I.AcknowledgePdu (AcknowledgePdu.enc x) x.serialize :=
  serializes_of (n := n + 3) (d := I.AcknowledgePdu) (f := AcknowledgePdu.serialize) rfl rfl <|
    ser_cons (ser_super (c := I.AcknowledgePdu) rfl (Or.inl rfl) AcknowledgePdu.found rfl rfl (SimulationManagementFamilyPdu.serializes (n + 0) _ _ _)) <|
    ser_cons (ser_write (gives_attr (gives_name rfl) (plain rfl) rfl) rfl rfl rfl) <|
    ser_cons (ser_write (gives_attr (gives_name rfl) (plain rfl) rfl) rfl rfl rfl) <|
    ser_last <| ser_write (gives_attr (gives_name rfl) (plain rfl) rfl) rfl rfl rfl

theorem AcknowledgePdu.makes (n : Nat) : Makes (run (n + 4)) I.AcknowledgePdu (AcknowledgePdu.enc Dis.AcknowledgePdu.init) :=
  makes_of (p := (I.AcknowledgePdu, AcknowledgePdu.__init__)) (by decide +kernel) rfl rfl rfl (by kernel_rfl) fun _ => by kernel_rfl

theorem AcknowledgePdu.parses (n : Nat) :
    Parses (run (n + 4)) I.AcknowledgePdu I.AcknowledgePdu AcknowledgePdu.fields Dis.AcknowledgePdu.parseInto :=
  parses_of (n := n + 3) (d := I.AcknowledgePdu) (f := AcknowledgePdu.parse) rfl rfl <|
    par_super (Q' := fun _ => True) (c := I.AcknowledgePdu) (hs := fun x y => SimulationManagementFamilyPdu.fields y ++ (AcknowledgePdu.own x))
      (fun _ => SimulationManagementFamilyPdu.parses (n + 0) _ _) rfl (Or.inl rfl) AcknowledgePdu.found rfl (fun _ => rfl) (fun _ _ => rfl) (fun _ _ _ => trivial) <|
    par_read (fun _ _ => True) rfl rfl (plain rfl) (fun _ _ => rfl) (fun _ _ _ => trivial) fun _ =>
    par_read (fun _ _ => True) rfl rfl (plain rfl) (fun _ _ => rfl) (fun _ _ _ => trivial) fun _ =>
    par_read (fun _ _ => True) rfl rfl (plain rfl) (fun _ _ => rfl) (fun _ _ _ => trivial) fun _ =>
    par_nil

theorem AcknowledgePdu.builds (n : Nat) : Builds (run (n + 4)) I.AcknowledgePdu AcknowledgePdu.fields Dis.AcknowledgePdu.init Dis.AcknowledgePdu.parseInto :=
  builds_of (AcknowledgePdu.makes (n + 0)) (AcknowledgePdu.parses (n + 0))

theorem DistributedEmissionsFamilyPdu.found : look I.DistributedEmissionsFamilyPdu program = some DistributedEmissionsFamilyPdu := rfl

theorem DistributedEmissionsFamilyPdu.serializes (n : Nat) (k : Ident) (rest : List (Ident × Val)) (x : Dis.DistributedEmissionsFamilyPdu) :
    Serializes (run (n + 3)) I.DistributedEmissionsFamilyPdu (.obj k (DistributedEmissionsFamilyPdu.fields x ++ rest)) x.serialize :=
  serializes_of (n := n + 2) (d := I.DistributedEmissionsFamilyPdu) (f := DistributedEmissionsFamilyPdu.serialize) rfl rfl <|
    ser_last <| ser_super (c := I.DistributedEmissionsFamilyPdu) rfl (Or.inl rfl) DistributedEmissionsFamilyPdu.found rfl rfl (Pdu.serializes (n + 0) _ _ _)

theorem DistributedEmissionsFamilyPdu.parses (n : Nat) (k : Ident) (rest : List (Ident × Val)) :
    Parses (run (n + 3)) I.DistributedEmissionsFamilyPdu k (fun x => DistributedEmissionsFamilyPdu.fields x ++ rest) Dis.DistributedEmissionsFamilyPdu.parseInto :=
  parses_of (n := n + 2) (d := I.DistributedEmissionsFamilyPdu) (f := DistributedEmissionsFamilyPdu.parse) rfl rfl <|
    par_super (Q' := fun _ => True) (c := I.DistributedEmissionsFamilyPdu) (hs := fun x y => Pdu.fields y ++ (DistributedEmissionsFamilyPdu.own x ++ rest))
      (fun _ => Pdu.parses (n + 0) _ _) rfl (Or.inl rfl) DistributedEmissionsFamilyPdu.found rfl (fun _ => rfl) (fun _ _ => rfl) (fun _ _ _ => trivial) <|
    par_nil

theorem SimulationManagementWithReliabilityFamilyPdu.found : look I.SimulationManagementWithReliabilityFamilyPdu program = some SimulationManagementWithReliabilityFamilyPdu := rfl

theorem SimulationManagementWithReliabilityFamilyPdu.serializes (n : Nat) (k : Ident) (rest : List (Ident × Val)) (x : Dis.SimulationManagementWithReliabilityFamilyPdu) :
    Serializes (run (n + 3)) I.SimulationManagementWithReliabilityFamilyPdu (.obj k (SimulationManagementWithReliabilityFamilyPdu.fields x ++ rest)) x.serialize :=
  serializes_of (n := n + 2) (d := I.SimulationManagementWithReliabilityFamilyPdu) (f := SimulationManagementWithReliabilityFamilyPdu.serialize) rfl rfl <|
    ser_cons (ser_super (c := I.SimulationManagementWithReliabilityFamilyPdu) rfl (Or.inl rfl) SimulationManagementWithReliabilityFamilyPdu.found rfl rfl (Pdu.serializes (n + 0) _ _ _)) <|
    ser_cons (ser_call rfl (plain rfl) rfl rfl rfl (EntityIdentifier.serializes (n + 0) _)) <|
    ser_last <| ser_call rfl (plain rfl) rfl rfl rfl (EntityIdentifier.serializes (n + 0) _)

theorem SimulationManagementWithReliabilityFamilyPdu.parses (n : Nat) (k : Ident) (rest : List (Ident × Val)) :
    Parses (run (n + 3)) I.SimulationManagementWithReliabilityFamilyPdu k (fun x => SimulationManagementWithReliabilityFamilyPdu.fields x ++ rest) Dis.SimulationManagementWithReliabilityFamilyPdu.parseInto :=
  parses_of (n := n + 2) (d := I.SimulationManagementWithReliabilityFamilyPdu) (f := SimulationManagementWithReliabilityFamilyPdu.parse) rfl rfl <|
    par_super (Q' := fun _ => True) (c := I.SimulationManagementWithReliabilityFamilyPdu) (hs := fun x y => Pdu.fields y ++ (SimulationManagementWithReliabilityFamilyPdu.own x ++ rest))
      (fun _ => Pdu.parses (n + 0) _ _) rfl (Or.inl rfl) SimulationManagementWithReliabilityFamilyPdu.found rfl (fun _ => rfl) (fun _ _ => rfl) (fun _ _ _ => trivial) <|
    par_call (Q' := fun _ => True) (EntityIdentifier.parses (n + 0)) rfl (plain rfl) (fun _ => rfl) (fun _ _ => rfl) (fun _ _ _ => trivial) <|
    par_call (Q' := fun _ => True) (EntityIdentifier.parses (n + 0)) rfl (plain rfl) (fun _ => rfl) (fun _ _ => rfl) (fun _ _ _ => trivial) <|
    par_nil

theorem DesignatorPdu.found : look I.DesignatorPdu program = some DesignatorPdu := rfl

theorem DesignatorPdu.serializes (n : Nat) (x : Dis.DesignatorPdu) :
    Serializes (run (n + 4)) I.DesignatorPdu (DesignatorPdu.enc x) x.serialize :=
  serializes_of (n := n + 3) (d := I.DesignatorPdu) (f := DesignatorPdu.serialize) rfl rfl <|
    ser_cons (ser_super (c := I.DesignatorPdu) rfl (Or.inl rfl) DesignatorPdu.found rfl rfl (DistributedEmissionsFamilyPdu.serializes (n + 0) _ _ _)) <|
    ser_cons (ser_call rfl (plain rfl) rfl rfl rfl (EntityIdentifier.serializes (n + 1) _)) <|
    ser_cons (ser_write (gives_attr (gives_name rfl) (plain rfl) rfl) rfl rfl rfl) <|
    ser_cons (ser_call rfl (plain rfl) rfl rfl rfl (EntityIdentifier.serializes (n + 1) _)) <|
    ser_cons (ser_write (gives_attr (gives_name rfl) (plain rfl) rfl) rfl rfl rfl) <|
    ser_cons (ser_write (gives_attr (gives_name rfl) (plain rfl) rfl) rfl rfl rfl) <|
    ser_cons (ser_write (gives_attr (gives_name rfl) (plain rfl) rfl) rfl rfl rfl) <|
    ser_cons (ser_call rfl (plain rfl) rfl rfl rfl (Vector3Float.serializes (n + 2) _)) <|
    ser_cons (ser_call rfl (plain rfl) rfl rfl rfl (WorldCoordinates.serializes (n + 2) _)) <|
    ser_cons (ser_write (gives_attr (gives_name rfl) (plain rfl) rfl) rfl rfl rfl) <|
    ser_cons (ser_write (gives_attr (gives_name rfl) (plain rfl) rfl) rfl rfl rfl) <|
    ser_cons (ser_write (gives_attr (gives_name rfl) (plain rfl) rfl) rfl rfl rfl) <|
    ser_last <| ser_call rfl (plain rfl) rfl rfl rfl (Vector3Float.serializes (n + 2) _)

theorem DesignatorPdu.makes (n : Nat) : Makes (run (n + 4)) I.DesignatorPdu (DesignatorPdu.enc Dis.DesignatorPdu.init) :=
  makes_of (p := (I.DesignatorPdu, DesignatorPdu.__init__)) (by decide +kernel) rfl rfl rfl (by kernel_rfl) fun _ => by kernel_rfl

theorem DesignatorPdu.parses (n : Nat) :
    Parses (run (n + 4)) I.DesignatorPdu I.DesignatorPdu DesignatorPdu.fields Dis.DesignatorPdu.parseInto :=
  parses_of (n := n + 3) (d := I.DesignatorPdu) (f := DesignatorPdu.parse) rfl rfl <|
    par_super (Q' := fun _ => True) (c := I.DesignatorPdu) (hs := fun x y => DistributedEmissionsFamilyPdu.fields y ++ (DesignatorPdu.own x))
      (fun _ => DistributedEmissionsFamilyPdu.parses (n + 0) _ _) rfl (Or.inl rfl) DesignatorPdu.found rfl (fun _ => rfl) (fun _ _ => rfl) (fun _ _ _ => trivial) <|
    par_call (Q' := fun _ => True) (EntityIdentifier.parses (n + 1)) rfl (plain rfl) (fun _ => rfl) (fun _ _ => rfl) (fun _ _ _ => trivial) <|
    par_read (fun _ _ => True) rfl rfl (plain rfl) (fun _ _ => rfl) (fun _ _ _ => trivial) fun _ =>
    par_call (Q' := fun _ => True) (EntityIdentifier.parses (n + 1)) rfl (plain rfl) (fun _ => rfl) (fun _ _ => rfl) (fun _ _ _ => trivial) <|
    par_read (fun _ _ => True) rfl rfl (plain rfl) (fun _ _ => rfl) (fun _ _ _ => trivial) fun _ =>
    par_read (fun _ _ => True) rfl rfl (plain rfl) (fun _ _ => rfl) (fun _ _ _ => trivial) fun _ =>
    par_read (fun _ _ => True) rfl rfl (plain rfl) (fun _ _ => rfl) (fun _ _ _ => trivial) fun _ =>
    par_call (Q' := fun _ => True) (Vector3Float.parses (n + 2)) rfl (plain rfl) (fun _ => rfl) (fun _ _ => rfl) (fun _ _ _ => trivial) <|
    par_call (Q' := fun _ => True) (WorldCoordinates.parses (n + 2)) rfl (plain rfl) (fun _ => rfl) (fun _ _ => rfl) (fun _ _ _ => trivial) <|
    par_read (fun _ _ => True) rfl rfl (plain rfl) (fun _ _ => rfl) (fun _ _ _ => trivial) fun _ =>
    par_read (fun _ _ => True) rfl rfl (plain rfl) (fun _ _ => rfl) (fun _ _ _ => trivial) fun _ =>
    par_read (fun _ _ => True) rfl rfl (plain rfl) (fun _ _ => rfl) (fun _ _ _ => trivial) fun _ =>
    par_call (Q' := fun _ => True) (Vector3Float.parses (n + 2)) rfl (plain rfl) (fun _ => rfl) (fun _ _ => rfl) (fun _ _ _ => trivial) <|
    par_nil

theorem DesignatorPdu.builds (n : Nat) : Builds (run (n + 4)) I.DesignatorPdu DesignatorPdu.fields Dis.DesignatorPdu.init Dis.DesignatorPdu.parseInto :=
  builds_of (DesignatorPdu.makes (n + 0)) (DesignatorPdu.parses (n + 0))

theorem StopFreezePdu.found : look I.StopFreezePdu program = some StopFreezePdu := rfl

theorem StopFreezePdu.serializes (n : Nat) (x : Dis.StopFreezePdu) :
    Serializes (run (n + 4)) I.StopFreezePdu (StopFreezePdu.enc x) x.serialize :=
  serializes_of (n := n + 3) (d := I.StopFreezePdu) (f := StopFreezePdu.serialize) rfl rfl <|
    ser_cons (ser_super (c := I.StopFreezePdu) rfl (Or.inl rfl) StopFreezePdu.found rfl rfl (SimulationManagementFamilyPdu.serializes (n + 0) _ _ _)) <|
    ser_cons (ser_call rfl (plain rfl) rfl rfl rfl (ClockTime.serializes (n + 2) _)) <|
    ser_cons (ser_write (gives_attr (gives_name rfl) (plain rfl) rfl) rfl rfl rfl) <|
    ser_cons (ser_write (gives_attr (gives_name rfl) (plain rfl) rfl) rfl rfl rfl) <|
    ser_cons (ser_write (gives_attr (gives_name rfl) (plain rfl) rfl) rfl rfl rfl) <|
    ser_last <| ser_write (gives_attr (gives_name rfl) (plain rfl) rfl) rfl rfl rfl

theorem StopFreezePdu.makes (n : Nat) : Makes (run (n + 4)) I.StopFreezePdu (StopFreezePdu.enc Dis.StopFreezePdu.init) :=
  makes_of (p := (I.StopFreezePdu, StopFreezePdu.__init__)) (by decide +kernel) rfl rfl rfl (by kernel_rfl) fun _ => by kernel_rfl

theorem StopFreezePdu.parses (n : Nat) :
    Parses (run (n + 4)) I.StopFreezePdu I.StopFreezePdu StopFreezePdu.fields Dis.StopFreezePdu.parseInto :=
  parses_of (n := n + 3) (d := I.StopFreezePdu) (f := StopFreezePdu.parse) rfl rfl <|
    par_super (Q' := fun _ => True) (c := I.StopFreezePdu) (hs := fun x y => SimulationManagementFamilyPdu.fields y ++ (StopFreezePdu.own x))
      (fun _ => SimulationManagementFamilyPdu.parses (n + 0) _ _) rfl (Or.inl rfl) StopFreezePdu.found rfl (fun _ => rfl) (fun _ _ => rfl) (fun _ _ _ => trivial) <|
    par_call (Q' := fun _ => True) (ClockTime.parses (n + 2)) rfl (plain rfl) (fun _ => rfl) (fun _ _ => rfl) (fun _ _ _ => trivial) <|
    par_read (fun _ _ => True) rfl rfl (plain rfl) (fun _ _ => rfl) (fun _ _ _ => trivial) fun _ =>
    par_read (fun _ _ => True) rfl rfl (plain rfl) (fun _ _ => rfl) (fun _ _ _ => trivial) fun _ =>
    par_read (fun _ _ => True) rfl rfl (plain rfl) (fun _ _ => rfl) (fun _ _ _ => trivial) fun _ =>
    par_read (fun _ _ => True) rfl rfl (plain rfl) (fun _ _ => rfl) (fun _ _ _ => trivial) fun _ =>
    par_nil

theorem StopFreezePdu.builds (n : Nat) : Builds (run (n + 4)) I.StopFreezePdu StopFreezePdu.fields Dis.StopFreezePdu.init Dis.StopFreezePdu.parseInto :=
  builds_of (StopFreezePdu.makes (n + 0)) (StopFreezePdu.parses (n + 0))

theorem EntityStatePdu.found : look I.EntityStatePdu program = some EntityStatePdu := rfl

theorem EntityStatePdu.serializes (n : Nat) (x : Dis.EntityStatePdu) :
    Serializes (run (n + 4)) I.EntityStatePdu (EntityStatePdu.enc x) x.serialize :=
  serializes_of (n := n + 3) (d := I.EntityStatePdu) (f := EntityStatePdu.serialize) rfl rfl <|
    ser_cons (ser_super (c := I.EntityStatePdu) rfl (Or.inl rfl) EntityStatePdu.found rfl rfl (EntityInformationFamilyPdu.serializes (n + 0) _ _ _)) <|
    ser_cons (ser_call rfl (plain rfl) rfl rfl rfl (EntityIdentifier.serializes (n + 1) _)) <|
    ser_cons (ser_write (gives_attr (gives_name rfl) (plain rfl) rfl) rfl rfl rfl) <|
    ser_cons (ser_write (gives_property (gives_name rfl) (by decide +kernel)
        (fun io => property_of (n := n + 2) (d := I.EntityStatePdu) (f := EntityStatePdu.numberOfVariableParameters) rfl rfl rfl (gives_len_map (gives_attr (gives_name rfl) (plain rfl) rfl)) io)) rfl rfl (packInt_int _ _)) <|
    ser_cons (ser_call rfl (plain rfl) rfl rfl rfl (EntityType.serializes (n + 2) _)) <|
    ser_cons (ser_call rfl (plain rfl) rfl rfl rfl (EntityType.serializes (n + 2) _)) <|
    ser_cons (ser_call rfl (plain rfl) rfl rfl rfl (Vector3Float.serializes (n + 2) _)) <|
    ser_cons (ser_call rfl (plain rfl) rfl rfl rfl (WorldCoordinates.serializes (n + 2) _)) <|
    ser_cons (ser_call rfl (plain rfl) rfl rfl rfl (EulerAngles.serializes (n + 2) _)) <|
    ser_cons (ser_write (gives_attr (gives_name rfl) (plain rfl) rfl) rfl rfl rfl) <|
    ser_cons (ser_call rfl (plain rfl) rfl rfl rfl (DeadReckoningParameters.serializes (n + 1) _)) <|
    ser_cons (ser_call rfl (plain rfl) rfl rfl rfl (EntityMarking.serializes (n + 2) _)) <|
    ser_cons (ser_write (gives_attr (gives_name rfl) (plain rfl) rfl) rfl rfl rfl) <|
    ser_last <| ser_for (gives_attr (gives_name rfl) (plain rfl) rfl) var_anObj rfl fun a _ =>
      ser_last (ser_var rfl rfl (VariableParameter.serializes (n + 2) a))

theorem EntityStatePdu.makes (n : Nat) : Makes (run (n + 4)) I.EntityStatePdu (EntityStatePdu.enc Dis.EntityStatePdu.init) :=
  makes_of (p := (I.EntityStatePdu, EntityStatePdu.__init__)) (by decide +kernel) rfl rfl rfl (by kernel_rfl) fun _ => by kernel_rfl

theorem EntityStatePdu.parses (n : Nat) :
    Parses (run (n + 4)) I.EntityStatePdu I.EntityStatePdu EntityStatePdu.fields Dis.EntityStatePdu.parseInto :=
  parses_of (n := n + 3) (d := I.EntityStatePdu) (f := EntityStatePdu.parse) rfl rfl <|
    par_super (Q' := fun _ => True) (c := I.EntityStatePdu) (hs := fun x y => EntityInformationFamilyPdu.fields y ++ (EntityStatePdu.own x))
      (fun _ => EntityInformationFamilyPdu.parses (n + 0) _ _) rfl (Or.inl rfl) EntityStatePdu.found rfl (fun _ => rfl) (fun _ _ => rfl) (fun _ _ _ => trivial) <|
    par_call (Q' := fun _ => True) (EntityIdentifier.parses (n + 1)) rfl (plain rfl) (fun _ => rfl) (fun _ _ => rfl) (fun _ _ _ => trivial) <|
    par_read (fun _ _ => True) rfl rfl (plain rfl) (fun _ _ => rfl) (fun _ _ _ => trivial) fun _ =>
    par_local rfl rfl var_numberOfVariableParameters rfl fun _ =>
    par_call (Q' := fun _ => True) (EntityType.parses (n + 2)) rfl (plain rfl) (fun _ => rfl) (fun _ _ => rfl) (fun _ _ _ => trivial) <|
    par_call (Q' := fun _ => True) (EntityType.parses (n + 2)) rfl (plain rfl) (fun _ => rfl) (fun _ _ => rfl) (fun _ _ _ => trivial) <|
    par_call (Q' := fun _ => True) (Vector3Float.parses (n + 2)) rfl (plain rfl) (fun _ => rfl) (fun _ _ => rfl) (fun _ _ _ => trivial) <|
    par_call (Q' := fun _ => True) (WorldCoordinates.parses (n + 2)) rfl (plain rfl) (fun _ => rfl) (fun _ _ => rfl) (fun _ _ _ => trivial) <|
    par_call (Q' := fun _ => True) (EulerAngles.parses (n + 2)) rfl (plain rfl) (fun _ => rfl) (fun _ _ => rfl) (fun _ _ _ => trivial) <|
    par_read (fun _ _ => True) rfl rfl (plain rfl) (fun _ _ => rfl) (fun _ _ _ => trivial) fun _ =>
    par_call (Q' := fun _ => True) (DeadReckoningParameters.parses (n + 1)) rfl (plain rfl) (fun _ => rfl) (fun _ _ => rfl) (fun _ _ _ => trivial) <|
    par_call (Q' := fun _ => True) (EntityMarking.parses (n + 2)) rfl (plain rfl) (fun _ => rfl) (fun _ _ => rfl) (fun _ _ _ => trivial) <|
    par_read (fun _ _ => True) rfl rfl (plain rfl) (fun _ _ => rfl) (fun _ _ _ => trivial) fun _ =>
    par_objs (fun _ _ => gives_range0 (gives_name rfl)) (by simp) (VariableParameter.builds (n + 2)) rfl
      (plain rfl) (fun _ => rfl) (fun _ _ => rfl) var_idx rfl rfl var_element rfl rfl <|
    par_nil

theorem EntityStatePdu.builds (n : Nat) : Builds (run (n + 4)) I.EntityStatePdu EntityStatePdu.fields Dis.EntityStatePdu.init Dis.EntityStatePdu.parseInto :=
  builds_of (EntityStatePdu.makes (n + 0)) (EntityStatePdu.parses (n + 0))

theorem EntityManagementFamilyPdu.found : look I.EntityManagementFamilyPdu program = some EntityManagementFamilyPdu := rfl

theorem EntityManagementFamilyPdu.serializes (n : Nat) (k : Ident) (rest : List (Ident × Val)) (x : Dis.EntityManagementFamilyPdu) :
    Serializes (run (n + 3)) I.EntityManagementFamilyPdu (.obj k (EntityManagementFamilyPdu.fields x ++ rest)) x.serialize :=
  serializes_of (n := n + 2) (d := I.EntityManagementFamilyPdu) (f := EntityManagementFamilyPdu.serialize) rfl rfl <|
    ser_last <| ser_super (c := I.EntityManagementFamilyPdu) rfl (Or.inl rfl) EntityManagementFamilyPdu.found rfl rfl (Pdu.serializes (n + 0) _ _ _)

theorem EntityManagementFamilyPdu.parses (n : Nat) (k : Ident) (rest : List (Ident × Val)) :
    Parses (run (n + 3)) I.EntityManagementFamilyPdu k (fun x => EntityManagementFamilyPdu.fields x ++ rest) Dis.EntityManagementFamilyPdu.parseInto :=
  parses_of (n := n + 2) (d := I.EntityManagementFamilyPdu) (f := EntityManagementFamilyPdu.parse) rfl rfl <|
    par_super (Q' := fun _ => True) (c := I.EntityManagementFamilyPdu) (hs := fun x y => Pdu.fields y ++ (EntityManagementFamilyPdu.own x ++ rest))
      (fun _ => Pdu.parses (n + 0) _ _) rfl (Or.inl rfl) EntityManagementFamilyPdu.found rfl (fun _ => rfl) (fun _ _ => rfl) (fun _ _ _ => trivial) <|
    par_nil

theorem StartResumePdu.found : look I.StartResumePdu program = some StartResumePdu := rfl

theorem StartResumePdu.serializes (n : Nat) (x : Dis.StartResumePdu) :
    Serializes (run (n + 4)) I.StartResumePdu (StartResumePdu.enc x) x.serialize :=
  serializes_of (n := n + 3) (d := I.StartResumePdu) (f := StartResumePdu.serialize) rfl rfl <|
    ser_cons (ser_super (c := I.StartResumePdu) rfl (Or.inl rfl) StartResumePdu.found rfl rfl (SimulationManagementFamilyPdu.serializes (n + 0) _ _ _)) <|
    ser_cons (ser_call rfl (plain rfl) rfl rfl rfl (ClockTime.serializes (n + 2) _)) <|
    ser_cons (ser_call rfl (plain rfl) rfl rfl rfl (ClockTime.serializes (n + 2) _)) <|
    ser_last <| ser_write (gives_attr (gives_name rfl) (plain rfl) rfl) rfl rfl rfl

theorem StartResumePdu.makes (n : Nat) : Makes (run (n + 4)) I.StartResumePdu (StartResumePdu.enc Dis.StartResumePdu.init) :=
  makes_of (p := (I.StartResumePdu, StartResumePdu.__init__)) (by decide +kernel) rfl rfl rfl (by kernel_rfl) fun _ => by kernel_rfl

theorem StartResumePdu.parses (n : Nat) :
    Parses (run (n + 4)) I.StartResumePdu I.StartResumePdu StartResumePdu.fields Dis.StartResumePdu.parseInto :=
  parses_of (n := n + 3) (d := I.StartResumePdu) (f := StartResumePdu.parse) rfl rfl <|
    par_super (Q' := fun _ => True) (c := I.StartResumePdu) (hs := fun x y => SimulationManagementFamilyPdu.fields y ++ (StartResumePdu.own x))
      (fun _ => SimulationManagementFamilyPdu.parses (n + 0) _ _) rfl (Or.inl rfl) StartResumePdu.found rfl (fun _ => rfl) (fun _ _ => rfl) (fun _ _ _ => trivial) <|
    par_call (Q' := fun _ => True) (ClockTime.parses (n + 2)) rfl (plain rfl) (fun _ => rfl) (fun _ _ => rfl) (fun _ _ _ => trivial) <|
    par_call (Q' := fun _ => True) (ClockTime.parses (n + 2)) rfl (plain rfl) (fun _ => rfl) (fun _ _ => rfl) (fun _ _ _ => trivial) <|
    par_read (fun _ _ => True) rfl rfl (plain rfl) (fun _ _ => rfl) (fun _ _ _ => trivial) fun _ =>
    par_nil

theorem StartResumePdu.builds (n : Nat) : Builds (run (n + 4)) I.StartResumePdu StartResumePdu.fields Dis.StartResumePdu.init Dis.StartResumePdu.parseInto :=
  builds_of (StartResumePdu.makes (n + 0)) (StartResumePdu.parses (n + 0))

theorem ElectromagneticEmissionsPdu.found : look I.ElectromagneticEmissionsPdu program = some ElectromagneticEmissionsPdu := rfl

theorem ElectromagneticEmissionsPdu.serializes (n : Nat) (x : Dis.ElectromagneticEmissionsPdu) :
    Serializes (run (n + 6)) I.ElectromagneticEmissionsPdu (ElectromagneticEmissionsPdu.enc x) x.serialize :=
  serializes_of (n := n + 5) (d := I.ElectromagneticEmissionsPdu) (f := ElectromagneticEmissionsPdu.serialize) rfl rfl <|
    ser_cons (ser_super (c := I.ElectromagneticEmissionsPdu) rfl (Or.inl rfl) ElectromagneticEmissionsPdu.found rfl rfl (DistributedEmissionsFamilyPdu.serializes (n + 2) _ _ _)) <|
    ser_cons (ser_call rfl (plain rfl) rfl rfl rfl (EntityIdentifier.serializes (n + 3) _)) <|
    ser_cons (ser_call rfl (plain rfl) rfl rfl rfl (EventIdentifier.serializes (n + 3) _)) <|
    ser_cons (ser_write (gives_attr (gives_name rfl) (plain rfl) rfl) rfl rfl rfl) <|
    ser_cons (ser_write (gives_property (gives_name rfl) (by decide +kernel)
        (fun io => property_of (n := n + 4) (d := I.ElectromagneticEmissionsPdu) (f := ElectromagneticEmissionsPdu.numberOfSystems) rfl rfl rfl (gives_len_map (gives_attr (gives_name rfl) (plain rfl) rfl)) io)) rfl rfl (packInt_int _ _)) <|
    ser_cons (ser_write (gives_attr (gives_name rfl) (plain rfl) rfl) rfl rfl rfl) <|
    ser_last <| ser_for (gives_attr (gives_name rfl) (plain rfl) rfl) var_anObj rfl fun a _ =>
      ser_last (ser_var rfl rfl (EmissionSystemRecord.serializes (n + 0) a))

theorem ElectromagneticEmissionsPdu.makes (n : Nat) : Makes (run (n + 4)) I.ElectromagneticEmissionsPdu (ElectromagneticEmissionsPdu.enc Dis.ElectromagneticEmissionsPdu.init) :=
  makes_of (p := (I.ElectromagneticEmissionsPdu, ElectromagneticEmissionsPdu.__init__)) (by decide +kernel) rfl rfl rfl (by kernel_rfl) fun _ => by kernel_rfl

theorem ElectromagneticEmissionsPdu.parses (n : Nat) :
    Parses (run (n + 6)) I.ElectromagneticEmissionsPdu I.ElectromagneticEmissionsPdu ElectromagneticEmissionsPdu.fields Dis.ElectromagneticEmissionsPdu.parseInto :=
  parses_of (n := n + 5) (d := I.ElectromagneticEmissionsPdu) (f := ElectromagneticEmissionsPdu.parse) rfl rfl <|
    par_super (Q' := fun _ => True) (c := I.ElectromagneticEmissionsPdu) (hs := fun x y => DistributedEmissionsFamilyPdu.fields y ++ (ElectromagneticEmissionsPdu.own x))
      (fun _ => DistributedEmissionsFamilyPdu.parses (n + 2) _ _) rfl (Or.inl rfl) ElectromagneticEmissionsPdu.found rfl (fun _ => rfl) (fun _ _ => rfl) (fun _ _ _ => trivial) <|
    par_call (Q' := fun _ => True) (EntityIdentifier.parses (n + 3)) rfl (plain rfl) (fun _ => rfl) (fun _ _ => rfl) (fun _ _ _ => trivial) <|
    par_call (Q' := fun _ => True) (EventIdentifier.parses (n + 3)) rfl (plain rfl) (fun _ => rfl) (fun _ _ => rfl) (fun _ _ _ => trivial) <|
    par_read (fun _ _ => True) rfl rfl (plain rfl) (fun _ _ => rfl) (fun _ _ _ => trivial) fun _ =>
    par_local rfl rfl var_numberOfSystems rfl fun _ =>
    par_read (fun _ _ => True) rfl rfl (plain rfl) (fun _ _ => rfl) (fun _ _ _ => trivial) fun _ =>
    par_objs (fun _ _ => gives_range0 (gives_name rfl)) (by simp) (EmissionSystemRecord.builds (n + 0)) rfl
      (plain rfl) (fun _ => rfl) (fun _ _ => rfl) var_idx rfl rfl var_element rfl rfl <|
    par_nil

theorem ElectromagneticEmissionsPdu.builds (n : Nat) : Builds (run (n + 6)) I.ElectromagneticEmissionsPdu ElectromagneticEmissionsPdu.fields Dis.ElectromagneticEmissionsPdu.init Dis.ElectromagneticEmissionsPdu.parseInto :=
  builds_of (ElectromagneticEmissionsPdu.makes (n + 2)) (ElectromagneticEmissionsPdu.parses (n + 0))

theorem ResupplyOfferPdu.found : look I.ResupplyOfferPdu program = some ResupplyOfferPdu := rfl

theorem ResupplyOfferPdu.serializes (n : Nat) (x : Dis.ResupplyOfferPdu) :
    Serializes (run (n + 4)) I.ResupplyOfferPdu (ResupplyOfferPdu.enc x) x.serialize :=
  serializes_of (n := n + 3) (d := I.ResupplyOfferPdu) (f := ResupplyOfferPdu.serialize) rfl rfl <|
    ser_cons (ser_super (c := I.ResupplyOfferPdu) rfl (Or.inl rfl) ResupplyOfferPdu.found rfl rfl (LogisticsFamilyPdu.serializes (n + 0) _ _ _)) <|
    ser_cons (ser_call rfl (plain rfl) rfl rfl rfl (EntityIdentifier.serializes (n + 1) _)) <|
    ser_cons (ser_call rfl (plain rfl) rfl rfl rfl (EntityIdentifier.serializes (n + 1) _)) <|
    ser_cons (ser_write (gives_property (gives_name rfl) (by decide +kernel)
        (fun io => property_of (n := n + 2) (d := I.ResupplyOfferPdu) (f := ResupplyOfferPdu.numberOfSupplyTypes) rfl rfl rfl (gives_len_map (gives_attr (gives_name rfl) (plain rfl) rfl)) io)) rfl rfl (packInt_int _ _)) <|
    ser_cons (ser_write (gives_attr (gives_name rfl) (plain rfl) rfl) rfl rfl rfl) <|
    ser_cons (ser_write (gives_attr (gives_name rfl) (plain rfl) rfl) rfl rfl rfl) <|
    ser_last <| ser_for (gives_attr (gives_name rfl) (plain rfl) rfl) var_anObj rfl fun a _ =>
      ser_last (ser_var rfl rfl (SupplyQuantity.serializes (n + 1) a))

theorem ResupplyOfferPdu.makes (n : Nat) : Makes (run (n + 4)) I.ResupplyOfferPdu (ResupplyOfferPdu.enc Dis.ResupplyOfferPdu.init) :=
  makes_of (p := (I.ResupplyOfferPdu, ResupplyOfferPdu.__init__)) (by decide +kernel) rfl rfl rfl (by kernel_rfl) fun _ => by kernel_rfl

theorem ResupplyOfferPdu.parses (n : Nat) :
    Parses (run (n + 4)) I.ResupplyOfferPdu I.ResupplyOfferPdu ResupplyOfferPdu.fields Dis.ResupplyOfferPdu.parseInto :=
  parses_of (n := n + 3) (d := I.ResupplyOfferPdu) (f := ResupplyOfferPdu.parse) rfl rfl <|
    par_super (Q' := fun _ => True) (c := I.ResupplyOfferPdu) (hs := fun x y => LogisticsFamilyPdu.fields y ++ (ResupplyOfferPdu.own x))
      (fun _ => LogisticsFamilyPdu.parses (n + 0) _ _) rfl (Or.inl rfl) ResupplyOfferPdu.found rfl (fun _ => rfl) (fun _ _ => rfl) (fun _ _ _ => trivial) <|
    par_call (Q' := fun _ => True) (EntityIdentifier.parses (n + 1)) rfl (plain rfl) (fun _ => rfl) (fun _ _ => rfl) (fun _ _ _ => trivial) <|
    par_call (Q' := fun _ => True) (EntityIdentifier.parses (n + 1)) rfl (plain rfl) (fun _ => rfl) (fun _ _ => rfl) (fun _ _ _ => trivial) <|
    par_local rfl rfl var_numberOfSupplyTypes rfl fun _ =>
    par_read (fun _ _ => True) rfl rfl (plain rfl) (fun _ _ => rfl) (fun _ _ _ => trivial) fun _ =>
    par_read (fun _ _ => True) rfl rfl (plain rfl) (fun _ _ => rfl) (fun _ _ _ => trivial) fun _ =>
    par_objs (fun _ _ => gives_range0 (gives_name rfl)) (by simp) (SupplyQuantity.builds (n + 1)) rfl
      (plain rfl) (fun _ => rfl) (fun _ _ => rfl) var_idx rfl rfl var_element rfl rfl <|
    par_nil

theorem ResupplyOfferPdu.builds (n : Nat) : Builds (run (n + 4)) I.ResupplyOfferPdu ResupplyOfferPdu.fields Dis.ResupplyOfferPdu.init Dis.ResupplyOfferPdu.parseInto :=
  builds_of (ResupplyOfferPdu.makes (n + 0)) (ResupplyOfferPdu.parses (n + 0))

theorem AttributePdu.found : look I.AttributePdu program = some AttributePdu := rfl

theorem AttributePdu.serializes (n : Nat) (x : Dis.AttributePdu) :
    Serializes (run (n + 4)) I.AttributePdu (AttributePdu.enc x) x.serialize :=
  serializes_of (n := n + 3) (d := I.AttributePdu) (f := AttributePdu.serialize) rfl rfl <|
    ser_cons (ser_super (c := I.AttributePdu) rfl (Or.inl rfl) AttributePdu.found rfl rfl (EntityInformationFamilyPdu.serializes (n + 0) _ _ _)) <|
    ser_cons (ser_call rfl (plain rfl) rfl rfl rfl (SimulationAddress.serializes (n + 2) _)) <|
    ser_cons (ser_write (gives_attr (gives_name rfl) (plain rfl) rfl) rfl rfl rfl) <|
    ser_cons (ser_write (gives_attr (gives_name rfl) (plain rfl) rfl) rfl rfl rfl) <|
    ser_cons (ser_write (gives_attr (gives_name rfl) (plain rfl) rfl) rfl rfl rfl) <|
    ser_cons (ser_write (gives_attr (gives_name rfl) (plain rfl) rfl) rfl rfl rfl) <|
    ser_cons (ser_write (gives_attr (gives_name rfl) (plain rfl) rfl) rfl rfl rfl) <|
    ser_cons (ser_write (gives_attr (gives_name rfl) (plain rfl) rfl) rfl rfl rfl) <|
    ser_cons (ser_write (gives_attr (gives_name rfl) (plain rfl) rfl) rfl rfl rfl) <|
    ser_last <| ser_write (gives_attr (gives_name rfl) (plain rfl) rfl) rfl rfl rfl

theorem AttributePdu.parses (n : Nat) :
    Parses (run (n + 4)) I.AttributePdu I.AttributePdu AttributePdu.fields Dis.AttributePdu.parseInto :=
  parses_of (n := n + 3) (d := I.AttributePdu) (f := AttributePdu.parse) rfl rfl <|
    par_super (Q' := fun _ => True) (c := I.AttributePdu) (hs := fun x y => EntityInformationFamilyPdu.fields y ++ (AttributePdu.own x))
      (fun _ => EntityInformationFamilyPdu.parses (n + 0) _ _) rfl (Or.inl rfl) AttributePdu.found rfl (fun _ => rfl) (fun _ _ => rfl) (fun _ _ _ => trivial) <|
    par_call (Q' := fun _ => True) (SimulationAddress.parses (n + 2)) rfl (plain rfl) (fun _ => rfl) (fun _ _ => rfl) (fun _ _ _ => trivial) <|
    par_read (fun _ _ => True) rfl rfl (plain rfl) (fun _ _ => rfl) (fun _ _ _ => trivial) fun _ =>
    par_read (fun _ _ => True) rfl rfl (plain rfl) (fun _ _ => rfl) (fun _ _ _ => trivial) fun _ =>
    par_read (fun _ _ => True) rfl rfl (plain rfl) (fun _ _ => rfl) (fun _ _ _ => trivial) fun _ =>
    par_read (fun _ _ => True) rfl rfl (plain rfl) (fun _ _ => rfl) (fun _ _ _ => trivial) fun _ =>
    par_read (fun _ _ => True) rfl rfl (plain rfl) (fun _ _ => rfl) (fun _ _ _ => trivial) fun _ =>
    par_read (fun _ _ => True) rfl rfl (plain rfl) (fun _ _ => rfl) (fun _ _ _ => trivial) fun _ =>
    par_read (fun _ _ => True) rfl rfl (plain rfl) (fun _ _ => rfl) (fun _ _ _ => trivial) fun _ =>
    par_read (fun _ _ => True) rfl rfl (plain rfl) (fun _ _ => rfl) (fun _ _ _ => trivial) fun _ =>
    par_nil

theorem MinefieldFamilyPdu.found : look I.MinefieldFamilyPdu program = some MinefieldFamilyPdu := rfl

theorem MinefieldFamilyPdu.serializes (n : Nat) (k : Ident) (rest : List (Ident × Val)) (x : Dis.MinefieldFamilyPdu) :
    Serializes (run (n + 3)) I.MinefieldFamilyPdu (.obj k (MinefieldFamilyPdu.fields x ++ rest)) x.serialize :=
  serializes_of (n := n + 2) (d := I.MinefieldFamilyPdu) (f := MinefieldFamilyPdu.serialize) rfl rfl <|
    ser_last <| ser_super (c := I.MinefieldFamilyPdu) rfl (Or.inl rfl) MinefieldFamilyPdu.found rfl rfl (Pdu.serializes (n + 0) _ _ _)

theorem MinefieldFamilyPdu.parses (n : Nat) (k : Ident) (rest : List (Ident × Val)) :
    Parses (run (n + 3)) I.MinefieldFamilyPdu k (fun x => MinefieldFamilyPdu.fields x ++ rest) Dis.MinefieldFamilyPdu.parseInto :=
  parses_of (n := n + 2) (d := I.MinefieldFamilyPdu) (f := MinefieldFamilyPdu.parse) rfl rfl <|
    par_super (Q' := fun _ => True) (c := I.MinefieldFamilyPdu) (hs := fun x y => Pdu.fields y ++ (MinefieldFamilyPdu.own x ++ rest))
      (fun _ => Pdu.parses (n + 0) _ _) rfl (Or.inl rfl) MinefieldFamilyPdu.found rfl (fun _ => rfl) (fun _ _ => rfl) (fun _ _ _ => trivial) <|
    par_nil

theorem PointObjectStatePdu.found : look I.PointObjectStatePdu program = some PointObjectStatePdu := rfl

theorem PointObjectStatePdu.over : Over PointObjectStatePdu.Raw.out PointObjectStatePdu.parseRaw Dis.PointObjectStatePdu.parseInto :=
  over_bind (over_same (fun _ => rfl) (fun _ _ => rfl)) fun _ =>
  over_bind (over_same (fun _ => rfl) (fun _ _ => rfl)) fun _ =>
  over_bind (over_same (fun _ => rfl) (fun _ _ => rfl)) fun _ =>
  over_bind over_read fun _ =>
  over_bind (over_set fun _ => rfl) fun _ =>
  over_bind over_read fun _ =>
  over_bind (over_set fun _ => rfl) fun _ =>
  over_bind over_read fun _ =>
  over_bind (over_set fun _ => rfl) fun _ =>
  over_bind (over_same (fun _ => rfl) (fun _ _ => rfl)) fun _ =>
  over_bind (over_same (fun _ => rfl) (fun _ _ => rfl)) fun _ =>
  over_bind (over_same (fun _ => rfl) (fun _ _ => rfl)) fun _ =>
  over_bind over_read fun _ =>
  over_bind (over_set fun _ => rfl) fun _ =>
  over_bind (over_same (fun _ => rfl) (fun _ _ => rfl)) fun _ =>
  over_bind (over_same (fun _ => rfl) (fun _ _ => rfl)) fun _ =>
  over_bind over_read fun _ =>
  over_bind (over_set fun _ => rfl) fun _ =>
  over_pure

theorem PointObjectStatePdu.ends : Ends (fun _ => True) PointObjectStatePdu.parseRaw (fun (r : PointObjectStatePdu.Raw) => r.objectAppearance = .float r.obj.objectAppearance ∧ True) :=
  ends_bind (ends_call fun _ _ h => h) fun _ =>
  ends_bind (ends_call fun _ _ h => h) fun _ =>
  ends_bind (ends_call fun _ _ h => h) fun _ =>
  ends_bind ends_read fun _ =>
  ends_bind (ends_keep fun _ h => h) fun _ =>
  ends_bind ends_read fun _ =>
  ends_bind (ends_keep fun _ h => h) fun _ =>
  ends_bind ends_read fun _ =>
  ends_bind (ends_keep fun _ h => h) fun _ =>
  ends_bind (ends_call fun _ _ h => h) fun _ =>
  ends_bind (ends_call fun _ _ h => h) fun _ =>
  ends_bind (ends_call fun _ _ h => h) fun _ =>
  ends_bind ends_read fun _ =>
  ends_bind (ends_set (fun (r : PointObjectStatePdu.Raw) => r.objectAppearance = .float r.obj.objectAppearance ∧ True) fun _ h => ⟨rfl, h⟩) fun _ =>
  ends_bind (ends_call fun _ _ h => h) fun _ =>
  ends_bind (ends_call fun _ _ h => h) fun _ =>
  ends_bind ends_read fun _ =>
  ends_bind (ends_keep fun _ h => h) fun _ =>
  ends_pure

theorem PointObjectStatePdu.done (r : PointObjectStatePdu.Raw) (h : (fun (r : PointObjectStatePdu.Raw) => r.objectAppearance = .float r.obj.objectAppearance ∧ True) r) : PointObjectStatePdu.rawFields r = PointObjectStatePdu.fields r.out := by
  obtain ⟨h0, -⟩ := h
  simp only [PointObjectStatePdu.rawFields, PointObjectStatePdu.fields, PointObjectStatePdu.rawOwn, PointObjectStatePdu.own, h0]

theorem PointObjectStatePdu.serializes (n : Nat) (x : Dis.PointObjectStatePdu) :
    Serializes (run (n + 4)) I.PointObjectStatePdu (PointObjectStatePdu.enc x) x.serialize :=
  serializes_of (n := n + 3) (d := I.PointObjectStatePdu) (f := PointObjectStatePdu.serialize) rfl rfl <|
    ser_cons (ser_super (c := I.PointObjectStatePdu) rfl (Or.inl rfl) PointObjectStatePdu.found rfl rfl (SyntheticEnvironmentFamilyPdu.serializes (n + 0) _ _ _)) <|
    ser_cons (ser_call rfl (plain rfl) rfl rfl rfl (EntityIdentifier.serializes (n + 1) _)) <|
    ser_cons (ser_call rfl (plain rfl) rfl rfl rfl (EntityIdentifier.serializes (n + 1) _)) <|
    ser_cons (ser_write (gives_attr (gives_name rfl) (plain rfl) rfl) rfl rfl rfl) <|
    ser_cons (ser_write (gives_attr (gives_name rfl) (plain rfl) rfl) rfl rfl rfl) <|
    ser_cons (ser_write (gives_attr (gives_name rfl) (plain rfl) rfl) rfl rfl rfl) <|
    ser_cons (ser_call rfl (plain rfl) rfl rfl rfl (ObjectType.serializes (n + 2) _)) <|
    ser_cons (ser_call rfl (plain rfl) rfl rfl rfl (WorldCoordinates.serializes (n + 2) _)) <|
    ser_cons (ser_call rfl (plain rfl) rfl rfl rfl (EulerAngles.serializes (n + 2) _)) <|
    ser_cons (ser_write (gives_attr (gives_name rfl) (plain rfl) rfl) rfl rfl rfl) <|
    ser_cons (ser_call rfl (plain rfl) rfl rfl rfl (SimulationAddress.serializes (n + 2) _)) <|
    ser_cons (ser_call rfl (plain rfl) rfl rfl rfl (SimulationAddress.serializes (n + 2) _)) <|
    ser_last <| ser_write (gives_attr (gives_name rfl) (plain rfl) rfl) rfl rfl rfl

theorem PointObjectStatePdu.makesRaw (n : Nat) : Makes (run (n + 4)) I.PointObjectStatePdu (.obj I.PointObjectStatePdu (PointObjectStatePdu.rawFields PointObjectStatePdu.made)) :=
  makes_of (p := (I.PointObjectStatePdu, PointObjectStatePdu.__init__)) (by decide +kernel) rfl rfl rfl (by kernel_rfl) fun _ => by kernel_rfl

theorem PointObjectStatePdu.parses (n : Nat) :
    Parses (run (n + 4)) I.PointObjectStatePdu I.PointObjectStatePdu PointObjectStatePdu.fields Dis.PointObjectStatePdu.parseInto :=
  parses_of (n := n + 3) (d := I.PointObjectStatePdu) (f := PointObjectStatePdu.parse) rfl rfl <|
    par_super (Q' := fun _ => True) (c := I.PointObjectStatePdu) (hs := fun x y => SyntheticEnvironmentFamilyPdu.fields y ++ (PointObjectStatePdu.own x))
      (fun _ => SyntheticEnvironmentFamilyPdu.parses (n + 0) _ _) rfl (Or.inl rfl) PointObjectStatePdu.found rfl (fun _ => rfl) (fun _ _ => rfl) (fun _ _ _ => trivial) <|
    par_call (Q' := fun _ => True) (EntityIdentifier.parses (n + 1)) rfl (plain rfl) (fun _ => rfl) (fun _ _ => rfl) (fun _ _ _ => trivial) <|
    par_call (Q' := fun _ => True) (EntityIdentifier.parses (n + 1)) rfl (plain rfl) (fun _ => rfl) (fun _ _ => rfl) (fun _ _ _ => trivial) <|
    par_read (fun _ _ => True) rfl rfl (plain rfl) (fun _ _ => rfl) (fun _ _ _ => trivial) fun _ =>
    par_read (fun _ _ => True) rfl rfl (plain rfl) (fun _ _ => rfl) (fun _ _ _ => trivial) fun _ =>
    par_read (fun _ _ => True) rfl rfl (plain rfl) (fun _ _ => rfl) (fun _ _ _ => trivial) fun _ =>
    par_call (Q' := fun _ => True) (ObjectType.parses (n + 2)) rfl (plain rfl) (fun _ => rfl) (fun _ _ => rfl) (fun _ _ _ => trivial) <|
    par_call (Q' := fun _ => True) (WorldCoordinates.parses (n + 2)) rfl (plain rfl) (fun _ => rfl) (fun _ _ => rfl) (fun _ _ _ => trivial) <|
    par_call (Q' := fun _ => True) (EulerAngles.parses (n + 2)) rfl (plain rfl) (fun _ => rfl) (fun _ _ => rfl) (fun _ _ _ => trivial) <|
    par_read (fun _ _ => True) rfl rfl (plain rfl) (fun _ _ => rfl) (fun _ _ _ => trivial) fun _ =>
    par_call (Q' := fun _ => True) (SimulationAddress.parses (n + 2)) rfl (plain rfl) (fun _ => rfl) (fun _ _ => rfl) (fun _ _ _ => trivial) <|
    par_call (Q' := fun _ => True) (SimulationAddress.parses (n + 2)) rfl (plain rfl) (fun _ => rfl) (fun _ _ => rfl) (fun _ _ _ => trivial) <|
    par_read (fun _ _ => True) rfl rfl (plain rfl) (fun _ _ => rfl) (fun _ _ _ => trivial) fun _ =>
    par_nil

theorem PointObjectStatePdu.parsesRaw (n : Nat) :
    Parses (run (n + 4)) I.PointObjectStatePdu I.PointObjectStatePdu PointObjectStatePdu.rawFields PointObjectStatePdu.parseRaw :=
  parses_of (n := n + 3) (d := I.PointObjectStatePdu) (f := PointObjectStatePdu.parse) rfl rfl <|
    par_super (Q' := fun _ => True) (c := I.PointObjectStatePdu) (hs := fun x y => SyntheticEnvironmentFamilyPdu.fields y ++ (PointObjectStatePdu.rawOwn x))
      (fun _ => SyntheticEnvironmentFamilyPdu.parses (n + 0) _ _) rfl (Or.inl rfl) PointObjectStatePdu.found rfl (fun _ => rfl) (fun _ _ => rfl) (fun _ _ _ => trivial) <|
    par_call (Q' := fun _ => True) (EntityIdentifier.parses (n + 1)) rfl (plain rfl) (fun _ => rfl) (fun _ _ => rfl) (fun _ _ _ => trivial) <|
    par_call (Q' := fun _ => True) (EntityIdentifier.parses (n + 1)) rfl (plain rfl) (fun _ => rfl) (fun _ _ => rfl) (fun _ _ _ => trivial) <|
    par_read (fun _ _ => True) rfl rfl (plain rfl) (fun _ _ => rfl) (fun _ _ _ => trivial) fun _ =>
    par_read (fun _ _ => True) rfl rfl (plain rfl) (fun _ _ => rfl) (fun _ _ _ => trivial) fun _ =>
    par_read (fun _ _ => True) rfl rfl (plain rfl) (fun _ _ => rfl) (fun _ _ _ => trivial) fun _ =>
    par_call (Q' := fun _ => True) (ObjectType.parses (n + 2)) rfl (plain rfl) (fun _ => rfl) (fun _ _ => rfl) (fun _ _ _ => trivial) <|
    par_call (Q' := fun _ => True) (WorldCoordinates.parses (n + 2)) rfl (plain rfl) (fun _ => rfl) (fun _ _ => rfl) (fun _ _ _ => trivial) <|
    par_call (Q' := fun _ => True) (EulerAngles.parses (n + 2)) rfl (plain rfl) (fun _ => rfl) (fun _ _ => rfl) (fun _ _ _ => trivial) <|
    par_read (fun _ _ => True) rfl rfl (plain rfl) (fun _ _ => rfl) (fun _ _ _ => trivial) fun _ =>
    par_call (Q' := fun _ => True) (SimulationAddress.parses (n + 2)) rfl (plain rfl) (fun _ => rfl) (fun _ _ => rfl) (fun _ _ _ => trivial) <|
    par_call (Q' := fun _ => True) (SimulationAddress.parses (n + 2)) rfl (plain rfl) (fun _ => rfl) (fun _ _ => rfl) (fun _ _ _ => trivial) <|
    par_read (fun _ _ => True) rfl rfl (plain rfl) (fun _ _ => rfl) (fun _ _ _ => trivial) fun _ =>
    par_nil

theorem PointObjectStatePdu.builds (n : Nat) : Builds (run (n + 4)) I.PointObjectStatePdu PointObjectStatePdu.fields Dis.PointObjectStatePdu.init Dis.PointObjectStatePdu.parseInto :=
  builds_over (π := PointObjectStatePdu.Raw.out) (PointObjectStatePdu.makesRaw (n + 0)) (PointObjectStatePdu.parsesRaw (n + 0)) PointObjectStatePdu.over PointObjectStatePdu.ends rfl
    fun r h => PointObjectStatePdu.done r h

theorem FastEntityStatePdu.found : look I.FastEntityStatePdu program = some FastEntityStatePdu := rfl

theorem FastEntityStatePdu.over : Over FastEntityStatePdu.Raw.out FastEntityStatePdu.parseRaw Dis.FastEntityStatePdu.parseInto :=
  over_bind (over_same (fun _ => rfl) (fun _ _ => rfl)) fun _ =>
  over_bind over_read fun _ =>
  over_bind (over_set fun _ => rfl) fun _ =>
  over_bind over_read fun _ =>
  over_bind (over_set fun _ => rfl) fun _ =>
  over_bind over_read fun _ =>
  over_bind (over_set fun _ => rfl) fun _ =>
  over_bind over_read fun _ =>
  over_bind (over_set fun _ => rfl) fun _ =>
  over_bind over_read fun _ =>
  over_bind (over_set fun _ => rfl) fun _ =>
  over_bind over_read fun _ =>
  over_bind (over_set fun _ => rfl) fun _ =>
  over_bind over_read fun _ =>
  over_bind (over_set fun _ => rfl) fun _ =>
  over_bind over_read fun _ =>
  over_bind (over_set fun _ => rfl) fun _ =>
  over_bind over_read fun _ =>
  over_bind (over_set fun _ => rfl) fun _ =>
  over_bind over_read fun _ =>
  over_bind (over_set fun _ => rfl) fun _ =>
  over_bind over_read fun _ =>
  over_bind (over_set fun _ => rfl) fun _ =>
  over_bind over_read fun _ =>
  over_bind (over_set fun _ => rfl) fun _ =>
  over_bind over_read fun _ =>
  over_bind (over_set fun _ => rfl) fun _ =>
  over_bind over_read fun _ =>
  over_bind (over_set fun _ => rfl) fun _ =>
  over_bind over_read fun _ =>
  over_bind (over_set fun _ => rfl) fun _ =>
  over_bind over_read fun _ =>
  over_bind (over_set fun _ => rfl) fun _ =>
  over_bind over_read fun _ =>
  over_bind (over_set fun _ => rfl) fun _ =>
  over_bind over_read fun _ =>
  over_bind (over_set fun _ => rfl) fun _ =>
  over_bind over_read fun _ =>
  over_bind (over_set fun _ => rfl) fun _ =>
  over_bind over_read fun _ =>
  over_bind (over_set fun _ => rfl) fun _ =>
  over_bind over_read fun _ =>
  over_bind (over_set fun _ => rfl) fun _ =>
  over_bind over_read fun _ =>
  over_bind (over_set fun _ => rfl) fun _ =>
  over_bind over_read fun _ =>
  over_bind (over_set fun _ => rfl) fun _ =>
  over_bind over_read fun _ =>
  over_bind (over_set fun _ => rfl) fun _ =>
  over_bind over_read fun _ =>
  over_bind (over_set fun _ => rfl) fun _ =>
  over_bind over_read fun _ =>
  over_bind (over_set fun _ => rfl) fun _ =>
  over_bind over_read fun _ =>
  over_bind (over_set fun _ => rfl) fun _ =>
  over_bind over_read fun _ =>
  over_bind (over_set fun _ => rfl) fun _ =>
  over_bind over_read fun _ =>
  over_bind (over_set fun _ => rfl) fun _ =>
  over_bind over_read fun _ =>
  over_bind (over_set fun _ => rfl) fun _ =>
  over_bind (over_fill (fun _ => rfl) (fun _ _ => rfl)) fun _ =>
  over_bind over_read fun _ =>
  over_bind (over_set fun _ => rfl) fun _ =>
  over_bind over_read fun _ =>
  over_bind (over_set fun _ => rfl) fun _ =>
  over_bind over_read fun _ =>
  over_bind (over_set fun _ => rfl) fun _ =>
  over_bind over_read fun _ =>
  over_bind (over_set fun _ => rfl) fun _ =>
  over_bind over_read fun _ =>
  over_bind (over_set fun _ => rfl) fun _ =>
  over_bind over_read fun _ =>
  over_bind (over_set fun _ => rfl) fun _ =>
  over_bind (over_fill (fun _ => rfl) (fun _ _ => rfl)) fun _ =>
  over_bind over_read fun _ =>
  over_bind (over_set fun _ => rfl) fun _ =>
  over_bind (over_objs (π := FastEntityStatePdu.Raw.out) (fun _ => rfl) (fun _ _ => rfl) _) fun _ =>
  over_pure

theorem FastEntityStatePdu.ends : Ends (fun _ => True) FastEntityStatePdu.parseRaw (fun (r : FastEntityStatePdu.Raw) => r.zAngularVelocity = .float r.obj.zAngularVelocity ∧ r.yAngularVelocity = .float r.obj.yAngularVelocity ∧ r.xAngularVelocity = .float r.obj.xAngularVelocity ∧ r.zAcceleration = .float r.obj.zAcceleration ∧ r.yAcceleration = .float r.obj.yAcceleration ∧ r.xAcceleration = .float r.obj.xAcceleration ∧ r.phi = .float r.obj.phi ∧ r.theta = .float r.obj.theta ∧ r.psi = .float r.obj.psi ∧ r.zLocation = .float r.obj.zLocation ∧ r.yLocation = .float r.obj.yLocation ∧ r.xLocation = .float r.obj.xLocation ∧ r.zVelocity = .float r.obj.zVelocity ∧ r.yVelocity = .float r.obj.yVelocity ∧ r.xVelocity = .float r.obj.xVelocity ∧ True) :=
  ends_bind (ends_call fun _ _ h => h) fun _ =>
  ends_bind ends_read fun _ =>
  ends_bind (ends_keep fun _ h => h) fun _ =>
  ends_bind ends_read fun _ =>
  ends_bind (ends_keep fun _ h => h) fun _ =>
  ends_bind ends_read fun _ =>
  ends_bind (ends_keep fun _ h => h) fun _ =>
  ends_bind ends_read fun _ =>
  ends_bind (ends_keep fun _ h => h) fun _ =>
  ends_bind ends_read fun _ =>
  ends_bind (ends_keep fun _ h => h) fun _ =>
  ends_bind ends_read fun _ =>
  ends_bind (ends_keep fun _ h => h) fun _ =>
  ends_bind ends_read fun _ =>
  ends_bind (ends_keep fun _ h => h) fun _ =>
  ends_bind ends_read fun _ =>
  ends_bind (ends_keep fun _ h => h) fun _ =>
  ends_bind ends_read fun _ =>
  ends_bind (ends_keep fun _ h => h) fun _ =>
  ends_bind ends_read fun _ =>
  ends_bind (ends_keep fun _ h => h) fun _ =>
  ends_bind ends_read fun _ =>
  ends_bind (ends_keep fun _ h => h) fun _ =>
  ends_bind ends_read fun _ =>
  ends_bind (ends_keep fun _ h => h) fun _ =>
  ends_bind ends_read fun _ =>
  ends_bind (ends_keep fun _ h => h) fun _ =>
  ends_bind ends_read fun _ =>
  ends_bind (ends_keep fun _ h => h) fun _ =>
  ends_bind ends_read fun _ =>
  ends_bind (ends_keep fun _ h => h) fun _ =>
  ends_bind ends_read fun _ =>
  ends_bind (ends_keep fun _ h => h) fun _ =>
  ends_bind ends_read fun _ =>
  ends_bind (ends_keep fun _ h => h) fun _ =>
  ends_bind ends_read fun _ =>
  ends_bind (ends_keep fun _ h => h) fun _ =>
  ends_bind ends_read fun _ =>
  ends_bind (ends_keep fun _ h => h) fun _ =>
  ends_bind ends_read fun _ =>
  ends_bind (ends_set (fun (r : FastEntityStatePdu.Raw) => r.xVelocity = .float r.obj.xVelocity ∧ True) fun _ h => ⟨rfl, h⟩) fun _ =>
  ends_bind ends_read fun _ =>
  ends_bind (ends_set (fun (r : FastEntityStatePdu.Raw) => r.yVelocity = .float r.obj.yVelocity ∧ r.xVelocity = .float r.obj.xVelocity ∧ True) fun _ h => ⟨rfl, h⟩) fun _ =>
  ends_bind ends_read fun _ =>
  ends_bind (ends_set (fun (r : FastEntityStatePdu.Raw) => r.zVelocity = .float r.obj.zVelocity ∧ r.yVelocity = .float r.obj.yVelocity ∧ r.xVelocity = .float r.obj.xVelocity ∧ True) fun _ h => ⟨rfl, h⟩) fun _ =>
  ends_bind ends_read fun _ =>
  ends_bind (ends_set (fun (r : FastEntityStatePdu.Raw) => r.xLocation = .float r.obj.xLocation ∧ r.zVelocity = .float r.obj.zVelocity ∧ r.yVelocity = .float r.obj.yVelocity ∧ r.xVelocity = .float r.obj.xVelocity ∧ True) fun _ h => ⟨rfl, h⟩) fun _ =>
  ends_bind ends_read fun _ =>
  ends_bind (ends_set (fun (r : FastEntityStatePdu.Raw) => r.yLocation = .float r.obj.yLocation ∧ r.xLocation = .float r.obj.xLocation ∧ r.zVelocity = .float r.obj.zVelocity ∧ r.yVelocity = .float r.obj.yVelocity ∧ r.xVelocity = .float r.obj.xVelocity ∧ True) fun _ h => ⟨rfl, h⟩) fun _ =>
  ends_bind ends_read fun _ =>
  ends_bind (ends_set (fun (r : FastEntityStatePdu.Raw) => r.zLocation = .float r.obj.zLocation ∧ r.yLocation = .float r.obj.yLocation ∧ r.xLocation = .float r.obj.xLocation ∧ r.zVelocity = .float r.obj.zVelocity ∧ r.yVelocity = .float r.obj.yVelocity ∧ r.xVelocity = .float r.obj.xVelocity ∧ True) fun _ h => ⟨rfl, h⟩) fun _ =>
  ends_bind ends_read fun _ =>
  ends_bind (ends_set (fun (r : FastEntityStatePdu.Raw) => r.psi = .float r.obj.psi ∧ r.zLocation = .float r.obj.zLocation ∧ r.yLocation = .float r.obj.yLocation ∧ r.xLocation = .float r.obj.xLocation ∧ r.zVelocity = .float r.obj.zVelocity ∧ r.yVelocity = .float r.obj.yVelocity ∧ r.xVelocity = .float r.obj.xVelocity ∧ True) fun _ h => ⟨rfl, h⟩) fun _ =>
  ends_bind ends_read fun _ =>
  ends_bind (ends_set (fun (r : FastEntityStatePdu.Raw) => r.theta = .float r.obj.theta ∧ r.psi = .float r.obj.psi ∧ r.zLocation = .float r.obj.zLocation ∧ r.yLocation = .float r.obj.yLocation ∧ r.xLocation = .float r.obj.xLocation ∧ r.zVelocity = .float r.obj.zVelocity ∧ r.yVelocity = .float r.obj.yVelocity ∧ r.xVelocity = .float r.obj.xVelocity ∧ True) fun _ h => ⟨rfl, h⟩) fun _ =>
  ends_bind ends_read fun _ =>
  ends_bind (ends_set (fun (r : FastEntityStatePdu.Raw) => r.phi = .float r.obj.phi ∧ r.theta = .float r.obj.theta ∧ r.psi = .float r.obj.psi ∧ r.zLocation = .float r.obj.zLocation ∧ r.yLocation = .float r.obj.yLocation ∧ r.xLocation = .float r.obj.xLocation ∧ r.zVelocity = .float r.obj.zVelocity ∧ r.yVelocity = .float r.obj.yVelocity ∧ r.xVelocity = .float r.obj.xVelocity ∧ True) fun _ h => ⟨rfl, h⟩) fun _ =>
  ends_bind ends_read fun _ =>
  ends_bind (ends_keep fun _ h => h) fun _ =>
  ends_bind ends_read fun _ =>
  ends_bind (ends_keep fun _ h => h) fun _ =>
  ends_bind (ends_fill fun _ _ h => h) fun _ =>
  ends_bind ends_read fun _ =>
  ends_bind (ends_set (fun (r : FastEntityStatePdu.Raw) => r.xAcceleration = .float r.obj.xAcceleration ∧ r.phi = .float r.obj.phi ∧ r.theta = .float r.obj.theta ∧ r.psi = .float r.obj.psi ∧ r.zLocation = .float r.obj.zLocation ∧ r.yLocation = .float r.obj.yLocation ∧ r.xLocation = .float r.obj.xLocation ∧ r.zVelocity = .float r.obj.zVelocity ∧ r.yVelocity = .float r.obj.yVelocity ∧ r.xVelocity = .float r.obj.xVelocity ∧ True) fun _ h => ⟨rfl, h⟩) fun _ =>
  ends_bind ends_read fun _ =>
  ends_bind (ends_set (fun (r : FastEntityStatePdu.Raw) => r.yAcceleration = .float r.obj.yAcceleration ∧ r.xAcceleration = .float r.obj.xAcceleration ∧ r.phi = .float r.obj.phi ∧ r.theta = .float r.obj.theta ∧ r.psi = .float r.obj.psi ∧ r.zLocation = .float r.obj.zLocation ∧ r.yLocation = .float r.obj.yLocation ∧ r.xLocation = .float r.obj.xLocation ∧ r.zVelocity = .float r.obj.zVelocity ∧ r.yVelocity = .float r.obj.yVelocity ∧ r.xVelocity = .float r.obj.xVelocity ∧ True) fun _ h => ⟨rfl, h⟩) fun _ =>
  ends_bind ends_read fun _ =>
  ends_bind (ends_set (fun (r : FastEntityStatePdu.Raw) => r.zAcceleration = .float r.obj.zAcceleration ∧ r.yAcceleration = .float r.obj.yAcceleration ∧ r.xAcceleration = .float r.obj.xAcceleration ∧ r.phi = .float r.obj.phi ∧ r.theta = .float r.obj.theta ∧ r.psi = .float r.obj.psi ∧ r.zLocation = .float r.obj.zLocation ∧ r.yLocation = .float r.obj.yLocation ∧ r.xLocation = .float r.obj.xLocation ∧ r.zVelocity = .float r.obj.zVelocity ∧ r.yVelocity = .float r.obj.yVelocity ∧ r.xVelocity = .float r.obj.xVelocity ∧ True) fun _ h => ⟨rfl, h⟩) fun _ =>
  ends_bind ends_read fun _ =>
  ends_bind (ends_set (fun (r : FastEntityStatePdu.Raw) => r.xAngularVelocity = .float r.obj.xAngularVelocity ∧ r.zAcceleration = .float r.obj.zAcceleration ∧ r.yAcceleration = .float r.obj.yAcceleration ∧ r.xAcceleration = .float r.obj.xAcceleration ∧ r.phi = .float r.obj.phi ∧ r.theta = .float r.obj.theta ∧ r.psi = .float r.obj.psi ∧ r.zLocation = .float r.obj.zLocation ∧ r.yLocation = .float r.obj.yLocation ∧ r.xLocation = .float r.obj.xLocation ∧ r.zVelocity = .float r.obj.zVelocity ∧ r.yVelocity = .float r.obj.yVelocity ∧ r.xVelocity = .float r.obj.xVelocity ∧ True) fun _ h => ⟨rfl, h⟩) fun _ =>
  ends_bind ends_read fun _ =>
  ends_bind (ends_set (fun (r : FastEntityStatePdu.Raw) => r.yAngularVelocity = .float r.obj.yAngularVelocity ∧ r.xAngularVelocity = .float r.obj.xAngularVelocity ∧ r.zAcceleration = .float r.obj.zAcceleration ∧ r.yAcceleration = .float r.obj.yAcceleration ∧ r.xAcceleration = .float r.obj.xAcceleration ∧ r.phi = .float r.obj.phi ∧ r.theta = .float r.obj.theta ∧ r.psi = .float r.obj.psi ∧ r.zLocation = .float r.obj.zLocation ∧ r.yLocation = .float r.obj.yLocation ∧ r.xLocation = .float r.obj.xLocation ∧ r.zVelocity = .float r.obj.zVelocity ∧ r.yVelocity = .float r.obj.yVelocity ∧ r.xVelocity = .float r.obj.xVelocity ∧ True) fun _ h => ⟨rfl, h⟩) fun _ =>
  ends_bind ends_read fun _ =>
  ends_bind (ends_set (fun (r : FastEntityStatePdu.Raw) => r.zAngularVelocity = .float r.obj.zAngularVelocity ∧ r.yAngularVelocity = .float r.obj.yAngularVelocity ∧ r.xAngularVelocity = .float r.obj.xAngularVelocity ∧ r.zAcceleration = .float r.obj.zAcceleration ∧ r.yAcceleration = .float r.obj.yAcceleration ∧ r.xAcceleration = .float r.obj.xAcceleration ∧ r.phi = .float r.obj.phi ∧ r.theta = .float r.obj.theta ∧ r.psi = .float r.obj.psi ∧ r.zLocation = .float r.obj.zLocation ∧ r.yLocation = .float r.obj.yLocation ∧ r.xLocation = .float r.obj.xLocation ∧ r.zVelocity = .float r.obj.zVelocity ∧ r.yVelocity = .float r.obj.yVelocity ∧ r.xVelocity = .float r.obj.xVelocity ∧ True) fun _ h => ⟨rfl, h⟩) fun _ =>
  ends_bind (ends_fill fun _ _ h => h) fun _ =>
  ends_bind ends_read fun _ =>
  ends_bind (ends_keep fun _ h => h) fun _ =>
  ends_bind (ends_objs (fun _ _ h => h) _) fun _ =>
  ends_pure

theorem FastEntityStatePdu.done (r : FastEntityStatePdu.Raw) (h : (fun (r : FastEntityStatePdu.Raw) => r.zAngularVelocity = .float r.obj.zAngularVelocity ∧ r.yAngularVelocity = .float r.obj.yAngularVelocity ∧ r.xAngularVelocity = .float r.obj.xAngularVelocity ∧ r.zAcceleration = .float r.obj.zAcceleration ∧ r.yAcceleration = .float r.obj.yAcceleration ∧ r.xAcceleration = .float r.obj.xAcceleration ∧ r.phi = .float r.obj.phi ∧ r.theta = .float r.obj.theta ∧ r.psi = .float r.obj.psi ∧ r.zLocation = .float r.obj.zLocation ∧ r.yLocation = .float r.obj.yLocation ∧ r.xLocation = .float r.obj.xLocation ∧ r.zVelocity = .float r.obj.zVelocity ∧ r.yVelocity = .float r.obj.yVelocity ∧ r.xVelocity = .float r.obj.xVelocity ∧ True) r) : FastEntityStatePdu.rawFields r = FastEntityStatePdu.fields r.out := by
  obtain ⟨h0, h1, h2, h3, h4, h5, h6, h7, h8, h9, h10, h11, h12, h13, h14, -⟩ := h
  simp only [FastEntityStatePdu.rawFields, FastEntityStatePdu.fields, FastEntityStatePdu.rawOwn, FastEntityStatePdu.own, h0, h1, h2, h3, h4, h5, h6, h7, h8, h9, h10, h11, h12, h13, h14]

theorem FastEntityStatePdu.serializes (n : Nat) (x : Dis.FastEntityStatePdu) :
    Serializes (run (n + 4)) I.FastEntityStatePdu (FastEntityStatePdu.enc x) x.serialize :=
  serializes_of (n := n + 3) (d := I.FastEntityStatePdu) (f := FastEntityStatePdu.serialize) rfl rfl <|
    ser_cons (ser_super (c := I.FastEntityStatePdu) rfl (Or.inl rfl) FastEntityStatePdu.found rfl rfl (EntityInformationFamilyPdu.serializes (n + 0) _ _ _)) <|
    ser_cons (ser_write (gives_attr (gives_name rfl) (plain rfl) rfl) rfl rfl rfl) <|
    ser_cons (ser_write (gives_attr (gives_name rfl) (plain rfl) rfl) rfl rfl rfl) <|
    ser_cons (ser_write (gives_attr (gives_name rfl) (plain rfl) rfl) rfl rfl rfl) <|
    ser_cons (ser_write (gives_attr (gives_name rfl) (plain rfl) rfl) rfl rfl rfl) <|
    ser_cons (ser_write (gives_len_map (gives_attr (gives_name rfl) (plain rfl) rfl)) rfl rfl (packInt_int _ _)) <|
    ser_cons (ser_write (gives_attr (gives_name rfl) (plain rfl) rfl) rfl rfl rfl) <|
    ser_cons (ser_write (gives_attr (gives_name rfl) (plain rfl) rfl) rfl rfl rfl) <|
    ser_cons (ser_write (gives_attr (gives_name rfl) (plain rfl) rfl) rfl rfl rfl) <|
    ser_cons (ser_write (gives_attr (gives_name rfl) (plain rfl) rfl) rfl rfl rfl) <|
    ser_cons (ser_write (gives_attr (gives_name rfl) (plain rfl) rfl) rfl rfl rfl) <|
    ser_cons (ser_write (gives_attr (gives_name rfl) (plain rfl) rfl) rfl rfl rfl) <|
    ser_cons (ser_write (gives_attr (gives_name rfl) (plain rfl) rfl) rfl rfl rfl) <|
    ser_cons (ser_write (gives_attr (gives_name rfl) (plain rfl) rfl) rfl rfl rfl) <|
    ser_cons (ser_write (gives_attr (gives_name rfl) (plain rfl) rfl) rfl rfl rfl) <|
    ser_cons (ser_write (gives_attr (gives_name rfl) (plain rfl) rfl) rfl rfl rfl) <|
    ser_cons (ser_write (gives_attr (gives_name rfl) (plain rfl) rfl) rfl rfl rfl) <|
    ser_cons (ser_write (gives_attr (gives_name rfl) (plain rfl) rfl) rfl rfl rfl) <|
    ser_cons (ser_write (gives_attr (gives_name rfl) (plain rfl) rfl) rfl rfl rfl) <|
    ser_cons (ser_write (gives_attr (gives_name rfl) (plain rfl) rfl) rfl rfl rfl) <|
    ser_cons (ser_write (gives_attr (gives_name rfl) (plain rfl) rfl) rfl rfl rfl) <|
    ser_cons (ser_write (gives_attr (gives_name rfl) (plain rfl) rfl) rfl rfl rfl) <|
    ser_cons (ser_write (gives_attr (gives_name rfl) (plain rfl) rfl) rfl rfl rfl) <|
    ser_cons (ser_write (gives_attr (gives_name rfl) (plain rfl) rfl) rfl rfl rfl) <|
    ser_cons (ser_write (gives_attr (gives_name rfl) (plain rfl) rfl) rfl rfl rfl) <|
    ser_cons (ser_write (gives_attr (gives_name rfl) (plain rfl) rfl) rfl rfl rfl) <|
    ser_cons (ser_write (gives_attr (gives_name rfl) (plain rfl) rfl) rfl rfl rfl) <|
    ser_cons (ser_write (gives_attr (gives_name rfl) (plain rfl) rfl) rfl rfl rfl) <|
    ser_cons (ser_write (gives_attr (gives_name rfl) (plain rfl) rfl) rfl rfl rfl) <|
    ser_cons (ser_write (gives_attr (gives_name rfl) (plain rfl) rfl) rfl rfl rfl) <|
    ser_cons (ser_write (gives_attr (gives_name rfl) (plain rfl) rfl) rfl rfl rfl) <|
    ser_cons (ser_range (gives_range0 gives_int) var_idx rfl fun i =>
      ser_last (ser_index (gives_attr (gives_name rfl) (plain rfl) rfl) (gives_name rfl) rfl rfl fun _ => rfl)) <|
    ser_cons (ser_write (gives_attr (gives_name rfl) (plain rfl) rfl) rfl rfl rfl) <|
    ser_cons (ser_write (gives_attr (gives_name rfl) (plain rfl) rfl) rfl rfl rfl) <|
    ser_cons (ser_write (gives_attr (gives_name rfl) (plain rfl) rfl) rfl rfl rfl) <|
    ser_cons (ser_write (gives_attr (gives_name rfl) (plain rfl) rfl) rfl rfl rfl) <|
    ser_cons (ser_write (gives_attr (gives_name rfl) (plain rfl) rfl) rfl rfl rfl) <|
    ser_cons (ser_write (gives_attr (gives_name rfl) (plain rfl) rfl) rfl rfl rfl) <|
    ser_cons (ser_range (gives_range0 gives_int) var_idx rfl fun i =>
      ser_last (ser_index (gives_attr (gives_name rfl) (plain rfl) rfl) (gives_name rfl) rfl rfl fun _ => rfl)) <|
    ser_cons (ser_write (gives_attr (gives_name rfl) (plain rfl) rfl) rfl rfl rfl) <|
    ser_last <| ser_for (gives_attr (gives_name rfl) (plain rfl) rfl) var_anObj rfl fun a _ =>
      ser_last (ser_var rfl rfl (VariableParameter.serializes (n + 2) a))

theorem FastEntityStatePdu.makesRaw (n : Nat) : Makes (run (n + 4)) I.FastEntityStatePdu (.obj I.FastEntityStatePdu (FastEntityStatePdu.rawFields FastEntityStatePdu.made)) :=
  makes_of (p := (I.FastEntityStatePdu, FastEntityStatePdu.__init__)) (by decide +kernel) rfl rfl rfl (by kernel_rfl) fun _ => by kernel_rfl

theorem FastEntityStatePdu.parses (n : Nat) :
    Parses (run (n + 4)) I.FastEntityStatePdu I.FastEntityStatePdu FastEntityStatePdu.fields Dis.FastEntityStatePdu.parseInto :=
  parses_of (n := n + 3) (d := I.FastEntityStatePdu) (f := FastEntityStatePdu.parse) rfl rfl <|
    par_super (Q' := fun _ => True) (c := I.FastEntityStatePdu) (hs := fun x y => EntityInformationFamilyPdu.fields y ++ (FastEntityStatePdu.own x))
      (fun _ => EntityInformationFamilyPdu.parses (n + 0) _ _) rfl (Or.inl rfl) FastEntityStatePdu.found rfl (fun _ => rfl) (fun _ _ => rfl) (fun _ _ _ => trivial) <|
    par_read (fun _ _ => True) rfl rfl (plain rfl) (fun _ _ => rfl) (fun _ _ _ => trivial) fun _ =>
    par_read (fun _ _ => True) rfl rfl (plain rfl) (fun _ _ => rfl) (fun _ _ _ => trivial) fun _ =>
    par_read (fun _ _ => True) rfl rfl (plain rfl) (fun _ _ => rfl) (fun _ _ _ => trivial) fun _ =>
    par_read (fun _ _ => True) rfl rfl (plain rfl) (fun _ _ => rfl) (fun _ _ _ => trivial) fun _ =>
    par_read (fun v (x : Dis.FastEntityStatePdu) => x.numberOfVariableParameters = v) rfl rfl (by decide +kernel : isProperty program I.FastEntityStatePdu I.numberOfVariableParameters = false) (fun _ _ => rfl) (fun _ _ _ => rfl) fun numberOfVariableParameters =>
    par_read (fun _ (x : Dis.FastEntityStatePdu) => x.numberOfVariableParameters = numberOfVariableParameters) rfl rfl (plain rfl) (fun _ _ => rfl) (fun _ _ h => h) fun _ =>
    par_read (fun _ (x : Dis.FastEntityStatePdu) => x.numberOfVariableParameters = numberOfVariableParameters) rfl rfl (plain rfl) (fun _ _ => rfl) (fun _ _ h => h) fun _ =>
    par_read (fun _ (x : Dis.FastEntityStatePdu) => x.numberOfVariableParameters = numberOfVariableParameters) rfl rfl (plain rfl) (fun _ _ => rfl) (fun _ _ h => h) fun _ =>
    par_read (fun _ (x : Dis.FastEntityStatePdu) => x.numberOfVariableParameters = numberOfVariableParameters) rfl rfl (plain rfl) (fun _ _ => rfl) (fun _ _ h => h) fun _ =>
    par_read (fun _ (x : Dis.FastEntityStatePdu) => x.numberOfVariableParameters = numberOfVariableParameters) rfl rfl (plain rfl) (fun _ _ => rfl) (fun _ _ h => h) fun _ =>
    par_read (fun _ (x : Dis.FastEntityStatePdu) => x.numberOfVariableParameters = numberOfVariableParameters) rfl rfl (plain rfl) (fun _ _ => rfl) (fun _ _ h => h) fun _ =>
    par_read (fun _ (x : Dis.FastEntityStatePdu) => x.numberOfVariableParameters = numberOfVariableParameters) rfl rfl (plain rfl) (fun _ _ => rfl) (fun _ _ h => h) fun _ =>
    par_read (fun _ (x : Dis.FastEntityStatePdu) => x.numberOfVariableParameters = numberOfVariableParameters) rfl rfl (plain rfl) (fun _ _ => rfl) (fun _ _ h => h) fun _ =>
    par_read (fun _ (x : Dis.FastEntityStatePdu) => x.numberOfVariableParameters = numberOfVariableParameters) rfl rfl (plain rfl) (fun _ _ => rfl) (fun _ _ h => h) fun _ =>
    par_read (fun _ (x : Dis.FastEntityStatePdu) => x.numberOfVariableParameters = numberOfVariableParameters) rfl rfl (plain rfl) (fun _ _ => rfl) (fun _ _ h => h) fun _ =>
    par_read (fun _ (x : Dis.FastEntityStatePdu) => x.numberOfVariableParameters = numberOfVariableParameters) rfl rfl (plain rfl) (fun _ _ => rfl) (fun _ _ h => h) fun _ =>
    par_read (fun _ (x : Dis.FastEntityStatePdu) => x.numberOfVariableParameters = numberOfVariableParameters) rfl rfl (plain rfl) (fun _ _ => rfl) (fun _ _ h => h) fun _ =>
    par_read (fun _ (x : Dis.FastEntityStatePdu) => x.numberOfVariableParameters = numberOfVariableParameters) rfl rfl (plain rfl) (fun _ _ => rfl) (fun _ _ h => h) fun _ =>
    par_read (fun _ (x : Dis.FastEntityStatePdu) => x.numberOfVariableParameters = numberOfVariableParameters) rfl rfl (plain rfl) (fun _ _ => rfl) (fun _ _ h => h) fun _ =>
    par_read (fun _ (x : Dis.FastEntityStatePdu) => x.numberOfVariableParameters = numberOfVariableParameters) rfl rfl (plain rfl) (fun _ _ => rfl) (fun _ _ h => h) fun _ =>
    par_read (fun _ (x : Dis.FastEntityStatePdu) => x.numberOfVariableParameters = numberOfVariableParameters) rfl rfl (plain rfl) (fun _ _ => rfl) (fun _ _ h => h) fun _ =>
    par_read (fun _ (x : Dis.FastEntityStatePdu) => x.numberOfVariableParameters = numberOfVariableParameters) rfl rfl (plain rfl) (fun _ _ => rfl) (fun _ _ h => h) fun _ =>
    par_read (fun _ (x : Dis.FastEntityStatePdu) => x.numberOfVariableParameters = numberOfVariableParameters) rfl rfl (plain rfl) (fun _ _ => rfl) (fun _ _ h => h) fun _ =>
    par_read (fun _ (x : Dis.FastEntityStatePdu) => x.numberOfVariableParameters = numberOfVariableParameters) rfl rfl (plain rfl) (fun _ _ => rfl) (fun _ _ h => h) fun _ =>
    par_read (fun _ (x : Dis.FastEntityStatePdu) => x.numberOfVariableParameters = numberOfVariableParameters) rfl rfl (plain rfl) (fun _ _ => rfl) (fun _ _ h => h) fun _ =>
    par_read (fun _ (x : Dis.FastEntityStatePdu) => x.numberOfVariableParameters = numberOfVariableParameters) rfl rfl (plain rfl) (fun _ _ => rfl) (fun _ _ h => h) fun _ =>
    par_read (fun _ (x : Dis.FastEntityStatePdu) => x.numberOfVariableParameters = numberOfVariableParameters) rfl rfl (plain rfl) (fun _ _ => rfl) (fun _ _ h => h) fun _ =>
    par_read (fun _ (x : Dis.FastEntityStatePdu) => x.numberOfVariableParameters = numberOfVariableParameters) rfl rfl (plain rfl) (fun _ _ => rfl) (fun _ _ h => h) fun _ =>
    par_read (fun _ (x : Dis.FastEntityStatePdu) => x.numberOfVariableParameters = numberOfVariableParameters) rfl rfl (plain rfl) (fun _ _ => rfl) (fun _ _ h => h) fun _ =>
    par_read (fun _ (x : Dis.FastEntityStatePdu) => x.numberOfVariableParameters = numberOfVariableParameters) rfl rfl (plain rfl) (fun _ _ => rfl) (fun _ _ h => h) fun _ =>
    par_fill rfl rfl (plain rfl) (fun _ => rfl) (fun _ _ => rfl) (fun _ _ => rfl) var_idx rfl rfl
      var_val rfl rfl rfl (fun _ _ h => h) <|
    par_read (fun _ (x : Dis.FastEntityStatePdu) => x.numberOfVariableParameters = numberOfVariableParameters) rfl rfl (plain rfl) (fun _ _ => rfl) (fun _ _ h => h) fun _ =>
    par_read (fun _ (x : Dis.FastEntityStatePdu) => x.numberOfVariableParameters = numberOfVariableParameters) rfl rfl (plain rfl) (fun _ _ => rfl) (fun _ _ h => h) fun _ =>
    par_read (fun _ (x : Dis.FastEntityStatePdu) => x.numberOfVariableParameters = numberOfVariableParameters) rfl rfl (plain rfl) (fun _ _ => rfl) (fun _ _ h => h) fun _ =>
    par_read (fun _ (x : Dis.FastEntityStatePdu) => x.numberOfVariableParameters = numberOfVariableParameters) rfl rfl (plain rfl) (fun _ _ => rfl) (fun _ _ h => h) fun _ =>
    par_read (fun _ (x : Dis.FastEntityStatePdu) => x.numberOfVariableParameters = numberOfVariableParameters) rfl rfl (plain rfl) (fun _ _ => rfl) (fun _ _ h => h) fun _ =>
    par_read (fun _ (x : Dis.FastEntityStatePdu) => x.numberOfVariableParameters = numberOfVariableParameters) rfl rfl (plain rfl) (fun _ _ => rfl) (fun _ _ h => h) fun _ =>
    par_fill rfl rfl (plain rfl) (fun _ => rfl) (fun _ _ => rfl) (fun _ _ => rfl) var_idx rfl rfl
      var_val rfl rfl rfl (fun _ _ h => h) <|
    par_read (fun _ (x : Dis.FastEntityStatePdu) => x.numberOfVariableParameters = numberOfVariableParameters) rfl rfl (plain rfl) (fun _ _ => rfl) (fun _ _ h => h) fun _ =>
    par_objs (fun (x : Dis.FastEntityStatePdu) (h : x.numberOfVariableParameters = numberOfVariableParameters) => gives_range0 (gives_attr_eq (gives_name rfl) (by decide +kernel : isProperty program I.FastEntityStatePdu I.numberOfVariableParameters = false) rfl h)) (by simp) (VariableParameter.builds (n + 2)) rfl
      (plain rfl) (fun _ => rfl) (fun _ _ => rfl) var_idx rfl rfl var_element rfl rfl <|
    par_nil

theorem FastEntityStatePdu.parsesRaw (n : Nat) :
    Parses (run (n + 4)) I.FastEntityStatePdu I.FastEntityStatePdu FastEntityStatePdu.rawFields FastEntityStatePdu.parseRaw :=
  parses_of (n := n + 3) (d := I.FastEntityStatePdu) (f := FastEntityStatePdu.parse) rfl rfl <|
    par_super (Q' := fun _ => True) (c := I.FastEntityStatePdu) (hs := fun x y => EntityInformationFamilyPdu.fields y ++ (FastEntityStatePdu.rawOwn x))
      (fun _ => EntityInformationFamilyPdu.parses (n + 0) _ _) rfl (Or.inl rfl) FastEntityStatePdu.found rfl (fun _ => rfl) (fun _ _ => rfl) (fun _ _ _ => trivial) <|
    par_read (fun _ _ => True) rfl rfl (plain rfl) (fun _ _ => rfl) (fun _ _ _ => trivial) fun _ =>
    par_read (fun _ _ => True) rfl rfl (plain rfl) (fun _ _ => rfl) (fun _ _ _ => trivial) fun _ =>
    par_read (fun _ _ => True) rfl rfl (plain rfl) (fun _ _ => rfl) (fun _ _ _ => trivial) fun _ =>
    par_read (fun _ _ => True) rfl rfl (plain rfl) (fun _ _ => rfl) (fun _ _ _ => trivial) fun _ =>
    par_read (fun v (x : FastEntityStatePdu.Raw) => x.obj.numberOfVariableParameters = v) rfl rfl (by decide +kernel : isProperty program I.FastEntityStatePdu I.numberOfVariableParameters = false) (fun _ _ => rfl) (fun _ _ _ => rfl) fun numberOfVariableParameters =>
    par_read (fun _ (x : FastEntityStatePdu.Raw) => x.obj.numberOfVariableParameters = numberOfVariableParameters) rfl rfl (plain rfl) (fun _ _ => rfl) (fun _ _ h => h) fun _ =>
    par_read (fun _ (x : FastEntityStatePdu.Raw) => x.obj.numberOfVariableParameters = numberOfVariableParameters) rfl rfl (plain rfl) (fun _ _ => rfl) (fun _ _ h => h) fun _ =>
    par_read (fun _ (x : FastEntityStatePdu.Raw) => x.obj.numberOfVariableParameters = numberOfVariableParameters) rfl rfl (plain rfl) (fun _ _ => rfl) (fun _ _ h => h) fun _ =>
    par_read (fun _ (x : FastEntityStatePdu.Raw) => x.obj.numberOfVariableParameters = numberOfVariableParameters) rfl rfl (plain rfl) (fun _ _ => rfl) (fun _ _ h => h) fun _ =>
    par_read (fun _ (x : FastEntityStatePdu.Raw) => x.obj.numberOfVariableParameters = numberOfVariableParameters) rfl rfl (plain rfl) (fun _ _ => rfl) (fun _ _ h => h) fun _ =>
    par_read (fun _ (x : FastEntityStatePdu.Raw) => x.obj.numberOfVariableParameters = numberOfVariableParameters) rfl rfl (plain rfl) (fun _ _ => rfl) (fun _ _ h => h) fun _ =>
    par_read (fun _ (x : FastEntityStatePdu.Raw) => x.obj.numberOfVariableParameters = numberOfVariableParameters) rfl rfl (plain rfl) (fun _ _ => rfl) (fun _ _ h => h) fun _ =>
    par_read (fun _ (x : FastEntityStatePdu.Raw) => x.obj.numberOfVariableParameters = numberOfVariableParameters) rfl rfl (plain rfl) (fun _ _ => rfl) (fun _ _ h => h) fun _ =>
    par_read (fun _ (x : FastEntityStatePdu.Raw) => x.obj.numberOfVariableParameters = numberOfVariableParameters) rfl rfl (plain rfl) (fun _ _ => rfl) (fun _ _ h => h) fun _ =>
    par_read (fun _ (x : FastEntityStatePdu.Raw) => x.obj.numberOfVariableParameters = numberOfVariableParameters) rfl rfl (plain rfl) (fun _ _ => rfl) (fun _ _ h => h) fun _ =>
    par_read (fun _ (x : FastEntityStatePdu.Raw) => x.obj.numberOfVariableParameters = numberOfVariableParameters) rfl rfl (plain rfl) (fun _ _ => rfl) (fun _ _ h => h) fun _ =>
    par_read (fun _ (x : FastEntityStatePdu.Raw) => x.obj.numberOfVariableParameters = numberOfVariableParameters) rfl rfl (plain rfl) (fun _ _ => rfl) (fun _ _ h => h) fun _ =>
    par_read (fun _ (x : FastEntityStatePdu.Raw) => x.obj.numberOfVariableParameters = numberOfVariableParameters) rfl rfl (plain rfl) (fun _ _ => rfl) (fun _ _ h => h) fun _ =>
    par_read (fun _ (x : FastEntityStatePdu.Raw) => x.obj.numberOfVariableParameters = numberOfVariableParameters) rfl rfl (plain rfl) (fun _ _ => rfl) (fun _ _ h => h) fun _ =>
    par_read (fun _ (x : FastEntityStatePdu.Raw) => x.obj.numberOfVariableParameters = numberOfVariableParameters) rfl rfl (plain rfl) (fun _ _ => rfl) (fun _ _ h => h) fun _ =>
    par_read (fun _ (x : FastEntityStatePdu.Raw) => x.obj.numberOfVariableParameters = numberOfVariableParameters) rfl rfl (plain rfl) (fun _ _ => rfl) (fun _ _ h => h) fun _ =>
    par_read (fun _ (x : FastEntityStatePdu.Raw) => x.obj.numberOfVariableParameters = numberOfVariableParameters) rfl rfl (plain rfl) (fun _ _ => rfl) (fun _ _ h => h) fun _ =>
    par_read (fun _ (x : FastEntityStatePdu.Raw) => x.obj.numberOfVariableParameters = numberOfVariableParameters) rfl rfl (plain rfl) (fun _ _ => rfl) (fun _ _ h => h) fun _ =>
    par_read (fun _ (x : FastEntityStatePdu.Raw) => x.obj.numberOfVariableParameters = numberOfVariableParameters) rfl rfl (plain rfl) (fun _ _ => rfl) (fun _ _ h => h) fun _ =>
    par_read (fun _ (x : FastEntityStatePdu.Raw) => x.obj.numberOfVariableParameters = numberOfVariableParameters) rfl rfl (plain rfl) (fun _ _ => rfl) (fun _ _ h => h) fun _ =>
    par_read (fun _ (x : FastEntityStatePdu.Raw) => x.obj.numberOfVariableParameters = numberOfVariableParameters) rfl rfl (plain rfl) (fun _ _ => rfl) (fun _ _ h => h) fun _ =>
    par_read (fun _ (x : FastEntityStatePdu.Raw) => x.obj.numberOfVariableParameters = numberOfVariableParameters) rfl rfl (plain rfl) (fun _ _ => rfl) (fun _ _ h => h) fun _ =>
    par_read (fun _ (x : FastEntityStatePdu.Raw) => x.obj.numberOfVariableParameters = numberOfVariableParameters) rfl rfl (plain rfl) (fun _ _ => rfl) (fun _ _ h => h) fun _ =>
    par_read (fun _ (x : FastEntityStatePdu.Raw) => x.obj.numberOfVariableParameters = numberOfVariableParameters) rfl rfl (plain rfl) (fun _ _ => rfl) (fun _ _ h => h) fun _ =>
    par_read (fun _ (x : FastEntityStatePdu.Raw) => x.obj.numberOfVariableParameters = numberOfVariableParameters) rfl rfl (plain rfl) (fun _ _ => rfl) (fun _ _ h => h) fun _ =>
    par_fill rfl rfl (plain rfl) (fun _ => rfl) (fun _ _ => rfl) (fun _ _ => rfl) var_idx rfl rfl
      var_val rfl rfl rfl (fun _ _ h => h) <|
    par_read (fun _ (x : FastEntityStatePdu.Raw) => x.obj.numberOfVariableParameters = numberOfVariableParameters) rfl rfl (plain rfl) (fun _ _ => rfl) (fun _ _ h => h) fun _ =>
    par_read (fun _ (x : FastEntityStatePdu.Raw) => x.obj.numberOfVariableParameters = numberOfVariableParameters) rfl rfl (plain rfl) (fun _ _ => rfl) (fun _ _ h => h) fun _ =>
    par_read (fun _ (x : FastEntityStatePdu.Raw) => x.obj.numberOfVariableParameters = numberOfVariableParameters) rfl rfl (plain rfl) (fun _ _ => rfl) (fun _ _ h => h) fun _ =>
    par_read (fun _ (x : FastEntityStatePdu.Raw) => x.obj.numberOfVariableParameters = numberOfVariableParameters) rfl rfl (plain rfl) (fun _ _ => rfl) (fun _ _ h => h) fun _ =>
    par_read (fun _ (x : FastEntityStatePdu.Raw) => x.obj.numberOfVariableParameters = numberOfVariableParameters) rfl rfl (plain rfl) (fun _ _ => rfl) (fun _ _ h => h) fun _ =>
    par_read (fun _ (x : FastEntityStatePdu.Raw) => x.obj.numberOfVariableParameters = numberOfVariableParameters) rfl rfl (plain rfl) (fun _ _ => rfl) (fun _ _ h => h) fun _ =>
    par_fill rfl rfl (plain rfl) (fun _ => rfl) (fun _ _ => rfl) (fun _ _ => rfl) var_idx rfl rfl
      var_val rfl rfl rfl (fun _ _ h => h) <|
    par_read (fun _ (x : FastEntityStatePdu.Raw) => x.obj.numberOfVariableParameters = numberOfVariableParameters) rfl rfl (plain rfl) (fun _ _ => rfl) (fun _ _ h => h) fun _ =>
    par_objs (fun (x : FastEntityStatePdu.Raw) (h : x.obj.numberOfVariableParameters = numberOfVariableParameters) => gives_range0 (gives_attr_eq (gives_name rfl) (by decide +kernel : isProperty program I.FastEntityStatePdu I.numberOfVariableParameters = false) rfl h)) (by simp) (VariableParameter.builds (n + 2)) rfl
      (plain rfl) (fun _ => rfl) (fun _ _ => rfl) var_idx rfl rfl var_element rfl rfl <|
    par_nil

theorem FastEntityStatePdu.builds (n : Nat) : Builds (run (n + 4)) I.FastEntityStatePdu FastEntityStatePdu.fields Dis.FastEntityStatePdu.init Dis.FastEntityStatePdu.parseInto :=
  builds_over (π := FastEntityStatePdu.Raw.out) (FastEntityStatePdu.makesRaw (n + 0)) (FastEntityStatePdu.parsesRaw (n + 0)) FastEntityStatePdu.over FastEntityStatePdu.ends rfl
    fun r h => FastEntityStatePdu.done r h

theorem AcknowledgeReliablePdu.found : look I.AcknowledgeReliablePdu program = some AcknowledgeReliablePdu := rfl

theorem AcknowledgeReliablePdu.serializes (n : Nat) (x : Dis.AcknowledgeReliablePdu) :
    Serializes (run (n + 4)) I.AcknowledgeReliablePdu (AcknowledgeReliablePdu.enc x) x.serialize :=
  serializes_of (n := n + 3) (d := I.AcknowledgeReliablePdu) (f := AcknowledgeReliablePdu.serialize) rfl rfl <|
    ser_cons (ser_super (c := I.AcknowledgeReliablePdu) rfl (Or.inl rfl) AcknowledgeReliablePdu.found rfl rfl (SimulationManagementWithReliabilityFamilyPdu.serializes (n + 0) _ _ _)) <|
    ser_cons (ser_write (gives_attr (gives_name rfl) (plain rfl) rfl) rfl rfl rfl) <|
    ser_cons (ser_write (gives_attr (gives_name rfl) (plain rfl) rfl) rfl rfl rfl) <|
    ser_last <| ser_write (gives_attr (gives_name rfl) (plain rfl) rfl) rfl rfl rfl

theorem AcknowledgeReliablePdu.makes (n : Nat) : Makes (run (n + 4)) I.AcknowledgeReliablePdu (AcknowledgeReliablePdu.enc Dis.AcknowledgeReliablePdu.init) :=
  makes_of (p := (I.AcknowledgeReliablePdu, AcknowledgeReliablePdu.__init__)) (by decide +kernel) rfl rfl rfl (by kernel_rfl) fun _ => by kernel_rfl

theorem AcknowledgeReliablePdu.parses (n : Nat) :
    Parses (run (n + 4)) I.AcknowledgeReliablePdu I.AcknowledgeReliablePdu AcknowledgeReliablePdu.fields Dis.AcknowledgeReliablePdu.parseInto :=
  parses_of (n := n + 3) (d := I.AcknowledgeReliablePdu) (f := AcknowledgeReliablePdu.parse) rfl rfl <|
    par_super (Q' := fun _ => True) (c := I.AcknowledgeReliablePdu) (hs := fun x y => SimulationManagementWithReliabilityFamilyPdu.fields y ++ (AcknowledgeReliablePdu.own x))
      (fun _ => SimulationManagementWithReliabilityFamilyPdu.parses (n + 0) _ _) rfl (Or.inl rfl) AcknowledgeReliablePdu.found rfl (fun _ => rfl) (fun _ _ => rfl) (fun _ _ _ => trivial) <|
    par_read (fun _ _ => True) rfl rfl (plain rfl) (fun _ _ => rfl) (fun _ _ _ => trivial) fun _ =>
    par_read (fun _ _ => True) rfl rfl (plain rfl) (fun _ _ => rfl) (fun _ _ _ => trivial) fun _ =>
    par_read (fun _ _ => True) rfl rfl (plain rfl) (fun _ _ => rfl) (fun _ _ _ => trivial) fun _ =>
    par_nil

theorem AcknowledgeReliablePdu.builds (n : Nat) : Builds (run (n + 4)) I.AcknowledgeReliablePdu AcknowledgeReliablePdu.fields Dis.AcknowledgeReliablePdu.init Dis.AcknowledgeReliablePdu.parseInto :=
  builds_of (AcknowledgeReliablePdu.makes (n + 0)) (AcknowledgeReliablePdu.parses (n + 0))

theorem StartResumeReliablePdu.found : look I.StartResumeReliablePdu program = some StartResumeReliablePdu := rfl

theorem StartResumeReliablePdu.serializes (n : Nat) (x : Dis.StartResumeReliablePdu) :
    Serializes (run (n + 4)) I.StartResumeReliablePdu (StartResumeReliablePdu.enc x) x.serialize :=
  serializes_of (n := n + 3) (d := I.StartResumeReliablePdu) (f := StartResumeReliablePdu.serialize) rfl rfl <|
    ser_cons (ser_super (c := I.StartResumeReliablePdu) rfl (Or.inl rfl) StartResumeReliablePdu.found rfl rfl (SimulationManagementWithReliabilityFamilyPdu.serializes (n + 0) _ _ _)) <|
    ser_cons (ser_call rfl (plain rfl) rfl rfl rfl (ClockTime.serializes (n + 2) _)) <|
    ser_cons (ser_call rfl (plain rfl) rfl rfl rfl (ClockTime.serializes (n + 2) _)) <|
    ser_cons (ser_write (gives_attr (gives_name rfl) (plain rfl) rfl) rfl rfl rfl) <|
    ser_cons (ser_write (gives_attr (gives_name rfl) (plain rfl) rfl) rfl rfl rfl) <|
    ser_cons (ser_write (gives_attr (gives_name rfl) (plain rfl) rfl) rfl rfl rfl) <|
    ser_last <| ser_write (gives_attr (gives_name rfl) (plain rfl) rfl) rfl rfl rfl

theorem StartResumeReliablePdu.makes (n : Nat) : Makes (run (n + 4)) I.StartResumeReliablePdu (StartResumeReliablePdu.enc Dis.StartResumeReliablePdu.init) :=
  makes_of (p := (I.StartResumeReliablePdu, StartResumeReliablePdu.__init__)) (by decide +kernel) rfl rfl rfl (by kernel_rfl) fun _ => by kernel_rfl

theorem StartResumeReliablePdu.parses (n : Nat) :
    Parses (run (n + 4)) I.StartResumeReliablePdu I.StartResumeReliablePdu StartResumeReliablePdu.fields Dis.StartResumeReliablePdu.parseInto :=
  parses_of (n := n + 3) (d := I.StartResumeReliablePdu) (f := StartResumeReliablePdu.parse) rfl rfl <|
    par_super (Q' := fun _ => True) (c := I.StartResumeReliablePdu) (hs := fun x y => SimulationManagementWithReliabilityFamilyPdu.fields y ++ (StartResumeReliablePdu.own x))
      (fun _ => SimulationManagementWithReliabilityFamilyPdu.parses (n + 0) _ _) rfl (Or.inl rfl) StartResumeReliablePdu.found rfl (fun _ => rfl) (fun _ _ => rfl) (fun _ _ _ => trivial) <|
    par_call (Q' := fun _ => True) (ClockTime.parses (n + 2)) rfl (plain rfl) (fun _ => rfl) (fun _ _ => rfl) (fun _ _ _ => trivial) <|
    par_call (Q' := fun _ => True) (ClockTime.parses (n + 2)) rfl (plain rfl) (fun _ => rfl) (fun _ _ => rfl) (fun _ _ _ => trivial) <|
    par_read (fun _ _ => True) rfl rfl (plain rfl) (fun _ _ => rfl) (fun _ _ _ => trivial) fun _ =>
    par_read (fun _ _ => True) rfl rfl (plain rfl) (fun _ _ => rfl) (fun _ _ _ => trivial) fun _ =>
    par_read (fun _ _ => True) rfl rfl (plain rfl) (fun _ _ => rfl) (fun _ _ _ => trivial) fun _ =>
    par_read (fun _ _ => True) rfl rfl (plain rfl) (fun _ _ => rfl) (fun _ _ _ => trivial) fun _ =>
    par_nil

theorem StartResumeReliablePdu.builds (n : Nat) : Builds (run (n + 4)) I.StartResumeReliablePdu StartResumeReliablePdu.fields Dis.StartResumeReliablePdu.init Dis.StartResumeReliablePdu.parseInto :=
  builds_of (StartResumeReliablePdu.makes (n + 0)) (StartResumeReliablePdu.parses (n + 0))

theorem ArealObjectStatePdu.found : look I.ArealObjectStatePdu program = some ArealObjectStatePdu := rfl

theorem ArealObjectStatePdu.serializes (n : Nat) (x : Dis.ArealObjectStatePdu) :
    Serializes (run (n + 4)) I.ArealObjectStatePdu (ArealObjectStatePdu.enc x) x.serialize :=
  serializes_of (n := n + 3) (d := I.ArealObjectStatePdu) (f := ArealObjectStatePdu.serialize) rfl rfl <|
    ser_cons (ser_super (c := I.ArealObjectStatePdu) rfl (Or.inl rfl) ArealObjectStatePdu.found rfl rfl (SyntheticEnvironmentFamilyPdu.serializes (n + 0) _ _ _)) <|
    ser_cons (ser_call rfl (plain rfl) rfl rfl rfl (EntityIdentifier.serializes (n + 1) _)) <|
    ser_cons (ser_call rfl (plain rfl) rfl rfl rfl (EntityIdentifier.serializes (n + 1) _)) <|
    ser_cons (ser_write (gives_attr (gives_name rfl) (plain rfl) rfl) rfl rfl rfl) <|
    ser_cons (ser_write (gives_attr (gives_name rfl) (plain rfl) rfl) rfl rfl rfl) <|
    ser_cons (ser_write (gives_attr (gives_name rfl) (plain rfl) rfl) rfl rfl rfl) <|
    ser_cons (ser_call rfl (plain rfl) rfl rfl rfl (ObjectType.serializes (n + 2) _)) <|
    ser_cons (ser_write (gives_attr (gives_name rfl) (plain rfl) rfl) rfl rfl rfl) <|
    ser_cons (ser_write (gives_attr (gives_name rfl) (plain rfl) rfl) rfl rfl rfl) <|
    ser_cons (ser_write (gives_property (gives_name rfl) (by decide +kernel)
        (fun io => property_of (n := n + 2) (d := I.ArealObjectStatePdu) (f := ArealObjectStatePdu.numberOfPoints) rfl rfl rfl (gives_len_map (gives_attr (gives_name rfl) (plain rfl) rfl)) io)) rfl rfl (packInt_int _ _)) <|
    ser_cons (ser_call rfl (plain rfl) rfl rfl rfl (SimulationAddress.serializes (n + 2) _)) <|
    ser_cons (ser_call rfl (plain rfl) rfl rfl rfl (SimulationAddress.serializes (n + 2) _)) <|
    ser_last <| ser_for (gives_attr (gives_name rfl) (plain rfl) rfl) var_anObj rfl fun a _ =>
      ser_last (ser_var rfl rfl (WorldCoordinates.serializes (n + 2) a))

theorem ArealObjectStatePdu.makes (n : Nat) : Makes (run (n + 4)) I.ArealObjectStatePdu (ArealObjectStatePdu.enc Dis.ArealObjectStatePdu.init) :=
  makes_of (p := (I.ArealObjectStatePdu, ArealObjectStatePdu.__init__)) (by decide +kernel) rfl rfl rfl (by kernel_rfl) fun _ => by kernel_rfl

theorem ArealObjectStatePdu.parses (n : Nat) :
    Parses (run (n + 4)) I.ArealObjectStatePdu I.ArealObjectStatePdu ArealObjectStatePdu.fields Dis.ArealObjectStatePdu.parseInto :=
  parses_of (n := n + 3) (d := I.ArealObjectStatePdu) (f := ArealObjectStatePdu.parse) rfl rfl <|
    par_super (Q' := fun _ => True) (c := I.ArealObjectStatePdu) (hs := fun x y => SyntheticEnvironmentFamilyPdu.fields y ++ (ArealObjectStatePdu.own x))
      (fun _ => SyntheticEnvironmentFamilyPdu.parses (n + 0) _ _) rfl (Or.inl rfl) ArealObjectStatePdu.found rfl (fun _ => rfl) (fun _ _ => rfl) (fun _ _ _ => trivial) <|
    par_call (Q' := fun _ => True) (EntityIdentifier.parses (n + 1)) rfl (plain rfl) (fun _ => rfl) (fun _ _ => rfl) (fun _ _ _ => trivial) <|
    par_call (Q' := fun _ => True) (EntityIdentifier.parses (n + 1)) rfl (plain rfl) (fun _ => rfl) (fun _ _ => rfl) (fun _ _ _ => trivial) <|
    par_read (fun _ _ => True) rfl rfl (plain rfl) (fun _ _ => rfl) (fun _ _ _ => trivial) fun _ =>
    par_read (fun _ _ => True) rfl rfl (plain rfl) (fun _ _ => rfl) (fun _ _ _ => trivial) fun _ =>
    par_read (fun _ _ => True) rfl rfl (plain rfl) (fun _ _ => rfl) (fun _ _ _ => trivial) fun _ =>
    par_call (Q' := fun _ => True) (ObjectType.parses (n + 2)) rfl (plain rfl) (fun _ => rfl) (fun _ _ => rfl) (fun _ _ _ => trivial) <|
    par_read (fun _ _ => True) rfl rfl (plain rfl) (fun _ _ => rfl) (fun _ _ _ => trivial) fun _ =>
    par_read (fun _ _ => True) rfl rfl (plain rfl) (fun _ _ => rfl) (fun _ _ _ => trivial) fun _ =>
    par_local rfl rfl var_numberOfPoints rfl fun _ =>
    par_call (Q' := fun _ => True) (SimulationAddress.parses (n + 2)) rfl (plain rfl) (fun _ => rfl) (fun _ _ => rfl) (fun _ _ _ => trivial) <|
    par_call (Q' := fun _ => True) (SimulationAddress.parses (n + 2)) rfl (plain rfl) (fun _ => rfl) (fun _ _ => rfl) (fun _ _ _ => trivial) <|
    par_objs (fun _ _ => gives_range0 (gives_name rfl)) (by simp) (WorldCoordinates.builds (n + 2)) rfl
      (plain rfl) (fun _ => rfl) (fun _ _ => rfl) var_idx rfl rfl var_element rfl rfl <|
    par_nil

theorem ArealObjectStatePdu.builds (n : Nat) : Builds (run (n + 4)) I.ArealObjectStatePdu ArealObjectStatePdu.fields Dis.ArealObjectStatePdu.init Dis.ArealObjectStatePdu.parseInto :=
  builds_of (ArealObjectStatePdu.makes (n + 0)) (ArealObjectStatePdu.parses (n + 0))

theorem DataQueryReliablePdu.found : look I.DataQueryReliablePdu program = some DataQueryReliablePdu := rfl

theorem DataQueryReliablePdu.serializes (n : Nat) (x : Dis.DataQueryReliablePdu) :
    Serializes (run (n + 4)) I.DataQueryReliablePdu (DataQueryReliablePdu.enc x) x.serialize :=
  serializes_of (n := n + 3) (d := I.DataQueryReliablePdu) (f := DataQueryReliablePdu.serialize) rfl rfl <|
    ser_cons (ser_super (c := I.DataQueryReliablePdu) rfl (Or.inl rfl) DataQueryReliablePdu.found rfl rfl (SimulationManagementWithReliabilityFamilyPdu.serializes (n + 0) _ _ _)) <|
    ser_cons (ser_write (gives_attr (gives_name rfl) (plain rfl) rfl) rfl rfl rfl) <|
    ser_cons (ser_write (gives_attr (gives_name rfl) (plain rfl) rfl) rfl rfl rfl) <|
    ser_cons (ser_write (gives_attr (gives_name rfl) (plain rfl) rfl) rfl rfl rfl) <|
    ser_cons (ser_write (gives_attr (gives_name rfl) (plain rfl) rfl) rfl rfl rfl) <|
    ser_cons (ser_write (gives_attr (gives_name rfl) (plain rfl) rfl) rfl rfl rfl) <|
    ser_last <| ser_call rfl (plain rfl) rfl rfl rfl (DataQueryDatumSpecification.serializes (n + 1) _)

theorem DataQueryReliablePdu.makes (n : Nat) : Makes (run (n + 4)) I.DataQueryReliablePdu (DataQueryReliablePdu.enc Dis.DataQueryReliablePdu.init) :=
  makes_of (p := (I.DataQueryReliablePdu, DataQueryReliablePdu.__init__)) (by decide +kernel) rfl rfl rfl (by kernel_rfl) fun _ => by kernel_rfl

theorem DataQueryReliablePdu.parses (n : Nat) :
    Parses (run (n + 4)) I.DataQueryReliablePdu I.DataQueryReliablePdu DataQueryReliablePdu.fields Dis.DataQueryReliablePdu.parseInto :=
  parses_of (n := n + 3) (d := I.DataQueryReliablePdu) (f := DataQueryReliablePdu.parse) rfl rfl <|
    par_super (Q' := fun _ => True) (c := I.DataQueryReliablePdu) (hs := fun x y => SimulationManagementWithReliabilityFamilyPdu.fields y ++ (DataQueryReliablePdu.own x))
      (fun _ => SimulationManagementWithReliabilityFamilyPdu.parses (n + 0) _ _) rfl (Or.inl rfl) DataQueryReliablePdu.found rfl (fun _ => rfl) (fun _ _ => rfl) (fun _ _ _ => trivial) <|
    par_read (fun _ _ => True) rfl rfl (plain rfl) (fun _ _ => rfl) (fun _ _ _ => trivial) fun _ =>
    par_read (fun _ _ => True) rfl rfl (plain rfl) (fun _ _ => rfl) (fun _ _ _ => trivial) fun _ =>
    par_read (fun _ _ => True) rfl rfl (plain rfl) (fun _ _ => rfl) (fun _ _ _ => trivial) fun _ =>
    par_read (fun _ _ => True) rfl rfl (plain rfl) (fun _ _ => rfl) (fun _ _ _ => trivial) fun _ =>
    par_read (fun _ _ => True) rfl rfl (plain rfl) (fun _ _ => rfl) (fun _ _ _ => trivial) fun _ =>
    par_call (Q' := fun _ => True) (DataQueryDatumSpecification.parses (n + 2)) rfl (plain rfl) (fun _ => rfl) (fun _ _ => rfl) (fun _ _ _ => trivial) <|
    par_nil

theorem DataQueryReliablePdu.builds (n : Nat) : Builds (run (n + 4)) I.DataQueryReliablePdu DataQueryReliablePdu.fields Dis.DataQueryReliablePdu.init Dis.DataQueryReliablePdu.parseInto :=
  builds_of (DataQueryReliablePdu.makes (n + 0)) (DataQueryReliablePdu.parses (n + 0))

theorem MinefieldStatePdu.found : look I.MinefieldStatePdu program = some MinefieldStatePdu := rfl

theorem MinefieldStatePdu.serializes (n : Nat) (x : Dis.MinefieldStatePdu) :
    Serializes (run (n + 4)) I.MinefieldStatePdu (MinefieldStatePdu.enc x) x.serialize :=
  serializes_of (n := n + 3) (d := I.MinefieldStatePdu) (f := MinefieldStatePdu.serialize) rfl rfl <|
    ser_cons (ser_super (c := I.MinefieldStatePdu) rfl (Or.inl rfl) MinefieldStatePdu.found rfl rfl (MinefieldFamilyPdu.serializes (n + 0) _ _ _)) <|
    ser_cons (ser_call rfl (plain rfl) rfl rfl rfl (MinefieldIdentifier.serializes (n + 1) _)) <|
    ser_cons (ser_write (gives_attr (gives_name rfl) (plain rfl) rfl) rfl rfl rfl) <|
    ser_cons (ser_write (gives_attr (gives_name rfl) (plain rfl) rfl) rfl rfl rfl) <|
    ser_cons (ser_write (gives_property (gives_name rfl) (by decide +kernel)
        (fun io => property_of (n := n + 2) (d := I.MinefieldStatePdu) (f := MinefieldStatePdu.numberOfPerimeterPoints) rfl rfl rfl (gives_len_map (gives_attr (gives_name rfl) (plain rfl) rfl)) io)) rfl rfl (packInt_int _ _)) <|
    ser_cons (ser_call rfl (plain rfl) rfl rfl rfl (EntityType.serializes (n + 2) _)) <|
    ser_cons (ser_write (gives_property (gives_name rfl) (by decide +kernel)
        (fun io => property_of (n := n + 2) (d := I.MinefieldStatePdu) (f := MinefieldStatePdu.numberOfMineTypes) rfl rfl rfl (gives_len_map (gives_attr (gives_name rfl) (plain rfl) rfl)) io)) rfl rfl (packInt_int _ _)) <|
    ser_cons (ser_call rfl (plain rfl) rfl rfl rfl (WorldCoordinates.serializes (n + 2) _)) <|
    ser_cons (ser_call rfl (plain rfl) rfl rfl rfl (EulerAngles.serializes (n + 2) _)) <|
    ser_cons (ser_write (gives_attr (gives_name rfl) (plain rfl) rfl) rfl rfl rfl) <|
    ser_cons (ser_write (gives_attr (gives_name rfl) (plain rfl) rfl) rfl rfl rfl) <|
    ser_cons (ser_for (gives_attr (gives_name rfl) (plain rfl) rfl) var_anObj rfl fun a _ =>
      ser_last (ser_var rfl rfl (Vector2Float.serializes (n + 2) a))) <|
    ser_last <| ser_for (gives_attr (gives_name rfl) (plain rfl) rfl) var_anObj rfl fun a _ =>
      ser_last (ser_var rfl rfl (EntityType.serializes (n + 2) a))

theorem MinefieldStatePdu.makes (n : Nat) : Makes (run (n + 4)) I.MinefieldStatePdu (MinefieldStatePdu.enc Dis.MinefieldStatePdu.init) :=
  makes_of (p := (I.MinefieldStatePdu, MinefieldStatePdu.__init__)) (by decide +kernel) rfl rfl rfl (by kernel_rfl) fun _ => by kernel_rfl

theorem MinefieldStatePdu.parses (n : Nat) :
    Parses (run (n + 4)) I.MinefieldStatePdu I.MinefieldStatePdu MinefieldStatePdu.fields Dis.MinefieldStatePdu.parseInto :=
  parses_of (n := n + 3) (d := I.MinefieldStatePdu) (f := MinefieldStatePdu.parse) rfl rfl <|
    par_super (Q' := fun _ => True) (c := I.MinefieldStatePdu) (hs := fun x y => MinefieldFamilyPdu.fields y ++ (MinefieldStatePdu.own x))
      (fun _ => MinefieldFamilyPdu.parses (n + 0) _ _) rfl (Or.inl rfl) MinefieldStatePdu.found rfl (fun _ => rfl) (fun _ _ => rfl) (fun _ _ _ => trivial) <|
    par_call (Q' := fun _ => True) (MinefieldIdentifier.parses (n + 1)) rfl (plain rfl) (fun _ => rfl) (fun _ _ => rfl) (fun _ _ _ => trivial) <|
    par_read (fun _ _ => True) rfl rfl (plain rfl) (fun _ _ => rfl) (fun _ _ _ => trivial) fun _ =>
    par_read (fun _ _ => True) rfl rfl (plain rfl) (fun _ _ => rfl) (fun _ _ _ => trivial) fun _ =>
    par_local rfl rfl var_numberOfPerimeterPoints rfl fun _ =>
    par_call (Q' := fun _ => True) (EntityType.parses (n + 2)) rfl (plain rfl) (fun _ => rfl) (fun _ _ => rfl) (fun _ _ _ => trivial) <|
    par_local rfl rfl var_numberOfMineTypes rfl fun _ =>
    par_call (Q' := fun _ => True) (WorldCoordinates.parses (n + 2)) rfl (plain rfl) (fun _ => rfl) (fun _ _ => rfl) (fun _ _ _ => trivial) <|
    par_call (Q' := fun _ => True) (EulerAngles.parses (n + 2)) rfl (plain rfl) (fun _ => rfl) (fun _ _ => rfl) (fun _ _ _ => trivial) <|
    par_read (fun _ _ => True) rfl rfl (plain rfl) (fun _ _ => rfl) (fun _ _ _ => trivial) fun _ =>
    par_read (fun _ _ => True) rfl rfl (plain rfl) (fun _ _ => rfl) (fun _ _ _ => trivial) fun _ =>
    par_objs (fun _ _ => gives_range0 (gives_name rfl)) (by simp) (Vector2Float.builds (n + 2)) rfl
      (plain rfl) (fun _ => rfl) (fun _ _ => rfl) var_idx rfl rfl var_element rfl rfl <|
    par_objs (fun _ _ => gives_range0 (gives_name rfl)) (by simp) (EntityType.builds (n + 2)) rfl
      (plain rfl) (fun _ => rfl) (fun _ _ => rfl) var_idx rfl rfl var_element rfl rfl <|
    par_nil

theorem MinefieldStatePdu.builds (n : Nat) : Builds (run (n + 4)) I.MinefieldStatePdu MinefieldStatePdu.fields Dis.MinefieldStatePdu.init Dis.MinefieldStatePdu.parseInto :=
  builds_of (MinefieldStatePdu.makes (n + 0)) (MinefieldStatePdu.parses (n + 0))

theorem DetonationPdu.found : look I.DetonationPdu program = some DetonationPdu := rfl

theorem DetonationPdu.serializes (n : Nat) (x : Dis.DetonationPdu) :
    Serializes (run (n + 4)) I.DetonationPdu (DetonationPdu.enc x) x.serialize :=
  serializes_of (n := n + 3) (d := I.DetonationPdu) (f := DetonationPdu.serialize) rfl rfl <|
    ser_cons (ser_super (c := I.DetonationPdu) rfl (Or.inl rfl) DetonationPdu.found rfl rfl (WarfareFamilyPdu.serializes (n + 0) _ _ _)) <|
    ser_cons (ser_call rfl (plain rfl) rfl rfl rfl (EntityIdentifier.serializes (n + 1) _)) <|
    ser_cons (ser_call rfl (plain rfl) rfl rfl rfl (EventIdentifier.serializes (n + 1) _)) <|
    ser_cons (ser_call rfl (plain rfl) rfl rfl rfl (Vector3Float.serializes (n + 2) _)) <|
    ser_cons (ser_call rfl (plain rfl) rfl rfl rfl (WorldCoordinates.serializes (n + 2) _)) <|
    ser_cons (ser_call rfl (plain rfl) rfl rfl rfl (MunitionDescriptor.serializes (n + 1) _)) <|
    ser_cons (ser_call rfl (plain rfl) rfl rfl rfl (Vector3Float.serializes (n + 2) _)) <|
    ser_cons (ser_write (gives_attr (gives_name rfl) (plain rfl) rfl) rfl rfl rfl) <|
    ser_cons (ser_write (gives_property (gives_name rfl) (by decide +kernel)
        (fun io => property_of (n := n + 2) (d := I.DetonationPdu) (f := DetonationPdu.numberOfVariableParameters) rfl rfl rfl (gives_len_map (gives_attr (gives_name rfl) (plain rfl) rfl)) io)) rfl rfl (packInt_int _ _)) <|
    ser_cons (ser_write (gives_attr (gives_name rfl) (plain rfl) rfl) rfl rfl rfl) <|
    ser_last <| ser_for (gives_attr (gives_name rfl) (plain rfl) rfl) var_anObj rfl fun a _ =>
      ser_last (ser_var rfl rfl (VariableParameter.serializes (n + 2) a))

theorem DetonationPdu.makes (n : Nat) : Makes (run (n + 4)) I.DetonationPdu (DetonationPdu.enc Dis.DetonationPdu.init) :=
  makes_of (p := (I.DetonationPdu, DetonationPdu.__init__)) (by decide +kernel) rfl rfl rfl (by kernel_rfl) fun _ => by kernel_rfl

theorem DetonationPdu.parses (n : Nat) :
    Parses (run (n + 4)) I.DetonationPdu I.DetonationPdu DetonationPdu.fields Dis.DetonationPdu.parseInto :=
  parses_of (n := n + 3) (d := I.DetonationPdu) (f := DetonationPdu.parse) rfl rfl <|
    par_super (Q' := fun _ => True) (c := I.DetonationPdu) (hs := fun x y => WarfareFamilyPdu.fields y ++ (DetonationPdu.own x))
      (fun _ => WarfareFamilyPdu.parses (n + 0) _ _) rfl (Or.inl rfl) DetonationPdu.found rfl (fun _ => rfl) (fun _ _ => rfl) (fun _ _ _ => trivial) <|
    par_call (Q' := fun _ => True) (EntityIdentifier.parses (n + 1)) rfl (plain rfl) (fun _ => rfl) (fun _ _ => rfl) (fun _ _ _ => trivial) <|
    par_call (Q' := fun _ => True) (EventIdentifier.parses (n + 1)) rfl (plain rfl) (fun _ => rfl) (fun _ _ => rfl) (fun _ _ _ => trivial) <|
    par_call (Q' := fun _ => True) (Vector3Float.parses (n + 2)) rfl (plain rfl) (fun _ => rfl) (fun _ _ => rfl) (fun _ _ _ => trivial) <|
    par_call (Q' := fun _ => True) (WorldCoordinates.parses (n + 2)) rfl (plain rfl) (fun _ => rfl) (fun _ _ => rfl) (fun _ _ _ => trivial) <|
    par_call (Q' := fun _ => True) (MunitionDescriptor.parses (n + 1)) rfl (plain rfl) (fun _ => rfl) (fun _ _ => rfl) (fun _ _ _ => trivial) <|
    par_call (Q' := fun _ => True) (Vector3Float.parses (n + 2)) rfl (plain rfl) (fun _ => rfl) (fun _ _ => rfl) (fun _ _ _ => trivial) <|
    par_read (fun _ _ => True) rfl rfl (plain rfl) (fun _ _ => rfl) (fun _ _ _ => trivial) fun _ =>
    par_local rfl rfl var_numberOfVariableParameters rfl fun _ =>
    par_read (fun _ _ => True) rfl rfl (plain rfl) (fun _ _ => rfl) (fun _ _ _ => trivial) fun _ =>
    par_objs (fun _ _ => gives_range0 (gives_name rfl)) (by simp) (VariableParameter.builds (n + 2)) rfl
      (plain rfl) (fun _ => rfl) (fun _ _ => rfl) var_idx rfl rfl var_element rfl rfl <|
    par_nil

theorem DetonationPdu.builds (n : Nat) : Builds (run (n + 4)) I.DetonationPdu DetonationPdu.fields Dis.DetonationPdu.init Dis.DetonationPdu.parseInto :=
  builds_of (DetonationPdu.makes (n + 0)) (DetonationPdu.parses (n + 0))

theorem RecordQueryReliablePdu.found : look I.RecordQueryReliablePdu program = some RecordQueryReliablePdu := rfl

theorem RecordQueryReliablePdu.serializes (n : Nat) (x : Dis.RecordQueryReliablePdu) :
    Serializes (run (n + 4)) I.RecordQueryReliablePdu (RecordQueryReliablePdu.enc x) x.serialize :=
  serializes_of (n := n + 3) (d := I.RecordQueryReliablePdu) (f := RecordQueryReliablePdu.serialize) rfl rfl <|
    ser_cons (ser_super (c := I.RecordQueryReliablePdu) rfl (Or.inl rfl) RecordQueryReliablePdu.found rfl rfl (SimulationManagementWithReliabilityFamilyPdu.serializes (n + 0) _ _ _)) <|
    ser_cons (ser_write (gives_attr (gives_name rfl) (plain rfl) rfl) rfl rfl rfl) <|
    ser_cons (ser_write (gives_attr (gives_name rfl) (plain rfl) rfl) rfl rfl rfl) <|
    ser_cons (ser_write (gives_attr (gives_name rfl) (plain rfl) rfl) rfl rfl rfl) <|
    ser_cons (ser_write (gives_attr (gives_name rfl) (plain rfl) rfl) rfl rfl rfl) <|
    ser_cons (ser_write (gives_attr (gives_name rfl) (plain rfl) rfl) rfl rfl rfl) <|
    ser_cons (ser_write (gives_attr (gives_name rfl) (plain rfl) rfl) rfl rfl rfl) <|
    ser_cons (ser_write (gives_property (gives_name rfl) (by decide +kernel)
        (fun io => property_of (n := n + 2) (d := I.RecordQueryReliablePdu) (f := RecordQueryReliablePdu.numberOfRecords) rfl rfl rfl (gives_len_map (gives_attr (gives_name rfl) (plain rfl) rfl)) io)) rfl rfl (packInt_int _ _)) <|
    ser_last <| ser_for (gives_attr (gives_name rfl) (plain rfl) rfl) var_anObj rfl fun a _ =>
      ser_last (ser_no_method rfl (fun _ _ => rfl) rfl)

theorem RecordQueryReliablePdu.makes (n : Nat) : Makes (run (n + 4)) I.RecordQueryReliablePdu (RecordQueryReliablePdu.enc Dis.RecordQueryReliablePdu.init) :=
  makes_of (p := (I.RecordQueryReliablePdu, RecordQueryReliablePdu.__init__)) (by decide +kernel) rfl rfl rfl (by kernel_rfl) fun _ => by kernel_rfl

theorem RecordQueryReliablePdu.parses (n : Nat) :
    Parses (run (n + 4)) I.RecordQueryReliablePdu I.RecordQueryReliablePdu RecordQueryReliablePdu.fields Dis.RecordQueryReliablePdu.parseInto :=
  parses_of (n := n + 3) (d := I.RecordQueryReliablePdu) (f := RecordQueryReliablePdu.parse) rfl rfl <|
    par_super (Q' := fun _ => True) (c := I.RecordQueryReliablePdu) (hs := fun x y => SimulationManagementWithReliabilityFamilyPdu.fields y ++ (RecordQueryReliablePdu.own x))
      (fun _ => SimulationManagementWithReliabilityFamilyPdu.parses (n + 0) _ _) rfl (Or.inl rfl) RecordQueryReliablePdu.found rfl (fun _ => rfl) (fun _ _ => rfl) (fun _ _ _ => trivial) <|
    par_read (fun _ _ => True) rfl rfl (plain rfl) (fun _ _ => rfl) (fun _ _ _ => trivial) fun _ =>
    par_read (fun _ _ => True) rfl rfl (plain rfl) (fun _ _ => rfl) (fun _ _ _ => trivial) fun _ =>
    par_read (fun _ _ => True) rfl rfl (plain rfl) (fun _ _ => rfl) (fun _ _ _ => trivial) fun _ =>
    par_read (fun _ _ => True) rfl rfl (plain rfl) (fun _ _ => rfl) (fun _ _ _ => trivial) fun _ =>
    par_read (fun _ _ => True) rfl rfl (plain rfl) (fun _ _ => rfl) (fun _ _ _ => trivial) fun _ =>
    par_read (fun _ _ => True) rfl rfl (plain rfl) (fun _ _ => rfl) (fun _ _ _ => trivial) fun _ =>
    par_local rfl rfl var_numberOfRecords rfl fun _ =>
    par_unknown (fun _ _ => gives_range0 (gives_name rfl)) (by simp) no_null null_taken rfl rfl rfl
      var_idx rfl rfl <|
    par_nil

theorem RecordQueryReliablePdu.builds (n : Nat) : Builds (run (n + 4)) I.RecordQueryReliablePdu RecordQueryReliablePdu.fields Dis.RecordQueryReliablePdu.init Dis.RecordQueryReliablePdu.parseInto :=
  builds_of (RecordQueryReliablePdu.makes (n + 0)) (RecordQueryReliablePdu.parses (n + 0))

theorem FirePdu.found : look I.FirePdu program = some FirePdu := rfl

theorem FirePdu.serializes (n : Nat) (x : Dis.FirePdu) :
    Serializes (run (n + 4)) I.FirePdu (FirePdu.enc x) x.serialize :=
  serializes_of (n := n + 3) (d := I.FirePdu) (f := FirePdu.serialize) rfl rfl <|
    ser_cons (ser_super (c := I.FirePdu) rfl (Or.inl rfl) FirePdu.found rfl rfl (WarfareFamilyPdu.serializes (n + 0) _ _ _)) <|
    ser_cons (ser_call rfl (plain rfl) rfl rfl rfl (EntityIdentifier.serializes (n + 1) _)) <|
    ser_cons (ser_call rfl (plain rfl) rfl rfl rfl (EventIdentifier.serializes (n + 1) _)) <|
    ser_cons (ser_write (gives_attr (gives_name rfl) (plain rfl) rfl) rfl rfl rfl) <|
    ser_cons (ser_call rfl (plain rfl) rfl rfl rfl (WorldCoordinates.serializes (n + 2) _)) <|
    ser_cons (ser_call rfl (plain rfl) rfl rfl rfl (MunitionDescriptor.serializes (n + 1) _)) <|
    ser_cons (ser_call rfl (plain rfl) rfl rfl rfl (Vector3Float.serializes (n + 2) _)) <|
    ser_last <| ser_write (gives_attr (gives_name rfl) (plain rfl) rfl) rfl rfl rfl

theorem FirePdu.makes (n : Nat) : Makes (run (n + 4)) I.FirePdu (FirePdu.enc Dis.FirePdu.init) :=
  makes_of (p := (I.FirePdu, FirePdu.__init__)) (by decide +kernel) rfl rfl rfl (by kernel_rfl) fun _ => by kernel_rfl

theorem FirePdu.parses (n : Nat) :
    Parses (run (n + 4)) I.FirePdu I.FirePdu FirePdu.fields Dis.FirePdu.parseInto :=
  parses_of (n := n + 3) (d := I.FirePdu) (f := FirePdu.parse) rfl rfl <|
    par_super (Q' := fun _ => True) (c := I.FirePdu) (hs := fun x y => WarfareFamilyPdu.fields y ++ (FirePdu.own x))
      (fun _ => WarfareFamilyPdu.parses (n + 0) _ _) rfl (Or.inl rfl) FirePdu.found rfl (fun _ => rfl) (fun _ _ => rfl) (fun _ _ _ => trivial) <|
    par_call (Q' := fun _ => True) (EntityIdentifier.parses (n + 1)) rfl (plain rfl) (fun _ => rfl) (fun _ _ => rfl) (fun _ _ _ => trivial) <|
    par_call (Q' := fun _ => True) (EventIdentifier.parses (n + 1)) rfl (plain rfl) (fun _ => rfl) (fun _ _ => rfl) (fun _ _ _ => trivial) <|
    par_read (fun _ _ => True) rfl rfl (plain rfl) (fun _ _ => rfl) (fun _ _ _ => trivial) fun _ =>
    par_call (Q' := fun _ => True) (WorldCoordinates.parses (n + 2)) rfl (plain rfl) (fun _ => rfl) (fun _ _ => rfl) (fun _ _ _ => trivial) <|
    par_call (Q' := fun _ => True) (MunitionDescriptor.parses (n + 1)) rfl (plain rfl) (fun _ => rfl) (fun _ _ => rfl) (fun _ _ _ => trivial) <|
    par_call (Q' := fun _ => True) (Vector3Float.parses (n + 2)) rfl (plain rfl) (fun _ => rfl) (fun _ _ => rfl) (fun _ _ _ => trivial) <|
    par_read (fun _ _ => True) rfl rfl (plain rfl) (fun _ _ => rfl) (fun _ _ _ => trivial) fun _ =>
    par_nil

theorem FirePdu.builds (n : Nat) : Builds (run (n + 4)) I.FirePdu FirePdu.fields Dis.FirePdu.init Dis.FirePdu.parseInto :=
  builds_of (FirePdu.makes (n + 0)) (FirePdu.parses (n + 0))

theorem ReceiverPdu.found : look I.ReceiverPdu program = some ReceiverPdu := rfl

theorem ReceiverPdu.serializes (n : Nat) (x : Dis.ReceiverPdu) :
    Serializes (run (n + 4)) I.ReceiverPdu (ReceiverPdu.enc x) x.serialize :=
  serializes_of (n := n + 3) (d := I.ReceiverPdu) (f := ReceiverPdu.serialize) rfl rfl <|
    ser_cons (ser_super (c := I.ReceiverPdu) rfl (Or.inl rfl) ReceiverPdu.found rfl rfl (RadioCommunicationsFamilyPdu.serializes (n + 0) _ _ _)) <|
    ser_cons (ser_write (gives_attr (gives_name rfl) (plain rfl) rfl) rfl rfl rfl) <|
    ser_cons (ser_write (gives_attr (gives_name rfl) (plain rfl) rfl) rfl rfl rfl) <|
    ser_cons (ser_write (gives_attr (gives_name rfl) (plain rfl) rfl) rfl rfl rfl) <|
    ser_cons (ser_call rfl (plain rfl) rfl rfl rfl (EntityIdentifier.serializes (n + 1) _)) <|
    ser_last <| ser_write (gives_attr (gives_name rfl) (plain rfl) rfl) rfl rfl rfl

theorem ReceiverPdu.makes (n : Nat) : Makes (run (n + 4)) I.ReceiverPdu (ReceiverPdu.enc Dis.ReceiverPdu.init) :=
  makes_of (p := (I.ReceiverPdu, ReceiverPdu.__init__)) (by decide +kernel) rfl rfl rfl (by kernel_rfl) fun _ => by kernel_rfl

theorem ReceiverPdu.parses (n : Nat) :
    Parses (run (n + 4)) I.ReceiverPdu I.ReceiverPdu ReceiverPdu.fields Dis.ReceiverPdu.parseInto :=
  parses_of (n := n + 3) (d := I.ReceiverPdu) (f := ReceiverPdu.parse) rfl rfl <|
    par_super (Q' := fun _ => True) (c := I.ReceiverPdu) (hs := fun x y => RadioCommunicationsFamilyPdu.fields y ++ (ReceiverPdu.own x))
      (fun _ => RadioCommunicationsFamilyPdu.parses (n + 0) _ _) rfl (Or.inl rfl) ReceiverPdu.found rfl (fun _ => rfl) (fun _ _ => rfl) (fun _ _ _ => trivial) <|
    par_read (fun _ _ => True) rfl rfl (plain rfl) (fun _ _ => rfl) (fun _ _ _ => trivial) fun _ =>
    par_read (fun _ _ => True) rfl rfl (plain rfl) (fun _ _ => rfl) (fun _ _ _ => trivial) fun _ =>
    par_read (fun _ _ => True) rfl rfl (plain rfl) (fun _ _ => rfl) (fun _ _ _ => trivial) fun _ =>
    par_call (Q' := fun _ => True) (EntityIdentifier.parses (n + 1)) rfl (plain rfl) (fun _ => rfl) (fun _ _ => rfl) (fun _ _ _ => trivial) <|
    par_read (fun _ _ => True) rfl rfl (plain rfl) (fun _ _ => rfl) (fun _ _ _ => trivial) fun _ =>
    par_nil

theorem ReceiverPdu.builds (n : Nat) : Builds (run (n + 4)) I.ReceiverPdu ReceiverPdu.fields Dis.ReceiverPdu.init Dis.ReceiverPdu.parseInto :=
  builds_of (ReceiverPdu.makes (n + 0)) (ReceiverPdu.parses (n + 0))

theorem UaPdu.found : look I.UaPdu program = some UaPdu := rfl

theorem UaPdu.serializes (n : Nat) (x : Dis.UaPdu) :
    Serializes (run (n + 4)) I.UaPdu (UaPdu.enc x) x.serialize :=
  serializes_of (n := n + 3) (d := I.UaPdu) (f := UaPdu.serialize) rfl rfl <|
    ser_cons (ser_super (c := I.UaPdu) rfl (Or.inl rfl) UaPdu.found rfl rfl (DistributedEmissionsFamilyPdu.serializes (n + 0) _ _ _)) <|
    ser_cons (ser_call rfl (plain rfl) rfl rfl rfl (EntityIdentifier.serializes (n + 1) _)) <|
    ser_cons (ser_call rfl (plain rfl) rfl rfl rfl (EventIdentifier.serializes (n + 1) _)) <|
    ser_cons (ser_write (gives_attr (gives_name rfl) (plain rfl) rfl) rfl rfl rfl) <|
    ser_cons (ser_write (gives_attr (gives_name rfl) (plain rfl) rfl) rfl rfl rfl) <|
    ser_cons (ser_write (gives_attr (gives_name rfl) (plain rfl) rfl) rfl rfl rfl) <|
    ser_cons (ser_write (gives_attr (gives_name rfl) (plain rfl) rfl) rfl rfl rfl) <|
    ser_cons (ser_write (gives_property (gives_name rfl) (by decide +kernel)
        (fun io => property_of (n := n + 2) (d := I.UaPdu) (f := UaPdu.numberOfShafts) rfl rfl rfl (gives_len_map (gives_attr (gives_name rfl) (plain rfl) rfl)) io)) rfl rfl (packInt_int _ _)) <|
    ser_cons (ser_write (gives_property (gives_name rfl) (by decide +kernel)
        (fun io => property_of (n := n + 2) (d := I.UaPdu) (f := UaPdu.numberOfAPAs) rfl rfl rfl (gives_len_map (gives_attr (gives_name rfl) (plain rfl) rfl)) io)) rfl rfl (packInt_int _ _)) <|
    ser_cons (ser_write (gives_property (gives_name rfl) (by decide +kernel)
        (fun io => property_of (n := n + 2) (d := I.UaPdu) (f := UaPdu.numberOfUAEmitterSystems) rfl rfl rfl (gives_len_map (gives_attr (gives_name rfl) (plain rfl) rfl)) io)) rfl rfl (packInt_int _ _)) <|
    ser_cons (ser_for (gives_attr (gives_name rfl) (plain rfl) rfl) var_anObj rfl fun a _ =>
      ser_last (ser_no_method rfl (fun _ _ => rfl) rfl)) <|
    ser_cons (ser_for (gives_attr (gives_name rfl) (plain rfl) rfl) var_anObj rfl fun a _ =>
      ser_last (ser_no_method rfl (fun _ _ => rfl) rfl)) <|
    ser_last <| ser_for (gives_attr (gives_name rfl) (plain rfl) rfl) var_anObj rfl fun a _ =>
      ser_last (ser_no_method rfl (fun _ _ => rfl) rfl)

theorem UaPdu.makes (n : Nat) : Makes (run (n + 4)) I.UaPdu (UaPdu.enc Dis.UaPdu.init) :=
  makes_of (p := (I.UaPdu, UaPdu.__init__)) (by decide +kernel) rfl rfl rfl (by kernel_rfl) fun _ => by kernel_rfl

theorem UaPdu.parses (n : Nat) :
    Parses (run (n + 4)) I.UaPdu I.UaPdu UaPdu.fields Dis.UaPdu.parseInto :=
  parses_of (n := n + 3) (d := I.UaPdu) (f := UaPdu.parse) rfl rfl <|
    par_super (Q' := fun _ => True) (c := I.UaPdu) (hs := fun x y => DistributedEmissionsFamilyPdu.fields y ++ (UaPdu.own x))
      (fun _ => DistributedEmissionsFamilyPdu.parses (n + 0) _ _) rfl (Or.inl rfl) UaPdu.found rfl (fun _ => rfl) (fun _ _ => rfl) (fun _ _ _ => trivial) <|
    par_call (Q' := fun _ => True) (EntityIdentifier.parses (n + 1)) rfl (plain rfl) (fun _ => rfl) (fun _ _ => rfl) (fun _ _ _ => trivial) <|
    par_call (Q' := fun _ => True) (EventIdentifier.parses (n + 1)) rfl (plain rfl) (fun _ => rfl) (fun _ _ => rfl) (fun _ _ _ => trivial) <|
    par_read (fun _ _ => True) rfl rfl (plain rfl) (fun _ _ => rfl) (fun _ _ _ => trivial) fun _ =>
    par_read (fun _ _ => True) rfl rfl (plain rfl) (fun _ _ => rfl) (fun _ _ _ => trivial) fun _ =>
    par_read (fun _ _ => True) rfl rfl (plain rfl) (fun _ _ => rfl) (fun _ _ _ => trivial) fun _ =>
    par_read (fun _ _ => True) rfl rfl (plain rfl) (fun _ _ => rfl) (fun _ _ _ => trivial) fun _ =>
    par_local rfl rfl var_numberOfShafts rfl fun _ =>
    par_local rfl rfl var_numberOfAPAs rfl fun _ =>
    par_local rfl rfl var_numberOfUAEmitterSystems rfl fun _ =>
    par_unknown (fun _ _ => gives_range0 (gives_name rfl)) (by simp) no_null null_taken rfl rfl rfl
      var_idx rfl rfl <|
    par_unknown (fun _ _ => gives_range0 (gives_name rfl)) (by simp) no_null null_taken rfl rfl rfl
      var_idx rfl rfl <|
    par_unknown (fun _ _ => gives_range0 (gives_name rfl)) (by simp) no_null null_taken rfl rfl rfl
      var_idx rfl rfl <|
    par_nil

theorem UaPdu.builds (n : Nat) : Builds (run (n + 4)) I.UaPdu UaPdu.fields Dis.UaPdu.init Dis.UaPdu.parseInto :=
  builds_of (UaPdu.makes (n + 0)) (UaPdu.parses (n + 0))

theorem SignalPdu.found : look I.SignalPdu program = some SignalPdu := rfl

theorem SignalPdu.serializes (n : Nat) (x : Dis.SignalPdu) :
    Serializes (run (n + 4)) I.SignalPdu (SignalPdu.enc x) x.serialize :=
  serializes_of (n := n + 3) (d := I.SignalPdu) (f := SignalPdu.serialize) rfl rfl <|
    ser_cons (ser_super (c := I.SignalPdu) rfl (Or.inl rfl) SignalPdu.found rfl rfl (RadioCommunicationsFamilyPdu.serializes (n + 0) _ _ _)) <|
    ser_cons (ser_call rfl (plain rfl) rfl rfl rfl (EntityIdentifier.serializes (n + 1) _)) <|
    ser_cons (ser_write (gives_attr (gives_name rfl) (plain rfl) rfl) rfl rfl rfl) <|
    ser_cons (ser_write (gives_attr (gives_name rfl) (plain rfl) rfl) rfl rfl rfl) <|
    ser_cons (ser_write (gives_attr (gives_name rfl) (plain rfl) rfl) rfl rfl rfl) <|
    ser_cons (ser_write (gives_attr (gives_name rfl) (plain rfl) rfl) rfl rfl rfl) <|
    ser_cons (ser_write (gives_bin (gives_len_map (gives_attr (gives_name rfl) (plain rfl) rfl)) gives_int fun _ => rfl) rfl rfl (packInt_int _ _)) <|
    ser_cons (ser_write (gives_attr (gives_name rfl) (plain rfl) rfl) rfl rfl rfl) <|
    ser_last <| ser_for (gives_attr (gives_name rfl) (plain rfl) rfl) var_b rfl fun a _ =>
      ser_last (ser_write (gives_name rfl) rfl rfl rfl)

theorem SignalPdu.makes (n : Nat) : Makes (run (n + 4)) I.SignalPdu (SignalPdu.enc Dis.SignalPdu.init) :=
  makes_of (p := (I.SignalPdu, SignalPdu.__init__)) (by decide +kernel) rfl rfl rfl (by kernel_rfl) fun _ => by kernel_rfl

theorem SignalPdu.parses (n : Nat) :
    Parses (run (n + 4)) I.SignalPdu I.SignalPdu SignalPdu.fields Dis.SignalPdu.parseInto :=
  parses_of (n := n + 3) (d := I.SignalPdu) (f := SignalPdu.parse) rfl rfl <|
    par_super (Q' := fun _ => True) (c := I.SignalPdu) (hs := fun x y => RadioCommunicationsFamilyPdu.fields y ++ (SignalPdu.own x))
      (fun _ => RadioCommunicationsFamilyPdu.parses (n + 0) _ _) rfl (Or.inl rfl) SignalPdu.found rfl (fun _ => rfl) (fun _ _ => rfl) (fun _ _ _ => trivial) <|
    par_call (Q' := fun _ => True) (EntityIdentifier.parses (n + 1)) rfl (plain rfl) (fun _ => rfl) (fun _ _ => rfl) (fun _ _ _ => trivial) <|
    par_read (fun _ _ => True) rfl rfl (plain rfl) (fun _ _ => rfl) (fun _ _ _ => trivial) fun _ =>
    par_read (fun _ _ => True) rfl rfl (plain rfl) (fun _ _ => rfl) (fun _ _ _ => trivial) fun _ =>
    par_read (fun _ _ => True) rfl rfl (plain rfl) (fun _ _ => rfl) (fun _ _ _ => trivial) fun _ =>
    par_read (fun _ _ => True) rfl rfl (plain rfl) (fun _ _ => rfl) (fun _ _ _ => trivial) fun _ =>
    par_local rfl rfl var_dataLength rfl fun _ =>
    par_read (fun _ _ => True) rfl rfl (plain rfl) (fun _ _ => rfl) (fun _ _ _ => trivial) fun _ =>
    par_reads (Q' := fun _ => True) (fun _ _ => gives_range0 (gives_bin (gives_name rfl) gives_int fun _ => rfl)) (by simp [Int.fdiv_eq_ediv_of_nonneg]) rfl rfl (plain rfl) (fun _ => rfl)
      (fun _ _ => rfl) (fun _ _ _ => trivial) var_idx rfl rfl var_element rfl rfl (fun _ _ => trivial) <|
    par_nil

theorem SignalPdu.builds (n : Nat) : Builds (run (n + 4)) I.SignalPdu SignalPdu.fields Dis.SignalPdu.init Dis.SignalPdu.parseInto :=
  builds_of (SignalPdu.makes (n + 0)) (SignalPdu.parses (n + 0))

theorem RemoveEntityReliablePdu.found : look I.RemoveEntityReliablePdu program = some RemoveEntityReliablePdu := rfl

theorem RemoveEntityReliablePdu.serializes (n : Nat) (x : Dis.RemoveEntityReliablePdu) :
    Serializes (run (n + 4)) I.RemoveEntityReliablePdu (RemoveEntityReliablePdu.enc x) x.serialize :=
  serializes_of (n := n + 3) (d := I.RemoveEntityReliablePdu) (f := RemoveEntityReliablePdu.serialize) rfl rfl <|
    ser_cons (ser_super (c := I.RemoveEntityReliablePdu) rfl (Or.inl rfl) RemoveEntityReliablePdu.found rfl rfl (SimulationManagementWithReliabilityFamilyPdu.serializes (n + 0) _ _ _)) <|
    ser_cons (ser_write (gives_attr (gives_name rfl) (plain rfl) rfl) rfl rfl rfl) <|
    ser_cons (ser_write (gives_attr (gives_name rfl) (plain rfl) rfl) rfl rfl rfl) <|
    ser_cons (ser_write (gives_attr (gives_name rfl) (plain rfl) rfl) rfl rfl rfl) <|
    ser_last <| ser_write (gives_attr (gives_name rfl) (plain rfl) rfl) rfl rfl rfl

theorem RemoveEntityReliablePdu.makes (n : Nat) : Makes (run (n + 4)) I.RemoveEntityReliablePdu (RemoveEntityReliablePdu.enc Dis.RemoveEntityReliablePdu.init) :=
  makes_of (p := (I.RemoveEntityReliablePdu, RemoveEntityReliablePdu.__init__)) (by decide +kernel) rfl rfl rfl (by kernel_rfl) fun _ => by kernel_rfl

theorem RemoveEntityReliablePdu.parses (n : Nat) :
    Parses (run (n + 4)) I.RemoveEntityReliablePdu I.RemoveEntityReliablePdu RemoveEntityReliablePdu.fields Dis.RemoveEntityReliablePdu.parseInto :=
  parses_of (n := n + 3) (d := I.RemoveEntityReliablePdu) (f := RemoveEntityReliablePdu.parse) rfl rfl <|
    par_super (Q' := fun _ => True) (c := I.RemoveEntityReliablePdu) (hs := fun x y => SimulationManagementWithReliabilityFamilyPdu.fields y ++ (RemoveEntityReliablePdu.own x))
      (fun _ => SimulationManagementWithReliabilityFamilyPdu.parses (n + 0) _ _) rfl (Or.inl rfl) RemoveEntityReliablePdu.found rfl (fun _ => rfl) (fun _ _ => rfl) (fun _ _ _ => trivial) <|
    par_read (fun _ _ => True) rfl rfl (plain rfl) (fun _ _ => rfl) (fun _ _ _ => trivial) fun _ =>
    par_read (fun _ _ => True) rfl rfl (plain rfl) (fun _ _ => rfl) (fun _ _ _ => trivial) fun _ =>
    par_read (fun _ _ => True) rfl rfl (plain rfl) (fun _ _ => rfl) (fun _ _ _ => trivial) fun _ =>
    par_read (fun _ _ => True) rfl rfl (plain rfl) (fun _ _ => rfl) (fun _ _ _ => trivial) fun _ =>
    par_nil

theorem RemoveEntityReliablePdu.builds (n : Nat) : Builds (run (n + 4)) I.RemoveEntityReliablePdu RemoveEntityReliablePdu.fields Dis.RemoveEntityReliablePdu.init Dis.RemoveEntityReliablePdu.parseInto :=
  builds_of (RemoveEntityReliablePdu.makes (n + 0)) (RemoveEntityReliablePdu.parses (n + 0))

theorem SeesPdu.found : look I.SeesPdu program = some SeesPdu := rfl

theorem SeesPdu.serializes (n : Nat) (x : Dis.SeesPdu) :
    Serializes (run (n + 4)) I.SeesPdu (SeesPdu.enc x) x.serialize :=
  serializes_of (n := n + 3) (d := I.SeesPdu) (f := SeesPdu.serialize) rfl rfl <|
    ser_cons (ser_super (c := I.SeesPdu) rfl (Or.inl rfl) SeesPdu.found rfl rfl (DistributedEmissionsFamilyPdu.serializes (n + 0) _ _ _)) <|
    ser_cons (ser_call rfl (plain rfl) rfl rfl rfl (EntityIdentifier.serializes (n + 1) _)) <|
    ser_cons (ser_write (gives_attr (gives_name rfl) (plain rfl) rfl) rfl rfl rfl) <|
    ser_cons (ser_write (gives_attr (gives_name rfl) (plain rfl) rfl) rfl rfl rfl) <|
    ser_cons (ser_write (gives_attr (gives_name rfl) (plain rfl) rfl) rfl rfl rfl) <|
    ser_cons (ser_write (gives_property (gives_name rfl) (by decide +kernel)
        (fun io => property_of (n := n + 2) (d := I.SeesPdu) (f := SeesPdu.numberOfPropulsionSystems) rfl rfl rfl (gives_len_map (gives_attr (gives_name rfl) (plain rfl) rfl)) io)) rfl rfl (packInt_int _ _)) <|
    ser_cons (ser_write (gives_property (gives_name rfl) (by decide +kernel)
        (fun io => property_of (n := n + 2) (d := I.SeesPdu) (f := SeesPdu.numberOfVectoringNozzleSystems) rfl rfl rfl (gives_len_map (gives_attr (gives_name rfl) (plain rfl) rfl)) io)) rfl rfl (packInt_int _ _)) <|
    ser_cons (ser_for (gives_attr (gives_name rfl) (plain rfl) rfl) var_anObj rfl fun a _ =>
      ser_last (ser_var rfl rfl (PropulsionSystemData.serializes (n + 2) a))) <|
    ser_last <| ser_for (gives_attr (gives_name rfl) (plain rfl) rfl) var_anObj rfl fun a _ =>
      ser_last (ser_var rfl rfl (VectoringNozzleSystem.serializes (n + 2) a))

theorem SeesPdu.makes (n : Nat) : Makes (run (n + 4)) I.SeesPdu (SeesPdu.enc Dis.SeesPdu.init) :=
  makes_of (p := (I.SeesPdu, SeesPdu.__init__)) (by decide +kernel) rfl rfl rfl (by kernel_rfl) fun _ => by kernel_rfl

theorem SeesPdu.parses (n : Nat) :
    Parses (run (n + 4)) I.SeesPdu I.SeesPdu SeesPdu.fields Dis.SeesPdu.parseInto :=
  parses_of (n := n + 3) (d := I.SeesPdu) (f := SeesPdu.parse) rfl rfl <|
    par_super (Q' := fun _ => True) (c := I.SeesPdu) (hs := fun x y => DistributedEmissionsFamilyPdu.fields y ++ (SeesPdu.own x))
      (fun _ => DistributedEmissionsFamilyPdu.parses (n + 0) _ _) rfl (Or.inl rfl) SeesPdu.found rfl (fun _ => rfl) (fun _ _ => rfl) (fun _ _ _ => trivial) <|
    par_call (Q' := fun _ => True) (EntityIdentifier.parses (n + 1)) rfl (plain rfl) (fun _ => rfl) (fun _ _ => rfl) (fun _ _ _ => trivial) <|
    par_read (fun _ _ => True) rfl rfl (plain rfl) (fun _ _ => rfl) (fun _ _ _ => trivial) fun _ =>
    par_read (fun _ _ => True) rfl rfl (plain rfl) (fun _ _ => rfl) (fun _ _ _ => trivial) fun _ =>
    par_read (fun _ _ => True) rfl rfl (plain rfl) (fun _ _ => rfl) (fun _ _ _ => trivial) fun _ =>
    par_local rfl rfl var_numberOfPropulsionSystems rfl fun _ =>
    par_local rfl rfl var_numberOfVectoringNozzleSystems rfl fun _ =>
    par_unknown (fun _ _ => gives_range0 (gives_name rfl)) (by simp) no_null null_taken rfl rfl rfl
      var_idx rfl rfl <|
    par_unknown (fun _ _ => gives_range0 (gives_name rfl)) (by simp) no_null null_taken rfl rfl rfl
      var_idx rfl rfl <|
    par_nil

theorem SeesPdu.builds (n : Nat) : Builds (run (n + 4)) I.SeesPdu SeesPdu.fields Dis.SeesPdu.init Dis.SeesPdu.parseInto :=
  builds_of (SeesPdu.makes (n + 0)) (SeesPdu.parses (n + 0))

theorem CreateEntityReliablePdu.found : look I.CreateEntityReliablePdu program = some CreateEntityReliablePdu := rfl

theorem CreateEntityReliablePdu.serializes (n : Nat) (x : Dis.CreateEntityReliablePdu) :
    Serializes (run (n + 4)) I.CreateEntityReliablePdu (CreateEntityReliablePdu.enc x) x.serialize :=
  serializes_of (n := n + 3) (d := I.CreateEntityReliablePdu) (f := CreateEntityReliablePdu.serialize) rfl rfl <|
    ser_cons (ser_super (c := I.CreateEntityReliablePdu) rfl (Or.inl rfl) CreateEntityReliablePdu.found rfl rfl (SimulationManagementWithReliabilityFamilyPdu.serializes (n + 0) _ _ _)) <|
    ser_cons (ser_write (gives_attr (gives_name rfl) (plain rfl) rfl) rfl rfl rfl) <|
    ser_cons (ser_write (gives_attr (gives_name rfl) (plain rfl) rfl) rfl rfl rfl) <|
    ser_cons (ser_write (gives_attr (gives_name rfl) (plain rfl) rfl) rfl rfl rfl) <|
    ser_last <| ser_write (gives_attr (gives_name rfl) (plain rfl) rfl) rfl rfl rfl

theorem CreateEntityReliablePdu.makes (n : Nat) : Makes (run (n + 4)) I.CreateEntityReliablePdu (CreateEntityReliablePdu.enc Dis.CreateEntityReliablePdu.init) :=
  makes_of (p := (I.CreateEntityReliablePdu, CreateEntityReliablePdu.__init__)) (by decide +kernel) rfl rfl rfl (by kernel_rfl) fun _ => by kernel_rfl

theorem CreateEntityReliablePdu.parses (n : Nat) :
    Parses (run (n + 4)) I.CreateEntityReliablePdu I.CreateEntityReliablePdu CreateEntityReliablePdu.fields Dis.CreateEntityReliablePdu.parseInto :=
  parses_of (n := n + 3) (d := I.CreateEntityReliablePdu) (f := CreateEntityReliablePdu.parse) rfl rfl <|
    par_super (Q' := fun _ => True) (c := I.CreateEntityReliablePdu) (hs := fun x y => SimulationManagementWithReliabilityFamilyPdu.fields y ++ (CreateEntityReliablePdu.own x))
      (fun _ => SimulationManagementWithReliabilityFamilyPdu.parses (n + 0) _ _) rfl (Or.inl rfl) CreateEntityReliablePdu.found rfl (fun _ => rfl) (fun _ _ => rfl) (fun _ _ _ => trivial) <|
    par_read (fun _ _ => True) rfl rfl (plain rfl) (fun _ _ => rfl) (fun _ _ _ => trivial) fun _ =>
    par_read (fun _ _ => True) rfl rfl (plain rfl) (fun _ _ => rfl) (fun _ _ _ => trivial) fun _ =>
    par_read (fun _ _ => True) rfl rfl (plain rfl) (fun _ _ => rfl) (fun _ _ _ => trivial) fun _ =>
    par_read (fun _ _ => True) rfl rfl (plain rfl) (fun _ _ => rfl) (fun _ _ _ => trivial) fun _ =>
    par_nil

theorem CreateEntityReliablePdu.builds (n : Nat) : Builds (run (n + 4)) I.CreateEntityReliablePdu CreateEntityReliablePdu.fields Dis.CreateEntityReliablePdu.init Dis.CreateEntityReliablePdu.parseInto :=
  builds_of (CreateEntityReliablePdu.makes (n + 0)) (CreateEntityReliablePdu.parses (n + 0))

theorem StopFreezeReliablePdu.found : look I.StopFreezeReliablePdu program = some StopFreezeReliablePdu := rfl

theorem StopFreezeReliablePdu.serializes (n : Nat) (x : Dis.StopFreezeReliablePdu) :
    Serializes (run (n + 4)) I.StopFreezeReliablePdu (StopFreezeReliablePdu.enc x) x.serialize :=
  serializes_of (n := n + 3) (d := I.StopFreezeReliablePdu) (f := StopFreezeReliablePdu.serialize) rfl rfl <|
    ser_cons (ser_super (c := I.StopFreezeReliablePdu) rfl (Or.inl rfl) StopFreezeReliablePdu.found rfl rfl (SimulationManagementWithReliabilityFamilyPdu.serializes (n + 0) _ _ _)) <|
    ser_cons (ser_call rfl (plain rfl) rfl rfl rfl (ClockTime.serializes (n + 2) _)) <|
    ser_cons (ser_write (gives_attr (gives_name rfl) (plain rfl) rfl) rfl rfl rfl) <|
    ser_cons (ser_write (gives_attr (gives_name rfl) (plain rfl) rfl) rfl rfl rfl) <|
    ser_cons (ser_write (gives_attr (gives_name rfl) (plain rfl) rfl) rfl rfl rfl) <|
    ser_cons (ser_write (gives_attr (gives_name rfl) (plain rfl) rfl) rfl rfl rfl) <|
    ser_last <| ser_write (gives_attr (gives_name rfl) (plain rfl) rfl) rfl rfl rfl

theorem StopFreezeReliablePdu.makes (n : Nat) : Makes (run (n + 4)) I.StopFreezeReliablePdu (StopFreezeReliablePdu.enc Dis.StopFreezeReliablePdu.init) :=
  makes_of (p := (I.StopFreezeReliablePdu, StopFreezeReliablePdu.__init__)) (by decide +kernel) rfl rfl rfl (by kernel_rfl) fun _ => by kernel_rfl

theorem StopFreezeReliablePdu.parses (n : Nat) :
    Parses (run (n + 4)) I.StopFreezeReliablePdu I.StopFreezeReliablePdu StopFreezeReliablePdu.fields Dis.StopFreezeReliablePdu.parseInto :=
  parses_of (n := n + 3) (d := I.StopFreezeReliablePdu) (f := StopFreezeReliablePdu.parse) rfl rfl <|
    par_super (Q' := fun _ => True) (c := I.StopFreezeReliablePdu) (hs := fun x y => SimulationManagementWithReliabilityFamilyPdu.fields y ++ (StopFreezeReliablePdu.own x))
      (fun _ => SimulationManagementWithReliabilityFamilyPdu.parses (n + 0) _ _) rfl (Or.inl rfl) StopFreezeReliablePdu.found rfl (fun _ => rfl) (fun _ _ => rfl) (fun _ _ _ => trivial) <|
    par_call (Q' := fun _ => True) (ClockTime.parses (n + 2)) rfl (plain rfl) (fun _ => rfl) (fun _ _ => rfl) (fun _ _ _ => trivial) <|
    par_read (fun _ _ => True) rfl rfl (plain rfl) (fun _ _ => rfl) (fun _ _ _ => trivial) fun _ =>
    par_read (fun _ _ => True) rfl rfl (plain rfl) (fun _ _ => rfl) (fun _ _ _ => trivial) fun _ =>
    par_read (fun _ _ => True) rfl rfl (plain rfl) (fun _ _ => rfl) (fun _ _ _ => trivial) fun _ =>
    par_read (fun _ _ => True) rfl rfl (plain rfl) (fun _ _ => rfl) (fun _ _ _ => trivial) fun _ =>
    par_read (fun _ _ => True) rfl rfl (plain rfl) (fun _ _ => rfl) (fun _ _ _ => trivial) fun _ =>
    par_nil

theorem StopFreezeReliablePdu.builds (n : Nat) : Builds (run (n + 4)) I.StopFreezeReliablePdu StopFreezeReliablePdu.fields Dis.StopFreezeReliablePdu.init Dis.StopFreezeReliablePdu.parseInto :=
  builds_of (StopFreezeReliablePdu.makes (n + 0)) (StopFreezeReliablePdu.parses (n + 0))

theorem MinefieldResponseNackPdu.found : look I.MinefieldResponseNackPdu program = some MinefieldResponseNackPdu := rfl

theorem MinefieldResponseNackPdu.serializes (n : Nat) (x : Dis.MinefieldResponseNackPdu) :
    Serializes (run (n + 4)) I.MinefieldResponseNackPdu (MinefieldResponseNackPdu.enc x) x.serialize :=
  serializes_of (n := n + 3) (d := I.MinefieldResponseNackPdu) (f := MinefieldResponseNackPdu.serialize) rfl rfl <|
    ser_cons (ser_super (c := I.MinefieldResponseNackPdu) rfl (Or.inl rfl) MinefieldResponseNackPdu.found rfl rfl (MinefieldFamilyPdu.serializes (n + 0) _ _ _)) <|
    ser_cons (ser_call rfl (plain rfl) rfl rfl rfl (EntityIdentifier.serializes (n + 1) _)) <|
    ser_cons (ser_call rfl (plain rfl) rfl rfl rfl (EntityIdentifier.serializes (n + 1) _)) <|
    ser_cons (ser_write (gives_attr (gives_name rfl) (plain rfl) rfl) rfl rfl rfl) <|
    ser_cons (ser_write (gives_property (gives_name rfl) (by decide +kernel)
        (fun io => property_of (n := n + 2) (d := I.MinefieldResponseNackPdu) (f := MinefieldResponseNackPdu.numberOfMissingPdus) rfl rfl rfl (gives_len_map (gives_attr (gives_name rfl) (plain rfl) rfl)) io)) rfl rfl (packInt_int _ _)) <|
    ser_last <| ser_for (gives_attr (gives_name rfl) (plain rfl) rfl) var_anObj rfl fun a _ =>
      ser_last (ser_no_method rfl (fun _ _ => rfl) rfl)

theorem MinefieldResponseNackPdu.makes (n : Nat) : Makes (run (n + 4)) I.MinefieldResponseNackPdu (MinefieldResponseNackPdu.enc Dis.MinefieldResponseNackPdu.init) :=
  makes_of (p := (I.MinefieldResponseNackPdu, MinefieldResponseNackPdu.__init__)) (by decide +kernel) rfl rfl rfl (by kernel_rfl) fun _ => by kernel_rfl

theorem MinefieldResponseNackPdu.parses (n : Nat) :
    Parses (run (n + 4)) I.MinefieldResponseNackPdu I.MinefieldResponseNackPdu MinefieldResponseNackPdu.fields Dis.MinefieldResponseNackPdu.parseInto :=
  parses_of (n := n + 3) (d := I.MinefieldResponseNackPdu) (f := MinefieldResponseNackPdu.parse) rfl rfl <|
    par_super (Q' := fun _ => True) (c := I.MinefieldResponseNackPdu) (hs := fun x y => MinefieldFamilyPdu.fields y ++ (MinefieldResponseNackPdu.own x))
      (fun _ => MinefieldFamilyPdu.parses (n + 0) _ _) rfl (Or.inl rfl) MinefieldResponseNackPdu.found rfl (fun _ => rfl) (fun _ _ => rfl) (fun _ _ _ => trivial) <|
    par_call (Q' := fun _ => True) (EntityIdentifier.parses (n + 1)) rfl (plain rfl) (fun _ => rfl) (fun _ _ => rfl) (fun _ _ _ => trivial) <|
    par_call (Q' := fun _ => True) (EntityIdentifier.parses (n + 1)) rfl (plain rfl) (fun _ => rfl) (fun _ _ => rfl) (fun _ _ _ => trivial) <|
    par_read (fun _ _ => True) rfl rfl (plain rfl) (fun _ _ => rfl) (fun _ _ _ => trivial) fun _ =>
    par_local rfl rfl var_numberOfMissingPdus rfl fun _ =>
    par_unknown (fun _ _ => gives_range0 (gives_name rfl)) (by simp) no_null null_taken rfl rfl rfl
      var_idx rfl rfl <|
    par_nil

theorem MinefieldResponseNackPdu.builds (n : Nat) : Builds (run (n + 4)) I.MinefieldResponseNackPdu MinefieldResponseNackPdu.fields Dis.MinefieldResponseNackPdu.init Dis.MinefieldResponseNackPdu.parseInto :=
  builds_of (MinefieldResponseNackPdu.makes (n + 0)) (MinefieldResponseNackPdu.parses (n + 0))

theorem IsPartOfPdu.found : look I.IsPartOfPdu program = some IsPartOfPdu := rfl

theorem IsPartOfPdu.serializes (n : Nat) (x : Dis.IsPartOfPdu) :
    Serializes (run (n + 4)) I.IsPartOfPdu (IsPartOfPdu.enc x) x.serialize :=
  serializes_of (n := n + 3) (d := I.IsPartOfPdu) (f := IsPartOfPdu.serialize) rfl rfl <|
    ser_cons (ser_super (c := I.IsPartOfPdu) rfl (Or.inl rfl) IsPartOfPdu.found rfl rfl (EntityManagementFamilyPdu.serializes (n + 0) _ _ _)) <|
    ser_cons (ser_call rfl (plain rfl) rfl rfl rfl (EntityIdentifier.serializes (n + 1) _)) <|
    ser_cons (ser_call rfl (plain rfl) rfl rfl rfl (EntityIdentifier.serializes (n + 1) _)) <|
    ser_cons (ser_call rfl (plain rfl) rfl rfl rfl (Relationship.serializes (n + 2) _)) <|
    ser_cons (ser_call rfl (plain rfl) rfl rfl rfl (Vector3Float.serializes (n + 2) _)) <|
    ser_cons (ser_call rfl (plain rfl) rfl rfl rfl (NamedLocationIdentification.serializes (n + 2) _)) <|
    ser_last <| ser_call rfl (plain rfl) rfl rfl rfl (EntityType.serializes (n + 2) _)

theorem IsPartOfPdu.makes (n : Nat) : Makes (run (n + 4)) I.IsPartOfPdu (IsPartOfPdu.enc Dis.IsPartOfPdu.init) :=
  makes_of (p := (I.IsPartOfPdu, IsPartOfPdu.__init__)) (by decide +kernel) rfl rfl rfl (by kernel_rfl) fun _ => by kernel_rfl

theorem IsPartOfPdu.parses (n : Nat) :
    Parses (run (n + 4)) I.IsPartOfPdu I.IsPartOfPdu IsPartOfPdu.fields Dis.IsPartOfPdu.parseInto :=
  parses_of (n := n + 3) (d := I.IsPartOfPdu) (f := IsPartOfPdu.parse) rfl rfl <|
    par_super (Q' := fun _ => True) (c := I.IsPartOfPdu) (hs := fun x y => EntityManagementFamilyPdu.fields y ++ (IsPartOfPdu.own x))
      (fun _ => EntityManagementFamilyPdu.parses (n + 0) _ _) rfl (Or.inl rfl) IsPartOfPdu.found rfl (fun _ => rfl) (fun _ _ => rfl) (fun _ _ _ => trivial) <|
    par_call (Q' := fun _ => True) (EntityIdentifier.parses (n + 1)) rfl (plain rfl) (fun _ => rfl) (fun _ _ => rfl) (fun _ _ _ => trivial) <|
    par_call (Q' := fun _ => True) (EntityIdentifier.parses (n + 1)) rfl (plain rfl) (fun _ => rfl) (fun _ _ => rfl) (fun _ _ _ => trivial) <|
    par_call (Q' := fun _ => True) (Relationship.parses (n + 2)) rfl (plain rfl) (fun _ => rfl) (fun _ _ => rfl) (fun _ _ _ => trivial) <|
    par_call (Q' := fun _ => True) (Vector3Float.parses (n + 2)) rfl (plain rfl) (fun _ => rfl) (fun _ _ => rfl) (fun _ _ _ => trivial) <|
    par_call (Q' := fun _ => True) (NamedLocationIdentification.parses (n + 2)) rfl (plain rfl) (fun _ => rfl) (fun _ _ => rfl) (fun _ _ _ => trivial) <|
    par_call (Q' := fun _ => True) (EntityType.parses (n + 2)) rfl (plain rfl) (fun _ => rfl) (fun _ _ => rfl) (fun _ _ _ => trivial) <|
    par_nil

theorem IsPartOfPdu.builds (n : Nat) : Builds (run (n + 4)) I.IsPartOfPdu IsPartOfPdu.fields Dis.IsPartOfPdu.init Dis.IsPartOfPdu.parseInto :=
  builds_of (IsPartOfPdu.makes (n + 0)) (IsPartOfPdu.parses (n + 0))

end Dis.Src
