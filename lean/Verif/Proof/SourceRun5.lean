import Verif.Proof.SourceHand
import Verif.Source.Encode5

/-!
# The classes do what their syntax trees say, part 5

Written by `tools/gensourceproof.py`.
-/

set_option linter.unusedVariables false
set_option linter.unusedSimpArgs false

namespace Dis.Src

theorem DatumSpecification.serializes (n : Nat) (x : Dis.DatumSpecification) :
    Serializes (run (n + 3)) I.DatumSpecification (DatumSpecification.enc x) x.serialize :=
  serializes_of (n := n + 2) (d := I.DatumSpecification) (f := DatumSpecification.serialize) rfl rfl <|
    ser_cons (ser_write (gives_property (gives_name rfl) (by decide +kernel)
        (fun io => property_of (n := n + 1) (d := I.DatumSpecification) (f := DatumSpecification.numberOfFixedDatumRecords) rfl rfl rfl (gives_len_map (gives_attr (gives_name rfl) (by decide +kernel : isProperty program I.DatumSpecification I.fixedDatumRecords = false) rfl)) io)) rfl rfl (packInt_int _ _)) <|
    ser_cons (ser_write (gives_property (gives_name rfl) (by decide +kernel)
        (fun io => property_of (n := n + 1) (d := I.DatumSpecification) (f := DatumSpecification.numberOfVariableDatumRecords) rfl rfl rfl (gives_len_map (gives_attr (gives_name rfl) (by decide +kernel : isProperty program I.DatumSpecification I.variableDatumRecords = false) rfl)) io)) rfl rfl (packInt_int _ _)) <|
    ser_cons (ser_for (gives_attr (gives_name rfl) (by decide +kernel : isProperty program I.DatumSpecification I.fixedDatumRecords = false) rfl) var_anObj rfl fun a _ =>
      ser_last (ser_var rfl rfl (FixedDatum.serializes (n + 1) a))) <|
    ser_last <| ser_for (gives_attr (gives_name rfl) (by decide +kernel : isProperty program I.DatumSpecification I.variableDatumRecords = false) rfl) var_anObj rfl fun a _ =>
      ser_last (ser_var rfl rfl (VariableDatum.serializes (n + 0) a))

theorem DatumSpecification.makes (n : Nat) : Makes (run (n + 1)) I.DatumSpecification (DatumSpecification.enc Dis.DatumSpecification.init) :=
  makes_of (p := (I.DatumSpecification, DatumSpecification.__init__)) (by decide +kernel) rfl rfl rfl (by kernel_rfl) fun _ => by kernel_rfl

theorem DatumSpecification.parses (n : Nat) :
    Parses (run (n + 3)) I.DatumSpecification I.DatumSpecification DatumSpecification.fields Dis.DatumSpecification.parseInto :=
  parses_of (n := n + 2) (d := I.DatumSpecification) (f := DatumSpecification.parse) rfl rfl <|
    par_local rfl rfl var_numberOfFixedDatumRecords rfl fun _ =>
    par_local rfl rfl var_numberOfVariableDatumRecords rfl fun _ =>
    par_objs (fun _ _ => gives_range0 (gives_name rfl)) (by simp) (FixedDatum.builds (n + 1)) rfl
      (by decide +kernel : isProperty program I.DatumSpecification I.fixedDatumRecords = false) (fun _ => rfl) (fun _ _ => rfl) var_idx rfl rfl var_element rfl rfl <|
    par_objs (fun _ _ => gives_range0 (gives_name rfl)) (by simp) (VariableDatum.builds (n + 0)) rfl
      (by decide +kernel : isProperty program I.DatumSpecification I.variableDatumRecords = false) (fun _ => rfl) (fun _ _ => rfl) var_idx rfl rfl var_element rfl rfl <|
    par_nil

theorem DatumSpecification.builds (n : Nat) : Builds (run (n + 3)) I.DatumSpecification DatumSpecification.fields Dis.DatumSpecification.init Dis.DatumSpecification.parseInto :=
  builds_of (DatumSpecification.makes (n + 2)) (DatumSpecification.parses (n + 0))

theorem ActionRequestPdu.found : look I.ActionRequestPdu program = some ActionRequestPdu := rfl

theorem ActionRequestPdu.serializes (n : Nat) (x : Dis.ActionRequestPdu) :
    Serializes (run (n + 4)) I.ActionRequestPdu (ActionRequestPdu.enc x) x.serialize :=
  serializes_of (n := n + 3) (d := I.ActionRequestPdu) (f := ActionRequestPdu.serialize) rfl rfl <|
    ser_cons (ser_super (c := I.ActionRequestPdu) rfl (Or.inl rfl) ActionRequestPdu.found rfl rfl (SimulationManagementFamilyPdu.serializes (n + 0) _ _ _)) <|
    ser_cons (ser_write (gives_attr (gives_name rfl) (plain rfl) rfl) rfl rfl rfl) <|
    ser_cons (ser_write (gives_attr (gives_name rfl) (plain rfl) rfl) rfl rfl rfl) <|
    ser_last <| ser_call rfl (plain rfl) rfl rfl rfl (DatumSpecification.serializes (n + 0) _)

theorem ActionRequestPdu.makes (n : Nat) : Makes (run (n + 4)) I.ActionRequestPdu (ActionRequestPdu.enc Dis.ActionRequestPdu.init) :=
  makes_of (p := (I.ActionRequestPdu, ActionRequestPdu.__init__)) (by decide +kernel) rfl rfl rfl (by kernel_rfl) fun _ => by kernel_rfl

theorem ActionRequestPdu.parses (n : Nat) :
    Parses (run (n + 4)) I.ActionRequestPdu I.ActionRequestPdu ActionRequestPdu.fields Dis.ActionRequestPdu.parseInto :=
  parses_of (n := n + 3) (d := I.ActionRequestPdu) (f := ActionRequestPdu.parse) rfl rfl <|
    par_super (Q' := fun _ => True) (c := I.ActionRequestPdu) (hs := fun x y => SimulationManagementFamilyPdu.fields y ++ (ActionRequestPdu.own x))
      (fun _ => SimulationManagementFamilyPdu.parses (n + 0) _ _) rfl (Or.inl rfl) ActionRequestPdu.found rfl (fun _ => rfl) (fun _ _ => rfl) (fun _ _ _ => trivial) <|
    par_read (fun _ _ => True) rfl rfl (plain rfl) (fun _ _ => rfl) (fun _ _ _ => trivial) fun _ =>
    par_read (fun _ _ => True) rfl rfl (plain rfl) (fun _ _ => rfl) (fun _ _ _ => trivial) fun _ =>
    par_call (Q' := fun _ => True) (DatumSpecification.parses (n + 0)) rfl (plain rfl) (fun _ => rfl) (fun _ _ => rfl) (fun _ _ _ => trivial) <|
    par_nil

theorem ActionRequestPdu.builds (n : Nat) : Builds (run (n + 4)) I.ActionRequestPdu ActionRequestPdu.fields Dis.ActionRequestPdu.init Dis.ActionRequestPdu.parseInto :=
  builds_of (ActionRequestPdu.makes (n + 0)) (ActionRequestPdu.parses (n + 0))

theorem ActionRequestReliablePdu.found : look I.ActionRequestReliablePdu program = some ActionRequestReliablePdu := rfl

theorem ActionRequestReliablePdu.serializes (n : Nat) (x : Dis.ActionRequestReliablePdu) :
    Serializes (run (n + 4)) I.ActionRequestReliablePdu (ActionRequestReliablePdu.enc x) x.serialize :=
  serializes_of (n := n + 3) (d := I.ActionRequestReliablePdu) (f := ActionRequestReliablePdu.serialize) rfl rfl <|
    ser_cons (ser_super (c := I.ActionRequestReliablePdu) rfl (Or.inl rfl) ActionRequestReliablePdu.found rfl rfl (SimulationManagementWithReliabilityFamilyPdu.serializes (n + 0) _ _ _)) <|
    ser_cons (ser_write (gives_attr (gives_name rfl) (plain rfl) rfl) rfl rfl rfl) <|
    ser_cons (ser_write (gives_attr (gives_name rfl) (plain rfl) rfl) rfl rfl rfl) <|
    ser_cons (ser_write (gives_attr (gives_name rfl) (plain rfl) rfl) rfl rfl rfl) <|
    ser_cons (ser_write (gives_attr (gives_name rfl) (plain rfl) rfl) rfl rfl rfl) <|
    ser_cons (ser_write (gives_attr (gives_name rfl) (plain rfl) rfl) rfl rfl rfl) <|
    ser_cons (ser_write (gives_attr (gives_name rfl) (plain rfl) rfl) rfl rfl rfl) <|
    ser_last <| ser_call rfl (plain rfl) rfl rfl rfl (DatumSpecification.serializes (n + 0) _)

theorem ActionRequestReliablePdu.makes (n : Nat) : Makes (run (n + 4)) I.ActionRequestReliablePdu (ActionRequestReliablePdu.enc Dis.ActionRequestReliablePdu.init) :=
  makes_of (p := (I.ActionRequestReliablePdu, ActionRequestReliablePdu.__init__)) (by decide +kernel) rfl rfl rfl (by kernel_rfl) fun _ => by kernel_rfl

theorem ActionRequestReliablePdu.parses (n : Nat) :
    Parses (run (n + 4)) I.ActionRequestReliablePdu I.ActionRequestReliablePdu ActionRequestReliablePdu.fields Dis.ActionRequestReliablePdu.parseInto :=
  parses_of (n := n + 3) (d := I.ActionRequestReliablePdu) (f := ActionRequestReliablePdu.parse) rfl rfl <|
    par_super (Q' := fun _ => True) (c := I.ActionRequestReliablePdu) (hs := fun x y => SimulationManagementWithReliabilityFamilyPdu.fields y ++ (ActionRequestReliablePdu.own x))
      (fun _ => SimulationManagementWithReliabilityFamilyPdu.parses (n + 0) _ _) rfl (Or.inl rfl) ActionRequestReliablePdu.found rfl (fun _ => rfl) (fun _ _ => rfl) (fun _ _ _ => trivial) <|
    par_read (fun _ _ => True) rfl rfl (plain rfl) (fun _ _ => rfl) (fun _ _ _ => trivial) fun _ =>
    par_read (fun _ _ => True) rfl rfl (plain rfl) (fun _ _ => rfl) (fun _ _ _ => trivial) fun _ =>
    par_read (fun _ _ => True) rfl rfl (plain rfl) (fun _ _ => rfl) (fun _ _ _ => trivial) fun _ =>
    par_read (fun _ _ => True) rfl rfl (plain rfl) (fun _ _ => rfl) (fun _ _ _ => trivial) fun _ =>
    par_read (fun _ _ => True) rfl rfl (plain rfl) (fun _ _ => rfl) (fun _ _ _ => trivial) fun _ =>
    par_read (fun _ _ => True) rfl rfl (plain rfl) (fun _ _ => rfl) (fun _ _ _ => trivial) fun _ =>
    par_call (Q' := fun _ => True) (DatumSpecification.parses (n + 0)) rfl (plain rfl) (fun _ => rfl) (fun _ _ => rfl) (fun _ _ _ => trivial) <|
    par_nil

theorem ActionRequestReliablePdu.builds (n : Nat) : Builds (run (n + 4)) I.ActionRequestReliablePdu ActionRequestReliablePdu.fields Dis.ActionRequestReliablePdu.init Dis.ActionRequestReliablePdu.parseInto :=
  builds_of (ActionRequestReliablePdu.makes (n + 0)) (ActionRequestReliablePdu.parses (n + 0))

theorem SetDataReliablePdu.found : look I.SetDataReliablePdu program = some SetDataReliablePdu := rfl

theorem SetDataReliablePdu.serializes (n : Nat) (x : Dis.SetDataReliablePdu) :
    Serializes (run (n + 4)) I.SetDataReliablePdu (SetDataReliablePdu.enc x) x.serialize :=
  serializes_of (n := n + 3) (d := I.SetDataReliablePdu) (f := SetDataReliablePdu.serialize) rfl rfl <|
    ser_cons (ser_super (c := I.SetDataReliablePdu) rfl (Or.inl rfl) SetDataReliablePdu.found rfl rfl (SimulationManagementWithReliabilityFamilyPdu.serializes (n + 0) _ _ _)) <|
    ser_cons (ser_write (gives_attr (gives_name rfl) (plain rfl) rfl) rfl rfl rfl) <|
    ser_cons (ser_write (gives_attr (gives_name rfl) (plain rfl) rfl) rfl rfl rfl) <|
    ser_cons (ser_write (gives_attr (gives_name rfl) (plain rfl) rfl) rfl rfl rfl) <|
    ser_cons (ser_write (gives_attr (gives_name rfl) (plain rfl) rfl) rfl rfl rfl) <|
    ser_last <| ser_call rfl (plain rfl) rfl rfl rfl (DatumSpecification.serializes (n + 0) _)

theorem SetDataReliablePdu.makes (n : Nat) : Makes (run (n + 4)) I.SetDataReliablePdu (SetDataReliablePdu.enc Dis.SetDataReliablePdu.init) :=
  makes_of (p := (I.SetDataReliablePdu, SetDataReliablePdu.__init__)) (by decide +kernel) rfl rfl rfl (by kernel_rfl) fun _ => by kernel_rfl

theorem SetDataReliablePdu.parses (n : Nat) :
    Parses (run (n + 4)) I.SetDataReliablePdu I.SetDataReliablePdu SetDataReliablePdu.fields Dis.SetDataReliablePdu.parseInto :=
  parses_of (n := n + 3) (d := I.SetDataReliablePdu) (f := SetDataReliablePdu.parse) rfl rfl <|
    par_super (Q' := fun _ => True) (c := I.SetDataReliablePdu) (hs := fun x y => SimulationManagementWithReliabilityFamilyPdu.fields y ++ (SetDataReliablePdu.own x))
      (fun _ => SimulationManagementWithReliabilityFamilyPdu.parses (n + 0) _ _) rfl (Or.inl rfl) SetDataReliablePdu.found rfl (fun _ => rfl) (fun _ _ => rfl) (fun _ _ _ => trivial) <|
    par_read (fun _ _ => True) rfl rfl (plain rfl) (fun _ _ => rfl) (fun _ _ _ => trivial) fun _ =>
    par_read (fun _ _ => True) rfl rfl (plain rfl) (fun _ _ => rfl) (fun _ _ _ => trivial) fun _ =>
    par_read (fun _ _ => True) rfl rfl (plain rfl) (fun _ _ => rfl) (fun _ _ _ => trivial) fun _ =>
    par_read (fun _ _ => True) rfl rfl (plain rfl) (fun _ _ => rfl) (fun _ _ _ => trivial) fun _ =>
    par_call (Q' := fun _ => True) (DatumSpecification.parses (n + 0)) rfl (plain rfl) (fun _ => rfl) (fun _ _ => rfl) (fun _ _ _ => trivial) <|
    par_nil

theorem SetDataReliablePdu.builds (n : Nat) : Builds (run (n + 4)) I.SetDataReliablePdu SetDataReliablePdu.fields Dis.SetDataReliablePdu.init Dis.SetDataReliablePdu.parseInto :=
  builds_of (SetDataReliablePdu.makes (n + 0)) (SetDataReliablePdu.parses (n + 0))

theorem EventReportPdu.found : look I.EventReportPdu program = some EventReportPdu := rfl

theorem EventReportPdu.serializes (n : Nat) (x : Dis.EventReportPdu) :
    Serializes (run (n + 4)) I.EventReportPdu (EventReportPdu.enc x) x.serialize :=
  serializes_of (n := n + 3) (d := I.EventReportPdu) (f := EventReportPdu.serialize) rfl rfl <|
    ser_cons (ser_super (c := I.EventReportPdu) rfl (Or.inl rfl) EventReportPdu.found rfl rfl (SimulationManagementFamilyPdu.serializes (n + 0) _ _ _)) <|
    ser_cons (ser_write (gives_attr (gives_name rfl) (plain rfl) rfl) rfl rfl rfl) <|
    ser_cons (ser_write (gives_attr (gives_name rfl) (plain rfl) rfl) rfl rfl rfl) <|
    ser_last <| ser_call rfl (plain rfl) rfl rfl rfl (DatumSpecification.serializes (n + 0) _)

theorem EventReportPdu.makes (n : Nat) : Makes (run (n + 4)) I.EventReportPdu (EventReportPdu.enc Dis.EventReportPdu.init) :=
  makes_of (p := (I.EventReportPdu, EventReportPdu.__init__)) (by decide +kernel) rfl rfl rfl (by kernel_rfl) fun _ => by kernel_rfl

theorem EventReportPdu.parses (n : Nat) :
    Parses (run (n + 4)) I.EventReportPdu I.EventReportPdu EventReportPdu.fields Dis.EventReportPdu.parseInto :=
  parses_of (n := n + 3) (d := I.EventReportPdu) (f := EventReportPdu.parse) rfl rfl <|
    par_super (Q' := fun _ => True) (c := I.EventReportPdu) (hs := fun x y => SimulationManagementFamilyPdu.fields y ++ (EventReportPdu.own x))
      (fun _ => SimulationManagementFamilyPdu.parses (n + 0) _ _) rfl (Or.inl rfl) EventReportPdu.found rfl (fun _ => rfl) (fun _ _ => rfl) (fun _ _ _ => trivial) <|
    par_read (fun _ _ => True) rfl rfl (plain rfl) (fun _ _ => rfl) (fun _ _ _ => trivial) fun _ =>
    par_read (fun _ _ => True) rfl rfl (plain rfl) (fun _ _ => rfl) (fun _ _ _ => trivial) fun _ =>
    par_call (Q' := fun _ => True) (DatumSpecification.parses (n + 0)) rfl (plain rfl) (fun _ => rfl) (fun _ _ => rfl) (fun _ _ _ => trivial) <|
    par_nil

theorem EventReportPdu.builds (n : Nat) : Builds (run (n + 4)) I.EventReportPdu EventReportPdu.fields Dis.EventReportPdu.init Dis.EventReportPdu.parseInto :=
  builds_of (EventReportPdu.makes (n + 0)) (EventReportPdu.parses (n + 0))

theorem DataPdu.found : look I.DataPdu program = some DataPdu := rfl

theorem DataPdu.serializes (n : Nat) (x : Dis.DataPdu) :
    Serializes (run (n + 4)) I.DataPdu (DataPdu.enc x) x.serialize :=
  serializes_of (n := n + 3) (d := I.DataPdu) (f := DataPdu.serialize) rfl rfl <|
    ser_cons (ser_super (c := I.DataPdu) rfl (Or.inl rfl) DataPdu.found rfl rfl (SimulationManagementFamilyPdu.serializes (n + 0) _ _ _)) <|
    ser_cons (ser_write (gives_attr (gives_name rfl) (plain rfl) rfl) rfl rfl rfl) <|
    ser_cons (ser_write (gives_attr (gives_name rfl) (plain rfl) rfl) rfl rfl rfl) <|
    ser_last <| ser_call rfl (plain rfl) rfl rfl rfl (DatumSpecification.serializes (n + 0) _)

theorem DataPdu.makes (n : Nat) : Makes (run (n + 4)) I.DataPdu (DataPdu.enc Dis.DataPdu.init) :=
  makes_of (p := (I.DataPdu, DataPdu.__init__)) (by decide +kernel) rfl rfl rfl (by kernel_rfl) fun _ => by kernel_rfl

theorem DataPdu.parses (n : Nat) :
    Parses (run (n + 4)) I.DataPdu I.DataPdu DataPdu.fields Dis.DataPdu.parseInto :=
  parses_of (n := n + 3) (d := I.DataPdu) (f := DataPdu.parse) rfl rfl <|
    par_super (Q' := fun _ => True) (c := I.DataPdu) (hs := fun x y => SimulationManagementFamilyPdu.fields y ++ (DataPdu.own x))
      (fun _ => SimulationManagementFamilyPdu.parses (n + 0) _ _) rfl (Or.inl rfl) DataPdu.found rfl (fun _ => rfl) (fun _ _ => rfl) (fun _ _ _ => trivial) <|
    par_read (fun _ _ => True) rfl rfl (plain rfl) (fun _ _ => rfl) (fun _ _ _ => trivial) fun _ =>
    par_read (fun _ _ => True) rfl rfl (plain rfl) (fun _ _ => rfl) (fun _ _ _ => trivial) fun _ =>
    par_call (Q' := fun _ => True) (DatumSpecification.parses (n + 0)) rfl (plain rfl) (fun _ => rfl) (fun _ _ => rfl) (fun _ _ _ => trivial) <|
    par_nil

theorem DataPdu.builds (n : Nat) : Builds (run (n + 4)) I.DataPdu DataPdu.fields Dis.DataPdu.init Dis.DataPdu.parseInto :=
  builds_of (DataPdu.makes (n + 0)) (DataPdu.parses (n + 0))

theorem DataReliablePdu.found : look I.DataReliablePdu program = some DataReliablePdu := rfl

theorem DataReliablePdu.serializes (n : Nat) (x : Dis.DataReliablePdu) :
    Serializes (run (n + 4)) I.DataReliablePdu (DataReliablePdu.enc x) x.serialize :=
  serializes_of (n := n + 3) (d := I.DataReliablePdu) (f := DataReliablePdu.serialize) rfl rfl <|
    ser_cons (ser_super (c := I.DataReliablePdu) rfl (Or.inl rfl) DataReliablePdu.found rfl rfl (SimulationManagementWithReliabilityFamilyPdu.serializes (n + 0) _ _ _)) <|
    ser_cons (ser_write (gives_attr (gives_name rfl) (plain rfl) rfl) rfl rfl rfl) <|
    ser_cons (ser_write (gives_attr (gives_name rfl) (plain rfl) rfl) rfl rfl rfl) <|
    ser_cons (ser_write (gives_attr (gives_name rfl) (plain rfl) rfl) rfl rfl rfl) <|
    ser_cons (ser_write (gives_attr (gives_name rfl) (plain rfl) rfl) rfl rfl rfl) <|
    ser_last <| ser_call rfl (plain rfl) rfl rfl rfl (DatumSpecification.serializes (n + 0) _)

theorem DataReliablePdu.makes (n : Nat) : Makes (run (n + 4)) I.DataReliablePdu (DataReliablePdu.enc Dis.DataReliablePdu.init) :=
  makes_of (p := (I.DataReliablePdu, DataReliablePdu.__init__)) (by decide +kernel) rfl rfl rfl (by kernel_rfl) fun _ => by kernel_rfl

theorem DataReliablePdu.parses (n : Nat) :
    Parses (run (n + 4)) I.DataReliablePdu I.DataReliablePdu DataReliablePdu.fields Dis.DataReliablePdu.parseInto :=
  parses_of (n := n + 3) (d := I.DataReliablePdu) (f := DataReliablePdu.parse) rfl rfl <|
    par_super (Q' := fun _ => True) (c := I.DataReliablePdu) (hs := fun x y => SimulationManagementWithReliabilityFamilyPdu.fields y ++ (DataReliablePdu.own x))
      (fun _ => SimulationManagementWithReliabilityFamilyPdu.parses (n + 0) _ _) rfl (Or.inl rfl) DataReliablePdu.found rfl (fun _ => rfl) (fun _ _ => rfl) (fun _ _ _ => trivial) <|
    par_read (fun _ _ => True) rfl rfl (plain rfl) (fun _ _ => rfl) (fun _ _ _ => trivial) fun _ =>
    par_read (fun _ _ => True) rfl rfl (plain rfl) (fun _ _ => rfl) (fun _ _ _ => trivial) fun _ =>
    par_read (fun _ _ => True) rfl rfl (plain rfl) (fun _ _ => rfl) (fun _ _ _ => trivial) fun _ =>
    par_read (fun _ _ => True) rfl rfl (plain rfl) (fun _ _ => rfl) (fun _ _ _ => trivial) fun _ =>
    par_call (Q' := fun _ => True) (DatumSpecification.parses (n + 0)) rfl (plain rfl) (fun _ => rfl) (fun _ _ => rfl) (fun _ _ _ => trivial) <|
    par_nil

theorem DataReliablePdu.builds (n : Nat) : Builds (run (n + 4)) I.DataReliablePdu DataReliablePdu.fields Dis.DataReliablePdu.init Dis.DataReliablePdu.parseInto :=
  builds_of (DataReliablePdu.makes (n + 0)) (DataReliablePdu.parses (n + 0))

theorem CommentPdu.found : look I.CommentPdu program = some CommentPdu := rfl

theorem CommentPdu.serializes (n : Nat) (x : Dis.CommentPdu) :
    Serializes (run (n + 4)) I.CommentPdu (CommentPdu.enc x) x.serialize :=
  serializes_of (n := n + 3) (d := I.CommentPdu) (f := CommentPdu.serialize) rfl rfl <|
    ser_cons (ser_super (c := I.CommentPdu) rfl (Or.inl rfl) CommentPdu.found rfl rfl (SimulationManagementFamilyPdu.serializes (n + 0) _ _ _)) <|
    ser_last <| ser_call rfl (plain rfl) rfl rfl rfl (DatumSpecification.serializes (n + 0) _)

theorem CommentPdu.makes (n : Nat) : Makes (run (n + 4)) I.CommentPdu (CommentPdu.enc Dis.CommentPdu.init) :=
  makes_of (p := (I.CommentPdu, CommentPdu.__init__)) (by decide +kernel) rfl rfl rfl (by kernel_rfl) fun _ => by kernel_rfl

theorem CommentPdu.parses (n : Nat) :
    Parses (run (n + 4)) I.CommentPdu I.CommentPdu CommentPdu.fields Dis.CommentPdu.parseInto :=
  parses_of (n := n + 3) (d := I.CommentPdu) (f := CommentPdu.parse) rfl rfl <|
    par_super (Q' := fun _ => True) (c := I.CommentPdu) (hs := fun x y => SimulationManagementFamilyPdu.fields y ++ (CommentPdu.own x))
      (fun _ => SimulationManagementFamilyPdu.parses (n + 0) _ _) rfl (Or.inl rfl) CommentPdu.found rfl (fun _ => rfl) (fun _ _ => rfl) (fun _ _ _ => trivial) <|
    par_call (Q' := fun _ => True) (DatumSpecification.parses (n + 0)) rfl (plain rfl) (fun _ => rfl) (fun _ _ => rfl) (fun _ _ _ => trivial) <|
    par_nil

theorem CommentPdu.builds (n : Nat) : Builds (run (n + 4)) I.CommentPdu CommentPdu.fields Dis.CommentPdu.init Dis.CommentPdu.parseInto :=
  builds_of (CommentPdu.makes (n + 0)) (CommentPdu.parses (n + 0))

theorem CommentReliablePdu.found : look I.CommentReliablePdu program = some CommentReliablePdu := rfl

theorem CommentReliablePdu.serializes (n : Nat) (x : Dis.CommentReliablePdu) :
    Serializes (run (n + 4)) I.CommentReliablePdu (CommentReliablePdu.enc x) x.serialize :=
  serializes_of (n := n + 3) (d := I.CommentReliablePdu) (f := CommentReliablePdu.serialize) rfl rfl <|
    ser_cons (ser_super (c := I.CommentReliablePdu) rfl (Or.inl rfl) CommentReliablePdu.found rfl rfl (SimulationManagementWithReliabilityFamilyPdu.serializes (n + 0) _ _ _)) <|
    ser_last <| ser_call rfl (plain rfl) rfl rfl rfl (DatumSpecification.serializes (n + 0) _)

theorem CommentReliablePdu.makes (n : Nat) : Makes (run (n + 4)) I.CommentReliablePdu (CommentReliablePdu.enc Dis.CommentReliablePdu.init) :=
  makes_of (p := (I.CommentReliablePdu, CommentReliablePdu.__init__)) (by decide +kernel) rfl rfl rfl (by kernel_rfl) fun _ => by kernel_rfl

theorem CommentReliablePdu.parses (n : Nat) :
    Parses (run (n + 4)) I.CommentReliablePdu I.CommentReliablePdu CommentReliablePdu.fields Dis.CommentReliablePdu.parseInto :=
  parses_of (n := n + 3) (d := I.CommentReliablePdu) (f := CommentReliablePdu.parse) rfl rfl <|
    par_super (Q' := fun _ => True) (c := I.CommentReliablePdu) (hs := fun x y => SimulationManagementWithReliabilityFamilyPdu.fields y ++ (CommentReliablePdu.own x))
      (fun _ => SimulationManagementWithReliabilityFamilyPdu.parses (n + 0) _ _) rfl (Or.inl rfl) CommentReliablePdu.found rfl (fun _ => rfl) (fun _ _ => rfl) (fun _ _ _ => trivial) <|
    par_call (Q' := fun _ => True) (DatumSpecification.parses (n + 0)) rfl (plain rfl) (fun _ => rfl) (fun _ _ => rfl) (fun _ _ _ => trivial) <|
    par_nil

theorem CommentReliablePdu.builds (n : Nat) : Builds (run (n + 4)) I.CommentReliablePdu CommentReliablePdu.fields Dis.CommentReliablePdu.init Dis.CommentReliablePdu.parseInto :=
  builds_of (CommentReliablePdu.makes (n + 0)) (CommentReliablePdu.parses (n + 0))

theorem SetDataPdu.found : look I.SetDataPdu program = some SetDataPdu := rfl

theorem SetDataPdu.serializes (n : Nat) (x : Dis.SetDataPdu) :
    Serializes (run (n + 4)) I.SetDataPdu (SetDataPdu.enc x) x.serialize :=
  serializes_of (n := n + 3) (d := I.SetDataPdu) (f := SetDataPdu.serialize) rfl rfl <|
    ser_cons (ser_super (c := I.SetDataPdu) rfl (Or.inl rfl) SetDataPdu.found rfl rfl (SimulationManagementFamilyPdu.serializes (n + 0) _ _ _)) <|
    ser_cons (ser_write (gives_attr (gives_name rfl) (plain rfl) rfl) rfl rfl rfl) <|
    ser_cons (ser_write (gives_attr (gives_name rfl) (plain rfl) rfl) rfl rfl rfl) <|
    ser_last <| ser_call rfl (plain rfl) rfl rfl rfl (DatumSpecification.serializes (n + 0) _)

theorem SetDataPdu.makes (n : Nat) : Makes (run (n + 4)) I.SetDataPdu (SetDataPdu.enc Dis.SetDataPdu.init) :=
  makes_of (p := (I.SetDataPdu, SetDataPdu.__init__)) (by decide +kernel) rfl rfl rfl (by kernel_rfl) fun _ => by kernel_rfl

theorem SetDataPdu.parses (n : Nat) :
    Parses (run (n + 4)) I.SetDataPdu I.SetDataPdu SetDataPdu.fields Dis.SetDataPdu.parseInto :=
  parses_of (n := n + 3) (d := I.SetDataPdu) (f := SetDataPdu.parse) rfl rfl <|
    par_super (Q' := fun _ => True) (c := I.SetDataPdu) (hs := fun x y => SimulationManagementFamilyPdu.fields y ++ (SetDataPdu.own x))
      (fun _ => SimulationManagementFamilyPdu.parses (n + 0) _ _) rfl (Or.inl rfl) SetDataPdu.found rfl (fun _ => rfl) (fun _ _ => rfl) (fun _ _ _ => trivial) <|
    par_read (fun _ _ => True) rfl rfl (plain rfl) (fun _ _ => rfl) (fun _ _ _ => trivial) fun _ =>
    par_read (fun _ _ => True) rfl rfl (plain rfl) (fun _ _ => rfl) (fun _ _ _ => trivial) fun _ =>
    par_call (Q' := fun _ => True) (DatumSpecification.parses (n + 0)) rfl (plain rfl) (fun _ => rfl) (fun _ _ => rfl) (fun _ _ _ => trivial) <|
    par_nil

theorem SetDataPdu.builds (n : Nat) : Builds (run (n + 4)) I.SetDataPdu SetDataPdu.fields Dis.SetDataPdu.init Dis.SetDataPdu.parseInto :=
  builds_of (SetDataPdu.makes (n + 0)) (SetDataPdu.parses (n + 0))

theorem ActionResponsePdu.found : look I.ActionResponsePdu program = some ActionResponsePdu := rfl

theorem ActionResponsePdu.serializes (n : Nat) (x : Dis.ActionResponsePdu) :
    Serializes (run (n + 4)) I.ActionResponsePdu (ActionResponsePdu.enc x) x.serialize :=
  serializes_of (n := n + 3) (d := I.ActionResponsePdu) (f := ActionResponsePdu.serialize) rfl rfl <|
    ser_cons (ser_super (c := I.ActionResponsePdu) rfl (Or.inl rfl) ActionResponsePdu.found rfl rfl (SimulationManagementFamilyPdu.serializes (n + 0) _ _ _)) <|
    ser_cons (ser_write (gives_attr (gives_name rfl) (plain rfl) rfl) rfl rfl rfl) <|
    ser_cons (ser_write (gives_attr (gives_name rfl) (plain rfl) rfl) rfl rfl rfl) <|
    ser_last <| ser_call rfl (plain rfl) rfl rfl rfl (DatumSpecification.serializes (n + 0) _)

theorem ActionResponsePdu.makes (n : Nat) : Makes (run (n + 4)) I.ActionResponsePdu (ActionResponsePdu.enc Dis.ActionResponsePdu.init) :=
  makes_of (p := (I.ActionResponsePdu, ActionResponsePdu.__init__)) (by decide +kernel) rfl rfl rfl (by kernel_rfl) fun _ => by kernel_rfl

theorem ActionResponsePdu.parses (n : Nat) :
    Parses (run (n + 4)) I.ActionResponsePdu I.ActionResponsePdu ActionResponsePdu.fields Dis.ActionResponsePdu.parseInto :=
  parses_of (n := n + 3) (d := I.ActionResponsePdu) (f := ActionResponsePdu.parse) rfl rfl <|
    par_super (Q' := fun _ => True) (c := I.ActionResponsePdu) (hs := fun x y => SimulationManagementFamilyPdu.fields y ++ (ActionResponsePdu.own x))
      (fun _ => SimulationManagementFamilyPdu.parses (n + 0) _ _) rfl (Or.inl rfl) ActionResponsePdu.found rfl (fun _ => rfl) (fun _ _ => rfl) (fun _ _ _ => trivial) <|
    par_read (fun _ _ => True) rfl rfl (plain rfl) (fun _ _ => rfl) (fun _ _ _ => trivial) fun _ =>
    par_read (fun _ _ => True) rfl rfl (plain rfl) (fun _ _ => rfl) (fun _ _ _ => trivial) fun _ =>
    par_call (Q' := fun _ => True) (DatumSpecification.parses (n + 0)) rfl (plain rfl) (fun _ => rfl) (fun _ _ => rfl) (fun _ _ _ => trivial) <|
    par_nil

theorem ActionResponsePdu.builds (n : Nat) : Builds (run (n + 4)) I.ActionResponsePdu ActionResponsePdu.fields Dis.ActionResponsePdu.init Dis.ActionResponsePdu.parseInto :=
  builds_of (ActionResponsePdu.makes (n + 0)) (ActionResponsePdu.parses (n + 0))

theorem EventReportReliablePdu.found : look I.EventReportReliablePdu program = some EventReportReliablePdu := rfl

theorem EventReportReliablePdu.serializes (n : Nat) (x : Dis.EventReportReliablePdu) :
    Serializes (run (n + 4)) I.EventReportReliablePdu (EventReportReliablePdu.enc x) x.serialize :=
  serializes_of (n := n + 3) (d := I.EventReportReliablePdu) (f := EventReportReliablePdu.serialize) rfl rfl <|
    ser_cons (ser_super (c := I.EventReportReliablePdu) rfl (Or.inl rfl) EventReportReliablePdu.found rfl rfl (SimulationManagementWithReliabilityFamilyPdu.serializes (n + 0) _ _ _)) <|
    ser_cons (ser_write (gives_attr (gives_name rfl) (plain rfl) rfl) rfl rfl rfl) <|
    ser_cons (ser_write (gives_attr (gives_name rfl) (plain rfl) rfl) rfl rfl rfl) <|
    ser_last <| ser_call rfl (plain rfl) rfl rfl rfl (DatumSpecification.serializes (n + 0) _)

theorem EventReportReliablePdu.makes (n : Nat) : Makes (run (n + 4)) I.EventReportReliablePdu (EventReportReliablePdu.enc Dis.EventReportReliablePdu.init) :=
  makes_of (p := (I.EventReportReliablePdu, EventReportReliablePdu.__init__)) (by decide +kernel) rfl rfl rfl (by kernel_rfl) fun _ => by kernel_rfl

theorem EventReportReliablePdu.parses (n : Nat) :
    Parses (run (n + 4)) I.EventReportReliablePdu I.EventReportReliablePdu EventReportReliablePdu.fields Dis.EventReportReliablePdu.parseInto :=
  parses_of (n := n + 3) (d := I.EventReportReliablePdu) (f := EventReportReliablePdu.parse) rfl rfl <|
    par_super (Q' := fun _ => True) (c := I.EventReportReliablePdu) (hs := fun x y => SimulationManagementWithReliabilityFamilyPdu.fields y ++ (EventReportReliablePdu.own x))
      (fun _ => SimulationManagementWithReliabilityFamilyPdu.parses (n + 0) _ _) rfl (Or.inl rfl) EventReportReliablePdu.found rfl (fun _ => rfl) (fun _ _ => rfl) (fun _ _ _ => trivial) <|
    par_read (fun _ _ => True) rfl rfl (plain rfl) (fun _ _ => rfl) (fun _ _ _ => trivial) fun _ =>
    par_read (fun _ _ => True) rfl rfl (plain rfl) (fun _ _ => rfl) (fun _ _ _ => trivial) fun _ =>
    par_call (Q' := fun _ => True) (DatumSpecification.parses (n + 0)) rfl (plain rfl) (fun _ => rfl) (fun _ _ => rfl) (fun _ _ _ => trivial) <|
    par_nil

theorem EventReportReliablePdu.builds (n : Nat) : Builds (run (n + 4)) I.EventReportReliablePdu EventReportReliablePdu.fields Dis.EventReportReliablePdu.init Dis.EventReportReliablePdu.parseInto :=
  builds_of (EventReportReliablePdu.makes (n + 0)) (EventReportReliablePdu.parses (n + 0))

theorem ActionResponseReliablePdu.found : look I.ActionResponseReliablePdu program = some ActionResponseReliablePdu := rfl

theorem ActionResponseReliablePdu.serializes (n : Nat) (x : Dis.ActionResponseReliablePdu) :
    Serializes (run (n + 4)) I.ActionResponseReliablePdu (ActionResponseReliablePdu.enc x) x.serialize :=
  serializes_of (n := n + 3) (d := I.ActionResponseReliablePdu) (f := ActionResponseReliablePdu.serialize) rfl rfl <|
    ser_cons (ser_super (c := I.ActionResponseReliablePdu) rfl (Or.inl rfl) ActionResponseReliablePdu.found rfl rfl (SimulationManagementWithReliabilityFamilyPdu.serializes (n + 0) _ _ _)) <|
    ser_cons (ser_write (gives_attr (gives_name rfl) (plain rfl) rfl) rfl rfl rfl) <|
    ser_cons (ser_write (gives_attr (gives_name rfl) (plain rfl) rfl) rfl rfl rfl) <|
    ser_last <| ser_call rfl (plain rfl) rfl rfl rfl (DatumSpecification.serializes (n + 0) _)

theorem ActionResponseReliablePdu.makes (n : Nat) : Makes (run (n + 4)) I.ActionResponseReliablePdu (ActionResponseReliablePdu.enc Dis.ActionResponseReliablePdu.init) :=
  makes_of (p := (I.ActionResponseReliablePdu, ActionResponseReliablePdu.__init__)) (by decide +kernel) rfl rfl rfl (by kernel_rfl) fun _ => by kernel_rfl

theorem ActionResponseReliablePdu.parses (n : Nat) :
    Parses (run (n + 4)) I.ActionResponseReliablePdu I.ActionResponseReliablePdu ActionResponseReliablePdu.fields Dis.ActionResponseReliablePdu.parseInto :=
  parses_of (n := n + 3) (d := I.ActionResponseReliablePdu) (f := ActionResponseReliablePdu.parse) rfl rfl <|
    par_super (Q' := fun _ => True) (c := I.ActionResponseReliablePdu) (hs := fun x y => SimulationManagementWithReliabilityFamilyPdu.fields y ++ (ActionResponseReliablePdu.own x))
      (fun _ => SimulationManagementWithReliabilityFamilyPdu.parses (n + 0) _ _) rfl (Or.inl rfl) ActionResponseReliablePdu.found rfl (fun _ => rfl) (fun _ _ => rfl) (fun _ _ _ => trivial) <|
    par_read (fun _ _ => True) rfl rfl (plain rfl) (fun _ _ => rfl) (fun _ _ _ => trivial) fun _ =>
    par_read (fun _ _ => True) rfl rfl (plain rfl) (fun _ _ => rfl) (fun _ _ _ => trivial) fun _ =>
    par_call (Q' := fun _ => True) (DatumSpecification.parses (n + 0)) rfl (plain rfl) (fun _ => rfl) (fun _ _ => rfl) (fun _ _ _ => trivial) <|
    par_nil

theorem ActionResponseReliablePdu.builds (n : Nat) : Builds (run (n + 4)) I.ActionResponseReliablePdu ActionResponseReliablePdu.fields Dis.ActionResponseReliablePdu.init Dis.ActionResponseReliablePdu.parseInto :=
  builds_of (ActionResponseReliablePdu.makes (n + 0)) (ActionResponseReliablePdu.parses (n + 0))

theorem AggregateStatePdu.found : look I.AggregateStatePdu program = some AggregateStatePdu := rfl

theorem AggregateStatePdu.serializes (n : Nat) (x : Dis.AggregateStatePdu) :
    Serializes (run (n + 4)) I.AggregateStatePdu (AggregateStatePdu.enc x) x.serialize :=
  serializes_of (n := n + 3) (d := I.AggregateStatePdu) (f := AggregateStatePdu.serialize) rfl rfl <|
    ser_cons (ser_super (c := I.AggregateStatePdu) rfl (Or.inl rfl) AggregateStatePdu.found rfl rfl (EntityManagementFamilyPdu.serializes (n + 0) _ _ _)) <|
    ser_cons (ser_call rfl (plain rfl) rfl rfl rfl (AggregateIdentifier.serializes (n + 1) _)) <|
    ser_cons (ser_write (gives_attr (gives_name rfl) (plain rfl) rfl) rfl rfl rfl) <|
    ser_cons (ser_write (gives_attr (gives_name rfl) (plain rfl) rfl) rfl rfl rfl) <|
    ser_cons (ser_call rfl (plain rfl) rfl rfl rfl (AggregateType.serializes (n + 2) _)) <|
    ser_cons (ser_write (gives_attr (gives_name rfl) (plain rfl) rfl) rfl rfl rfl) <|
    ser_cons (ser_call rfl (plain rfl) rfl rfl rfl (AggregateMarking.serializes (n + 2) _)) <|
    ser_cons (ser_call rfl (plain rfl) rfl rfl rfl (Vector3Float.serializes (n + 2) _)) <|
    ser_cons (ser_call rfl (plain rfl) rfl rfl rfl (EulerAngles.serializes (n + 2) _)) <|
    ser_cons (ser_call rfl (plain rfl) rfl rfl rfl (Vector3Float.serializes (n + 2) _)) <|
    ser_cons (ser_call rfl (plain rfl) rfl rfl rfl (WorldCoordinates.serializes (n + 2) _)) <|
    ser_cons (ser_write (gives_property (gives_name rfl) (by decide +kernel)
        (fun io => property_of (n := n + 2) (d := I.AggregateStatePdu) (f := AggregateStatePdu.numberOfAggregateIDs) rfl rfl rfl (gives_len_map (gives_attr (gives_name rfl) (plain rfl) rfl)) io)) rfl rfl (packInt_int _ _)) <|
    ser_cons (ser_write (gives_property (gives_name rfl) (by decide +kernel)
        (fun io => property_of (n := n + 2) (d := I.AggregateStatePdu) (f := AggregateStatePdu.numberOfEntityIDs) rfl rfl rfl (gives_len_map (gives_attr (gives_name rfl) (plain rfl) rfl)) io)) rfl rfl (packInt_int _ _)) <|
    ser_cons (ser_write (gives_property (gives_name rfl) (by decide +kernel)
        (fun io => property_of (n := n + 2) (d := I.AggregateStatePdu) (f := AggregateStatePdu.numberOfSilentAggregateSystems) rfl rfl rfl (gives_len_map (gives_attr (gives_name rfl) (plain rfl) rfl)) io)) rfl rfl (packInt_int _ _)) <|
    ser_cons (ser_write (gives_property (gives_name rfl) (by decide +kernel)
        (fun io => property_of (n := n + 2) (d := I.AggregateStatePdu) (f := AggregateStatePdu.numberOfSilentEntitySystems) rfl rfl rfl (gives_len_map (gives_attr (gives_name rfl) (plain rfl) rfl)) io)) rfl rfl (packInt_int _ _)) <|
    ser_cons (ser_for (gives_attr (gives_name rfl) (plain rfl) rfl) var_aggregateID rfl fun a _ =>
      ser_last (ser_var rfl rfl (AggregateIdentifier.serializes (n + 1) a))) <|
    ser_cons (ser_for (gives_attr (gives_name rfl) (plain rfl) rfl) var_entityID rfl fun a _ =>
      ser_last (ser_var rfl rfl (EntityIdentifier.serializes (n + 1) a))) <|
    ser_cons (ser_for (gives_attr (gives_name rfl) (plain rfl) rfl) var_silentAggregateSystem rfl fun a _ =>
      ser_last (ser_var rfl rfl (SilentAggregateSystem.serializes (n + 1) a))) <|
    ser_cons (ser_for (gives_attr (gives_name rfl) (plain rfl) rfl) var_silentEntitySystem rfl fun a _ =>
      ser_last (ser_var rfl rfl (SilentEntitySystem.serializes (n + 1) a))) <|
    ser_cons (ser_write (gives_property (gives_name rfl) (by decide +kernel)
        (fun io => property_of (n := n + 2) (d := I.AggregateStatePdu) (f := AggregateStatePdu.numberOfVariableDatumRecords) rfl rfl rfl (gives_len_map (gives_attr (gives_name rfl) (by decide +kernel : isProperty program I.AggregateStatePdu I.variableDatumRecords = false) rfl)) io)) rfl rfl (packInt_int _ _)) <|
    ser_last <| ser_for (gives_attr (gives_name rfl) (by decide +kernel : isProperty program I.AggregateStatePdu I.variableDatumRecords = false) rfl) var_variableDatumRecord rfl fun a _ =>
      ser_last (ser_var rfl rfl (VariableDatum.serializes (n + 1) a))

theorem AggregateStatePdu.makes (n : Nat) : Makes (run (n + 4)) I.AggregateStatePdu (AggregateStatePdu.enc Dis.AggregateStatePdu.init) :=
  makes_of (p := (I.AggregateStatePdu, AggregateStatePdu.__init__)) (by decide +kernel) rfl rfl rfl (by kernel_rfl) fun _ => by kernel_rfl

theorem AggregateStatePdu.parses (n : Nat) :
    Parses (run (n + 4)) I.AggregateStatePdu I.AggregateStatePdu AggregateStatePdu.fields Dis.AggregateStatePdu.parseInto :=
  parses_of (n := n + 3) (d := I.AggregateStatePdu) (f := AggregateStatePdu.parse) rfl rfl <|
    par_super (Q' := fun _ => True) (c := I.AggregateStatePdu) (hs := fun x y => EntityManagementFamilyPdu.fields y ++ (AggregateStatePdu.own x))
      (fun _ => EntityManagementFamilyPdu.parses (n + 0) _ _) rfl (Or.inl rfl) AggregateStatePdu.found rfl (fun _ => rfl) (fun _ _ => rfl) (fun _ _ _ => trivial) <|
    par_call (Q' := fun _ => True) (AggregateIdentifier.parses (n + 1)) rfl (plain rfl) (fun _ => rfl) (fun _ _ => rfl) (fun _ _ _ => trivial) <|
    par_read (fun _ _ => True) rfl rfl (plain rfl) (fun _ _ => rfl) (fun _ _ _ => trivial) fun _ =>
    par_read (fun _ _ => True) rfl rfl (plain rfl) (fun _ _ => rfl) (fun _ _ _ => trivial) fun _ =>
    par_call (Q' := fun _ => True) (AggregateType.parses (n + 2)) rfl (plain rfl) (fun _ => rfl) (fun _ _ => rfl) (fun _ _ _ => trivial) <|
    par_read (fun _ _ => True) rfl rfl (plain rfl) (fun _ _ => rfl) (fun _ _ _ => trivial) fun _ =>
    par_call (Q' := fun _ => True) (AggregateMarking.parses (n + 2)) rfl (plain rfl) (fun _ => rfl) (fun _ _ => rfl) (fun _ _ _ => trivial) <|
    par_call (Q' := fun _ => True) (Vector3Float.parses (n + 2)) rfl (plain rfl) (fun _ => rfl) (fun _ _ => rfl) (fun _ _ _ => trivial) <|
    par_call (Q' := fun _ => True) (EulerAngles.parses (n + 2)) rfl (plain rfl) (fun _ => rfl) (fun _ _ => rfl) (fun _ _ _ => trivial) <|
    par_call (Q' := fun _ => True) (Vector3Float.parses (n + 2)) rfl (plain rfl) (fun _ => rfl) (fun _ _ => rfl) (fun _ _ _ => trivial) <|
    par_call (Q' := fun _ => True) (WorldCoordinates.parses (n + 2)) rfl (plain rfl) (fun _ => rfl) (fun _ _ => rfl) (fun _ _ _ => trivial) <|
    par_local rfl rfl var_numberOfAggregateIDs rfl fun _ =>
    par_local rfl rfl var_numberOfEntityIDs rfl fun _ =>
    par_local rfl rfl var_numberOfSilentAggregateSystems rfl fun _ =>
    par_local rfl rfl var_numberOfSilentEntitySystems rfl fun _ =>
    par_objs (fun _ _ => gives_range0 (gives_name rfl)) (by simp) (AggregateIdentifier.builds (n + 1)) rfl
      (plain rfl) (fun _ => rfl) (fun _ _ => rfl) var_idx rfl rfl var_element rfl rfl <|
    par_objs (fun _ _ => gives_range0 (gives_name rfl)) (by simp) (EntityIdentifier.builds (n + 1)) rfl
      (plain rfl) (fun _ => rfl) (fun _ _ => rfl) var_idx rfl rfl var_element rfl rfl <|
    par_objs (fun _ _ => gives_range0 (gives_name rfl)) (by simp) (SilentAggregateSystem.builds (n + 1)) rfl
      (plain rfl) (fun _ => rfl) (fun _ _ => rfl) var_idx rfl rfl var_element rfl rfl <|
    par_objs (fun _ _ => gives_range0 (gives_name rfl)) (by simp) (SilentEntitySystem.builds (n + 1)) rfl
      (plain rfl) (fun _ => rfl) (fun _ _ => rfl) var_idx rfl rfl var_element rfl rfl <|
    par_local rfl rfl var_numberOfVariableDatumRecords rfl fun _ =>
    par_objs (fun _ _ => gives_range0 (gives_name rfl)) (by simp) (VariableDatum.builds (n + 1)) rfl
      (by decide +kernel : isProperty program I.AggregateStatePdu I.variableDatumRecords = false) (fun _ => rfl) (fun _ _ => rfl) var_idx rfl rfl var_element rfl rfl <|
    par_nil

theorem AggregateStatePdu.builds (n : Nat) : Builds (run (n + 4)) I.AggregateStatePdu AggregateStatePdu.fields Dis.AggregateStatePdu.init Dis.AggregateStatePdu.parseInto :=
  builds_of (AggregateStatePdu.makes (n + 0)) (AggregateStatePdu.parses (n + 0))

end Dis.Src
