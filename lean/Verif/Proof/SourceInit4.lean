import Verif.Proof.SourceInit
import Verif.Proof.SourceRun5
import Verif.Proof.SourceHand
import Verif.Proof.SourceSpecialLaw
import Verif.Proof.SourceDirected
import Verif.Proof.SourceInit1

/-!
# Constructors with arguments, class by class, part 4 (C77)

Written by `tools/gensourceinit.py`.
-/

namespace Dis.Src

theorem AttachedParts.makesOf (n : Nat) (a1 : Int) (a2 : Int) (a3 : Int) (a4 : Option Dis.EntityType) :
    MakesOf (run (n + 2)) I.AttachedParts [.int a1, .int a2, .int a3, optArg EntityType.enc a4] (AttachedParts.enc (Dis.AttachedParts.init a1 a2 a3 a4)) :=
  made_with (n := n + 1) (d := I.AttachedParts) (f := AttachedParts.__init__) (env := [(I.self, .obj I.AttachedParts (classAttrs program 16 I.AttachedParts)), (I.__class__, .cls I.AttachedParts), (I.detachedIndicator, .int a1), (I.partAttachedTo, .int a2), (I.parameterType, .int a3), (I.attachedPartType, optArg EntityType.enc a4)])
    (by kernel_rfl) rfl rfl rfl (by kernel_rfl) (by kernel_rfl) (by kernel_rfl) (by kernel_rfl) <|
    inits_set (fun _ => gives_name rfl) (by kernel_rfl) <|
    inits_set (fun _ => gives_name rfl) (by kernel_rfl) <|
    inits_set (fun _ => gives_name rfl) (by kernel_rfl) <|
    inits_set (fun _ => gives_or_new rfl (EntityType.makes (n + 0)) (fun _ => rfl)) (by kernel_rfl) <|
    inits_nil (by kernel_rfl)

theorem VariableDatum.makesOf (n : Nat) (a1 : Int) (a2 : Int) (a3 : Option (List Int)) :
    MakesOf (run (n + 1)) I.VariableDatum [.int a1, .int a2, listArg Val.int a3] (VariableDatum.enc (Dis.VariableDatum.init a1 a2 (a3.getD []))) :=
  made_with (n := n + 0) (d := I.VariableDatum) (f := VariableDatum.__init__) (env := [(I.self, .obj I.VariableDatum (classAttrs program 16 I.VariableDatum)), (I.__class__, .cls I.VariableDatum), (I.variableDatumID, .int a1), (I.variableDatumLength, .int a2), (I.variableData, listArg Val.int a3)])
    (by kernel_rfl) rfl rfl rfl (by kernel_rfl) (by kernel_rfl) (by kernel_rfl) (by kernel_rfl) <|
    inits_set (fun _ => gives_name rfl) (by kernel_rfl) <|
    inits_set (fun _ => gives_name rfl) (by kernel_rfl) <|
    inits_set (fun _ => gives_or_nil rfl) (by kernel_rfl) <|
    inits_nil (by kernel_rfl)

theorem SilentAggregateSystem.makesOf (n : Nat) (a1 : Int) (a2 : Option Dis.AggregateType) :
    MakesOf (run (n + 2)) I.SilentAggregateSystem [.int a1, optArg AggregateType.enc a2] (SilentAggregateSystem.enc (Dis.SilentAggregateSystem.init a1 a2)) :=
  made_with (n := n + 1) (d := I.SilentAggregateSystem) (f := SilentAggregateSystem.__init__) (env := [(I.self, .obj I.SilentAggregateSystem (classAttrs program 16 I.SilentAggregateSystem)), (I.__class__, .cls I.SilentAggregateSystem), (I.numberOfAggregates, .int a1), (I.aggregateType, optArg AggregateType.enc a2)])
    (by kernel_rfl) rfl rfl rfl (by kernel_rfl) (by kernel_rfl) (by kernel_rfl) (by kernel_rfl) <|
    inits_set (fun _ => gives_name rfl) (by kernel_rfl) <|
    inits_set (fun _ => gives_or_new rfl (AggregateType.makes (n + 0)) (fun _ => rfl)) (by kernel_rfl) <|
    inits_nil (by kernel_rfl)

theorem Environment.makesOf (n : Nat) (a1 : Int) (a2 : Int) (a3 : Int) :
    MakesOf (run (n + 1)) I.Environment [.int a1, .int a2, .int a3] (Environment.enc (Dis.Environment.init a1 a2 a3)) :=
  made_with (n := n + 0) (d := I.Environment) (f := Environment.__init__) (env := [(I.length, .int a2), (I.self, .obj I.Environment (classAttrs program 16 I.Environment)), (I.__class__, .cls I.Environment), (I.environmentType, .int a1), (I.index, .int a3)])
    (by kernel_rfl) rfl rfl rfl (by kernel_rfl) (by kernel_rfl) (by kernel_rfl) (by kernel_rfl) <|
    inits_set (fun _ => gives_name rfl) (by kernel_rfl) <|
    inits_set (fun _ => gives_name rfl) (by kernel_rfl) <|
    inits_set (fun _ => gives_name rfl) (by kernel_rfl) <|
    inits_set (fun _ => gives_int) (by kernel_rfl) <|
    inits_set (fun _ => gives_int) (by kernel_rfl) <|
    inits_nil (by kernel_rfl)

theorem EnvironmentGeneral.makesOf (n : Nat) (a1 : Int) (a2 : Int) (a3 : Int) (a4 : Option Int) :
    MakesOf (run (n + 1)) I.EnvironmentGeneral [.int a1, .int a2, .int a3, optArg Val.int a4] (EnvironmentGeneral.enc (Dis.EnvironmentGeneral.init a1 a2 a3 a4)) :=
  made_with (n := n + 0) (d := I.EnvironmentGeneral) (f := EnvironmentGeneral.__init__) (env := [(I.length, .int a2), (I.self, .obj I.EnvironmentGeneral (classAttrs program 16 I.EnvironmentGeneral)), (I.__class__, .cls I.EnvironmentGeneral), (I.environmentType, .int a1), (I.index, .int a3), (I.geometry, optArg Val.int a4)])
    (by kernel_rfl) rfl rfl rfl (by kernel_rfl) (by kernel_rfl) (by kernel_rfl) (by kernel_rfl) <|
    inits_set (fun _ => gives_name rfl) (by kernel_rfl) <|
    inits_set (fun _ => gives_name rfl) (by kernel_rfl) <|
    inits_set (fun _ => gives_name rfl) (by kernel_rfl) <|
    inits_set (fun _ => gives_int) (by kernel_rfl) <|
    inits_set (fun _ => gives_name rfl) (by kernel_rfl) <|
    inits_set (fun _ => gives_int) (by kernel_rfl) <|
    inits_nil (by kernel_rfl)

theorem SeparationVP.makesOf (n : Nat) (a1 : Int) (a2 : Int) (a3 : Option Dis.EntityIdentifier) (a4 : Option Dis.NamedLocationIdentification) :
    MakesOf (run (n + 3)) I.SeparationVP [.int a1, .int a2, optArg EntityIdentifier.enc a3, optArg NamedLocationIdentification.enc a4] (SeparationVP.enc (Dis.SeparationVP.init a1 a2 a3 a4)) :=
  made_with (n := n + 2) (d := I.SeparationVP) (f := SeparationVP.__init__) (env := [(I.self, .obj I.SeparationVP (classAttrs program 16 I.SeparationVP)), (I.__class__, .cls I.SeparationVP), (I.reasonForSeparation, .int a1), (I.preEntityIndicator, .int a2), (I.parentEntityID, optArg EntityIdentifier.enc a3), (I.stationLocation, optArg NamedLocationIdentification.enc a4)])
    (by kernel_rfl) rfl rfl rfl (by kernel_rfl) (by kernel_rfl) (by kernel_rfl) (by kernel_rfl) <|
    inits_set (fun _ => gives_name rfl) (by kernel_rfl) <|
    inits_set (fun _ => gives_name rfl) (by kernel_rfl) <|
    inits_set (fun _ => gives_int) (by kernel_rfl) <|
    inits_set (fun _ => gives_or_new rfl (EntityIdentifier.makes (n + 0)) (fun _ => rfl)) (by kernel_rfl) <|
    inits_set (fun _ => gives_int) (by kernel_rfl) <|
    inits_set (fun _ => gives_or_new rfl (NamedLocationIdentification.makes (n + 1)) (fun _ => rfl)) (by kernel_rfl) <|
    inits_nil (by kernel_rfl)

theorem ActionRequestPdu.makesOf (n : Nat) (a1 : Int) (a2 : Int) (a3 : Option (List Dis.FixedDatum)) (a4 : Option (List Dis.VariableDatum)) :
    MakesOf (run (n + 4)) I.ActionRequestPdu [.int a1, .int a2, listArg FixedDatum.enc a3, listArg VariableDatum.enc a4] (ActionRequestPdu.enc (Dis.ActionRequestPdu.init a1 a2 (a3.getD []) (a4.getD []))) :=
  made_with (n := n + 3) (d := I.ActionRequestPdu) (f := ActionRequestPdu.__init__) (env := [(I.self, .obj I.ActionRequestPdu (classAttrs program 16 I.ActionRequestPdu)), (I.__class__, .cls I.ActionRequestPdu), (I.requestID, .int a1), (I.fixedDatumRecords, listArg FixedDatum.enc a3), (I.variableDatumRecords, listArg VariableDatum.enc a4), (I.actionID, .int a2)])
    (by kernel_rfl) rfl rfl rfl (by kernel_rfl) (by kernel_rfl) (by kernel_rfl) (by kernel_rfl) <|
    inits_super (fs1 := SimulationManagementFamilyPdu.fields Dis.ActionRequestPdu.init.toSimulationManagementFamilyPdu) (.inl rfl) ActionRequestPdu.found rfl (fun _ => by kernel_rfl) <|
    inits_set (fun _ => gives_name rfl) (by kernel_rfl) <|
    inits_set (fun _ => gives_name rfl) (by kernel_rfl) <|
    inits_set (fun _ => gives_make (DatumSpecification.makesOf (n + 2) (some _) (some _)) (fun _ hst => args_two (gives_or_nil rfl) (gives_or_nil rfl) hst) rfl rfl) (by kernel_rfl) <|
    inits_nil (by kernel_rfl)

theorem ActionRequestReliablePdu.makesOf (n : Nat) (a1 : Int) (a2 : Int) (a3 : Int) (a4 : Option (List Dis.FixedDatum)) (a5 : Option (List Dis.VariableDatum)) :
    MakesOf (run (n + 4)) I.ActionRequestReliablePdu [.int a1, .int a2, .int a3, listArg FixedDatum.enc a4, listArg VariableDatum.enc a5] (ActionRequestReliablePdu.enc (Dis.ActionRequestReliablePdu.init a1 a2 a3 (a4.getD []) (a5.getD []))) :=
  made_with (n := n + 3) (d := I.ActionRequestReliablePdu) (f := ActionRequestReliablePdu.__init__) (env := [(I.self, .obj I.ActionRequestReliablePdu (classAttrs program 16 I.ActionRequestReliablePdu)), (I.__class__, .cls I.ActionRequestReliablePdu), (I.requestID, .int a2), (I.fixedDatumRecords, listArg FixedDatum.enc a4), (I.variableDatumRecords, listArg VariableDatum.enc a5), (I.actionID, .int a3), (I.requiredReliabilityService, .int a1)])
    (by kernel_rfl) rfl rfl rfl (by kernel_rfl) (by kernel_rfl) (by kernel_rfl) (by kernel_rfl) <|
    inits_super (fs1 := SimulationManagementWithReliabilityFamilyPdu.fields Dis.ActionRequestReliablePdu.init.toSimulationManagementWithReliabilityFamilyPdu) (.inl rfl) ActionRequestReliablePdu.found rfl (fun _ => by kernel_rfl) <|
    inits_set (fun _ => gives_name rfl) (by kernel_rfl) <|
    inits_set (fun _ => gives_int) (by kernel_rfl) <|
    inits_set (fun _ => gives_int) (by kernel_rfl) <|
    inits_set (fun _ => gives_name rfl) (by kernel_rfl) <|
    inits_set (fun _ => gives_name rfl) (by kernel_rfl) <|
    inits_set (fun _ => gives_int) (by kernel_rfl) <|
    inits_set (fun _ => gives_make (DatumSpecification.makesOf (n + 2) (some _) (some _)) (fun _ hst => args_two (gives_or_nil rfl) (gives_or_nil rfl) hst) rfl rfl) (by kernel_rfl) <|
    inits_nil (by kernel_rfl)

theorem SetDataReliablePdu.makesOf (n : Nat) (a1 : Int) (a2 : Int) (a3 : Option (List Dis.FixedDatum)) (a4 : Option (List Dis.VariableDatum)) :
    MakesOf (run (n + 4)) I.SetDataReliablePdu [.int a1, .int a2, listArg FixedDatum.enc a3, listArg VariableDatum.enc a4] (SetDataReliablePdu.enc (Dis.SetDataReliablePdu.init a1 a2 (a3.getD []) (a4.getD []))) :=
  made_with (n := n + 3) (d := I.SetDataReliablePdu) (f := SetDataReliablePdu.__init__) (env := [(I.self, .obj I.SetDataReliablePdu (classAttrs program 16 I.SetDataReliablePdu)), (I.__class__, .cls I.SetDataReliablePdu), (I.requestID, .int a2), (I.fixedDatumRecords, listArg FixedDatum.enc a3), (I.variableDatumRecords, listArg VariableDatum.enc a4), (I.requiredReliabilityService, .int a1)])
    (by kernel_rfl) rfl rfl rfl (by kernel_rfl) (by kernel_rfl) (by kernel_rfl) (by kernel_rfl) <|
    inits_super (fs1 := SimulationManagementWithReliabilityFamilyPdu.fields Dis.SetDataReliablePdu.init.toSimulationManagementWithReliabilityFamilyPdu) (.inl rfl) SetDataReliablePdu.found rfl (fun _ => by kernel_rfl) <|
    inits_set (fun _ => gives_name rfl) (by kernel_rfl) <|
    inits_set (fun _ => gives_int) (by kernel_rfl) <|
    inits_set (fun _ => gives_int) (by kernel_rfl) <|
    inits_set (fun _ => gives_name rfl) (by kernel_rfl) <|
    inits_set (fun _ => gives_make (DatumSpecification.makesOf (n + 2) (some _) (some _)) (fun _ hst => args_two (gives_or_nil rfl) (gives_or_nil rfl) hst) rfl rfl) (by kernel_rfl) <|
    inits_nil (by kernel_rfl)

theorem EventReportPdu.makesOf (n : Nat) (a1 : Int) (a2 : Option (List Dis.FixedDatum)) (a3 : Option (List Dis.VariableDatum)) :
    MakesOf (run (n + 4)) I.EventReportPdu [.int a1, listArg FixedDatum.enc a2, listArg VariableDatum.enc a3] (EventReportPdu.enc (Dis.EventReportPdu.init a1 (a2.getD []) (a3.getD []))) :=
  made_with (n := n + 3) (d := I.EventReportPdu) (f := EventReportPdu.__init__) (env := [(I.self, .obj I.EventReportPdu (classAttrs program 16 I.EventReportPdu)), (I.__class__, .cls I.EventReportPdu), (I.fixedDatumRecords, listArg FixedDatum.enc a2), (I.variableDatumRecords, listArg VariableDatum.enc a3), (I.eventType, .int a1)])
    (by kernel_rfl) rfl rfl rfl (by kernel_rfl) (by kernel_rfl) (by kernel_rfl) (by kernel_rfl) <|
    inits_super (fs1 := SimulationManagementFamilyPdu.fields Dis.EventReportPdu.init.toSimulationManagementFamilyPdu) (.inl rfl) EventReportPdu.found rfl (fun _ => by kernel_rfl) <|
    inits_set (fun _ => gives_name rfl) (by kernel_rfl) <|
    inits_set (fun _ => gives_int) (by kernel_rfl) <|
    inits_set (fun _ => gives_make (DatumSpecification.makesOf (n + 2) (some _) (some _)) (fun _ hst => args_two (gives_or_nil rfl) (gives_or_nil rfl) hst) rfl rfl) (by kernel_rfl) <|
    inits_nil (by kernel_rfl)

theorem DataPdu.makesOf (n : Nat) (a1 : Int) (a2 : Option (List Dis.FixedDatum)) (a3 : Option (List Dis.VariableDatum)) :
    MakesOf (run (n + 4)) I.DataPdu [.int a1, listArg FixedDatum.enc a2, listArg VariableDatum.enc a3] (DataPdu.enc (Dis.DataPdu.init a1 (a2.getD []) (a3.getD []))) :=
  made_with (n := n + 3) (d := I.DataPdu) (f := DataPdu.__init__) (env := [(I.self, .obj I.DataPdu (classAttrs program 16 I.DataPdu)), (I.__class__, .cls I.DataPdu), (I.requestID, .int a1), (I.fixedDatumRecords, listArg FixedDatum.enc a2), (I.variableDatumRecords, listArg VariableDatum.enc a3)])
    (by kernel_rfl) rfl rfl rfl (by kernel_rfl) (by kernel_rfl) (by kernel_rfl) (by kernel_rfl) <|
    inits_super (fs1 := SimulationManagementFamilyPdu.fields Dis.DataPdu.init.toSimulationManagementFamilyPdu) (.inl rfl) DataPdu.found rfl (fun _ => by kernel_rfl) <|
    inits_set (fun _ => gives_name rfl) (by kernel_rfl) <|
    inits_set (fun _ => gives_int) (by kernel_rfl) <|
    inits_set (fun _ => gives_make (DatumSpecification.makesOf (n + 2) (some _) (some _)) (fun _ hst => args_two (gives_or_nil rfl) (gives_or_nil rfl) hst) rfl rfl) (by kernel_rfl) <|
    inits_nil (by kernel_rfl)

theorem DataReliablePdu.makesOf (n : Nat) (a1 : Int) (a2 : Int) (a3 : Option (List Dis.FixedDatum)) (a4 : Option (List Dis.VariableDatum)) :
    MakesOf (run (n + 4)) I.DataReliablePdu [.int a1, .int a2, listArg FixedDatum.enc a3, listArg VariableDatum.enc a4] (DataReliablePdu.enc (Dis.DataReliablePdu.init a1 a2 (a3.getD []) (a4.getD []))) :=
  made_with (n := n + 3) (d := I.DataReliablePdu) (f := DataReliablePdu.__init__) (env := [(I.self, .obj I.DataReliablePdu (classAttrs program 16 I.DataReliablePdu)), (I.__class__, .cls I.DataReliablePdu), (I.requestID, .int a1), (I.fixedDatumRecords, listArg FixedDatum.enc a3), (I.variableDatumRecords, listArg VariableDatum.enc a4), (I.requiredReliabilityService, .int a2)])
    (by kernel_rfl) rfl rfl rfl (by kernel_rfl) (by kernel_rfl) (by kernel_rfl) (by kernel_rfl) <|
    inits_super (fs1 := SimulationManagementWithReliabilityFamilyPdu.fields Dis.DataReliablePdu.init.toSimulationManagementWithReliabilityFamilyPdu) (.inl rfl) DataReliablePdu.found rfl (fun _ => by kernel_rfl) <|
    inits_set (fun _ => gives_name rfl) (by kernel_rfl) <|
    inits_set (fun _ => gives_name rfl) (by kernel_rfl) <|
    inits_set (fun _ => gives_int) (by kernel_rfl) <|
    inits_set (fun _ => gives_int) (by kernel_rfl) <|
    inits_set (fun _ => gives_make (DatumSpecification.makesOf (n + 2) (some _) (some _)) (fun _ hst => args_two (gives_or_nil rfl) (gives_or_nil rfl) hst) rfl rfl) (by kernel_rfl) <|
    inits_nil (by kernel_rfl)

theorem CommentPdu.makesOf (n : Nat) (a1 : Option (List Dis.FixedDatum)) (a2 : Option (List Dis.VariableDatum)) :
    MakesOf (run (n + 4)) I.CommentPdu [listArg FixedDatum.enc a1, listArg VariableDatum.enc a2] (CommentPdu.enc (Dis.CommentPdu.init (a1.getD []) (a2.getD []))) :=
  made_with (n := n + 3) (d := I.CommentPdu) (f := CommentPdu.__init__) (env := [(I.self, .obj I.CommentPdu (classAttrs program 16 I.CommentPdu)), (I.__class__, .cls I.CommentPdu), (I.fixedDatumRecords, listArg FixedDatum.enc a1), (I.variableDatumRecords, listArg VariableDatum.enc a2)])
    (by kernel_rfl) rfl rfl rfl (by kernel_rfl) (by kernel_rfl) (by kernel_rfl) (by kernel_rfl) <|
    inits_super (fs1 := SimulationManagementFamilyPdu.fields Dis.CommentPdu.init.toSimulationManagementFamilyPdu) (.inl rfl) CommentPdu.found rfl (fun _ => by kernel_rfl) <|
    inits_set (fun _ => gives_make (DatumSpecification.makesOf (n + 2) (some _) (some _)) (fun _ hst => args_two (gives_or_nil rfl) (gives_or_nil rfl) hst) rfl rfl) (by kernel_rfl) <|
    inits_nil (by kernel_rfl)

theorem CommentReliablePdu.makesOf (n : Nat) (a1 : Option (List Dis.FixedDatum)) (a2 : Option (List Dis.VariableDatum)) :
    MakesOf (run (n + 4)) I.CommentReliablePdu [listArg FixedDatum.enc a1, listArg VariableDatum.enc a2] (CommentReliablePdu.enc (Dis.CommentReliablePdu.init (a1.getD []) (a2.getD []))) :=
  made_with (n := n + 3) (d := I.CommentReliablePdu) (f := CommentReliablePdu.__init__) (env := [(I.self, .obj I.CommentReliablePdu (classAttrs program 16 I.CommentReliablePdu)), (I.__class__, .cls I.CommentReliablePdu), (I.fixedDatumRecords, listArg FixedDatum.enc a1), (I.variableDatumRecords, listArg VariableDatum.enc a2)])
    (by kernel_rfl) rfl rfl rfl (by kernel_rfl) (by kernel_rfl) (by kernel_rfl) (by kernel_rfl) <|
    inits_super (fs1 := SimulationManagementWithReliabilityFamilyPdu.fields Dis.CommentReliablePdu.init.toSimulationManagementWithReliabilityFamilyPdu) (.inl rfl) CommentReliablePdu.found rfl (fun _ => by kernel_rfl) <|
    inits_set (fun _ => gives_make (DatumSpecification.makesOf (n + 2) (some _) (some _)) (fun _ hst => args_two (gives_or_nil rfl) (gives_or_nil rfl) hst) rfl rfl) (by kernel_rfl) <|
    inits_nil (by kernel_rfl)

theorem SetDataPdu.makesOf (n : Nat) (a1 : Int) (a2 : Option (List Dis.FixedDatum)) (a3 : Option (List Dis.VariableDatum)) :
    MakesOf (run (n + 4)) I.SetDataPdu [.int a1, listArg FixedDatum.enc a2, listArg VariableDatum.enc a3] (SetDataPdu.enc (Dis.SetDataPdu.init a1 (a2.getD []) (a3.getD []))) :=
  made_with (n := n + 3) (d := I.SetDataPdu) (f := SetDataPdu.__init__) (env := [(I.self, .obj I.SetDataPdu (classAttrs program 16 I.SetDataPdu)), (I.__class__, .cls I.SetDataPdu), (I.requestID, .int a1), (I.fixedDatumRecords, listArg FixedDatum.enc a2), (I.variableDatumRecords, listArg VariableDatum.enc a3)])
    (by kernel_rfl) rfl rfl rfl (by kernel_rfl) (by kernel_rfl) (by kernel_rfl) (by kernel_rfl) <|
    inits_super (fs1 := SimulationManagementFamilyPdu.fields Dis.SetDataPdu.init.toSimulationManagementFamilyPdu) (.inl rfl) SetDataPdu.found rfl (fun _ => by kernel_rfl) <|
    inits_set (fun _ => gives_name rfl) (by kernel_rfl) <|
    inits_set (fun _ => gives_int) (by kernel_rfl) <|
    inits_set (fun _ => gives_make (DatumSpecification.makesOf (n + 2) (some _) (some _)) (fun _ hst => args_two (gives_or_nil rfl) (gives_or_nil rfl) hst) rfl rfl) (by kernel_rfl) <|
    inits_nil (by kernel_rfl)

theorem ActionResponsePdu.makesOf (n : Nat) (a1 : Int) (a2 : Int) (a3 : Option (List Dis.FixedDatum)) (a4 : Option (List Dis.VariableDatum)) :
    MakesOf (run (n + 4)) I.ActionResponsePdu [.int a1, .int a2, listArg FixedDatum.enc a3, listArg VariableDatum.enc a4] (ActionResponsePdu.enc (Dis.ActionResponsePdu.init a1 a2 (a3.getD []) (a4.getD []))) :=
  made_with (n := n + 3) (d := I.ActionResponsePdu) (f := ActionResponsePdu.__init__) (env := [(I.self, .obj I.ActionResponsePdu (classAttrs program 16 I.ActionResponsePdu)), (I.__class__, .cls I.ActionResponsePdu), (I.requestID, .int a1), (I.fixedDatumRecords, listArg FixedDatum.enc a3), (I.variableDatumRecords, listArg VariableDatum.enc a4), (I.requestStatus, .int a2)])
    (by kernel_rfl) rfl rfl rfl (by kernel_rfl) (by kernel_rfl) (by kernel_rfl) (by kernel_rfl) <|
    inits_super (fs1 := SimulationManagementFamilyPdu.fields Dis.ActionResponsePdu.init.toSimulationManagementFamilyPdu) (.inl rfl) ActionResponsePdu.found rfl (fun _ => by kernel_rfl) <|
    inits_set (fun _ => gives_name rfl) (by kernel_rfl) <|
    inits_set (fun _ => gives_name rfl) (by kernel_rfl) <|
    inits_set (fun _ => gives_make (DatumSpecification.makesOf (n + 2) (some _) (some _)) (fun _ hst => args_two (gives_or_nil rfl) (gives_or_nil rfl) hst) rfl rfl) (by kernel_rfl) <|
    inits_nil (by kernel_rfl)

theorem EventReportReliablePdu.makesOf (n : Nat) (a1 : Int) (a2 : Option (List Dis.FixedDatum)) (a3 : Option (List Dis.VariableDatum)) :
    MakesOf (run (n + 4)) I.EventReportReliablePdu [.int a1, listArg FixedDatum.enc a2, listArg VariableDatum.enc a3] (EventReportReliablePdu.enc (Dis.EventReportReliablePdu.init a1 (a2.getD []) (a3.getD []))) :=
  made_with (n := n + 3) (d := I.EventReportReliablePdu) (f := EventReportReliablePdu.__init__) (env := [(I.self, .obj I.EventReportReliablePdu (classAttrs program 16 I.EventReportReliablePdu)), (I.__class__, .cls I.EventReportReliablePdu), (I.fixedDatumRecords, listArg FixedDatum.enc a2), (I.variableDatumRecords, listArg VariableDatum.enc a3), (I.eventType, .int a1)])
    (by kernel_rfl) rfl rfl rfl (by kernel_rfl) (by kernel_rfl) (by kernel_rfl) (by kernel_rfl) <|
    inits_super (fs1 := SimulationManagementWithReliabilityFamilyPdu.fields Dis.EventReportReliablePdu.init.toSimulationManagementWithReliabilityFamilyPdu) (.inl rfl) EventReportReliablePdu.found rfl (fun _ => by kernel_rfl) <|
    inits_set (fun _ => gives_name rfl) (by kernel_rfl) <|
    inits_set (fun _ => gives_int) (by kernel_rfl) <|
    inits_set (fun _ => gives_make (DatumSpecification.makesOf (n + 2) (some _) (some _)) (fun _ hst => args_two (gives_or_nil rfl) (gives_or_nil rfl) hst) rfl rfl) (by kernel_rfl) <|
    inits_nil (by kernel_rfl)

theorem ActionResponseReliablePdu.makesOf (n : Nat) (a1 : Int) (a2 : Int) (a3 : Option (List Dis.FixedDatum)) (a4 : Option (List Dis.VariableDatum)) :
    MakesOf (run (n + 4)) I.ActionResponseReliablePdu [.int a1, .int a2, listArg FixedDatum.enc a3, listArg VariableDatum.enc a4] (ActionResponseReliablePdu.enc (Dis.ActionResponseReliablePdu.init a1 a2 (a3.getD []) (a4.getD []))) :=
  made_with (n := n + 3) (d := I.ActionResponseReliablePdu) (f := ActionResponseReliablePdu.__init__) (env := [(I.self, .obj I.ActionResponseReliablePdu (classAttrs program 16 I.ActionResponseReliablePdu)), (I.__class__, .cls I.ActionResponseReliablePdu), (I.requestID, .int a1), (I.fixedDatumRecords, listArg FixedDatum.enc a3), (I.variableDatumRecords, listArg VariableDatum.enc a4), (I.responseStatus, .int a2)])
    (by kernel_rfl) rfl rfl rfl (by kernel_rfl) (by kernel_rfl) (by kernel_rfl) (by kernel_rfl) <|
    inits_super (fs1 := SimulationManagementWithReliabilityFamilyPdu.fields Dis.ActionResponseReliablePdu.init.toSimulationManagementWithReliabilityFamilyPdu) (.inl rfl) ActionResponseReliablePdu.found rfl (fun _ => by kernel_rfl) <|
    inits_set (fun _ => gives_name rfl) (by kernel_rfl) <|
    inits_set (fun _ => gives_name rfl) (by kernel_rfl) <|
    inits_set (fun _ => gives_make (DatumSpecification.makesOf (n + 2) (some _) (some _)) (fun _ hst => args_two (gives_or_nil rfl) (gives_or_nil rfl) hst) rfl rfl) (by kernel_rfl) <|
    inits_nil (by kernel_rfl)

theorem AggregateStatePdu.makesOf (n : Nat) (a1 : Option Dis.AggregateIdentifier) (a2 : Int) (a3 : Int) (a4 : Option Dis.AggregateType) (a5 : Int) (a6 : Option Dis.AggregateMarking) (a7 : Option Dis.Vector3Float) (a8 : Option Dis.EulerAngles) (a9 : Option Dis.Vector3Float) (a10 : Option Dis.WorldCoordinates) (a11 : Option (List Dis.AggregateIdentifier)) (a12 : Option (List Dis.EntityIdentifier)) (a13 : Option (List Dis.SilentAggregateSystem)) (a14 : Option (List Dis.SilentEntitySystem)) (a15 : Option (List Dis.VariableDatum)) :
    MakesOf (run (n + 4)) I.AggregateStatePdu [optArg AggregateIdentifier.enc a1, .int a2, .int a3, optArg AggregateType.enc a4, .int a5, optArg AggregateMarking.enc a6, optArg Vector3Float.enc a7, optArg EulerAngles.enc a8, optArg Vector3Float.enc a9, optArg WorldCoordinates.enc a10, listArg AggregateIdentifier.enc a11, listArg EntityIdentifier.enc a12, listArg SilentAggregateSystem.enc a13, listArg SilentEntitySystem.enc a14, listArg VariableDatum.enc a15] (AggregateStatePdu.enc (Dis.AggregateStatePdu.init a1 a2 a3 a4 a5 a6 a7 a8 a9 a10 (a11.getD []) (a12.getD []) (a13.getD []) (a14.getD []) (a15.getD []))) :=
  made_with (n := n + 3) (d := I.AggregateStatePdu) (f := AggregateStatePdu.__init__) (env := [(I.self, .obj I.AggregateStatePdu (classAttrs program 16 I.AggregateStatePdu)), (I.__class__, .cls I.AggregateStatePdu), (I.aggregateID, optArg AggregateIdentifier.enc a1), (I.variableDatumRecords, listArg VariableDatum.enc a15), (I.aggregateType, optArg AggregateType.enc a4), (I.velocity, optArg WorldCoordinates.enc a10), (I.forceID, .int a2), (I.aggregateState, .int a3), (I.formation, .int a5), (I.aggregateMarking, optArg AggregateMarking.enc a6), (I.dimensions, optArg Vector3Float.enc a7), (I.orientation, optArg EulerAngles.enc a8), (I.centerOfMass, optArg Vector3Float.enc a9), (I.aggregateIDs, listArg AggregateIdentifier.enc a11), (I.entityIDs, listArg EntityIdentifier.enc a12), (I.silentAggregateSystems, listArg SilentAggregateSystem.enc a13), (I.silentEntitySystems, listArg SilentEntitySystem.enc a14)])
    (by kernel_rfl) rfl rfl rfl (by kernel_rfl) (by kernel_rfl) (by kernel_rfl) (by kernel_rfl) <|
    inits_super (fs1 := EntityManagementFamilyPdu.fields Dis.AggregateStatePdu.init.toEntityManagementFamilyPdu) (.inl rfl) AggregateStatePdu.found rfl (fun _ => by kernel_rfl) <|
    inits_set (fun _ => gives_or_new rfl (AggregateIdentifier.makes (n + 1)) (fun _ => rfl)) (by kernel_rfl) <|
    inits_set (fun _ => gives_name rfl) (by kernel_rfl) <|
    inits_set (fun _ => gives_name rfl) (by kernel_rfl) <|
    inits_set (fun _ => gives_or_new rfl (AggregateType.makes (n + 2)) (fun _ => rfl)) (by kernel_rfl) <|
    inits_set (fun _ => gives_name rfl) (by kernel_rfl) <|
    inits_set (fun _ => gives_or_new rfl (AggregateMarking.makes (n + 2)) (fun _ => rfl)) (by kernel_rfl) <|
    inits_set (fun _ => gives_or_new rfl (Vector3Float.makes (n + 2)) (fun _ => rfl)) (by kernel_rfl) <|
    inits_set (fun _ => gives_or_new rfl (EulerAngles.makes (n + 2)) (fun _ => rfl)) (by kernel_rfl) <|
    inits_set (fun _ => gives_or_new rfl (Vector3Float.makes (n + 2)) (fun _ => rfl)) (by kernel_rfl) <|
    inits_set (fun _ => gives_or_new rfl (WorldCoordinates.makes (n + 2)) (fun _ => rfl)) (by kernel_rfl) <|
    inits_set (fun _ => gives_or_nil rfl) (by kernel_rfl) <|
    inits_set (fun _ => gives_or_nil rfl) (by kernel_rfl) <|
    inits_set (fun _ => gives_or_nil rfl) (by kernel_rfl) <|
    inits_set (fun _ => gives_or_nil rfl) (by kernel_rfl) <|
    inits_set (fun _ => gives_or_nil rfl) (by kernel_rfl) <|
    inits_nil (by kernel_rfl)

theorem SpreadSpectrum.makesOf (n : Nat) (a1 : Bool) (a2 : Bool) (a3 : Bool) (a4 : Int) :
    MakesOf (run (n + 1)) I.SpreadSpectrum [.bool a1, .bool a2, .bool a3, .int a4] (SpreadSpectrum.enc (Dis.SpreadSpectrum.init a1 a2 a3 a4)) :=
  made_with (n := n + 0) (d := I.SpreadSpectrum) (f := SpreadSpectrum.__init__) (env := [(I.padding, .int a4), (I.self, .obj I.SpreadSpectrum (classAttrs program 16 I.SpreadSpectrum)), (I.__class__, .cls I.SpreadSpectrum), (I.frequencyHopping, .bool a1), (I.pseudoNoise, .bool a2), (I.timeHopping, .bool a3)])
    (by kernel_rfl) rfl rfl rfl (by kernel_rfl) (by kernel_rfl) (by kernel_rfl) (by kernel_rfl) <|
    inits_set (fun _ => gives_name rfl) (by kernel_rfl) <|
    inits_set (fun _ => gives_name rfl) (by kernel_rfl) <|
    inits_set (fun _ => gives_name rfl) (by kernel_rfl) <|
    inits_set (fun _ => gives_name rfl) (by kernel_rfl) <|
    inits_nil (by kernel_rfl)

theorem ModulationType.makesOf (n : Nat) (a1 : Option Dis.SpreadSpectrum) (a2 : Int) (a3 : Int) (a4 : Int) :
    MakesOf (run (n + 2)) I.ModulationType [optArg SpreadSpectrum.enc a1, .int a2, .int a3, .int a4] (ModulationType.enc (Dis.ModulationType.init a1 a2 a3 a4)) :=
  made_with (n := n + 1) (d := I.ModulationType) (f := ModulationType.__init__) (env := [(I.self, .obj I.ModulationType (classAttrs program 16 I.ModulationType)), (I.__class__, .cls I.ModulationType), (I.spreadSpectrum, optArg SpreadSpectrum.enc a1), (I.majorModulation, .int a2), (I.detail, .int a3), (I.radioSystem, .int a4)])
    (by kernel_rfl) rfl rfl rfl (by kernel_rfl) (by kernel_rfl) (by kernel_rfl) (by kernel_rfl) <|
    inits_set (fun _ => gives_or_new rfl (SpreadSpectrum.makes (n + 0)) (fun _ => rfl)) (by kernel_rfl) <|
    inits_set (fun _ => gives_name rfl) (by kernel_rfl) <|
    inits_set (fun _ => gives_name rfl) (by kernel_rfl) <|
    inits_set (fun _ => gives_name rfl) (by kernel_rfl) <|
    inits_nil (by kernel_rfl)

theorem NetId.makesOf (n : Nat) (a1 : Int) (a2 : Int) (a3 : Int) (a4 : Int) :
    MakesOf (run (n + 1)) I.NetId [.int a1, .int a2, .int a3, .int a4] (NetId.enc (Dis.NetId.init a1 a2 a3 a4)) :=
  made_with (n := n + 0) (d := I.NetId) (f := NetId.__init__) (env := [(I.padding, .int a4), (I.self, .obj I.NetId (classAttrs program 16 I.NetId)), (I.__class__, .cls I.NetId), (I.netNumber, .int a1), (I.frequencyTable, .int a2), (I.mode, .int a3)])
    (by kernel_rfl) rfl rfl rfl (by kernel_rfl) (by kernel_rfl) (by kernel_rfl) (by kernel_rfl) <|
    inits_set (fun _ => gives_name rfl) (by kernel_rfl) <|
    inits_set (fun _ => gives_name rfl) (by kernel_rfl) <|
    inits_set (fun _ => gives_name rfl) (by kernel_rfl) <|
    inits_set (fun _ => gives_name rfl) (by kernel_rfl) <|
    inits_nil (by kernel_rfl)

theorem BeamAntennaPattern.makesOf (n : Nat) (a1 : Option Dis.EulerAngles) (a2 : F64) (a3 : F64) (a4 : Int) (a5 : F64) (a6 : F64) (a7 : F64) :
    MakesOf (run (n + 2)) I.BeamAntennaPattern [optArg EulerAngles.enc a1, .float a2, .float a3, .int a4, .float a5, .float a6, .float a7] (BeamAntennaPattern.enc (Dis.BeamAntennaPattern.init a1 a2 a3 a4 a5 a6 a7)) :=
  made_with (n := n + 1) (d := I.BeamAntennaPattern) (f := BeamAntennaPattern.__init__) (env := [(I.self, .obj I.BeamAntennaPattern (classAttrs program 16 I.BeamAntennaPattern)), (I.__class__, .cls I.BeamAntennaPattern), (I.beamDirection, optArg EulerAngles.enc a1), (I.azimuthBeamwidth, .float a2), (I.elevationBeamwidth, .float a3), (I.referenceSystem, .int a4), (I.ez, .float a5), (I.ex, .float a6), (I.phase, .float a7)])
    (by kernel_rfl) rfl rfl rfl (by kernel_rfl) (by kernel_rfl) (by kernel_rfl) (by kernel_rfl) <|
    inits_set (fun _ => gives_or_new rfl (EulerAngles.makes (n + 0)) (fun _ => rfl)) (by kernel_rfl) <|
    inits_set (fun _ => gives_name rfl) (by kernel_rfl) <|
    inits_set (fun _ => gives_name rfl) (by kernel_rfl) <|
    inits_set (fun _ => gives_name rfl) (by kernel_rfl) <|
    inits_set (fun _ => gives_int) (by kernel_rfl) <|
    inits_set (fun _ => gives_int) (by kernel_rfl) <|
    inits_set (fun _ => gives_name rfl) (by kernel_rfl) <|
    inits_set (fun _ => gives_name rfl) (by kernel_rfl) <|
    inits_set (fun _ => gives_name rfl) (by kernel_rfl) <|
    inits_set (fun _ => gives_int) (by kernel_rfl) <|
    inits_nil (by kernel_rfl)

theorem BasicHaveQuickMP.makesOf (n : Nat) (a1 : Option Dis.NetId) (a2 : Int) (a3 : Int) (a4 : Int) (a5 : Int) (a6 : Int) (a7 : Int) :
    MakesOf (run (n + 2)) I.BasicHaveQuickMP [optArg NetId.enc a1, .int a2, .int a3, .int a4, .int a5, .int a6, .int a7] (BasicHaveQuickMP.enc (Dis.BasicHaveQuickMP.init a1 a2 a3 a4 a5 a6 a7)) :=
  made_with (n := n + 1) (d := I.BasicHaveQuickMP) (f := BasicHaveQuickMP.__init__) (env := [(I.padding, .int a7), (I.self, .obj I.BasicHaveQuickMP (classAttrs program 16 I.BasicHaveQuickMP)), (I.__class__, .cls I.BasicHaveQuickMP), (I.net_id, optArg NetId.enc a1), (I.mwod_index, .int a2), (I.reserved16, .int a3), (I.reserved8_1, .int a4), (I.reserved8_2, .int a5), (I.time_of_day, .int a6)])
    (by kernel_rfl) rfl rfl rfl (by kernel_rfl) (by kernel_rfl) (by kernel_rfl) (by kernel_rfl) <|
    inits_set (fun _ => gives_or_new rfl (NetId.makes (n + 0)) (fun _ => rfl)) (by kernel_rfl) <|
    inits_set (fun _ => gives_name rfl) (by kernel_rfl) <|
    inits_set (fun _ => gives_name rfl) (by kernel_rfl) <|
    inits_set (fun _ => gives_name rfl) (by kernel_rfl) <|
    inits_set (fun _ => gives_name rfl) (by kernel_rfl) <|
    inits_set (fun _ => gives_name rfl) (by kernel_rfl) <|
    inits_set (fun _ => gives_name rfl) (by kernel_rfl) <|
    inits_nil (by kernel_rfl)

theorem CCTTSincgarsMP.makesOf (n : Nat) (a1 : Int) (a2 : Int) (a3 : Int) (a4 : Int) (a5 : Int) (a6 : Int) (a7 : Int) :
    MakesOf (run (n + 1)) I.CCTTSincgarsMP [.int a1, .int a2, .int a3, .int a4, .int a5, .int a6, .int a7] (CCTTSincgarsMP.enc (Dis.CCTTSincgarsMP.init a1 a2 a3 a4 a5 a6 a7)) :=
  made_with (n := n + 0) (d := I.CCTTSincgarsMP) (f := CCTTSincgarsMP.__init__) (env := [(I.self, .obj I.CCTTSincgarsMP (classAttrs program 16 I.CCTTSincgarsMP)), (I.__class__, .cls I.CCTTSincgarsMP), (I.fh_net_id, .int a1), (I.hop_set_id, .int a2), (I.lockout_set_id, .int a3), (I.start_of_message, .int a4), (I.clear_channel, .int a5), (I.fh_sync_time_offset, .int a6), (I.transmission_security_key, .int a7)])
    (by kernel_rfl) rfl rfl rfl (by kernel_rfl) (by kernel_rfl) (by kernel_rfl) (by kernel_rfl) <|
    inits_set (fun _ => gives_name rfl) (by kernel_rfl) <|
    inits_set (fun _ => gives_name rfl) (by kernel_rfl) <|
    inits_set (fun _ => gives_name rfl) (by kernel_rfl) <|
    inits_set (fun _ => gives_name rfl) (by kernel_rfl) <|
    inits_set (fun _ => gives_name rfl) (by kernel_rfl) <|
    inits_set (fun _ => gives_name rfl) (by kernel_rfl) <|
    inits_set (fun _ => gives_name rfl) (by kernel_rfl) <|
    inits_set (fun _ => gives_int) (by kernel_rfl) <|
    inits_nil (by kernel_rfl)

theorem DEFireFlags.makesOf (n : Nat) (a1 : Int) (a2 : Int) :
    MakesOf (run (n + 1)) I.DEFireFlags [.int a1, .int a2] (DEFireFlags.enc (Dis.DEFireFlags.init a1 a2)) :=
  made_with (n := n + 0) (d := I.DEFireFlags) (f := DEFireFlags.__init__) (env := [(I.self, .obj I.DEFireFlags (classAttrs program 16 I.DEFireFlags)), (I.__class__, .cls I.DEFireFlags), (I.weaponOn, .int a1), (I.stateUpdateFlag, .int a2)])
    (by kernel_rfl) rfl rfl rfl (by kernel_rfl) (by kernel_rfl) (by kernel_rfl) (by kernel_rfl) <|
    inits_set (fun _ => gives_name rfl) (by kernel_rfl) <|
    inits_set (fun _ => gives_name rfl) (by kernel_rfl) <|
    inits_set (fun _ => gives_int) (by kernel_rfl) <|
    inits_nil (by kernel_rfl)

theorem DirectedEnergyTargetEnergyDeposition.makesOf (n : Nat) (a1 : Option Dis.EntityIdentifier) (a2 : F64) :
    MakesOf (run (n + 3)) I.DirectedEnergyTargetEnergyDeposition [optArg EntityIdentifier.enc a1, .float a2] (DirectedEnergyTargetEnergyDeposition.enc (Dis.DirectedEnergyTargetEnergyDeposition.init a1 a2)) :=
  made_with (n := n + 2) (d := I.DirectedEnergyTargetEnergyDeposition) (f := DirectedEnergyTargetEnergyDeposition.__init__) (env := [(I.targetEntityID, optArg EntityIdentifier.enc a1), (I.self, .obj I.DirectedEnergyTargetEnergyDeposition (classAttrs program 16 I.DirectedEnergyTargetEnergyDeposition)), (I.__class__, .cls I.DirectedEnergyTargetEnergyDeposition), (I.peakIrradiance, .float a2)])
    (by kernel_rfl) rfl rfl rfl (by kernel_rfl) (by kernel_rfl) (by kernel_rfl) (by kernel_rfl) <|
    inits_set (fun _ => gives_or_new rfl (EntityIdentifier.makes (n + 0)) (fun _ => rfl)) (by kernel_rfl) <|
    inits_set (fun _ => gives_int) (by kernel_rfl) <|
    inits_set (fun _ => gives_name rfl) (by kernel_rfl) <|
    inits_nil (by kernel_rfl)

theorem DirectedEnergyFirePdu.makesOf (n : Nat) (a1 : Option Dis.EntityType) (a2 : Option Dis.ClockTime) (a3 : F64) (a4 : Option Dis.Vector3Float) (a5 : F64) (a6 : F64) (a7 : F64) (a8 : F64) (a9 : Dis.DEFireFlags) (a10 : Int) (a11 : Option (List Dis.SVRecord)) :
    MakesOf (run (n + 4)) I.DirectedEnergyFirePdu [optArg EntityType.enc a1, optArg ClockTime.enc a2, .float a3, optArg Vector3Float.enc a4, .float a5, .float a6, .float a7, .float a8, DEFireFlags.enc a9, .int a10, listArg svEnc a11] (DirectedEnergyFirePdu.enc (Dis.DirectedEnergyFirePdu.init a1 a2 a3 a4 a5 a6 a7 a8 (some a9) a10 (a11.getD []))) :=
  made_with (n := n + 3) (d := I.DirectedEnergyFirePdu) (f := DirectedEnergyFirePdu.__init__) (env := [(I.self, .obj I.DirectedEnergyFirePdu (classAttrs program 16 I.DirectedEnergyFirePdu)), (I.__class__, .cls I.DirectedEnergyFirePdu), (I.munitionType, optArg EntityType.enc a1), (I.pulseRepetitionFrequency, .float a7), (I.pulseWidth, .float a8), (I.shotStartTime, optArg ClockTime.enc a2), (I.cumulativeShotTime, .float a3), (I.apertureEmitterLocation, optArg Vector3Float.enc a4), (I.apertureDiameter, .float a5), (I.wavelength, .float a6), (I.flags, DEFireFlags.enc a9), (I.pulseShape, .int a10), (I.dERecords, listArg svEnc a11)])
    (by kernel_rfl) rfl rfl rfl (by kernel_rfl) (by kernel_rfl) (by kernel_rfl) (by kernel_rfl) <|
    inits_super (fs1 := WarfareFamilyPdu.fields Dis.DirectedEnergyFirePdu.init.toWarfareFamilyPdu) (.inl rfl) DirectedEnergyFirePdu.found rfl (fun _ => by kernel_rfl) <|
    inits_set (fun _ => gives_or_new rfl (EntityType.makes (n + 2)) (fun _ => rfl)) (by kernel_rfl) <|
    inits_set (fun _ => gives_or_new rfl (ClockTime.makes (n + 2)) (fun _ => rfl)) (by kernel_rfl) <|
    inits_set (fun _ => gives_name rfl) (by kernel_rfl) <|
    inits_set (fun _ => gives_or_new rfl (Vector3Float.makes (n + 2)) (fun _ => rfl)) (by kernel_rfl) <|
    inits_set (fun _ => gives_name rfl) (by kernel_rfl) <|
    inits_set (fun _ => gives_name rfl) (by kernel_rfl) <|
    inits_set (fun _ => gives_int) (by kernel_rfl) <|
    inits_set (fun _ => gives_name rfl) (by kernel_rfl) <|
    inits_set (fun _ => gives_name rfl) (by kernel_rfl) <|
    inits_set (fun _ => gives_or_given rfl rfl) (by kernel_rfl) <|
    inits_set (fun _ => gives_name rfl) (by kernel_rfl) <|
    inits_set (fun _ => gives_int) (by kernel_rfl) <|
    inits_set (fun _ => gives_int) (by kernel_rfl) <|
    inits_set (fun _ => gives_int) (by kernel_rfl) <|
    inits_set (fun _ => gives_or_nil rfl) (by kernel_rfl) <|
    inits_nil (by kernel_rfl)

theorem EntityDamageStatusPdu.makesOf (n : Nat) (a1 : Option Dis.EntityIdentifier) (a2 : Option (List Dis.SVRecord)) :
    MakesOf (run (n + 4)) I.EntityDamageStatusPdu [optArg EntityIdentifier.enc a1, listArg svEnc a2] (EntityDamageStatusPdu.enc (Dis.EntityDamageStatusPdu.init a1 (a2.getD []))) :=
  made_with (n := n + 3) (d := I.EntityDamageStatusPdu) (f := EntityDamageStatusPdu.__init__) (env := [(I.self, .obj I.EntityDamageStatusPdu (classAttrs program 16 I.EntityDamageStatusPdu)), (I.__class__, .cls I.EntityDamageStatusPdu), (I.damagedEntityID, optArg EntityIdentifier.enc a1), (I.damageDescriptions, listArg svEnc a2)])
    (by kernel_rfl) rfl rfl rfl (by kernel_rfl) (by kernel_rfl) (by kernel_rfl) (by kernel_rfl) <|
    inits_super (fs1 := WarfareFamilyPdu.fields Dis.EntityDamageStatusPdu.init.toWarfareFamilyPdu) (.inl rfl) EntityDamageStatusPdu.found rfl (fun _ => by kernel_rfl) <|
    inits_set (fun _ => gives_or_new rfl (EntityIdentifier.makes (n + 1)) (fun _ => rfl)) (by kernel_rfl) <|
    inits_set (fun _ => gives_int) (by kernel_rfl) <|
    inits_set (fun _ => gives_int) (by kernel_rfl) <|
    inits_set (fun _ => gives_or_nil rfl) (by kernel_rfl) <|
    inits_nil (by kernel_rfl)

end Dis.Src
