import Verif.Spec.SourceCatalog
import Verif.Proof.SourceLaws
import Verif.Proof.SourceRun5
import Verif.Proof.SourceLaw4

/-!
# The classes with their laws, part 5

Written by `tools/gensourceproof.py`.
-/

set_option linter.unusedVariables false
set_option linter.unusedSimpArgs false

namespace Dis.Src

theorem DatumSpecification.inj : ∀ {x y : Dis.DatumSpecification}, DatumSpecification.fields x = DatumSpecification.fields y → x = y := by
  rintro ⟨a0, a1⟩ ⟨b0, b1⟩ h
  obtain rfl : a0 = b0 := list_inj (enc_inj FixedDatum.inj) (congrArg (look I.fixedDatumRecords) h)
  obtain rfl : a1 = b1 := list_inj (enc_inj VariableDatum.inj) (congrArg (look I.variableDatumRecords) h)
  rfl

theorem ActionRequestPdu.inj : ∀ {x y : Dis.ActionRequestPdu}, ActionRequestPdu.fields x = ActionRequestPdu.fields y → x = y := by
  rintro ⟨p, a0, a1, a2⟩ ⟨q, b0, b1, b2⟩ h
  obtain rfl : p = q := SimulationManagementFamilyPdu.inj (List.append_inj_left h rfl)
  obtain rfl : a0 = b0 := int_inj (congrArg (look I.requestID) h)
  obtain rfl : a1 = b1 := int_inj (congrArg (look I.actionID) h)
  obtain rfl : a2 = b2 := obj_inj DatumSpecification.inj (congrArg (look I._datums) h)
  rfl

theorem ActionRequestReliablePdu.inj : ∀ {x y : Dis.ActionRequestReliablePdu}, ActionRequestReliablePdu.fields x = ActionRequestReliablePdu.fields y → x = y := by
  rintro ⟨p, a0, a1, a2, a3, a4, a5, a6⟩ ⟨q, b0, b1, b2, b3, b4, b5, b6⟩ h
  obtain rfl : p = q := SimulationManagementWithReliabilityFamilyPdu.inj (List.append_inj_left h rfl)
  obtain rfl : a0 = b0 := int_inj (congrArg (look I.requiredReliabilityService) h)
  obtain rfl : a1 = b1 := int_inj (congrArg (look I.pad1) h)
  obtain rfl : a2 = b2 := int_inj (congrArg (look I.pad2) h)
  obtain rfl : a3 = b3 := int_inj (congrArg (look I.requestID) h)
  obtain rfl : a4 = b4 := int_inj (congrArg (look I.actionID) h)
  obtain rfl : a5 = b5 := int_inj (congrArg (look I.pad3) h)
  obtain rfl : a6 = b6 := obj_inj DatumSpecification.inj (congrArg (look I._datums) h)
  rfl

theorem SetDataReliablePdu.inj : ∀ {x y : Dis.SetDataReliablePdu}, SetDataReliablePdu.fields x = SetDataReliablePdu.fields y → x = y := by
  rintro ⟨p, a0, a1, a2, a3, a4⟩ ⟨q, b0, b1, b2, b3, b4⟩ h
  obtain rfl : p = q := SimulationManagementWithReliabilityFamilyPdu.inj (List.append_inj_left h rfl)
  obtain rfl : a0 = b0 := int_inj (congrArg (look I.requiredReliabilityService) h)
  obtain rfl : a1 = b1 := int_inj (congrArg (look I.pad1) h)
  obtain rfl : a2 = b2 := int_inj (congrArg (look I.pad2) h)
  obtain rfl : a3 = b3 := int_inj (congrArg (look I.requestID) h)
  obtain rfl : a4 = b4 := obj_inj DatumSpecification.inj (congrArg (look I._datums) h)
  rfl

theorem EventReportPdu.inj : ∀ {x y : Dis.EventReportPdu}, EventReportPdu.fields x = EventReportPdu.fields y → x = y := by
  rintro ⟨p, a0, a1, a2⟩ ⟨q, b0, b1, b2⟩ h
  obtain rfl : p = q := SimulationManagementFamilyPdu.inj (List.append_inj_left h rfl)
  obtain rfl : a0 = b0 := int_inj (congrArg (look I.eventType) h)
  obtain rfl : a1 = b1 := int_inj (congrArg (look I.padding1) h)
  obtain rfl : a2 = b2 := obj_inj DatumSpecification.inj (congrArg (look I._datums) h)
  rfl

theorem DataPdu.inj : ∀ {x y : Dis.DataPdu}, DataPdu.fields x = DataPdu.fields y → x = y := by
  rintro ⟨p, a0, a1, a2⟩ ⟨q, b0, b1, b2⟩ h
  obtain rfl : p = q := SimulationManagementFamilyPdu.inj (List.append_inj_left h rfl)
  obtain rfl : a0 = b0 := int_inj (congrArg (look I.requestID) h)
  obtain rfl : a1 = b1 := int_inj (congrArg (look I.padding1) h)
  obtain rfl : a2 = b2 := obj_inj DatumSpecification.inj (congrArg (look I._datums) h)
  rfl

theorem DataReliablePdu.inj : ∀ {x y : Dis.DataReliablePdu}, DataReliablePdu.fields x = DataReliablePdu.fields y → x = y := by
  rintro ⟨p, a0, a1, a2, a3, a4⟩ ⟨q, b0, b1, b2, b3, b4⟩ h
  obtain rfl : p = q := SimulationManagementWithReliabilityFamilyPdu.inj (List.append_inj_left h rfl)
  obtain rfl : a0 = b0 := int_inj (congrArg (look I.requestID) h)
  obtain rfl : a1 = b1 := int_inj (congrArg (look I.requiredReliabilityService) h)
  obtain rfl : a2 = b2 := int_inj (congrArg (look I.pad1) h)
  obtain rfl : a3 = b3 := int_inj (congrArg (look I.pad2) h)
  obtain rfl : a4 = b4 := obj_inj DatumSpecification.inj (congrArg (look I._datums) h)
  rfl

theorem CommentPdu.inj : ∀ {x y : Dis.CommentPdu}, CommentPdu.fields x = CommentPdu.fields y → x = y := by
  rintro ⟨p, a0⟩ ⟨q, b0⟩ h
  obtain rfl : p = q := SimulationManagementFamilyPdu.inj (List.append_inj_left h rfl)
  obtain rfl : a0 = b0 := obj_inj DatumSpecification.inj (congrArg (look I._datums) h)
  rfl

theorem CommentReliablePdu.inj : ∀ {x y : Dis.CommentReliablePdu}, CommentReliablePdu.fields x = CommentReliablePdu.fields y → x = y := by
  rintro ⟨p, a0⟩ ⟨q, b0⟩ h
  obtain rfl : p = q := SimulationManagementWithReliabilityFamilyPdu.inj (List.append_inj_left h rfl)
  obtain rfl : a0 = b0 := obj_inj DatumSpecification.inj (congrArg (look I._datums) h)
  rfl

theorem SetDataPdu.inj : ∀ {x y : Dis.SetDataPdu}, SetDataPdu.fields x = SetDataPdu.fields y → x = y := by
  rintro ⟨p, a0, a1, a2⟩ ⟨q, b0, b1, b2⟩ h
  obtain rfl : p = q := SimulationManagementFamilyPdu.inj (List.append_inj_left h rfl)
  obtain rfl : a0 = b0 := int_inj (congrArg (look I.requestID) h)
  obtain rfl : a1 = b1 := int_inj (congrArg (look I.padding1) h)
  obtain rfl : a2 = b2 := obj_inj DatumSpecification.inj (congrArg (look I._datums) h)
  rfl

theorem ActionResponsePdu.inj : ∀ {x y : Dis.ActionResponsePdu}, ActionResponsePdu.fields x = ActionResponsePdu.fields y → x = y := by
  rintro ⟨p, a0, a1, a2⟩ ⟨q, b0, b1, b2⟩ h
  obtain rfl : p = q := SimulationManagementFamilyPdu.inj (List.append_inj_left h rfl)
  obtain rfl : a0 = b0 := int_inj (congrArg (look I.requestID) h)
  obtain rfl : a1 = b1 := int_inj (congrArg (look I.requestStatus) h)
  obtain rfl : a2 = b2 := obj_inj DatumSpecification.inj (congrArg (look I._datums) h)
  rfl

theorem EventReportReliablePdu.inj : ∀ {x y : Dis.EventReportReliablePdu}, EventReportReliablePdu.fields x = EventReportReliablePdu.fields y → x = y := by
  rintro ⟨p, a0, a1, a2⟩ ⟨q, b0, b1, b2⟩ h
  obtain rfl : p = q := SimulationManagementWithReliabilityFamilyPdu.inj (List.append_inj_left h rfl)
  obtain rfl : a0 = b0 := int_inj (congrArg (look I.eventType) h)
  obtain rfl : a1 = b1 := int_inj (congrArg (look I.pad1) h)
  obtain rfl : a2 = b2 := obj_inj DatumSpecification.inj (congrArg (look I._datums) h)
  rfl

theorem ActionResponseReliablePdu.inj : ∀ {x y : Dis.ActionResponseReliablePdu}, ActionResponseReliablePdu.fields x = ActionResponseReliablePdu.fields y → x = y := by
  rintro ⟨p, a0, a1, a2⟩ ⟨q, b0, b1, b2⟩ h
  obtain rfl : p = q := SimulationManagementWithReliabilityFamilyPdu.inj (List.append_inj_left h rfl)
  obtain rfl : a0 = b0 := int_inj (congrArg (look I.requestID) h)
  obtain rfl : a1 = b1 := int_inj (congrArg (look I.responseStatus) h)
  obtain rfl : a2 = b2 := obj_inj DatumSpecification.inj (congrArg (look I._datums) h)
  rfl

theorem AggregateStatePdu.inj : ∀ {x y : Dis.AggregateStatePdu}, AggregateStatePdu.fields x = AggregateStatePdu.fields y → x = y := by
  rintro ⟨p, a0, a1, a2, a3, a4, a5, a6, a7, a8, a9, a10, a11, a12, a13, a14⟩ ⟨q, b0, b1, b2, b3, b4, b5, b6, b7, b8, b9, b10, b11, b12, b13, b14⟩ h
  obtain rfl : p = q := EntityManagementFamilyPdu.inj (List.append_inj_left h rfl)
  obtain rfl : a0 = b0 := obj_inj AggregateIdentifier.inj (congrArg (look I.aggregateID) h)
  obtain rfl : a1 = b1 := int_inj (congrArg (look I.forceID) h)
  obtain rfl : a2 = b2 := int_inj (congrArg (look I.aggregateState) h)
  obtain rfl : a3 = b3 := obj_inj AggregateType.inj (congrArg (look I.aggregateType) h)
  obtain rfl : a4 = b4 := int_inj (congrArg (look I.formation) h)
  obtain rfl : a5 = b5 := obj_inj AggregateMarking.inj (congrArg (look I.aggregateMarking) h)
  obtain rfl : a6 = b6 := obj_inj Vector3Float.inj (congrArg (look I.dimensions) h)
  obtain rfl : a7 = b7 := obj_inj EulerAngles.inj (congrArg (look I.orientation) h)
  obtain rfl : a8 = b8 := obj_inj Vector3Float.inj (congrArg (look I.centerOfMass) h)
  obtain rfl : a9 = b9 := obj_inj WorldCoordinates.inj (congrArg (look I.velocity) h)
  obtain rfl : a10 = b10 := list_inj (enc_inj AggregateIdentifier.inj) (congrArg (look I.aggregateIDs) h)
  obtain rfl : a11 = b11 := list_inj (enc_inj EntityIdentifier.inj) (congrArg (look I.entityIDs) h)
  obtain rfl : a12 = b12 := list_inj (enc_inj SilentAggregateSystem.inj) (congrArg (look I.silentAggregateSystems) h)
  obtain rfl : a13 = b13 := list_inj (enc_inj SilentEntitySystem.inj) (congrArg (look I.silentEntitySystems) h)
  obtain rfl : a14 = b14 := list_inj (enc_inj VariableDatum.inj) (congrArg (look I.variableDatumRecords) h)
  rfl

theorem AttachedParts.lawful : Sourced.AttachedParts.Lawful where
  serialize n x := AttachedParts.serializes (n + 7) x
  parse n := AttachedParts.parses (n + 7)
  inj _ _ := AttachedParts.inj
  makes _ := ⟨_, .rfl' _, fun n => ⟨AttachedParts.makes (n + 6), AttachedParts.serializes (n + 7) Dis.AttachedParts.init,
    fun io => ⟨_, AttachedParts.parses (n + 7) Dis.AttachedParts.init io, fun _ _ => rfl⟩⟩⟩

theorem VariableDatum.lawful : Sourced.VariableDatum.Lawful where
  serialize n x := VariableDatum.serializes (n + 6) x
  parse n := VariableDatum.parses (n + 6)
  inj _ _ := VariableDatum.inj
  makes _ := ⟨_, .rfl' _, fun n => ⟨VariableDatum.makes (n + 7), VariableDatum.serializes (n + 6) Dis.VariableDatum.init,
    fun io => ⟨_, VariableDatum.parses (n + 6) Dis.VariableDatum.init io, fun _ _ => rfl⟩⟩⟩

theorem DatumSpecification.lawful : Sourced.DatumSpecification.Lawful where
  serialize n x := DatumSpecification.serializes (n + 5) x
  parse n := DatumSpecification.parses (n + 5)
  inj _ _ := DatumSpecification.inj
  makes _ := ⟨_, .rfl' _, fun n => ⟨DatumSpecification.makes (n + 7), DatumSpecification.serializes (n + 5) Dis.DatumSpecification.init,
    fun io => ⟨_, DatumSpecification.parses (n + 5) Dis.DatumSpecification.init io, fun _ _ => rfl⟩⟩⟩

theorem SilentAggregateSystem.lawful : Sourced.SilentAggregateSystem.Lawful where
  serialize n x := SilentAggregateSystem.serializes (n + 6) x
  parse n := SilentAggregateSystem.parses (n + 6)
  inj _ _ := SilentAggregateSystem.inj
  makes _ := ⟨_, .rfl' _, fun n => ⟨SilentAggregateSystem.makes (n + 6), SilentAggregateSystem.serializes (n + 6) Dis.SilentAggregateSystem.init,
    fun io => ⟨_, SilentAggregateSystem.parses (n + 6) Dis.SilentAggregateSystem.init io, fun _ _ => rfl⟩⟩⟩

theorem Environment.lawful : Sourced.Environment.Lawful where
  serialize n x := Environment.serializes (n + 7) x
  parse n := Environment.parses (n + 7)
  inj _ _ := Environment.inj
  makes _ := ⟨_, .rfl' _, fun n => ⟨Environment.makes (n + 7), Environment.serializes (n + 7) Dis.Environment.init,
    fun io => ⟨_, Environment.parses (n + 7) Dis.Environment.init io, fun _ _ => rfl⟩⟩⟩

theorem EnvironmentGeneral.lawful : Sourced.EnvironmentGeneral.Lawful where
  serialize n x := EnvironmentGeneral.serializes (n + 7) x
  parse n := EnvironmentGeneral.parses (n + 7)
  inj _ _ := EnvironmentGeneral.inj
  makes _ := ⟨_, .rfl' _, fun n => ⟨EnvironmentGeneral.makes (n + 7), EnvironmentGeneral.serializes (n + 7) Dis.EnvironmentGeneral.init,
    fun io => ⟨_, EnvironmentGeneral.parses (n + 7) Dis.EnvironmentGeneral.init io, fun _ _ => rfl⟩⟩⟩

theorem SeparationVP.lawful : Sourced.SeparationVP.Lawful where
  serialize n x := SeparationVP.serializes (n + 5) x
  parse n := SeparationVP.parses (n + 5)
  inj _ _ := SeparationVP.inj
  makes _ := ⟨_, .rfl' _, fun n => ⟨SeparationVP.makes (n + 5), SeparationVP.serializes (n + 5) Dis.SeparationVP.init,
    fun io => ⟨_, SeparationVP.parses (n + 5) Dis.SeparationVP.init io, fun _ _ => rfl⟩⟩⟩

theorem ActionRequestPdu.lawful : Sourced.ActionRequestPdu.Lawful where
  serialize n x := ActionRequestPdu.serializes (n + 4) x
  parse n := ActionRequestPdu.parses (n + 4)
  inj _ _ := ActionRequestPdu.inj
  makes _ := ⟨_, .rfl' _, fun n => ⟨ActionRequestPdu.makes (n + 4), ActionRequestPdu.serializes (n + 4) Dis.ActionRequestPdu.init,
    fun io => ⟨_, ActionRequestPdu.parses (n + 4) Dis.ActionRequestPdu.init io, fun _ _ => rfl⟩⟩⟩

theorem ActionRequestReliablePdu.lawful : Sourced.ActionRequestReliablePdu.Lawful where
  serialize n x := ActionRequestReliablePdu.serializes (n + 4) x
  parse n := ActionRequestReliablePdu.parses (n + 4)
  inj _ _ := ActionRequestReliablePdu.inj
  makes _ := ⟨_, .rfl' _, fun n => ⟨ActionRequestReliablePdu.makes (n + 4), ActionRequestReliablePdu.serializes (n + 4) Dis.ActionRequestReliablePdu.init,
    fun io => ⟨_, ActionRequestReliablePdu.parses (n + 4) Dis.ActionRequestReliablePdu.init io, fun _ _ => rfl⟩⟩⟩

theorem SetDataReliablePdu.lawful : Sourced.SetDataReliablePdu.Lawful where
  serialize n x := SetDataReliablePdu.serializes (n + 4) x
  parse n := SetDataReliablePdu.parses (n + 4)
  inj _ _ := SetDataReliablePdu.inj
  makes _ := ⟨_, .rfl' _, fun n => ⟨SetDataReliablePdu.makes (n + 4), SetDataReliablePdu.serializes (n + 4) Dis.SetDataReliablePdu.init,
    fun io => ⟨_, SetDataReliablePdu.parses (n + 4) Dis.SetDataReliablePdu.init io, fun _ _ => rfl⟩⟩⟩

theorem EventReportPdu.lawful : Sourced.EventReportPdu.Lawful where
  serialize n x := EventReportPdu.serializes (n + 4) x
  parse n := EventReportPdu.parses (n + 4)
  inj _ _ := EventReportPdu.inj
  makes _ := ⟨_, .rfl' _, fun n => ⟨EventReportPdu.makes (n + 4), EventReportPdu.serializes (n + 4) Dis.EventReportPdu.init,
    fun io => ⟨_, EventReportPdu.parses (n + 4) Dis.EventReportPdu.init io, fun _ _ => rfl⟩⟩⟩

theorem DataPdu.lawful : Sourced.DataPdu.Lawful where
  serialize n x := DataPdu.serializes (n + 4) x
  parse n := DataPdu.parses (n + 4)
  inj _ _ := DataPdu.inj
  makes _ := ⟨_, .rfl' _, fun n => ⟨DataPdu.makes (n + 4), DataPdu.serializes (n + 4) Dis.DataPdu.init,
    fun io => ⟨_, DataPdu.parses (n + 4) Dis.DataPdu.init io, fun _ _ => rfl⟩⟩⟩

theorem DataReliablePdu.lawful : Sourced.DataReliablePdu.Lawful where
  serialize n x := DataReliablePdu.serializes (n + 4) x
  parse n := DataReliablePdu.parses (n + 4)
  inj _ _ := DataReliablePdu.inj
  makes _ := ⟨_, .rfl' _, fun n => ⟨DataReliablePdu.makes (n + 4), DataReliablePdu.serializes (n + 4) Dis.DataReliablePdu.init,
    fun io => ⟨_, DataReliablePdu.parses (n + 4) Dis.DataReliablePdu.init io, fun _ _ => rfl⟩⟩⟩

theorem CommentPdu.lawful : Sourced.CommentPdu.Lawful where
  serialize n x := CommentPdu.serializes (n + 4) x
  parse n := CommentPdu.parses (n + 4)
  inj _ _ := CommentPdu.inj
  makes _ := ⟨_, .rfl' _, fun n => ⟨CommentPdu.makes (n + 4), CommentPdu.serializes (n + 4) Dis.CommentPdu.init,
    fun io => ⟨_, CommentPdu.parses (n + 4) Dis.CommentPdu.init io, fun _ _ => rfl⟩⟩⟩

theorem CommentReliablePdu.lawful : Sourced.CommentReliablePdu.Lawful where
  serialize n x := CommentReliablePdu.serializes (n + 4) x
  parse n := CommentReliablePdu.parses (n + 4)
  inj _ _ := CommentReliablePdu.inj
  makes _ := ⟨_, .rfl' _, fun n => ⟨CommentReliablePdu.makes (n + 4), CommentReliablePdu.serializes (n + 4) Dis.CommentReliablePdu.init,
    fun io => ⟨_, CommentReliablePdu.parses (n + 4) Dis.CommentReliablePdu.init io, fun _ _ => rfl⟩⟩⟩

theorem SetDataPdu.lawful : Sourced.SetDataPdu.Lawful where
  serialize n x := SetDataPdu.serializes (n + 4) x
  parse n := SetDataPdu.parses (n + 4)
  inj _ _ := SetDataPdu.inj
  makes _ := ⟨_, .rfl' _, fun n => ⟨SetDataPdu.makes (n + 4), SetDataPdu.serializes (n + 4) Dis.SetDataPdu.init,
    fun io => ⟨_, SetDataPdu.parses (n + 4) Dis.SetDataPdu.init io, fun _ _ => rfl⟩⟩⟩

theorem ActionResponsePdu.lawful : Sourced.ActionResponsePdu.Lawful where
  serialize n x := ActionResponsePdu.serializes (n + 4) x
  parse n := ActionResponsePdu.parses (n + 4)
  inj _ _ := ActionResponsePdu.inj
  makes _ := ⟨_, .rfl' _, fun n => ⟨ActionResponsePdu.makes (n + 4), ActionResponsePdu.serializes (n + 4) Dis.ActionResponsePdu.init,
    fun io => ⟨_, ActionResponsePdu.parses (n + 4) Dis.ActionResponsePdu.init io, fun _ _ => rfl⟩⟩⟩

theorem EventReportReliablePdu.lawful : Sourced.EventReportReliablePdu.Lawful where
  serialize n x := EventReportReliablePdu.serializes (n + 4) x
  parse n := EventReportReliablePdu.parses (n + 4)
  inj _ _ := EventReportReliablePdu.inj
  makes _ := ⟨_, .rfl' _, fun n => ⟨EventReportReliablePdu.makes (n + 4), EventReportReliablePdu.serializes (n + 4) Dis.EventReportReliablePdu.init,
    fun io => ⟨_, EventReportReliablePdu.parses (n + 4) Dis.EventReportReliablePdu.init io, fun _ _ => rfl⟩⟩⟩

theorem ActionResponseReliablePdu.lawful : Sourced.ActionResponseReliablePdu.Lawful where
  serialize n x := ActionResponseReliablePdu.serializes (n + 4) x
  parse n := ActionResponseReliablePdu.parses (n + 4)
  inj _ _ := ActionResponseReliablePdu.inj
  makes _ := ⟨_, .rfl' _, fun n => ⟨ActionResponseReliablePdu.makes (n + 4), ActionResponseReliablePdu.serializes (n + 4) Dis.ActionResponseReliablePdu.init,
    fun io => ⟨_, ActionResponseReliablePdu.parses (n + 4) Dis.ActionResponseReliablePdu.init io, fun _ _ => rfl⟩⟩⟩

theorem AggregateStatePdu.lawful : Sourced.AggregateStatePdu.Lawful where
  serialize n x := AggregateStatePdu.serializes (n + 4) x
  parse n := AggregateStatePdu.parses (n + 4)
  inj _ _ := AggregateStatePdu.inj
  makes _ := ⟨_, .rfl' _, fun n => ⟨AggregateStatePdu.makes (n + 4), AggregateStatePdu.serializes (n + 4) Dis.AggregateStatePdu.init,
    fun io => ⟨_, AggregateStatePdu.parses (n + 4) Dis.AggregateStatePdu.init io, fun _ _ => rfl⟩⟩⟩

theorem AttachedParts.known : Sourced.AttachedParts.entry ∈ inPlaceRecords1 := .tail _ (.tail _ (.tail _ (.tail _ (.tail _ (.tail _ (.tail _ (.tail _ (.tail _ (.tail _ (.tail _ (.tail _ (.tail _ (.tail _ (.tail _ (.tail _ (.tail _ (.tail _ (.tail _ (.tail _ (.tail _ (.head _)))))))))))))))))))))

theorem VariableDatum.known : Sourced.VariableDatum.entry ∈ inPlaceRecords3 := .tail _ (.tail _ (.head _))

theorem DatumSpecification.known : Sourced.DatumSpecification.entry ∈ inPlaceRecords3 := .tail _ (.tail _ (.tail _ (.head _)))

theorem SilentAggregateSystem.known : Sourced.SilentAggregateSystem.entry ∈ inPlaceRecords3 := .tail _ (.tail _ (.tail _ (.tail _ (.tail _ (.tail _ (.tail _ (.tail _ (.tail _ (.tail _ (.tail _ (.tail _ (.tail _ (.tail _ (.tail _ (.tail _ (.tail _ (.tail _ (.tail _ (.tail _ (.head _))))))))))))))))))))

theorem Environment.known : Sourced.Environment.entry ∈ inPlaceRecords4 := .tail _ (.tail _ (.tail _ (.tail _ (.tail _ (.tail _ (.tail _ (.head _)))))))

theorem EnvironmentGeneral.known : Sourced.EnvironmentGeneral.entry ∈ inPlaceRecords5 := .head _

theorem SeparationVP.known : Sourced.SeparationVP.entry ∈ inPlaceRecords5 := .tail _ (.tail _ (.tail _ (.tail _ (.tail _ (.tail _ (.tail _ (.head _)))))))

theorem ActionRequestPdu.known : Sourced.ActionRequestPdu.entry ∈ inPlacePdus2 := .tail _ (.tail _ (.tail _ (.tail _ (.tail _ (.head _)))))

theorem ActionRequestReliablePdu.known : Sourced.ActionRequestReliablePdu.entry ∈ inPlacePdus2 := .tail _ (.tail _ (.tail _ (.tail _ (.tail _ (.tail _ (.tail _ (.head _)))))))

theorem SetDataReliablePdu.known : Sourced.SetDataReliablePdu.entry ∈ inPlacePdus3 := .tail _ (.tail _ (.tail _ (.tail _ (.tail _ (.tail _ (.head _))))))

theorem EventReportPdu.known : Sourced.EventReportPdu.entry ∈ inPlacePdus3 := .tail _ (.tail _ (.tail _ (.tail _ (.tail _ (.tail _ (.tail _ (.head _)))))))

theorem DataPdu.known : Sourced.DataPdu.entry ∈ inPlacePdus3 := .tail _ (.tail _ (.tail _ (.tail _ (.tail _ (.tail _ (.tail _ (.tail _ (.tail _ (.head _)))))))))

theorem DataReliablePdu.known : Sourced.DataReliablePdu.entry ∈ inPlacePdus4 := .tail _ (.tail _ (.tail _ (.tail _ (.tail _ (.tail _ (.head _))))))

theorem CommentPdu.known : Sourced.CommentPdu.entry ∈ inPlacePdus4 := .tail _ (.tail _ (.tail _ (.tail _ (.tail _ (.tail _ (.tail _ (.head _)))))))

theorem CommentReliablePdu.known : Sourced.CommentReliablePdu.entry ∈ inPlacePdus4 := .tail _ (.tail _ (.tail _ (.tail _ (.tail _ (.tail _ (.tail _ (.tail _ (.head _))))))))

theorem SetDataPdu.known : Sourced.SetDataPdu.entry ∈ inPlacePdus4 := .tail _ (.tail _ (.tail _ (.tail _ (.tail _ (.tail _ (.tail _ (.tail _ (.tail _ (.tail _ (.head _))))))))))

theorem ActionResponsePdu.known : Sourced.ActionResponsePdu.entry ∈ inPlacePdus4 := .tail _ (.tail _ (.tail _ (.tail _ (.tail _ (.tail _ (.tail _ (.tail _ (.tail _ (.tail _ (.tail _ (.tail _ (.head _))))))))))))

theorem EventReportReliablePdu.known : Sourced.EventReportReliablePdu.entry ∈ inPlacePdus5 := .tail _ (.tail _ (.tail _ (.tail _ (.tail _ (.tail _ (.tail _ (.tail _ (.head _))))))))

theorem ActionResponseReliablePdu.known : Sourced.ActionResponseReliablePdu.entry ∈ inPlacePdus5 := .tail _ (.tail _ (.tail _ (.tail _ (.tail _ (.tail _ (.tail _ (.tail _ (.tail _ (.tail _ (.head _))))))))))

theorem AggregateStatePdu.known : Sourced.AggregateStatePdu.entry ∈ inPlacePdus5 := .tail _ (.tail _ (.tail _ (.tail _ (.tail _ (.tail _ (.tail _ (.tail _ (.tail _ (.tail _ (.tail _ (.tail _ (.head _))))))))))))

theorem sourced5_lawful : ∀ e ∈ sourced5, e.Lawful := by
  unfold sourced5
  refine List.forall_mem_cons.2 ⟨AttachedParts.lawful, ?_⟩
  refine List.forall_mem_cons.2 ⟨VariableDatum.lawful, ?_⟩
  refine List.forall_mem_cons.2 ⟨DatumSpecification.lawful, ?_⟩
  refine List.forall_mem_cons.2 ⟨SilentAggregateSystem.lawful, ?_⟩
  refine List.forall_mem_cons.2 ⟨Environment.lawful, ?_⟩
  refine List.forall_mem_cons.2 ⟨EnvironmentGeneral.lawful, ?_⟩
  refine List.forall_mem_cons.2 ⟨SeparationVP.lawful, ?_⟩
  refine List.forall_mem_cons.2 ⟨ActionRequestPdu.lawful, ?_⟩
  refine List.forall_mem_cons.2 ⟨ActionRequestReliablePdu.lawful, ?_⟩
  refine List.forall_mem_cons.2 ⟨SetDataReliablePdu.lawful, ?_⟩
  refine List.forall_mem_cons.2 ⟨EventReportPdu.lawful, ?_⟩
  refine List.forall_mem_cons.2 ⟨DataPdu.lawful, ?_⟩
  refine List.forall_mem_cons.2 ⟨DataReliablePdu.lawful, ?_⟩
  refine List.forall_mem_cons.2 ⟨CommentPdu.lawful, ?_⟩
  refine List.forall_mem_cons.2 ⟨CommentReliablePdu.lawful, ?_⟩
  refine List.forall_mem_cons.2 ⟨SetDataPdu.lawful, ?_⟩
  refine List.forall_mem_cons.2 ⟨ActionResponsePdu.lawful, ?_⟩
  refine List.forall_mem_cons.2 ⟨EventReportReliablePdu.lawful, ?_⟩
  refine List.forall_mem_cons.2 ⟨ActionResponseReliablePdu.lawful, ?_⟩
  refine List.forall_mem_cons.2 ⟨AggregateStatePdu.lawful, ?_⟩
  exact fun e h => nomatch h

theorem sourced5_known : ∀ e ∈ sourced5, e.entry ∈ inPlace := by
  unfold sourced5 inPlace
  refine List.forall_mem_cons.2 ⟨by simp only [List.mem_append, AttachedParts.known, true_or, or_true], ?_⟩
  refine List.forall_mem_cons.2 ⟨by simp only [List.mem_append, VariableDatum.known, true_or, or_true], ?_⟩
  refine List.forall_mem_cons.2 ⟨by simp only [List.mem_append, DatumSpecification.known, true_or, or_true], ?_⟩
  refine List.forall_mem_cons.2 ⟨by simp only [List.mem_append, SilentAggregateSystem.known, true_or, or_true], ?_⟩
  refine List.forall_mem_cons.2 ⟨by simp only [List.mem_append, Environment.known, true_or, or_true], ?_⟩
  refine List.forall_mem_cons.2 ⟨by simp only [List.mem_append, EnvironmentGeneral.known, true_or, or_true], ?_⟩
  refine List.forall_mem_cons.2 ⟨by simp only [List.mem_append, SeparationVP.known, true_or, or_true], ?_⟩
  refine List.forall_mem_cons.2 ⟨by simp only [List.mem_append, ActionRequestPdu.known, true_or, or_true], ?_⟩
  refine List.forall_mem_cons.2 ⟨by simp only [List.mem_append, ActionRequestReliablePdu.known, true_or, or_true], ?_⟩
  refine List.forall_mem_cons.2 ⟨by simp only [List.mem_append, SetDataReliablePdu.known, true_or, or_true], ?_⟩
  refine List.forall_mem_cons.2 ⟨by simp only [List.mem_append, EventReportPdu.known, true_or, or_true], ?_⟩
  refine List.forall_mem_cons.2 ⟨by simp only [List.mem_append, DataPdu.known, true_or, or_true], ?_⟩
  refine List.forall_mem_cons.2 ⟨by simp only [List.mem_append, DataReliablePdu.known, true_or, or_true], ?_⟩
  refine List.forall_mem_cons.2 ⟨by simp only [List.mem_append, CommentPdu.known, true_or, or_true], ?_⟩
  refine List.forall_mem_cons.2 ⟨by simp only [List.mem_append, CommentReliablePdu.known, true_or, or_true], ?_⟩
  refine List.forall_mem_cons.2 ⟨by simp only [List.mem_append, SetDataPdu.known, true_or, or_true], ?_⟩
  refine List.forall_mem_cons.2 ⟨by simp only [List.mem_append, ActionResponsePdu.known, true_or, or_true], ?_⟩
  refine List.forall_mem_cons.2 ⟨by simp only [List.mem_append, EventReportReliablePdu.known, true_or, or_true], ?_⟩
  refine List.forall_mem_cons.2 ⟨by simp only [List.mem_append, ActionResponseReliablePdu.known, true_or, or_true], ?_⟩
  refine List.forall_mem_cons.2 ⟨by simp only [List.mem_append, AggregateStatePdu.known, true_or, or_true], ?_⟩
  exact fun e h => nomatch h

end Dis.Src
