import Verif.Spec.LayoutPdus4
import Verif.Proof.LayoutPdus3

/-!
# `serialize` writes the layout: classes of `Verif.Model.Pdus4`

Generated by `tools/genlayout.py`.
-/

set_option linter.unusedVariables false

namespace Dis

theorem FastEntityStatePdu.lay (o : FastEntityStatePdu) : Lay o.serialize o.wire := by
  unfold FastEntityStatePdu.serialize FastEntityStatePdu.wire
  exact Lay.bind (EntityInformationFamilyPdu.lay _) <|
    Lay.bind (lay_unsigned_short _) <|
    Lay.bind (lay_unsigned_short _) <|
    Lay.bind (lay_unsigned_short _) <|
    Lay.bind (lay_unsigned_byte _) <|
    Lay.bind (lay_byte _) <|
    Lay.bind (lay_unsigned_byte _) <|
    Lay.bind (lay_unsigned_byte _) <|
    Lay.bind (lay_unsigned_short _) <|
    Lay.bind (lay_unsigned_byte _) <|
    Lay.bind (lay_unsigned_byte _) <|
    Lay.bind (lay_unsigned_byte _) <|
    Lay.bind (lay_unsigned_byte _) <|
    Lay.bind (lay_unsigned_byte _) <|
    Lay.bind (lay_unsigned_byte _) <|
    Lay.bind (lay_unsigned_short _) <|
    Lay.bind (lay_unsigned_byte _) <|
    Lay.bind (lay_unsigned_byte _) <|
    Lay.bind (lay_unsigned_byte _) <|
    Lay.bind (lay_unsigned_byte _) <|
    Lay.bind (lay_float _) <|
    Lay.bind (lay_float _) <|
    Lay.bind (lay_float _) <|
    Lay.bind (lay_double _) <|
    Lay.bind (lay_double _) <|
    Lay.bind (lay_double _) <|
    Lay.bind (lay_float _) <|
    Lay.bind (lay_float _) <|
    Lay.bind (lay_float _) <|
    Lay.bind (lay_int _) <|
    Lay.bind (lay_unsigned_byte _) <|
    Lay.bind (Lay.range (fun i => Lay.index lay_byte _ i) _) <|
    Lay.bind (lay_float _) <|
    Lay.bind (lay_float _) <|
    Lay.bind (lay_float _) <|
    Lay.bind (lay_float _) <|
    Lay.bind (lay_float _) <|
    Lay.bind (lay_float _) <|
    Lay.bind (Lay.range (fun i => Lay.index lay_byte _ i) _) <|
    Lay.bind (lay_int _) <|
    Lay.last (Lay.forEach VariableParameter.lay)

theorem AcknowledgeReliablePdu.lay (o : AcknowledgeReliablePdu) : Lay o.serialize o.wire := by
  unfold AcknowledgeReliablePdu.serialize AcknowledgeReliablePdu.wire
  exact Lay.bind (SimulationManagementWithReliabilityFamilyPdu.lay _) <|
    Lay.bind (lay_unsigned_short _) <|
    Lay.bind (lay_unsigned_short _) <|
    Lay.last (lay_unsigned_int _)

theorem StartResumeReliablePdu.lay (o : StartResumeReliablePdu) : Lay o.serialize o.wire := by
  unfold StartResumeReliablePdu.serialize StartResumeReliablePdu.wire
  exact Lay.bind (SimulationManagementWithReliabilityFamilyPdu.lay _) <|
    Lay.bind (ClockTime.lay _) <|
    Lay.bind (ClockTime.lay _) <|
    Lay.bind (lay_unsigned_byte _) <|
    Lay.bind (lay_unsigned_short _) <|
    Lay.bind (lay_unsigned_byte _) <|
    Lay.last (lay_unsigned_int _)

theorem ArealObjectStatePdu.lay (o : ArealObjectStatePdu) : Lay o.serialize o.wire := by
  unfold ArealObjectStatePdu.serialize ArealObjectStatePdu.wire
  exact Lay.bind (SyntheticEnvironmentFamilyPdu.lay _) <|
    Lay.bind (EntityIdentifier.lay _) <|
    Lay.bind (EntityIdentifier.lay _) <|
    Lay.bind (lay_unsigned_short _) <|
    Lay.bind (lay_unsigned_byte _) <|
    Lay.bind (lay_unsigned_byte _) <|
    Lay.bind (ObjectType.lay _) <|
    Lay.bind (lay_unsigned_int _) <|
    Lay.bind (lay_unsigned_short _) <|
    Lay.bind (lay_unsigned_short _) <|
    Lay.bind (SimulationAddress.lay _) <|
    Lay.bind (SimulationAddress.lay _) <|
    Lay.last (Lay.forEach WorldCoordinates.lay)

theorem DataQueryReliablePdu.lay (o : DataQueryReliablePdu) : Lay o.serialize o.wire := by
  unfold DataQueryReliablePdu.serialize DataQueryReliablePdu.wire
  exact Lay.bind (SimulationManagementWithReliabilityFamilyPdu.lay _) <|
    Lay.bind (lay_unsigned_byte _) <|
    Lay.bind (lay_unsigned_short _) <|
    Lay.bind (lay_unsigned_byte _) <|
    Lay.bind (lay_unsigned_int _) <|
    Lay.bind (lay_unsigned_int _) <|
    Lay.last (DataQueryDatumSpecification.lay _)

theorem MinefieldStatePdu.lay (o : MinefieldStatePdu) : Lay o.serialize o.wire := by
  unfold MinefieldStatePdu.serialize MinefieldStatePdu.wire
  exact Lay.bind (MinefieldFamilyPdu.lay _) <|
    Lay.bind (MinefieldIdentifier.lay _) <|
    Lay.bind (lay_unsigned_short _) <|
    Lay.bind (lay_unsigned_byte _) <|
    Lay.bind (lay_unsigned_byte _) <|
    Lay.bind (EntityType.lay _) <|
    Lay.bind (lay_unsigned_short _) <|
    Lay.bind (WorldCoordinates.lay _) <|
    Lay.bind (EulerAngles.lay _) <|
    Lay.bind (lay_unsigned_short _) <|
    Lay.bind (lay_unsigned_short _) <|
    Lay.bind (Lay.forEach Vector2Float.lay) <|
    Lay.last (Lay.forEach EntityType.lay)

theorem DataReliablePdu.lay (o : DataReliablePdu) : Lay o.serialize o.wire := by
  unfold DataReliablePdu.serialize DataReliablePdu.wire
  exact Lay.bind (SimulationManagementWithReliabilityFamilyPdu.lay _) <|
    Lay.bind (lay_unsigned_int _) <|
    Lay.bind (lay_unsigned_byte _) <|
    Lay.bind (lay_unsigned_short _) <|
    Lay.bind (lay_unsigned_byte _) <|
    Lay.last (DatumSpecification.lay _)

theorem CommentPdu.lay (o : CommentPdu) : Lay o.serialize o.wire := by
  unfold CommentPdu.serialize CommentPdu.wire
  exact Lay.bind (SimulationManagementFamilyPdu.lay _) <|
    Lay.last (DatumSpecification.lay _)

theorem CommentReliablePdu.lay (o : CommentReliablePdu) : Lay o.serialize o.wire := by
  unfold CommentReliablePdu.serialize CommentReliablePdu.wire
  exact Lay.bind (SimulationManagementWithReliabilityFamilyPdu.lay _) <|
    Lay.last (DatumSpecification.lay _)

theorem DetonationPdu.lay (o : DetonationPdu) : Lay o.serialize o.wire := by
  unfold DetonationPdu.serialize DetonationPdu.wire
  exact Lay.bind (WarfareFamilyPdu.lay _) <|
    Lay.bind (EntityIdentifier.lay _) <|
    Lay.bind (EventIdentifier.lay _) <|
    Lay.bind (Vector3Float.lay _) <|
    Lay.bind (WorldCoordinates.lay _) <|
    Lay.bind (MunitionDescriptor.lay _) <|
    Lay.bind (Vector3Float.lay _) <|
    Lay.bind (lay_unsigned_byte _) <|
    Lay.bind (lay_unsigned_byte _) <|
    Lay.bind (lay_unsigned_short _) <|
    Lay.last (Lay.forEach VariableParameter.lay)

theorem SetDataPdu.lay (o : SetDataPdu) : Lay o.serialize o.wire := by
  unfold SetDataPdu.serialize SetDataPdu.wire
  exact Lay.bind (SimulationManagementFamilyPdu.lay _) <|
    Lay.bind (lay_unsigned_int _) <|
    Lay.bind (lay_unsigned_int _) <|
    Lay.last (DatumSpecification.lay _)

theorem RecordQueryReliablePdu.lay (o : RecordQueryReliablePdu) : Lay o.serialize o.wire := by
  unfold RecordQueryReliablePdu.serialize RecordQueryReliablePdu.wire
  exact Lay.bind (SimulationManagementWithReliabilityFamilyPdu.lay _) <|
    Lay.bind (lay_unsigned_int _) <|
    Lay.bind (lay_unsigned_byte _) <|
    Lay.bind (lay_unsigned_short _) <|
    Lay.bind (lay_unsigned_byte _) <|
    Lay.bind (lay_unsigned_short _) <|
    Lay.bind (lay_unsigned_int _) <|
    Lay.bind (lay_unsigned_int _) <|
    Lay.last (Lay.map fun _ => Lay.throw _)

theorem ActionResponsePdu.lay (o : ActionResponsePdu) : Lay o.serialize o.wire := by
  unfold ActionResponsePdu.serialize ActionResponsePdu.wire
  exact Lay.bind (SimulationManagementFamilyPdu.lay _) <|
    Lay.bind (lay_unsigned_int _) <|
    Lay.bind (lay_unsigned_int _) <|
    Lay.last (DatumSpecification.lay _)

end Dis
