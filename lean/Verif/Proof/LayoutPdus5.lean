import Verif.Spec.LayoutPdus5
import Verif.Proof.LayoutPdus4

/-!
# `serialize` writes the layout: classes of `Verif.Model.Pdus5`

Generated by `tools/genlayout.py`.
-/

set_option linter.unusedVariables false

namespace Dis

theorem FirePdu.lay (o : FirePdu) : Lay o.serialize o.wire := by
  unfold FirePdu.serialize FirePdu.wire
  exact Lay.bind (WarfareFamilyPdu.lay _) <|
    Lay.bind (EntityIdentifier.lay _) <|
    Lay.bind (EventIdentifier.lay _) <|
    Lay.bind (lay_unsigned_int _) <|
    Lay.bind (WorldCoordinates.lay _) <|
    Lay.bind (MunitionDescriptor.lay _) <|
    Lay.bind (Vector3Float.lay _) <|
    Lay.last (lay_float _)

theorem ReceiverPdu.lay (o : ReceiverPdu) : Lay o.serialize o.wire := by
  unfold ReceiverPdu.serialize ReceiverPdu.wire
  exact Lay.bind (RadioCommunicationsFamilyPdu.lay _) <|
    Lay.bind (lay_unsigned_short _) <|
    Lay.bind (lay_unsigned_short _) <|
    Lay.bind (lay_float _) <|
    Lay.bind (EntityIdentifier.lay _) <|
    Lay.last (lay_unsigned_short _)

theorem UaPdu.lay (o : UaPdu) : Lay o.serialize o.wire := by
  unfold UaPdu.serialize UaPdu.wire
  exact Lay.bind (DistributedEmissionsFamilyPdu.lay _) <|
    Lay.bind (EntityIdentifier.lay _) <|
    Lay.bind (EventIdentifier.lay _) <|
    Lay.bind (lay_byte _) <|
    Lay.bind (lay_byte _) <|
    Lay.bind (lay_unsigned_short _) <|
    Lay.bind (lay_unsigned_byte _) <|
    Lay.bind (lay_unsigned_byte _) <|
    Lay.bind (lay_unsigned_byte _) <|
    Lay.bind (lay_unsigned_byte _) <|
    Lay.bind (Lay.map fun _ => Lay.throw _) <|
    Lay.bind (Lay.map fun _ => Lay.throw _) <|
    Lay.last (Lay.map fun _ => Lay.throw _)

theorem SignalPdu.lay (o : SignalPdu) : Lay o.serialize o.wire := by
  unfold SignalPdu.serialize SignalPdu.wire
  exact Lay.bind (RadioCommunicationsFamilyPdu.lay _) <|
    Lay.bind (EntityIdentifier.lay _) <|
    Lay.bind (lay_unsigned_short _) <|
    Lay.bind (lay_unsigned_short _) <|
    Lay.bind (lay_unsigned_short _) <|
    Lay.bind (lay_unsigned_int _) <|
    Lay.bind (lay_unsigned_short _) <|
    Lay.bind (lay_unsigned_short _) <|
    Lay.last (Lay.map lay_unsigned_byte)

theorem RemoveEntityReliablePdu.lay (o : RemoveEntityReliablePdu) : Lay o.serialize o.wire := by
  unfold RemoveEntityReliablePdu.serialize RemoveEntityReliablePdu.wire
  exact Lay.bind (SimulationManagementWithReliabilityFamilyPdu.lay _) <|
    Lay.bind (lay_unsigned_byte _) <|
    Lay.bind (lay_unsigned_short _) <|
    Lay.bind (lay_unsigned_byte _) <|
    Lay.last (lay_unsigned_int _)

theorem SeesPdu.lay (o : SeesPdu) : Lay o.serialize o.wire := by
  unfold SeesPdu.serialize SeesPdu.wire
  exact Lay.bind (DistributedEmissionsFamilyPdu.lay _) <|
    Lay.bind (EntityIdentifier.lay _) <|
    Lay.bind (lay_unsigned_short _) <|
    Lay.bind (lay_unsigned_short _) <|
    Lay.bind (lay_unsigned_short _) <|
    Lay.bind (lay_unsigned_short _) <|
    Lay.bind (lay_unsigned_short _) <|
    Lay.bind (Lay.forEach PropulsionSystemData.lay) <|
    Lay.last (Lay.forEach VectoringNozzleSystem.lay)

theorem CreateEntityReliablePdu.lay (o : CreateEntityReliablePdu) : Lay o.serialize o.wire := by
  unfold CreateEntityReliablePdu.serialize CreateEntityReliablePdu.wire
  exact Lay.bind (SimulationManagementWithReliabilityFamilyPdu.lay _) <|
    Lay.bind (lay_unsigned_byte _) <|
    Lay.bind (lay_unsigned_short _) <|
    Lay.bind (lay_unsigned_byte _) <|
    Lay.last (lay_unsigned_int _)

theorem StopFreezeReliablePdu.lay (o : StopFreezeReliablePdu) : Lay o.serialize o.wire := by
  unfold StopFreezeReliablePdu.serialize StopFreezeReliablePdu.wire
  exact Lay.bind (SimulationManagementWithReliabilityFamilyPdu.lay _) <|
    Lay.bind (ClockTime.lay _) <|
    Lay.bind (lay_unsigned_byte _) <|
    Lay.bind (lay_unsigned_byte _) <|
    Lay.bind (lay_unsigned_byte _) <|
    Lay.bind (lay_unsigned_byte _) <|
    Lay.last (lay_unsigned_int _)

theorem EventReportReliablePdu.lay (o : EventReportReliablePdu) : Lay o.serialize o.wire := by
  unfold EventReportReliablePdu.serialize EventReportReliablePdu.wire
  exact Lay.bind (SimulationManagementWithReliabilityFamilyPdu.lay _) <|
    Lay.bind (lay_unsigned_short _) <|
    Lay.bind (lay_unsigned_int _) <|
    Lay.last (DatumSpecification.lay _)

theorem MinefieldResponseNackPdu.lay (o : MinefieldResponseNackPdu) : Lay o.serialize o.wire := by
  unfold MinefieldResponseNackPdu.serialize MinefieldResponseNackPdu.wire
  exact Lay.bind (MinefieldFamilyPdu.lay _) <|
    Lay.bind (EntityIdentifier.lay _) <|
    Lay.bind (EntityIdentifier.lay _) <|
    Lay.bind (lay_unsigned_byte _) <|
    Lay.bind (lay_unsigned_byte _) <|
    Lay.last (Lay.map fun _ => Lay.throw _)

theorem ActionResponseReliablePdu.lay (o : ActionResponseReliablePdu) : Lay o.serialize o.wire := by
  unfold ActionResponseReliablePdu.serialize ActionResponseReliablePdu.wire
  exact Lay.bind (SimulationManagementWithReliabilityFamilyPdu.lay _) <|
    Lay.bind (lay_unsigned_int _) <|
    Lay.bind (lay_unsigned_int _) <|
    Lay.last (DatumSpecification.lay _)

theorem IsPartOfPdu.lay (o : IsPartOfPdu) : Lay o.serialize o.wire := by
  unfold IsPartOfPdu.serialize IsPartOfPdu.wire
  exact Lay.bind (EntityManagementFamilyPdu.lay _) <|
    Lay.bind (EntityIdentifier.lay _) <|
    Lay.bind (EntityIdentifier.lay _) <|
    Lay.bind (Relationship.lay _) <|
    Lay.bind (Vector3Float.lay _) <|
    Lay.bind (NamedLocationIdentification.lay _) <|
    Lay.last (EntityType.lay _)

theorem AggregateStatePdu.lay (o : AggregateStatePdu) : Lay o.serialize o.wire := by
  unfold AggregateStatePdu.serialize AggregateStatePdu.wire
  exact Lay.bind (EntityManagementFamilyPdu.lay _) <|
    Lay.bind (AggregateIdentifier.lay _) <|
    Lay.bind (lay_unsigned_byte _) <|
    Lay.bind (lay_unsigned_byte _) <|
    Lay.bind (AggregateType.lay _) <|
    Lay.bind (lay_unsigned_int _) <|
    Lay.bind (AggregateMarking.lay _) <|
    Lay.bind (Vector3Float.lay _) <|
    Lay.bind (EulerAngles.lay _) <|
    Lay.bind (Vector3Float.lay _) <|
    Lay.bind (WorldCoordinates.lay _) <|
    Lay.bind (lay_unsigned_short _) <|
    Lay.bind (lay_unsigned_short _) <|
    Lay.bind (lay_unsigned_short _) <|
    Lay.bind (lay_unsigned_short _) <|
    Lay.bind (Lay.forEach AggregateIdentifier.lay) <|
    Lay.bind (Lay.forEach EntityIdentifier.lay) <|
    Lay.bind (Lay.forEach SilentAggregateSystem.lay) <|
    Lay.bind (Lay.forEach SilentEntitySystem.lay) <|
    Lay.bind (lay_unsigned_int _) <|
    Lay.last (Lay.forEach VariableDatum.lay)

end Dis
