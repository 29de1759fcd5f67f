import Verif.Spec.LayoutPdus2
import Verif.Proof.LayoutPdus1

/-!
# `serialize` writes the layout: classes of `Verif.Model.Pdus2`

Generated by `tools/genlayout.py`.
-/

set_option linter.unusedVariables false

namespace Dis

theorem LinearObjectStatePdu.lay (o : LinearObjectStatePdu) : Lay o.serialize o.wire := by
  unfold LinearObjectStatePdu.serialize LinearObjectStatePdu.wire
  exact Lay.bind (SyntheticEnvironmentFamilyPdu.lay _) <|
    Lay.bind (EntityIdentifier.lay _) <|
    Lay.bind (EntityIdentifier.lay _) <|
    Lay.bind (lay_unsigned_short _) <|
    Lay.bind (lay_unsigned_byte _) <|
    Lay.bind (lay_unsigned_byte _) <|
    Lay.bind (SimulationAddress.lay _) <|
    Lay.bind (SimulationAddress.lay _) <|
    Lay.bind (ObjectType.lay _) <|
    Lay.last (Lay.forEach LinearSegmentParameter.lay)

theorem CreateEntityPdu.lay (o : CreateEntityPdu) : Lay o.serialize o.wire := by
  unfold CreateEntityPdu.serialize CreateEntityPdu.wire
  exact Lay.bind (SimulationManagementFamilyPdu.lay _) <|
    Lay.last (lay_unsigned_int _)

theorem RadioCommunicationsFamilyPdu.lay (o : RadioCommunicationsFamilyPdu) : Lay o.serialize o.wire := by
  unfold RadioCommunicationsFamilyPdu.serialize RadioCommunicationsFamilyPdu.wire
  exact Pdu.lay _

theorem IntercomSignalPdu.lay (o : IntercomSignalPdu) : Lay o.serialize o.wire := by
  unfold IntercomSignalPdu.serialize IntercomSignalPdu.wire
  exact Lay.bind (RadioCommunicationsFamilyPdu.lay _) <|
    Lay.bind (EntityIdentifier.lay _) <|
    Lay.bind (lay_unsigned_short _) <|
    Lay.bind (lay_unsigned_short _) <|
    Lay.bind (lay_unsigned_short _) <|
    Lay.bind (lay_unsigned_int _) <|
    Lay.bind (lay_unsigned_short _) <|
    Lay.bind (lay_unsigned_short _) <|
    Lay.last (Lay.map fun _ => Lay.throw _)

theorem RemoveEntityPdu.lay (o : RemoveEntityPdu) : Lay o.serialize o.wire := by
  unfold RemoveEntityPdu.serialize RemoveEntityPdu.wire
  exact Lay.bind (SimulationManagementFamilyPdu.lay _) <|
    Lay.last (lay_unsigned_int _)

theorem ResupplyReceivedPdu.lay (o : ResupplyReceivedPdu) : Lay o.serialize o.wire := by
  unfold ResupplyReceivedPdu.serialize ResupplyReceivedPdu.wire
  exact Lay.bind (LogisticsFamilyPdu.lay _) <|
    Lay.bind (EntityIdentifier.lay _) <|
    Lay.bind (EntityIdentifier.lay _) <|
    Lay.bind (lay_unsigned_byte _) <|
    Lay.bind (lay_short _) <|
    Lay.bind (lay_byte _) <|
    Lay.last (Lay.forEach SupplyQuantity.lay)

theorem WarfareFamilyPdu.lay (o : WarfareFamilyPdu) : Lay o.serialize o.wire := by
  unfold WarfareFamilyPdu.serialize WarfareFamilyPdu.wire
  exact Lay.bind (Pdu.lay _) <|
    Lay.bind (EntityIdentifier.lay _) <|
    Lay.last (EntityIdentifier.lay _)

theorem CollisionElasticPdu.lay (o : CollisionElasticPdu) : Lay o.serialize o.wire := by
  unfold CollisionElasticPdu.serialize CollisionElasticPdu.wire
  exact Lay.bind (EntityInformationFamilyPdu.lay _) <|
    Lay.bind (EntityIdentifier.lay _) <|
    Lay.bind (EntityIdentifier.lay _) <|
    Lay.bind (EventIdentifier.lay _) <|
    Lay.bind (lay_short _) <|
    Lay.bind (Vector3Float.lay _) <|
    Lay.bind (lay_float _) <|
    Lay.bind (Vector3Float.lay _) <|
    Lay.bind (lay_float _) <|
    Lay.bind (lay_float _) <|
    Lay.bind (lay_float _) <|
    Lay.bind (lay_float _) <|
    Lay.bind (lay_float _) <|
    Lay.bind (lay_float _) <|
    Lay.bind (Vector3Float.lay _) <|
    Lay.last (lay_float _)

theorem ActionRequestPdu.lay (o : ActionRequestPdu) : Lay o.serialize o.wire := by
  unfold ActionRequestPdu.serialize ActionRequestPdu.wire
  exact Lay.bind (SimulationManagementFamilyPdu.lay _) <|
    Lay.bind (lay_unsigned_int _) <|
    Lay.bind (lay_unsigned_int _) <|
    Lay.last (DatumSpecification.lay _)

theorem AcknowledgePdu.lay (o : AcknowledgePdu) : Lay o.serialize o.wire := by
  unfold AcknowledgePdu.serialize AcknowledgePdu.wire
  exact Lay.bind (SimulationManagementFamilyPdu.lay _) <|
    Lay.bind (lay_unsigned_short _) <|
    Lay.bind (lay_unsigned_short _) <|
    Lay.last (lay_unsigned_int _)

theorem DistributedEmissionsFamilyPdu.lay (o : DistributedEmissionsFamilyPdu) : Lay o.serialize o.wire := by
  unfold DistributedEmissionsFamilyPdu.serialize DistributedEmissionsFamilyPdu.wire
  exact Pdu.lay _

theorem SimulationManagementWithReliabilityFamilyPdu.lay (o : SimulationManagementWithReliabilityFamilyPdu) : Lay o.serialize o.wire := by
  unfold SimulationManagementWithReliabilityFamilyPdu.serialize SimulationManagementWithReliabilityFamilyPdu.wire
  exact Lay.bind (Pdu.lay _) <|
    Lay.bind (EntityIdentifier.lay _) <|
    Lay.last (EntityIdentifier.lay _)

theorem ActionRequestReliablePdu.lay (o : ActionRequestReliablePdu) : Lay o.serialize o.wire := by
  unfold ActionRequestReliablePdu.serialize ActionRequestReliablePdu.wire
  exact Lay.bind (SimulationManagementWithReliabilityFamilyPdu.lay _) <|
    Lay.bind (lay_unsigned_byte _) <|
    Lay.bind (lay_unsigned_short _) <|
    Lay.bind (lay_unsigned_byte _) <|
    Lay.bind (lay_unsigned_int _) <|
    Lay.bind (lay_unsigned_int _) <|
    Lay.bind (lay_int _) <|
    Lay.last (DatumSpecification.lay _)

end Dis
