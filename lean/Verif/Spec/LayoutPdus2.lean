import Verif.Model.Pdus2
import Verif.Spec.LayoutPdus1

/-!
# Wire layouts of the classes of `Verif.Model.Pdus2`

Generated by `tools/genlayout.py`.
-/

set_option linter.unusedVariables false

namespace Dis

/-- Layout of `LinearObjectStatePdu` on the wire (/repo/opendis/dis7.py:4147-4159). -/
def LinearObjectStatePdu.wire (o : LinearObjectStatePdu) : List Slot :=
  [SyntheticEnvironmentFamilyPdu.wire o.toSyntheticEnvironmentFamilyPdu,
   EntityIdentifier.wire o.objectID,
   EntityIdentifier.wire o.referencedObjectID,
   [.u16 o.updateNumber],
   [.u8 o.forceID],
   [.u8 (o.linearSegmentParameters.length : Int)],
   SimulationAddress.wire o.requesterID,
   SimulationAddress.wire o.receivingID,
   ObjectType.wire o.objectType,
   o.linearSegmentParameters.flatMap LinearSegmentParameter.wire].flatten

/-- Layout of `CreateEntityPdu` on the wire (/repo/opendis/dis7.py:4190-4193). -/
def CreateEntityPdu.wire (o : CreateEntityPdu) : List Slot :=
  [SimulationManagementFamilyPdu.wire o.toSimulationManagementFamilyPdu,
   [.u32 o.requestID]].flatten

/-- Layout of `RadioCommunicationsFamilyPdu` on the wire (/repo/opendis/dis7.py:4211-4213). -/
def RadioCommunicationsFamilyPdu.wire (o : RadioCommunicationsFamilyPdu) : List Slot :=
  Pdu.wire o.toPdu

/-- Layout of `IntercomSignalPdu` on the wire (/repo/opendis/dis7.py:4252-4263). -/
def IntercomSignalPdu.wire (o : IntercomSignalPdu) : List Slot :=
  [RadioCommunicationsFamilyPdu.wire o.toRadioCommunicationsFamilyPdu,
   EntityIdentifier.wire o.entityID,
   [.u16 o.communicationsDeviceID],
   [.u16 o.encodingScheme],
   [.u16 o.tdlType],
   [.u32 o.sampleRate],
   [.u16 ((o.data.length : Int) * 8)],
   [.u16 o.samples],
   o.data.map fun _ => .fail .attributeError].flatten

/-- Layout of `RemoveEntityPdu` on the wire (/repo/opendis/dis7.py:4297-4300). -/
def RemoveEntityPdu.wire (o : RemoveEntityPdu) : List Slot :=
  [SimulationManagementFamilyPdu.wire o.toSimulationManagementFamilyPdu,
   [.u32 o.requestID]].flatten

/-- Layout of `ResupplyReceivedPdu` on the wire (/repo/opendis/dis7.py:4333-4342). -/
def ResupplyReceivedPdu.wire (o : ResupplyReceivedPdu) : List Slot :=
  [LogisticsFamilyPdu.wire o.toLogisticsFamilyPdu,
   EntityIdentifier.wire o.receivingEntityID,
   EntityIdentifier.wire o.supplyingEntityID,
   [.u8 (o.supplies.length : Int)],
   [.s16 o.padding1],
   [.s8 o.padding2],
   o.supplies.flatMap SupplyQuantity.wire].flatten

/-- Layout of `WarfareFamilyPdu` on the wire (/repo/opendis/dis7.py:4375-4379). -/
def WarfareFamilyPdu.wire (o : WarfareFamilyPdu) : List Slot :=
  [Pdu.wire o.toPdu,
   EntityIdentifier.wire o.firingEntityID,
   EntityIdentifier.wire o.targetEntityID].flatten

/-- Layout of `CollisionElasticPdu` on the wire (/repo/opendis/dis7.py:4438-4455). -/
def CollisionElasticPdu.wire (o : CollisionElasticPdu) : List Slot :=
  [EntityInformationFamilyPdu.wire o.toEntityInformationFamilyPdu,
   EntityIdentifier.wire o.issuingEntityID,
   EntityIdentifier.wire o.collidingEntityID,
   EventIdentifier.wire o.collisionEventID,
   [.s16 o.pad],
   Vector3Float.wire o.contactVelocity,
   [.f32 o.mass],
   Vector3Float.wire o.locationOfImpact,
   [.f32 o.collisionIntermediateResultXX],
   [.f32 o.collisionIntermediateResultXY],
   [.f32 o.collisionIntermediateResultXZ],
   [.f32 o.collisionIntermediateResultYY],
   [.f32 o.collisionIntermediateResultYZ],
   [.f32 o.collisionIntermediateResultZZ],
   Vector3Float.wire o.unitSurfaceNormal,
   [.f32 o.coefficientOfRestitution]].flatten

/-- Layout of `ActionRequestPdu` on the wire (/repo/opendis/dis7.py:4515-4520). -/
def ActionRequestPdu.wire (o : ActionRequestPdu) : List Slot :=
  [SimulationManagementFamilyPdu.wire o.toSimulationManagementFamilyPdu,
   [.u32 o.requestID],
   [.u32 o.actionID],
   DatumSpecification.wire o._datums].flatten

/-- Layout of `AcknowledgePdu` on the wire (/repo/opendis/dis7.py:4550-4555). -/
def AcknowledgePdu.wire (o : AcknowledgePdu) : List Slot :=
  [SimulationManagementFamilyPdu.wire o.toSimulationManagementFamilyPdu,
   [.u16 o.acknowledgeFlag],
   [.u16 o.responseFlag],
   [.u32 o.requestID]].flatten

/-- Layout of `DistributedEmissionsFamilyPdu` on the wire (/repo/opendis/dis7.py:4575-4577). -/
def DistributedEmissionsFamilyPdu.wire (o : DistributedEmissionsFamilyPdu) : List Slot :=
  Pdu.wire o.toPdu

/-- Layout of `SimulationManagementWithReliabilityFamilyPdu` on the wire (/repo/opendis/dis7.py:4600-4604). -/
def SimulationManagementWithReliabilityFamilyPdu.wire (o : SimulationManagementWithReliabilityFamilyPdu) : List Slot :=
  [Pdu.wire o.toPdu,
   EntityIdentifier.wire o.originatingEntityID,
   EntityIdentifier.wire o.receivingEntityID].flatten

/-- Layout of `ActionRequestReliablePdu` on the wire (/repo/opendis/dis7.py:4655-4664). -/
def ActionRequestReliablePdu.wire (o : ActionRequestReliablePdu) : List Slot :=
  [SimulationManagementWithReliabilityFamilyPdu.wire o.toSimulationManagementWithReliabilityFamilyPdu,
   [.u8 o.requiredReliabilityService],
   [.u16 o.pad1],
   [.u8 o.pad2],
   [.u32 o.requestID],
   [.u32 o.actionID],
   [.s32 o.pad3],
   DatumSpecification.wire o._datums].flatten

end Dis
