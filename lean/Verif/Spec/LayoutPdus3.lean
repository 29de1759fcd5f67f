import Verif.Model.Pdus3
import Verif.Spec.LayoutPdus2

/-!
# Wire layouts of the classes of `Verif.Model.Pdus3`

Generated by `tools/genlayout.py`.
-/

set_option linter.unusedVariables false

namespace Dis

/-- Layout of `DesignatorPdu` on the wire (/repo/opendis/dis7.py:4723-4737). -/
def DesignatorPdu.wire (o : DesignatorPdu) : List Slot :=
  [DistributedEmissionsFamilyPdu.wire o.toDistributedEmissionsFamilyPdu,
   EntityIdentifier.wire o.designatingEntityID,
   [.u16 o.codeName],
   EntityIdentifier.wire o.designatedEntityID,
   [.u16 o.designatorCode],
   [.f32 o.designatorPower],
   [.f32 o.designatorWavelength],
   Vector3Float.wire o.designatorSpotWrtDesignated,
   WorldCoordinates.wire o.designatorSpotLocation,
   [.s8 o.deadReckoningAlgorithm],
   [.u16 o.padding1],
   [.s8 o.padding2],
   Vector3Float.wire o.entityLinearAcceleration].flatten

/-- Layout of `StopFreezePdu` on the wire (/repo/opendis/dis7.py:4779-4786). -/
def StopFreezePdu.wire (o : StopFreezePdu) : List Slot :=
  [SimulationManagementFamilyPdu.wire o.toSimulationManagementFamilyPdu,
   ClockTime.wire o.realWorldTime,
   [.u8 o.reason],
   [.u8 o.frozenBehavior],
   [.s16 o.padding1],
   [.u32 o.requestID]].flatten

/-- Layout of `EntityStatePdu` on the wire (/repo/opendis/dis7.py:4851-4867). -/
def EntityStatePdu.wire (o : EntityStatePdu) : List Slot :=
  [EntityInformationFamilyPdu.wire o.toEntityInformationFamilyPdu,
   EntityIdentifier.wire o.entityID,
   [.u8 o.forceId],
   [.u8 (o.variableParameters.length : Int)],
   EntityType.wire o.entityType,
   EntityType.wire o.alternativeEntityType,
   Vector3Float.wire o.entityLinearVelocity,
   WorldCoordinates.wire o.entityLocation,
   EulerAngles.wire o.entityOrientation,
   [.u32 o.entityAppearance],
   DeadReckoningParameters.wire o.deadReckoningParameters,
   EntityMarking.wire o.marking,
   [.u32 o.capabilities],
   o.variableParameters.flatMap VariableParameter.wire].flatten

/-- Layout of `EntityManagementFamilyPdu` on the wire (/repo/opendis/dis7.py:4900-4902). -/
def EntityManagementFamilyPdu.wire (o : EntityManagementFamilyPdu) : List Slot :=
  Pdu.wire o.toPdu

/-- Layout of `StartResumePdu` on the wire (/repo/opendis/dis7.py:4928-4933). -/
def StartResumePdu.wire (o : StartResumePdu) : List Slot :=
  [SimulationManagementFamilyPdu.wire o.toSimulationManagementFamilyPdu,
   ClockTime.wire o.realWorldTime,
   ClockTime.wire o.simulationTime,
   [.u32 o.requestID]].flatten

/-- Layout of `ElectromagneticEmissionsPdu` on the wire (/repo/opendis/dis7.py:5146-5155). -/
def ElectromagneticEmissionsPdu.wire (o : ElectromagneticEmissionsPdu) : List Slot :=
  [DistributedEmissionsFamilyPdu.wire o.toDistributedEmissionsFamilyPdu,
   EntityIdentifier.wire o.emittingEntityID,
   EventIdentifier.wire o.eventID,
   [.u8 o.stateUpdateIndicator],
   [.u8 (o.systems.length : Int)],
   [.u16 o.paddingForEmissionsPdu],
   o.systems.flatMap EmissionSystemRecord.wire].flatten

/-- Layout of `ResupplyOfferPdu` on the wire (/repo/opendis/dis7.py:5305-5314). -/
def ResupplyOfferPdu.wire (o : ResupplyOfferPdu) : List Slot :=
  [LogisticsFamilyPdu.wire o.toLogisticsFamilyPdu,
   EntityIdentifier.wire o.receivingEntityID,
   EntityIdentifier.wire o.supplyingEntityID,
   [.u8 (o.supplies.length : Int)],
   [.s8 o.padding1],
   [.s16 o.padding2],
   o.supplies.flatMap SupplyQuantity.wire].flatten

/-- Layout of `AttributePdu` on the wire (/repo/opendis/dis7.py:5367-5378). -/
def AttributePdu.wire (o : AttributePdu) : List Slot :=
  [EntityInformationFamilyPdu.wire o.toEntityInformationFamilyPdu,
   SimulationAddress.wire o.originatingSimulationAddress,
   [.s32 o.padding1],
   [.s16 o.padding2],
   [.u8 o.attributeRecordPduType],
   [.u8 o.attributeRecordProtocolVersion],
   [.u32 o.masterAttributeRecordType],
   [.u8 o.actionCode],
   [.s8 o.padding3],
   [.u16 o.numberOfAttributeRecordSets]].flatten

/-- Layout of `MinefieldFamilyPdu` on the wire (/repo/opendis/dis7.py:5404-5406). -/
def MinefieldFamilyPdu.wire (o : MinefieldFamilyPdu) : List Slot :=
  Pdu.wire o.toPdu

/-- Layout of `SetDataReliablePdu` on the wire (/repo/opendis/dis7.py:5452-5459). -/
def SetDataReliablePdu.wire (o : SetDataReliablePdu) : List Slot :=
  [SimulationManagementWithReliabilityFamilyPdu.wire o.toSimulationManagementWithReliabilityFamilyPdu,
   [.u8 o.requiredReliabilityService],
   [.u16 o.pad1],
   [.u8 o.pad2],
   [.u32 o.requestID],
   DatumSpecification.wire o._datums].flatten

/-- Layout of `EventReportPdu` on the wire (/repo/opendis/dis7.py:5490-5495). -/
def EventReportPdu.wire (o : EventReportPdu) : List Slot :=
  [SimulationManagementFamilyPdu.wire o.toSimulationManagementFamilyPdu,
   [.u32 o.eventType],
   [.u32 o.padding1],
   DatumSpecification.wire o._datums].flatten

/-- Layout of `PointObjectStatePdu` on the wire (/repo/opendis/dis7.py:5552-5566). -/
def PointObjectStatePdu.wire (o : PointObjectStatePdu) : List Slot :=
  [SyntheticEnvironmentFamilyPdu.wire o.toSyntheticEnvironmentFamilyPdu,
   EntityIdentifier.wire o.objectID,
   EntityIdentifier.wire o.referencedObjectID,
   [.u16 o.updateNumber],
   [.u8 o.forceID],
   [.u8 o.modifications],
   ObjectType.wire o.objectType,
   WorldCoordinates.wire o.objectLocation,
   EulerAngles.wire o.objectOrientation,
   [.f64 o.objectAppearance],
   SimulationAddress.wire o.requesterID,
   SimulationAddress.wire o.receivingID,
   [.u32 o.pad2]].flatten

/-- Layout of `DataPdu` on the wire (/repo/opendis/dis7.py:5621-5626). -/
def DataPdu.wire (o : DataPdu) : List Slot :=
  [SimulationManagementFamilyPdu.wire o.toSimulationManagementFamilyPdu,
   [.u32 o.requestID],
   [.u32 o.padding1],
   DatumSpecification.wire o._datums].flatten

end Dis
