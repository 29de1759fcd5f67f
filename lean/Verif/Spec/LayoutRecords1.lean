import Verif.Model.Records1
import Verif.Spec.LayoutCommon

/-!
# Wire layouts of the classes of `Verif.Model.Records1`

Generated by `tools/genlayout.py`.
-/

set_option linter.unusedVariables false

namespace Dis

/-- Layout of `DataQueryDatumSpecification` on the wire (/repo/opendis/dis7.py:93-101). -/
def DataQueryDatumSpecification.wire (o : DataQueryDatumSpecification) : List Slot :=
  [[.u32 (o.fixedDatumIDs.length : Int)],
   [.u32 (o.variableDatumIDs.length : Int)],
   o.fixedDatumIDs.map Slot.u32,
   o.variableDatumIDs.map Slot.u32].flatten

/-- Layout of `RadioIdentifier` on the wire (/repo/opendis/dis7.py:132-137). -/
def RadioIdentifier.wire (o : RadioIdentifier) : List Slot :=
  [[.u16 o.siteNumber],
   [.u16 o.applicationNumber],
   [.u16 o.referenceNumber],
   [.u16 o.radioNumber]].flatten

/-- Layout of `RequestID` on the wire (/repo/opendis/dis7.py:158-160). -/
def RequestID.wire (o : RequestID) : List Slot :=
  [.u32 o.requestID]

/-- Layout of `IFFData` on the wire (/repo/opendis/dis7.py:184-190). -/
def IFFData.wire (o : IFFData) : List Slot :=
  [[.u32 o.recordType],
   [.u16 (o.iffData.length : Int)],
   o.iffData.map Slot.u8].flatten

/-- Layout of `EntityType` on the wire (/repo/opendis/dis7.py:2522-2530). -/
def EntityType.wire (o : EntityType) : List Slot :=
  [[.u8 o.entityKind],
   [.u8 o.domain],
   [.u16 o.country],
   [.u8 o.category],
   [.u8 o.subcategory],
   [.u8 o.specific],
   [.u8 o.extra]].flatten

/-- Layout of `MunitionDescriptor` on the wire (/repo/opendis/dis7.py:229-235). -/
def MunitionDescriptor.wire (o : MunitionDescriptor) : List Slot :=
  [EntityType.wire o.munitionType,
   [.u16 o.warhead],
   [.u16 o.fuse],
   [.u16 o.quantity],
   [.u16 o.rate]].flatten

/-- Layout of `MinefieldSensorType` on the wire (/repo/opendis/dis7.py:257-259). -/
def MinefieldSensorType.wire (o : MinefieldSensorType) : List Slot :=
  [.u16 o.sensorType]

/-- Layout of `GroupID` on the wire (/repo/opendis/dis7.py:281-284). -/
def GroupID.wire (o : GroupID) : List Slot :=
  [SimulationAddress.wire o.simulationAddress,
   [.u16 o.groupNumber]].flatten

/-- Layout of `LayerHeader` on the wire (/repo/opendis/dis7.py:309-313). -/
def LayerHeader.wire (o : LayerHeader) : List Slot :=
  [[.u8 o.layerNumber],
   [.u8 o.layerSpecificInformation],
   [.u16 (o.length : Int)]].flatten

/-- Layout of `UnsignedDISInteger` on the wire (/repo/opendis/dis7.py:329-331). -/
def UnsignedDISInteger.wire (o : UnsignedDISInteger) : List Slot :=
  [.u32 o.val]

/-- Layout of `DeadReckoningParameters` on the wire (/repo/opendis/dis7.py:356-363). -/
def DeadReckoningParameters.wire (o : DeadReckoningParameters) : List Slot :=
  [[.u8 o.deadReckoningAlgorithm],
   (List.range 15).map fun i => Slot.orFail .indexError Slot.u8 o.parameters[i]?,
   Vector3Float.wire o.entityLinearAcceleration,
   Vector3Float.wire o.entityAngularVelocity].flatten

/-- Layout of `ProtocolMode` on the wire (/repo/opendis/dis7.py:388-390). -/
def ProtocolMode.wire (o : ProtocolMode) : List Slot :=
  [.u16 o.protocolMode]

/-- Layout of `AngleDeception` on the wire (/repo/opendis/dis7.py:436-453). -/
def AngleDeception.wire (o : AngleDeception) : List Slot :=
  [[.u32 o.recordType],
   [.u16 o.recordLength],
   [.u16 o.padding],
   [.u8 o.emitterNumber],
   [.u8 o.beamNumber],
   [.u8 o.stateIndicator],
   [.u8 o.padding2],
   [.f32 o.azimuthOffset],
   [.f32 o.azimuthWidth],
   [.f32 o.azimuthPullRate],
   [.f32 o.azimuthPullAcceleration],
   [.f32 o.elevationOffset],
   [.f32 o.elevationWidth],
   [.f32 o.elevationPullRate],
   [.f32 o.elevationPullAcceleration],
   [.u32 o.padding3]].flatten

/-- Layout of `EntityAssociation` on the wire (/repo/opendis/dis7.py:508-518). -/
def EntityAssociation.wire (o : EntityAssociation) : List Slot :=
  [[.u8 o.recordType],
   [.u8 o.changeIndicator],
   [.u8 o.associationStatus],
   [.u8 o.associationType],
   EntityIdentifier.wire o.entityID,
   [.u16 o.ownStationLocation],
   [.u8 o.physicalConnectionType],
   [.u8 o.groupMemberType],
   [.u16 o.groupNumber]].flatten

/-- Layout of `VectoringNozzleSystem` on the wire (/repo/opendis/dis7.py:545-548). -/
def VectoringNozzleSystem.wire (o : VectoringNozzleSystem) : List Slot :=
  [[.f32 o.horizontalDeflectionAngle],
   [.f32 o.verticalDeflectionAngle]].flatten

/-- Layout of `FalseTargetsAttribute` on the wire (/repo/opendis/dis7.py:591-605). -/
def FalseTargetsAttribute.wire (o : FalseTargetsAttribute) : List Slot :=
  [[.u32 o.recordType],
   [.u16 o.recordLength],
   [.u16 o.padding],
   [.u8 o.emitterNumber],
   [.u8 o.beamNumber],
   [.u8 o.stateIndicator],
   [.u8 o.padding2],
   [.u16 o.falseTargetCount],
   [.f32 o.walkSpeed],
   [.f32 o.walkAcceleration],
   [.f32 o.maximumWalkDistance],
   [.f32 o.keepTime],
   [.f32 o.echoSpacing]].flatten

/-- Layout of `MinefieldIdentifier` on the wire (/repo/opendis/dis7.py:636-639). -/
def MinefieldIdentifier.wire (o : MinefieldIdentifier) : List Slot :=
  [SimulationAddress.wire o.simulationAddress,
   [.u16 o.minefieldNumber]].flatten

/-- Layout of `RadioType` on the wire (/repo/opendis/dis7.py:672-680). -/
def RadioType.wire (o : RadioType) : List Slot :=
  [[.u8 o.entityKind],
   [.u8 o.domain],
   [.u16 o.country],
   [.u8 o.category],
   [.u8 o.subcategory],
   [.u8 o.specific],
   [.u8 o.extra]].flatten

/-- Layout of `NamedLocationIdentification` on the wire (/repo/opendis/dis7.py:709-712). -/
def NamedLocationIdentification.wire (o : NamedLocationIdentification) : List Slot :=
  [[.u16 o.stationName],
   [.u16 o.stationNumber]].flatten

/-- Layout of `IFFDataSpecification` on the wire (/repo/opendis/dis7.py:733-737). -/
def IFFDataSpecification.wire (o : IFFDataSpecification) : List Slot :=
  [[.u16 (o.iffDataRecords.length : Int)],
   o.iffDataRecords.flatMap IFFData.wire].flatten

/-- Layout of `OwnershipStatus` on the wire (/repo/opendis/dis7.py:763-767). -/
def OwnershipStatus.wire (o : OwnershipStatus) : List Slot :=
  [EntityIdentifier.wire o.entityId,
   [.u8 o.ownershipStatus],
   [.u8 o.padding]].flatten

/-- Layout of `AttachedParts` on the wire (/repo/opendis/dis7.py:797-803). -/
def AttachedParts.wire (o : AttachedParts) : List Slot :=
  [[.u8 o.recordType],
   [.u8 o.detachedIndicator],
   [.u16 o.partAttachedTo],
   [.u32 o.parameterType],
   [Slot.orFail .attributeError Slot.s64 o.parameterValue]].flatten

end Dis
