import Verif.Model.Records3
import Verif.Spec.LayoutRecords2

/-!
# Wire layouts of the classes of `Verif.Model.Records3`

Generated by `tools/genlayout.py`.
-/

set_option linter.unusedVariables false

namespace Dis

/-- Layout of `EEFundamentalParameterData` on the wire (/repo/opendis/dis7.py:1539-1550). -/
def EEFundamentalParameterData.wire (o : EEFundamentalParameterData) : List Slot :=
  [[.f32 o.frequency],
   [.f32 o.frequencyRange],
   [.f32 o.effectiveRadiatedPower],
   [.f32 o.pulseRepetitionFrequency],
   [.f32 o.pulseWidth],
   [.f32 o.beamAzimuthCenter],
   [.f32 o.beamAzimuthSweep],
   [.f32 o.beamElevationCenter],
   [.f32 o.beamElevationSweep],
   [.f32 o.beamSweepSync]].flatten

/-- Layout of `JammingTechnique` on the wire (/repo/opendis/dis7.py:1578-1583). -/
def JammingTechnique.wire (o : JammingTechnique) : List Slot :=
  [[.u8 o.kind],
   [.u8 o.category],
   [.u8 o.subcategory],
   [.u8 o.specific]].flatten

/-- Layout of `VariableDatum` on the wire (/repo/opendis/dis7.py:3318-3327). -/
def VariableDatum.wire (o : VariableDatum) : List Slot :=
  [[.u32 o.variableDatumID],
   [.u32 o.variableDatumLength],
   (List.range (o.variableDatumLength / 8).toNat).map fun i => Slot.orFail .indexError Slot.u8 o.variableData[i]?,
   (List.range (o.datumPaddingSizeInBits / 8).toNat).map fun _ => .u8 0].flatten

/-- Layout of `DatumSpecification` on the wire (/repo/opendis/dis7.py:1615-1623). -/
def DatumSpecification.wire (o : DatumSpecification) : List Slot :=
  [[.u32 (o.fixedDatumRecords.length : Int)],
   [.u32 (o.variableDatumRecords.length : Int)],
   o.fixedDatumRecords.flatMap FixedDatum.wire,
   o.variableDatumRecords.flatMap VariableDatum.wire].flatten

/-- Layout of `Expendable` on the wire (/repo/opendis/dis7.py:1658-1664). -/
def Expendable.wire (o : Expendable) : List Slot :=
  [EntityType.wire o.expendable,
   [.u32 o.station],
   [.u16 o.quantity],
   [.u8 o.expendableStatus],
   [.u8 o.padding]].flatten

/-- Layout of `CommunicationsNodeID` on the wire (/repo/opendis/dis7.py:3493-3496). -/
def CommunicationsNodeID.wire (o : CommunicationsNodeID) : List Slot :=
  [EntityIdentifier.wire o.entityID,
   [.u16 o.elementID]].flatten

/-- Layout of `IOCommunicationsNode` on the wire (/repo/opendis/dis7.py:1691-1697). -/
def IOCommunicationsNode.wire (o : IOCommunicationsNode) : List Slot :=
  [[.u32 o.recordType],
   [.u16 o.recordLength],
   [.u8 o.communcationsNodeType],
   [.u8 o.padding],
   CommunicationsNodeID.wire o.communicationsNodeID].flatten

/-- Layout of `LinearSegmentParameter` on the wire (/repo/opendis/dis7.py:1748-1760). -/
def LinearSegmentParameter.wire (o : LinearSegmentParameter) : List Slot :=
  [[.u8 o.segmentNumber],
   [.u8 o.segmentModification],
   [.u16 o.generalSegmentAppearance],
   [.u32 o.specificSegmentAppearance],
   WorldCoordinates.wire o.segmentLocation,
   EulerAngles.wire o.segmentOrientation,
   [.f32 o.segmentLength],
   [.f32 o.segmentWidth],
   [.f32 o.segmentHeight],
   [.f32 o.segmentDepth],
   [.u32 o.padding]].flatten

/-- Layout of `SystemIdentifier` on the wire (/repo/opendis/dis7.py:1797-1802). -/
def SystemIdentifier.wire (o : SystemIdentifier) : List Slot :=
  [[.u16 o.systemType],
   [.u16 o.systemName],
   [.u16 o.systemMode],
   ChangeOptions.wire o.changeOptions].flatten

/-- Layout of `TrackJamData` on the wire (/repo/opendis/dis7.py:1829-1833). -/
def TrackJamData.wire (o : TrackJamData) : List Slot :=
  [EntityIdentifier.wire o.entityID,
   [.u8 o.emitterNumber],
   [.u8 o.beamNumber]].flatten

/-- Layout of `AggregateType` on the wire (/repo/opendis/dis7.py:1870-1878). -/
def AggregateType.wire (o : AggregateType) : List Slot :=
  [[.u8 o.aggregateKind],
   [.u8 o.domain],
   [.u16 o.country],
   [.u8 o.category],
   [.u8 o.subcategory],
   [.u8 o.specificInfo],
   [.u8 o.extra]].flatten

/-- Layout of `SimulationIdentifier` on the wire (/repo/opendis/dis7.py:2069-2072). -/
def SimulationIdentifier.wire (o : SimulationIdentifier) : List Slot :=
  [SimulationAddress.wire o.simulationAddress,
   [.u16 o.referenceNumber]].flatten

/-- Layout of `PduHeader` on the wire (/repo/opendis/dis7.py:3401-3410). -/
def PduHeader.wire (o : PduHeader) : List Slot :=
  [[.u8 o.protocolVersion],
   [.u8 o.exerciseID],
   [.u8 o.pduType],
   [.u8 o.protocolFamily],
   [.u32 o.timestamp],
   [.u8 o.pduLength],
   [.u16 o.pduStatus],
   [.u8 o.padding]].flatten

/-- Layout of `SimulationManagementPduHeader` on the wire (/repo/opendis/dis7.py:1909-1913). -/
def SimulationManagementPduHeader.wire (o : SimulationManagementPduHeader) : List Slot :=
  [PduHeader.wire o.pduHeader,
   SimulationIdentifier.wire o.originatingID,
   SimulationIdentifier.wire o.receivingID].flatten

/-- Layout of `BeamData` on the wire (/repo/opendis/dis7.py:1946-1952). -/
def BeamData.wire (o : BeamData) : List Slot :=
  [[.f32 o.beamAzimuthCenter],
   [.f32 o.beamAzimuthSweep],
   [.f32 o.beamElevationCenter],
   [.f32 o.beamElevationSweep],
   [.f32 o.beamSweepSync]].flatten

/-- Layout of `EngineFuel` on the wire (/repo/opendis/dis7.py:1984-1990). -/
def EngineFuel.wire (o : EngineFuel) : List Slot :=
  [[.u32 o.fuelQuantity],
   [.u8 o.fuelMeasurementUnits],
   [.u8 o.fuelType],
   [.u8 o.fuelLocation],
   [.u8 o.padding]].flatten

/-- Layout of `IOEffect` on the wire (/repo/opendis/dis7.py:2025-2035). -/
def IOEffect.wire (o : IOEffect) : List Slot :=
  [[.u32 o.recordType],
   [.u16 o.recordLength],
   [.u8 o.ioStatus],
   [.u8 o.ioLinkType],
   [.u8 o.ioEffect],
   [.u8 o.ioEffectDutyCycle],
   [.u16 o.ioEffectDuration],
   [.u16 o.ioProcess],
   [.u16 o.padding]].flatten

/-- Layout of `GridAxisDescriptorVariable` on the wire (/repo/opendis/dis7.py:2123-2137). -/
def GridAxisDescriptorVariable.wire (o : GridAxisDescriptorVariable) : List Slot :=
  [[.f64 o.domainInitialXi],
   [.f64 o.domainFinalXi],
   [.u16 o.domainPointsXi],
   [.u8 o.interleafFactor],
   [.u8 o.axisType],
   [.u16 (o.xiValues.length : Int)],
   [.u16 o.initialIndex],
   [.f64 o.coordinateScaleXi],
   [.f64 o.coordinateOffsetXi],
   o.xiValues.map fun _ => .fail .attributeError].flatten

/-- Layout of `SupplyQuantity` on the wire (/repo/opendis/dis7.py:2171-2174). -/
def SupplyQuantity.wire (o : SupplyQuantity) : List Slot :=
  [EntityType.wire o.supplyType,
   [.f32 o.quantity]].flatten

/-- Layout of `SilentEntitySystem` on the wire (/repo/opendis/dis7.py:2202-2208). -/
def SilentEntitySystem.wire (o : SilentEntitySystem) : List Slot :=
  [[.u16 o.numberOfEntities],
   [.u16 (o.appearanceRecordList.length : Int)],
   EntityType.wire o.entityType,
   o.appearanceRecordList.map fun _ => .fail .attributeError].flatten

/-- Layout of `SilentAggregateSystem` on the wire (/repo/opendis/dis7.py:2234-2237). -/
def SilentAggregateSystem.wire (o : SilentAggregateSystem) : List Slot :=
  [[.u16 o.numberOfAggregates],
   Slot.orFailAll .attributeError AggregateType.wire o.entityType].flatten

/-- Layout of `BlankingSector` on the wire (/repo/opendis/dis7.py:2277-2292). -/
def BlankingSector.wire (o : BlankingSector) : List Slot :=
  [[.s32 o.recordType],
   [.u16 o.recordLength],
   [.u16 o.padding],
   [.u8 o.emitterNumber],
   [.u8 o.beamNumber],
   [.u8 o.stateIndicator],
   [.u8 o.padding2],
   [.f32 o.leftAzimuth],
   [.f32 o.rightAzimuth],
   [.f32 o.lowerElevation],
   [.f32 o.upperElevation],
   [.f32 o.residualPower],
   [.s32 o.padding3],
   [.s32 o.padding4]].flatten

end Dis
