import Verif.Model.Pdus5

/-!
# What a parse leaves alone

Generated by `tools/geninplace.py`.
-/

set_option linter.unusedVariables false
set_option linter.unusedSimpArgs false

namespace Dis

/-- `x` is the `SimulationAddress` object `o` after calls of `parse` (/repo/opendis/record/common.py:137-139):
attributes that are not read stay, lists only grow. -/
abbrev SimulationAddress.Since (_o _x : SimulationAddress) : Prop :=
  True

/-- `x` is the `EntityIdentifier` object `o` after calls of `parse` (/repo/opendis/record/common.py:52-54):
attributes that are not read stay, lists only grow. -/
abbrev EntityIdentifier.Since (o x : EntityIdentifier) : Prop :=
  SimulationAddress.Since o.simulationAddress x.simulationAddress

/-- `x` is the `EulerAngles` object `o` after calls of `parse` (/repo/opendis/record/common.py:82-85):
attributes that are not read stay, lists only grow. -/
abbrev EulerAngles.Since (_o _x : EulerAngles) : Prop :=
  True

/-- `x` is the `EventIdentifier` object `o` after calls of `parse` (/repo/opendis/record/common.py:110-112):
attributes that are not read stay, lists only grow. -/
abbrev EventIdentifier.Since (o x : EventIdentifier) : Prop :=
  SimulationAddress.Since o.simulationAddress x.simulationAddress

/-- `x` is the `Vector3Float` object `o` after calls of `parse` (/repo/opendis/record/common.py:165-168):
attributes that are not read stay, lists only grow. -/
abbrev Vector3Float.Since (_o _x : Vector3Float) : Prop :=
  True

/-- `x` is the `WorldCoordinates` object `o` after calls of `parse` (/repo/opendis/record/common.py:193-196):
attributes that are not read stay, lists only grow. -/
abbrev WorldCoordinates.Since (_o _x : WorldCoordinates) : Prop :=
  True

/-- `x` is the `DataQueryDatumSpecification` object `o` after calls of `parse` (/repo/opendis/dis7.py:103-112):
attributes that are not read stay, lists only grow. -/
abbrev DataQueryDatumSpecification.Since (o x : DataQueryDatumSpecification) : Prop :=
  o.fixedDatumIDs <+: x.fixedDatumIDs ∧ o.variableDatumIDs <+: x.variableDatumIDs

/-- The `DataQueryDatumSpecification` object `x` with its lists cut back to their lengths in `o`
(/repo/opendis/dis7.py:103-112 appends to them). -/
def DataQueryDatumSpecification.trim (o x : DataQueryDatumSpecification) : DataQueryDatumSpecification :=
  { x with
    fixedDatumIDs := x.fixedDatumIDs.take o.fixedDatumIDs.length,
    variableDatumIDs := x.variableDatumIDs.take o.variableDatumIDs.length }

/-- `x` is the `RadioIdentifier` object `o` after calls of `parse` (/repo/opendis/dis7.py:139-144):
attributes that are not read stay, lists only grow. -/
abbrev RadioIdentifier.Since (_o _x : RadioIdentifier) : Prop :=
  True

/-- `x` is the `RequestID` object `o` after calls of `parse` (/repo/opendis/dis7.py:162-164):
attributes that are not read stay, lists only grow. -/
abbrev RequestID.Since (_o _x : RequestID) : Prop :=
  True

/-- `x` is the `IFFData` object `o` after calls of `parse` (/repo/opendis/dis7.py:192-201):
attributes that are not read stay, lists only grow. -/
abbrev IFFData.Since (o x : IFFData) : Prop :=
  o.iffData <+: x.iffData

/-- The `IFFData` object `x` with its lists cut back to their lengths in `o`
(/repo/opendis/dis7.py:192-201 appends to them). -/
def IFFData.trim (o x : IFFData) : IFFData :=
  { x with iffData := x.iffData.take o.iffData.length }

/-- `x` is the `EntityType` object `o` after calls of `parse` (/repo/opendis/dis7.py:2532-2540):
attributes that are not read stay, lists only grow. -/
abbrev EntityType.Since (_o _x : EntityType) : Prop :=
  True

/-- `x` is the `MunitionDescriptor` object `o` after calls of `parse` (/repo/opendis/dis7.py:237-243):
attributes that are not read stay, lists only grow. -/
abbrev MunitionDescriptor.Since (o x : MunitionDescriptor) : Prop :=
  EntityType.Since o.munitionType x.munitionType

/-- `x` is the `MinefieldSensorType` object `o` after calls of `parse` (/repo/opendis/dis7.py:261-263):
attributes that are not read stay, lists only grow. -/
abbrev MinefieldSensorType.Since (_o _x : MinefieldSensorType) : Prop :=
  True

/-- `x` is the `GroupID` object `o` after calls of `parse` (/repo/opendis/dis7.py:286-289):
attributes that are not read stay, lists only grow. -/
abbrev GroupID.Since (o x : GroupID) : Prop :=
  SimulationAddress.Since o.simulationAddress x.simulationAddress

/-- `x` is the `LayerHeader` object `o` after calls of `parse` (/repo/opendis/dis7.py:315-319):
attributes that are not read stay, lists only grow. -/
abbrev LayerHeader.Since (_o _x : LayerHeader) : Prop :=
  True

/-- `x` is the `UnsignedDISInteger` object `o` after calls of `parse` (/repo/opendis/dis7.py:333-335):
attributes that are not read stay, lists only grow. -/
abbrev UnsignedDISInteger.Since (_o _x : UnsignedDISInteger) : Prop :=
  True

/-- `x` is the `DeadReckoningParameters` object `o` after calls of `parse` (/repo/opendis/dis7.py:365-375):
attributes that are not read stay, lists only grow. -/
abbrev DeadReckoningParameters.Since (o x : DeadReckoningParameters) : Prop :=
  Vector3Float.Since o.entityLinearAcceleration x.entityLinearAcceleration ∧
    Vector3Float.Since o.entityAngularVelocity x.entityAngularVelocity

/-- `x` is the `ProtocolMode` object `o` after calls of `parse` (/repo/opendis/dis7.py:392-394):
attributes that are not read stay, lists only grow. -/
abbrev ProtocolMode.Since (_o _x : ProtocolMode) : Prop :=
  True

/-- `x` is the `AngleDeception` object `o` after calls of `parse` (/repo/opendis/dis7.py:455-472):
attributes that are not read stay, lists only grow. -/
abbrev AngleDeception.Since (_o _x : AngleDeception) : Prop :=
  True

/-- `x` is the `EntityAssociation` object `o` after calls of `parse` (/repo/opendis/dis7.py:520-530):
attributes that are not read stay, lists only grow. -/
abbrev EntityAssociation.Since (o x : EntityAssociation) : Prop :=
  EntityIdentifier.Since o.entityID x.entityID

/-- `x` is the `VectoringNozzleSystem` object `o` after calls of `parse` (/repo/opendis/dis7.py:550-553):
attributes that are not read stay, lists only grow. -/
abbrev VectoringNozzleSystem.Since (_o _x : VectoringNozzleSystem) : Prop :=
  True

/-- `x` is the `FalseTargetsAttribute` object `o` after calls of `parse` (/repo/opendis/dis7.py:607-621):
attributes that are not read stay, lists only grow. -/
abbrev FalseTargetsAttribute.Since (_o _x : FalseTargetsAttribute) : Prop :=
  True

/-- `x` is the `MinefieldIdentifier` object `o` after calls of `parse` (/repo/opendis/dis7.py:641-644):
attributes that are not read stay, lists only grow. -/
abbrev MinefieldIdentifier.Since (o x : MinefieldIdentifier) : Prop :=
  SimulationAddress.Since o.simulationAddress x.simulationAddress

/-- `x` is the `RadioType` object `o` after calls of `parse` (/repo/opendis/dis7.py:682-690):
attributes that are not read stay, lists only grow. -/
abbrev RadioType.Since (_o _x : RadioType) : Prop :=
  True

/-- `x` is the `NamedLocationIdentification` object `o` after calls of `parse` (/repo/opendis/dis7.py:714-717):
attributes that are not read stay, lists only grow. -/
abbrev NamedLocationIdentification.Since (_o _x : NamedLocationIdentification) : Prop :=
  True

/-- `x` is the `IFFDataSpecification` object `o` after calls of `parse` (/repo/opendis/dis7.py:739-745):
attributes that are not read stay, lists only grow. -/
abbrev IFFDataSpecification.Since (o x : IFFDataSpecification) : Prop :=
  o.iffDataRecords <+: x.iffDataRecords

/-- The `IFFDataSpecification` object `x` with its lists cut back to their lengths in `o`
(/repo/opendis/dis7.py:739-745 appends to them). -/
def IFFDataSpecification.trim (o x : IFFDataSpecification) : IFFDataSpecification :=
  { x with iffDataRecords := x.iffDataRecords.take o.iffDataRecords.length }

/-- `x` is the `OwnershipStatus` object `o` after calls of `parse` (/repo/opendis/dis7.py:769-773):
attributes that are not read stay, lists only grow. -/
abbrev OwnershipStatus.Since (o x : OwnershipStatus) : Prop :=
  EntityIdentifier.Since o.entityId x.entityId

/-- `x` is the `AttachedParts` object `o` after calls of `parse` (/repo/opendis/dis7.py:805-811):
attributes that are not read stay, lists only grow. -/
abbrev AttachedParts.Since (o x : AttachedParts) : Prop :=
  x.attachedPartType = o.attachedPartType

/-- `x` is the `Attribute` object `o` after calls of `parse` (/repo/opendis/dis7.py:835-839):
attributes that are not read stay, lists only grow. -/
abbrev Attribute.Since (_o _x : Attribute) : Prop :=
  True

/-- `x` is the `RecordQuerySpecification` object `o` after calls of `parse` (/repo/opendis/dis7.py:863-868):
attributes that are not read stay, lists only grow. -/
abbrev RecordQuerySpecification.Since (o x : RecordQuerySpecification) : Prop :=
  o.recordIDs <+: x.recordIDs

/-- The `RecordQuerySpecification` object `x` with its lists cut back to their lengths in `o`
(/repo/opendis/dis7.py:863-868 appends to them). -/
def RecordQuerySpecification.trim (o x : RecordQuerySpecification) : RecordQuerySpecification :=
  { x with recordIDs := x.recordIDs.take o.recordIDs.length }

/-- `x` is the `ArticulatedParts` object `o` after calls of `parse` (/repo/opendis/dis7.py:901-907):
attributes that are not read stay, lists only grow. -/
abbrev ArticulatedParts.Since (_o _x : ArticulatedParts) : Prop :=
  True

/-- `x` is the `ObjectType` object `o` after calls of `parse` (/repo/opendis/dis7.py:937-942):
attributes that are not read stay, lists only grow. -/
abbrev ObjectType.Since (_o _x : ObjectType) : Prop :=
  True

/-- `x` is the `Association` object `o` after calls of `parse` (/repo/opendis/dis7.py:974-979):
attributes that are not read stay, lists only grow. -/
abbrev Association.Since (o x : Association) : Prop :=
  EntityIdentifier.Since o.associatedEntityID x.associatedEntityID ∧
    WorldCoordinates.Since o.associatedLocation x.associatedLocation

/-- `x` is the `RecordSpecificationElement` object `o` after calls of `parse` (/repo/opendis/dis7.py:1015-1022):
attributes that are not read stay, lists only grow. -/
abbrev RecordSpecificationElement.Since (_o _x : RecordSpecificationElement) : Prop :=
  True

/-- `x` is the `AntennaLocation` object `o` after calls of `parse` (/repo/opendis/dis7.py:1045-1048):
attributes that are not read stay, lists only grow. -/
abbrev AntennaLocation.Since (o x : AntennaLocation) : Prop :=
  WorldCoordinates.Since o.antennaLocation x.antennaLocation ∧
    Vector3Float.Since o.relativeAntennaLocation x.relativeAntennaLocation

/-- `x` is the `ObjectIdentifier` object `o` after calls of `parse` (/repo/opendis/dis7.py:1070-1073):
attributes that are not read stay, lists only grow. -/
abbrev ObjectIdentifier.Since (o x : ObjectIdentifier) : Prop :=
  SimulationAddress.Since o.simulationAddress x.simulationAddress

/-- `x` is the `AggregateIdentifier` object `o` after calls of `parse` (/repo/opendis/dis7.py:1094-1097):
attributes that are not read stay, lists only grow. -/
abbrev AggregateIdentifier.Since (o x : AggregateIdentifier) : Prop :=
  SimulationAddress.Since o.simulationAddress x.simulationAddress

/-- `x` is the `FixedDatum` object `o` after calls of `parse` (/repo/opendis/dis7.py:1119-1122):
attributes that are not read stay, lists only grow. -/
abbrev FixedDatum.Since (_o _x : FixedDatum) : Prop :=
  True

/-- `x` is the `VariableParameter` object `o` after calls of `parse` (/repo/opendis/dis7.py:1157-1163):
attributes that are not read stay, lists only grow. -/
abbrev VariableParameter.Since (_o _x : VariableParameter) : Prop :=
  True

/-- `x` is the `ChangeOptions` object `o` after calls of `parse` (/repo/opendis/dis7.py:1177-1179):
attributes that are not read stay, lists only grow. -/
abbrev ChangeOptions.Since (_o _x : ChangeOptions) : Prop :=
  True

/-- `x` is the `LiveSimulationAddress` object `o` after calls of `parse` (/repo/opendis/dis7.py:1202-1205):
attributes that are not read stay, lists only grow. -/
abbrev LiveSimulationAddress.Since (_o _x : LiveSimulationAddress) : Prop :=
  True

/-- `x` is the `EntityMarking` object `o` after calls of `parse` (/repo/opendis/dis7.py:1239-1245):
attributes that are not read stay, lists only grow. -/
abbrev EntityMarking.Since (_o _x : EntityMarking) : Prop :=
  True

/-- `x` is the `UAFundamentalParameter` object `o` after calls of `parse` (/repo/opendis/dis7.py:1284-1291):
attributes that are not read stay, lists only grow. -/
abbrev UAFundamentalParameter.Since (_o _x : UAFundamentalParameter) : Prop :=
  True

/-- `x` is the `ExplosionDescriptor` object `o` after calls of `parse` (/repo/opendis/dis7.py:1319-1324):
attributes that are not read stay, lists only grow. -/
abbrev ExplosionDescriptor.Since (o x : ExplosionDescriptor) : Prop :=
  EntityType.Since o.explodingObject x.explodingObject

/-- `x` is the `ClockTime` object `o` after calls of `parse` (/repo/opendis/dis7.py:1349-1352):
attributes that are not read stay, lists only grow. -/
abbrev ClockTime.Since (_o _x : ClockTime) : Prop :=
  True

/-- `x` is the `SecondaryOperationalData` object `o` after calls of `parse` (/repo/opendis/dis7.py:1382-1386):
attributes that are not read stay, lists only grow. -/
abbrev SecondaryOperationalData.Since (_o _x : SecondaryOperationalData) : Prop :=
  True

/-- `x` is the `EnvironmentType` object `o` after calls of `parse` (/repo/opendis/dis7.py:1424-1433):
attributes that are not read stay, lists only grow. -/
abbrev EnvironmentType.Since (_o _x : EnvironmentType) : Prop :=
  True

/-- `x` is the `TotalRecordSets` object `o` after calls of `parse` (/repo/opendis/dis7.py:1449-1453):
attributes that are not read stay, lists only grow. -/
abbrev TotalRecordSets.Since (_o _x : TotalRecordSets) : Prop :=
  True

/-- `x` is the `MineEntityIdentifier` object `o` after calls of `parse` (/repo/opendis/dis7.py:1474-1477):
attributes that are not read stay, lists only grow. -/
abbrev MineEntityIdentifier.Since (o x : MineEntityIdentifier) : Prop :=
  SimulationAddress.Since o.simulationAddress x.simulationAddress

/-- `x` is the `Relationship` object `o` after calls of `parse` (/repo/opendis/dis7.py:1499-1502):
attributes that are not read stay, lists only grow. -/
abbrev Relationship.Since (_o _x : Relationship) : Prop :=
  True

/-- `x` is the `EEFundamentalParameterData` object `o` after calls of `parse` (/repo/opendis/dis7.py:1552-1563):
attributes that are not read stay, lists only grow. -/
abbrev EEFundamentalParameterData.Since (_o _x : EEFundamentalParameterData) : Prop :=
  True

/-- `x` is the `JammingTechnique` object `o` after calls of `parse` (/repo/opendis/dis7.py:1585-1590):
attributes that are not read stay, lists only grow. -/
abbrev JammingTechnique.Since (_o _x : JammingTechnique) : Prop :=
  True

/-- `x` is the `VariableDatum` object `o` after calls of `parse` (/repo/opendis/dis7.py:3329-3339):
attributes that are not read stay, lists only grow. -/
abbrev VariableDatum.Since (o x : VariableDatum) : Prop :=
  o.variableData <+: x.variableData

/-- The `VariableDatum` object `x` with its lists cut back to their lengths in `o`
(/repo/opendis/dis7.py:3329-3339 appends to them). -/
def VariableDatum.trim (o x : VariableDatum) : VariableDatum :=
  { x with variableData := x.variableData.take o.variableData.length }

/-- `x` is the `DatumSpecification` object `o` after calls of `parse` (/repo/opendis/dis7.py:1625-1637):
attributes that are not read stay, lists only grow. -/
abbrev DatumSpecification.Since (o x : DatumSpecification) : Prop :=
  o.fixedDatumRecords <+: x.fixedDatumRecords ∧ o.variableDatumRecords <+: x.variableDatumRecords

/-- The `DatumSpecification` object `x` with its lists cut back to their lengths in `o`
(/repo/opendis/dis7.py:1625-1637 appends to them). -/
def DatumSpecification.trim (o x : DatumSpecification) : DatumSpecification :=
  { x with
    fixedDatumRecords := x.fixedDatumRecords.take o.fixedDatumRecords.length,
    variableDatumRecords := x.variableDatumRecords.take o.variableDatumRecords.length }

/-- `x` is the `Expendable` object `o` after calls of `parse` (/repo/opendis/dis7.py:1666-1672):
attributes that are not read stay, lists only grow. -/
abbrev Expendable.Since (o x : Expendable) : Prop :=
  EntityType.Since o.expendable x.expendable

/-- `x` is the `CommunicationsNodeID` object `o` after calls of `parse` (/repo/opendis/dis7.py:3498-3501):
attributes that are not read stay, lists only grow. -/
abbrev CommunicationsNodeID.Since (o x : CommunicationsNodeID) : Prop :=
  EntityIdentifier.Since o.entityID x.entityID

/-- `x` is the `IOCommunicationsNode` object `o` after calls of `parse` (/repo/opendis/dis7.py:1699-1705):
attributes that are not read stay, lists only grow. -/
abbrev IOCommunicationsNode.Since (o x : IOCommunicationsNode) : Prop :=
  CommunicationsNodeID.Since o.communicationsNodeID x.communicationsNodeID

/-- `x` is the `LinearSegmentParameter` object `o` after calls of `parse` (/repo/opendis/dis7.py:1762-1774):
attributes that are not read stay, lists only grow. -/
abbrev LinearSegmentParameter.Since (o x : LinearSegmentParameter) : Prop :=
  WorldCoordinates.Since o.segmentLocation x.segmentLocation ∧
    EulerAngles.Since o.segmentOrientation x.segmentOrientation

/-- `x` is the `SystemIdentifier` object `o` after calls of `parse` (/repo/opendis/dis7.py:1804-1809):
attributes that are not read stay, lists only grow. -/
abbrev SystemIdentifier.Since (o x : SystemIdentifier) : Prop :=
  ChangeOptions.Since o.changeOptions x.changeOptions

/-- `x` is the `TrackJamData` object `o` after calls of `parse` (/repo/opendis/dis7.py:1835-1839):
attributes that are not read stay, lists only grow. -/
abbrev TrackJamData.Since (o x : TrackJamData) : Prop :=
  EntityIdentifier.Since o.entityID x.entityID

/-- `x` is the `AggregateType` object `o` after calls of `parse` (/repo/opendis/dis7.py:1880-1888):
attributes that are not read stay, lists only grow. -/
abbrev AggregateType.Since (_o _x : AggregateType) : Prop :=
  True

/-- `x` is the `SimulationIdentifier` object `o` after calls of `parse` (/repo/opendis/dis7.py:2074-2077):
attributes that are not read stay, lists only grow. -/
abbrev SimulationIdentifier.Since (o x : SimulationIdentifier) : Prop :=
  SimulationAddress.Since o.simulationAddress x.simulationAddress

/-- `x` is the `PduHeader` object `o` after calls of `parse` (/repo/opendis/dis7.py:3412-3421):
attributes that are not read stay, lists only grow. -/
abbrev PduHeader.Since (_o _x : PduHeader) : Prop :=
  True

/-- `x` is the `SimulationManagementPduHeader` object `o` after calls of `parse` (/repo/opendis/dis7.py:1915-1919):
attributes that are not read stay, lists only grow. -/
abbrev SimulationManagementPduHeader.Since (o x : SimulationManagementPduHeader) : Prop :=
  PduHeader.Since o.pduHeader x.pduHeader ∧
    SimulationIdentifier.Since o.originatingID x.originatingID ∧
    SimulationIdentifier.Since o.receivingID x.receivingID

/-- `x` is the `BeamData` object `o` after calls of `parse` (/repo/opendis/dis7.py:1954-1960):
attributes that are not read stay, lists only grow. -/
abbrev BeamData.Since (_o _x : BeamData) : Prop :=
  True

/-- `x` is the `EngineFuel` object `o` after calls of `parse` (/repo/opendis/dis7.py:1992-1998):
attributes that are not read stay, lists only grow. -/
abbrev EngineFuel.Since (_o _x : EngineFuel) : Prop :=
  True

/-- `x` is the `IOEffect` object `o` after calls of `parse` (/repo/opendis/dis7.py:2037-2047):
attributes that are not read stay, lists only grow. -/
abbrev IOEffect.Since (_o _x : IOEffect) : Prop :=
  True

/-- `x` is the `GridAxisDescriptorVariable` object `o` after calls of `parse` (/repo/opendis/dis7.py:2139-2155):
attributes that are not read stay, lists only grow. -/
abbrev GridAxisDescriptorVariable.Since (o x : GridAxisDescriptorVariable) : Prop :=
  o.xiValues <+: x.xiValues

/-- The `GridAxisDescriptorVariable` object `x` with its lists cut back to their lengths in `o`
(/repo/opendis/dis7.py:2139-2155 appends to them). -/
def GridAxisDescriptorVariable.trim (o x : GridAxisDescriptorVariable) : GridAxisDescriptorVariable :=
  { x with xiValues := x.xiValues.take o.xiValues.length }

/-- `x` is the `SupplyQuantity` object `o` after calls of `parse` (/repo/opendis/dis7.py:2176-2179):
attributes that are not read stay, lists only grow. -/
abbrev SupplyQuantity.Since (o x : SupplyQuantity) : Prop :=
  EntityType.Since o.supplyType x.supplyType

/-- `x` is the `SilentEntitySystem` object `o` after calls of `parse` (/repo/opendis/dis7.py:2210-2218):
attributes that are not read stay, lists only grow. -/
abbrev SilentEntitySystem.Since (o x : SilentEntitySystem) : Prop :=
  EntityType.Since o.entityType x.entityType ∧ o.appearanceRecordList <+: x.appearanceRecordList

/-- The `SilentEntitySystem` object `x` with its lists cut back to their lengths in `o`
(/repo/opendis/dis7.py:2210-2218 appends to them). -/
def SilentEntitySystem.trim (o x : SilentEntitySystem) : SilentEntitySystem :=
  { x with appearanceRecordList := x.appearanceRecordList.take o.appearanceRecordList.length }

/-- `x` is the `SilentAggregateSystem` object `o` after calls of `parse` (/repo/opendis/dis7.py:2239-2242):
attributes that are not read stay, lists only grow. -/
abbrev SilentAggregateSystem.Since (o x : SilentAggregateSystem) : Prop :=
  AggregateType.Since o.aggregateType x.aggregateType ∧ x.entityType = o.entityType

/-- `x` is the `BlankingSector` object `o` after calls of `parse` (/repo/opendis/dis7.py:2294-2310):
attributes that are not read stay, lists only grow. -/
abbrev BlankingSector.Since (_o _x : BlankingSector) : Prop :=
  True

/-- `x` is the `LaunchedMunitionRecord` object `o` after calls of `parse` (/repo/opendis/dis7.py:2342-2350):
attributes that are not read stay, lists only grow. -/
abbrev LaunchedMunitionRecord.Since (o x : LaunchedMunitionRecord) : Prop :=
  EventIdentifier.Since o.fireEventID x.fireEventID ∧
    EventIdentifier.Since o.firingEntityID x.firingEntityID ∧
    EventIdentifier.Since o.targetEntityID x.targetEntityID ∧
    WorldCoordinates.Since o.targetLocation x.targetLocation

/-- `x` is the `IFFFundamentalParameterData` object `o` after calls of `parse` (/repo/opendis/dis7.py:2386-2398):
attributes that are not read stay, lists only grow. -/
abbrev IFFFundamentalParameterData.Since (_o _x : IFFFundamentalParameterData) : Prop :=
  True

/-- `x` is the `FundamentalOperationalData` object `o` after calls of `parse` (/repo/opendis/dis7.py:2452-2463):
attributes that are not read stay, lists only grow. -/
abbrev FundamentalOperationalData.Since (_o _x : FundamentalOperationalData) : Prop :=
  True

/-- `x` is the `IntercomCommunicationsParameters` object `o` after calls of `parse` (/repo/opendis/dis7.py:2490-2494):
attributes that are not read stay, lists only grow. -/
abbrev IntercomCommunicationsParameters.Since (_o _x : IntercomCommunicationsParameters) : Prop :=
  True

/-- `x` is the `Munition` object `o` after calls of `parse` (/repo/opendis/dis7.py:2576-2582):
attributes that are not read stay, lists only grow. -/
abbrev Munition.Since (o x : Munition) : Prop :=
  EntityType.Since o.munitionType x.munitionType

/-- `x` is the `StandardVariableSpecification` object `o` after calls of `parse` (/repo/opendis/dis7.py:2608-2615):
attributes that are not read stay, lists only grow. -/
abbrev StandardVariableSpecification.Since (o x : StandardVariableSpecification) : Prop :=
  o.standardVariables <+: x.standardVariables

/-- The `StandardVariableSpecification` object `x` with its lists cut back to their lengths in `o`
(/repo/opendis/dis7.py:2608-2615 appends to them). -/
def StandardVariableSpecification.trim (o x : StandardVariableSpecification) : StandardVariableSpecification :=
  { x with standardVariables := x.standardVariables.take o.standardVariables.length }

/-- `x` is the `Vector2Float` object `o` after calls of `parse` (/repo/opendis/dis7.py:2630-2633):
attributes that are not read stay, lists only grow. -/
abbrev Vector2Float.Since (_o _x : Vector2Float) : Prop :=
  True

/-- `x` is the `Environment` object `o` after calls of `parse` (/repo/opendis/dis7.py:2663-2668):
attributes that are not read stay, lists only grow. -/
abbrev Environment.Since (o x : Environment) : Prop :=
  x.padding0 = o.padding0 ∧ x.padding1 = o.padding1

/-- `x` is the `AcousticEmitter` object `o` after calls of `parse` (/repo/opendis/dis7.py:2694-2698):
attributes that are not read stay, lists only grow. -/
abbrev AcousticEmitter.Since (_o _x : AcousticEmitter) : Prop :=
  True

/-- `x` is the `AngularVelocityVector` object `o` after calls of `parse` (/repo/opendis/dis7.py:2724-2728):
attributes that are not read stay, lists only grow. -/
abbrev AngularVelocityVector.Since (_o _x : AngularVelocityVector) : Prop :=
  True

/-- `x` is the `AggregateMarking` object `o` after calls of `parse` (/repo/opendis/dis7.py:2752-2759):
attributes that are not read stay, lists only grow. -/
abbrev AggregateMarking.Since (_o _x : AggregateMarking) : Prop :=
  True

/-- `x` is the `DataFilterRecord` object `o` after calls of `parse` (/repo/opendis/dis7.py:2779-2781):
attributes that are not read stay, lists only grow. -/
abbrev DataFilterRecord.Since (_o _x : DataFilterRecord) : Prop :=
  True

/-- `x` is the `IntercomIdentifier` object `o` after calls of `parse` (/repo/opendis/dis7.py:2807-2812):
attributes that are not read stay, lists only grow. -/
abbrev IntercomIdentifier.Since (_o _x : IntercomIdentifier) : Prop :=
  True

/-- `x` is the `StorageFuel` object `o` after calls of `parse` (/repo/opendis/dis7.py:2844-2850):
attributes that are not read stay, lists only grow. -/
abbrev StorageFuel.Since (_o _x : StorageFuel) : Prop :=
  True

/-- `x` is the `Sensor` object `o` after calls of `parse` (/repo/opendis/dis7.py:2886-2893):
attributes that are not read stay, lists only grow. -/
abbrev Sensor.Since (_o _x : Sensor) : Prop :=
  True

/-- `x` is the `MunitionReload` object `o` after calls of `parse` (/repo/opendis/dis7.py:2933-2940):
attributes that are not read stay, lists only grow. -/
abbrev MunitionReload.Since (o x : MunitionReload) : Prop :=
  EntityType.Since o.munitionType x.munitionType

/-- `x` is the `StorageFuelReload` object `o` after calls of `parse` (/repo/opendis/dis7.py:2987-2996):
attributes that are not read stay, lists only grow. -/
abbrev StorageFuelReload.Since (_o _x : StorageFuelReload) : Prop :=
  True

/-- `x` is the `ExpendableReload` object `o` after calls of `parse` (/repo/opendis/dis7.py:3030-3037):
attributes that are not read stay, lists only grow. -/
abbrev ExpendableReload.Since (o x : ExpendableReload) : Prop :=
  EntityType.Since o.expendable x.expendable

/-- `x` is the `EngineFuelReload` object `o` after calls of `parse` (/repo/opendis/dis7.py:3074-3083):
attributes that are not read stay, lists only grow. -/
abbrev EngineFuelReload.Since (_o _x : EngineFuelReload) : Prop :=
  True

/-- `x` is the `UnattachedIdentifier` object `o` after calls of `parse` (/repo/opendis/dis7.py:3106-3109):
attributes that are not read stay, lists only grow. -/
abbrev UnattachedIdentifier.Since (o x : UnattachedIdentifier) : Prop :=
  SimulationAddress.Since o.simulationAddress x.simulationAddress

/-- `x` is the `EntityTypeVP` object `o` after calls of `parse` (/repo/opendis/dis7.py:3137-3143):
attributes that are not read stay, lists only grow. -/
abbrev EntityTypeVP.Since (o x : EntityTypeVP) : Prop :=
  EntityType.Since o.entityType x.entityType

/-- `x` is the `BeamStatus` object `o` after calls of `parse` (/repo/opendis/dis7.py:3162-3165):
attributes that are not read stay, lists only grow. -/
abbrev BeamStatus.Since (_o _x : BeamStatus) : Prop :=
  True

/-- `x` is the `EnvironmentGeneral` object `o` after calls of `parse` (/repo/opendis/dis7.py:3202-3209):
attributes that are not read stay, lists only grow. -/
abbrev EnvironmentGeneral.Since (o x : EnvironmentGeneral) : Prop :=
  x.padding = o.padding

/-- `x` is the `GridAxis` object `o` after calls of `parse` (/repo/opendis/dis7.py:3251-3259):
attributes that are not read stay, lists only grow. -/
abbrev GridAxis.Since (_o _x : GridAxis) : Prop :=
  True

/-- `x` is the `RecordSpecification` object `o` after calls of `parse` (/repo/opendis/dis7.py:3284-3290):
attributes that are not read stay, lists only grow. -/
abbrev RecordSpecification.Since (o x : RecordSpecification) : Prop :=
  o.recordSets <+: x.recordSets

/-- The `RecordSpecification` object `x` with its lists cut back to their lengths in `o`
(/repo/opendis/dis7.py:3284-3290 appends to them). -/
def RecordSpecification.trim (o x : RecordSpecification) : RecordSpecification :=
  { x with recordSets := x.recordSets.take o.recordSets.length }

/-- `x` is the `EventIdentifierLiveEntity` object `o` after calls of `parse` (/repo/opendis/dis7.py:3363-3367):
attributes that are not read stay, lists only grow. -/
abbrev EventIdentifierLiveEntity.Since (_o _x : EventIdentifierLiveEntity) : Prop :=
  True

/-- `x` is the `ExpendableDescriptor` object `o` after calls of `parse` (/repo/opendis/dis7.py:3520-3523):
attributes that are not read stay, lists only grow. -/
abbrev ExpendableDescriptor.Since (o x : ExpendableDescriptor) : Prop :=
  EntityType.Since o.expendableType x.expendableType

/-- `x` is the `PropulsionSystemData` object `o` after calls of `parse` (/repo/opendis/dis7.py:3547-3550):
attributes that are not read stay, lists only grow. -/
abbrev PropulsionSystemData.Since (_o _x : PropulsionSystemData) : Prop :=
  True

/-- `x` is the `LiveEntityIdentifier` object `o` after calls of `parse` (/repo/opendis/dis7.py:3574-3577):
attributes that are not read stay, lists only grow. -/
abbrev LiveEntityIdentifier.Since (o x : LiveEntityIdentifier) : Prop :=
  LiveSimulationAddress.Since o.liveSimulationAddress x.liveSimulationAddress

/-- `x` is the `SeparationVP` object `o` after calls of `parse` (/repo/opendis/dis7.py:3613-3621):
attributes that are not read stay, lists only grow. -/
abbrev SeparationVP.Since (o x : SeparationVP) : Prop :=
  EntityIdentifier.Since o.parentEntityID x.parentEntityID

/-- `x` is the `EmitterSystem` object `o` after calls of `parse` (/repo/opendis/dis7.py:3644-3648):
attributes that are not read stay, lists only grow. -/
abbrev EmitterSystem.Since (_o _x : EmitterSystem) : Prop :=
  True

/-- `x` is the `PduStatus` object `o` after calls of `parse` (/repo/opendis/dis7.py:3666-3668):
attributes that are not read stay, lists only grow. -/
abbrev PduStatus.Since (_o _x : PduStatus) : Prop :=
  True

/-- `x` is the `EmissionSystemBeamRecord` object `o` after calls of `parse` (/repo/opendis/dis7.py:5217-5231):
attributes that are not read stay, lists only grow. -/
abbrev EmissionSystemBeamRecord.Since (o x : EmissionSystemBeamRecord) : Prop :=
  EEFundamentalParameterData.Since o.fundamentalParameterData x.fundamentalParameterData ∧
    BeamStatus.Since o.beamStatus x.beamStatus ∧ o.trackJamRecords <+: x.trackJamRecords

/-- The `EmissionSystemBeamRecord` object `x` with its lists cut back to their lengths in `o`
(/repo/opendis/dis7.py:5217-5231 appends to them). -/
def EmissionSystemBeamRecord.trim (o x : EmissionSystemBeamRecord) : EmissionSystemBeamRecord :=
  { x with trackJamRecords := x.trackJamRecords.take o.trackJamRecords.length }

/-- `x` is the `EmissionSystemRecord` object `o` after calls of `parse` (/repo/opendis/dis7.py:5267-5276):
attributes that are not read stay, lists only grow. -/
abbrev EmissionSystemRecord.Since (o x : EmissionSystemRecord) : Prop :=
  x.paddingForEmissionsPdu = o.paddingForEmissionsPdu ∧
    EmitterSystem.Since o.emitterSystem x.emitterSystem ∧
    Vector3Float.Since o.location x.location ∧ o.beamRecords <+: x.beamRecords

/-- The `EmissionSystemRecord` object `x` with its lists cut back to their lengths in `o`
(/repo/opendis/dis7.py:5267-5276 appends to them). -/
def EmissionSystemRecord.trim (o x : EmissionSystemRecord) : EmissionSystemRecord :=
  { x with beamRecords := x.beamRecords.take o.beamRecords.length }

/-- `x` is the `PduSuperclass` object `o` after calls of `parse` (/repo/opendis/dis7.py:3471-3478):
attributes that are not read stay, lists only grow. -/
abbrev PduSuperclass.Since (_o _x : PduSuperclass) : Prop :=
  True

/-- `x` is the `LiveEntityPdu` object `o` after calls of `parse` (/repo/opendis/dis7.py:3691-3695):
attributes that are not read stay, lists only grow. -/
abbrev LiveEntityPdu.Since (o x : LiveEntityPdu) : Prop :=
  PduSuperclass.Since o.toPduSuperclass x.toPduSuperclass

/-- `x` is the `Pdu` object `o` after calls of `parse` (/repo/opendis/dis7.py:3714-3718):
attributes that are not read stay, lists only grow. -/
abbrev Pdu.Since (o x : Pdu) : Prop :=
  PduSuperclass.Since o.toPduSuperclass x.toPduSuperclass

/-- `x` is the `EntityInformationFamilyPdu` object `o` after calls of `parse` (/repo/opendis/dis7.py:3736-3738):
attributes that are not read stay, lists only grow. -/
abbrev EntityInformationFamilyPdu.Since (o x : EntityInformationFamilyPdu) : Prop :=
  Pdu.Since o.toPdu x.toPdu

/-- `x` is the `LogisticsFamilyPdu` object `o` after calls of `parse` (/repo/opendis/dis7.py:3755-3757):
attributes that are not read stay, lists only grow. -/
abbrev LogisticsFamilyPdu.Since (o x : LogisticsFamilyPdu) : Prop :=
  Pdu.Since o.toPdu x.toPdu

/-- `x` is the `EntityStateUpdatePdu` object `o` after calls of `parse` (/repo/opendis/dis7.py:3807-3820):
attributes that are not read stay, lists only grow. -/
abbrev EntityStateUpdatePdu.Since (o x : EntityStateUpdatePdu) : Prop :=
  EntityInformationFamilyPdu.Since o.toEntityInformationFamilyPdu x.toEntityInformationFamilyPdu ∧
    EntityIdentifier.Since o.entityID x.entityID ∧
    Vector3Float.Since o.entityLinearVelocity x.entityLinearVelocity ∧
    WorldCoordinates.Since o.entityLocation x.entityLocation ∧
    EulerAngles.Since o.entityOrientation x.entityOrientation ∧
    o.variableParameters <+: x.variableParameters

/-- The `EntityStateUpdatePdu` object `x` with its lists cut back to their lengths in `o`
(/repo/opendis/dis7.py:3807-3820 appends to them). -/
def EntityStateUpdatePdu.trim (o x : EntityStateUpdatePdu) : EntityStateUpdatePdu :=
  { x with variableParameters := x.variableParameters.take o.variableParameters.length }

/-- `x` is the `ServiceRequestPdu` object `o` after calls of `parse` (/repo/opendis/dis7.py:3861-3872):
attributes that are not read stay, lists only grow. -/
abbrev ServiceRequestPdu.Since (o x : ServiceRequestPdu) : Prop :=
  LogisticsFamilyPdu.Since o.toLogisticsFamilyPdu x.toLogisticsFamilyPdu ∧
    EntityIdentifier.Since o.requestingEntityID x.requestingEntityID ∧
    EntityIdentifier.Since o.servicingEntityID x.servicingEntityID ∧ o.supplies <+: x.supplies

/-- The `ServiceRequestPdu` object `x` with its lists cut back to their lengths in `o`
(/repo/opendis/dis7.py:3861-3872 appends to them). -/
def ServiceRequestPdu.trim (o x : ServiceRequestPdu) : ServiceRequestPdu :=
  { x with supplies := x.supplies.take o.supplies.length }

/-- `x` is the `RepairCompletePdu` object `o` after calls of `parse` (/repo/opendis/dis7.py:3904-3910):
attributes that are not read stay, lists only grow. -/
abbrev RepairCompletePdu.Since (o x : RepairCompletePdu) : Prop :=
  LogisticsFamilyPdu.Since o.toLogisticsFamilyPdu x.toLogisticsFamilyPdu ∧
    EntityIdentifier.Since o.receivingEntityID x.receivingEntityID ∧
    EntityIdentifier.Since o.repairingEntityID x.repairingEntityID

/-- `x` is the `SyntheticEnvironmentFamilyPdu` object `o` after calls of `parse` (/repo/opendis/dis7.py:3927-3929):
attributes that are not read stay, lists only grow. -/
abbrev SyntheticEnvironmentFamilyPdu.Since (o x : SyntheticEnvironmentFamilyPdu) : Prop :=
  Pdu.Since o.toPdu x.toPdu

/-- `x` is the `CollisionPdu` object `o` after calls of `parse` (/repo/opendis/dis7.py:3977-3987):
attributes that are not read stay, lists only grow. -/
abbrev CollisionPdu.Since (o x : CollisionPdu) : Prop :=
  EntityInformationFamilyPdu.Since o.toEntityInformationFamilyPdu x.toEntityInformationFamilyPdu ∧
    EntityIdentifier.Since o.issuingEntityID x.issuingEntityID ∧
    EntityIdentifier.Since o.collidingEntityID x.collidingEntityID ∧
    EventIdentifier.Since o.eventID x.eventID ∧ Vector3Float.Since o.velocity x.velocity ∧
    Vector3Float.Since o.location x.location

/-- `x` is the `RepairResponsePdu` object `o` after calls of `parse` (/repo/opendis/dis7.py:4020-4027):
attributes that are not read stay, lists only grow. -/
abbrev RepairResponsePdu.Since (o x : RepairResponsePdu) : Prop :=
  LogisticsFamilyPdu.Since o.toLogisticsFamilyPdu x.toLogisticsFamilyPdu ∧
    EntityIdentifier.Since o.receivingEntityID x.receivingEntityID ∧
    EntityIdentifier.Since o.repairingEntityID x.repairingEntityID

/-- `x` is the `SimulationManagementFamilyPdu` object `o` after calls of `parse` (/repo/opendis/dis7.py:4052-4056):
attributes that are not read stay, lists only grow. -/
abbrev SimulationManagementFamilyPdu.Since (o x : SimulationManagementFamilyPdu) : Prop :=
  Pdu.Since o.toPdu x.toPdu ∧ EntityIdentifier.Since o.originatingEntityID x.originatingEntityID ∧
    EntityIdentifier.Since o.receivingEntityID x.receivingEntityID

/-- `x` is the `DataQueryPdu` object `o` after calls of `parse` (/repo/opendis/dis7.py:4102-4107):
attributes that are not read stay, lists only grow. -/
abbrev DataQueryPdu.Since (o x : DataQueryPdu) : Prop :=

    SimulationManagementFamilyPdu.Since o.toSimulationManagementFamilyPdu x.toSimulationManagementFamilyPdu ∧
    DataQueryDatumSpecification.Since o._dataQuery x._dataQuery

/-- The `DataQueryPdu` object `x` with its lists cut back to their lengths in `o`
(/repo/opendis/dis7.py:4102-4107 appends to them). -/
def DataQueryPdu.trim (o x : DataQueryPdu) : DataQueryPdu :=
  { x with _dataQuery := DataQueryDatumSpecification.trim o._dataQuery x._dataQuery }

/-- `x` is the `LinearObjectStatePdu` object `o` after calls of `parse` (/repo/opendis/dis7.py:4161-4175):
attributes that are not read stay, lists only grow. -/
abbrev LinearObjectStatePdu.Since (o x : LinearObjectStatePdu) : Prop :=

    SyntheticEnvironmentFamilyPdu.Since o.toSyntheticEnvironmentFamilyPdu x.toSyntheticEnvironmentFamilyPdu ∧
    EntityIdentifier.Since o.objectID x.objectID ∧
    EntityIdentifier.Since o.referencedObjectID x.referencedObjectID ∧
    SimulationAddress.Since o.requesterID x.requesterID ∧
    SimulationAddress.Since o.receivingID x.receivingID ∧
    ObjectType.Since o.objectType x.objectType ∧
    o.linearSegmentParameters <+: x.linearSegmentParameters

/-- The `LinearObjectStatePdu` object `x` with its lists cut back to their lengths in `o`
(/repo/opendis/dis7.py:4161-4175 appends to them). -/
def LinearObjectStatePdu.trim (o x : LinearObjectStatePdu) : LinearObjectStatePdu :=
  { x with
    linearSegmentParameters := x.linearSegmentParameters.take o.linearSegmentParameters.length }

/-- `x` is the `CreateEntityPdu` object `o` after calls of `parse` (/repo/opendis/dis7.py:4195-4198):
attributes that are not read stay, lists only grow. -/
abbrev CreateEntityPdu.Since (o x : CreateEntityPdu) : Prop :=

    SimulationManagementFamilyPdu.Since o.toSimulationManagementFamilyPdu x.toSimulationManagementFamilyPdu

/-- `x` is the `RadioCommunicationsFamilyPdu` object `o` after calls of `parse` (/repo/opendis/dis7.py:4215-4217):
attributes that are not read stay, lists only grow. -/
abbrev RadioCommunicationsFamilyPdu.Since (o x : RadioCommunicationsFamilyPdu) : Prop :=
  Pdu.Since o.toPdu x.toPdu

/-- `x` is the `IntercomSignalPdu` object `o` after calls of `parse` (/repo/opendis/dis7.py:4265-4280):
attributes that are not read stay, lists only grow. -/
abbrev IntercomSignalPdu.Since (o x : IntercomSignalPdu) : Prop :=

    RadioCommunicationsFamilyPdu.Since o.toRadioCommunicationsFamilyPdu x.toRadioCommunicationsFamilyPdu ∧
    EntityIdentifier.Since o.entityID x.entityID ∧ o.data <+: x.data

/-- The `IntercomSignalPdu` object `x` with its lists cut back to their lengths in `o`
(/repo/opendis/dis7.py:4265-4280 appends to them). -/
def IntercomSignalPdu.trim (o x : IntercomSignalPdu) : IntercomSignalPdu :=
  { x with data := x.data.take o.data.length }

/-- `x` is the `RemoveEntityPdu` object `o` after calls of `parse` (/repo/opendis/dis7.py:4302-4305):
attributes that are not read stay, lists only grow. -/
abbrev RemoveEntityPdu.Since (o x : RemoveEntityPdu) : Prop :=

    SimulationManagementFamilyPdu.Since o.toSimulationManagementFamilyPdu x.toSimulationManagementFamilyPdu

/-- `x` is the `ResupplyReceivedPdu` object `o` after calls of `parse` (/repo/opendis/dis7.py:4344-4355):
attributes that are not read stay, lists only grow. -/
abbrev ResupplyReceivedPdu.Since (o x : ResupplyReceivedPdu) : Prop :=
  LogisticsFamilyPdu.Since o.toLogisticsFamilyPdu x.toLogisticsFamilyPdu ∧
    EntityIdentifier.Since o.receivingEntityID x.receivingEntityID ∧
    EntityIdentifier.Since o.supplyingEntityID x.supplyingEntityID ∧ o.supplies <+: x.supplies

/-- The `ResupplyReceivedPdu` object `x` with its lists cut back to their lengths in `o`
(/repo/opendis/dis7.py:4344-4355 appends to them). -/
def ResupplyReceivedPdu.trim (o x : ResupplyReceivedPdu) : ResupplyReceivedPdu :=
  { x with supplies := x.supplies.take o.supplies.length }

/-- `x` is the `WarfareFamilyPdu` object `o` after calls of `parse` (/repo/opendis/dis7.py:4381-4385):
attributes that are not read stay, lists only grow. -/
abbrev WarfareFamilyPdu.Since (o x : WarfareFamilyPdu) : Prop :=
  Pdu.Since o.toPdu x.toPdu ∧ EntityIdentifier.Since o.firingEntityID x.firingEntityID ∧
    EntityIdentifier.Since o.targetEntityID x.targetEntityID

/-- `x` is the `CollisionElasticPdu` object `o` after calls of `parse` (/repo/opendis/dis7.py:4457-4474):
attributes that are not read stay, lists only grow. -/
abbrev CollisionElasticPdu.Since (o x : CollisionElasticPdu) : Prop :=
  EntityInformationFamilyPdu.Since o.toEntityInformationFamilyPdu x.toEntityInformationFamilyPdu ∧
    EntityIdentifier.Since o.issuingEntityID x.issuingEntityID ∧
    EntityIdentifier.Since o.collidingEntityID x.collidingEntityID ∧
    EventIdentifier.Since o.collisionEventID x.collisionEventID ∧
    Vector3Float.Since o.contactVelocity x.contactVelocity ∧
    Vector3Float.Since o.locationOfImpact x.locationOfImpact ∧
    Vector3Float.Since o.unitSurfaceNormal x.unitSurfaceNormal

/-- `x` is the `ActionRequestPdu` object `o` after calls of `parse` (/repo/opendis/dis7.py:4522-4527):
attributes that are not read stay, lists only grow. -/
abbrev ActionRequestPdu.Since (o x : ActionRequestPdu) : Prop :=

    SimulationManagementFamilyPdu.Since o.toSimulationManagementFamilyPdu x.toSimulationManagementFamilyPdu ∧
    DatumSpecification.Since o._datums x._datums

/-- The `ActionRequestPdu` object `x` with its lists cut back to their lengths in `o`
(/repo/opendis/dis7.py:4522-4527 appends to them). -/
def ActionRequestPdu.trim (o x : ActionRequestPdu) : ActionRequestPdu :=
  { x with _datums := DatumSpecification.trim o._datums x._datums }

/-- `x` is the `AcknowledgePdu` object `o` after calls of `parse` (/repo/opendis/dis7.py:4557-4562):
attributes that are not read stay, lists only grow. -/
abbrev AcknowledgePdu.Since (o x : AcknowledgePdu) : Prop :=

    SimulationManagementFamilyPdu.Since o.toSimulationManagementFamilyPdu x.toSimulationManagementFamilyPdu

/-- `x` is the `DistributedEmissionsFamilyPdu` object `o` after calls of `parse` (/repo/opendis/dis7.py:4579-4581):
attributes that are not read stay, lists only grow. -/
abbrev DistributedEmissionsFamilyPdu.Since (o x : DistributedEmissionsFamilyPdu) : Prop :=
  Pdu.Since o.toPdu x.toPdu

/-- `x` is the `SimulationManagementWithReliabilityFamilyPdu` object `o` after calls of `parse` (/repo/opendis/dis7.py:4606-4610):
attributes that are not read stay, lists only grow. -/
abbrev SimulationManagementWithReliabilityFamilyPdu.Since (o x : SimulationManagementWithReliabilityFamilyPdu) : Prop :=
  Pdu.Since o.toPdu x.toPdu ∧ EntityIdentifier.Since o.originatingEntityID x.originatingEntityID ∧
    EntityIdentifier.Since o.receivingEntityID x.receivingEntityID

/-- `x` is the `ActionRequestReliablePdu` object `o` after calls of `parse` (/repo/opendis/dis7.py:4666-4675):
attributes that are not read stay, lists only grow. -/
abbrev ActionRequestReliablePdu.Since (o x : ActionRequestReliablePdu) : Prop :=

    SimulationManagementWithReliabilityFamilyPdu.Since o.toSimulationManagementWithReliabilityFamilyPdu x.toSimulationManagementWithReliabilityFamilyPdu ∧
    DatumSpecification.Since o._datums x._datums

/-- The `ActionRequestReliablePdu` object `x` with its lists cut back to their lengths in `o`
(/repo/opendis/dis7.py:4666-4675 appends to them). -/
def ActionRequestReliablePdu.trim (o x : ActionRequestReliablePdu) : ActionRequestReliablePdu :=
  { x with _datums := DatumSpecification.trim o._datums x._datums }

/-- `x` is the `DesignatorPdu` object `o` after calls of `parse` (/repo/opendis/dis7.py:4739-4753):
attributes that are not read stay, lists only grow. -/
abbrev DesignatorPdu.Since (o x : DesignatorPdu) : Prop :=

    DistributedEmissionsFamilyPdu.Since o.toDistributedEmissionsFamilyPdu x.toDistributedEmissionsFamilyPdu ∧
    EntityIdentifier.Since o.designatingEntityID x.designatingEntityID ∧
    EntityIdentifier.Since o.designatedEntityID x.designatedEntityID ∧
    Vector3Float.Since o.designatorSpotWrtDesignated x.designatorSpotWrtDesignated ∧
    WorldCoordinates.Since o.designatorSpotLocation x.designatorSpotLocation ∧
    Vector3Float.Since o.entityLinearAcceleration x.entityLinearAcceleration

/-- `x` is the `StopFreezePdu` object `o` after calls of `parse` (/repo/opendis/dis7.py:4788-4795):
attributes that are not read stay, lists only grow. -/
abbrev StopFreezePdu.Since (o x : StopFreezePdu) : Prop :=

    SimulationManagementFamilyPdu.Since o.toSimulationManagementFamilyPdu x.toSimulationManagementFamilyPdu ∧
    ClockTime.Since o.realWorldTime x.realWorldTime

/-- `x` is the `EntityStatePdu` object `o` after calls of `parse` (/repo/opendis/dis7.py:4869-4887):
attributes that are not read stay, lists only grow. -/
abbrev EntityStatePdu.Since (o x : EntityStatePdu) : Prop :=
  EntityInformationFamilyPdu.Since o.toEntityInformationFamilyPdu x.toEntityInformationFamilyPdu ∧
    EntityIdentifier.Since o.entityID x.entityID ∧ EntityType.Since o.entityType x.entityType ∧
    EntityType.Since o.alternativeEntityType x.alternativeEntityType ∧
    Vector3Float.Since o.entityLinearVelocity x.entityLinearVelocity ∧
    WorldCoordinates.Since o.entityLocation x.entityLocation ∧
    EulerAngles.Since o.entityOrientation x.entityOrientation ∧
    DeadReckoningParameters.Since o.deadReckoningParameters x.deadReckoningParameters ∧
    EntityMarking.Since o.marking x.marking ∧ o.variableParameters <+: x.variableParameters

/-- The `EntityStatePdu` object `x` with its lists cut back to their lengths in `o`
(/repo/opendis/dis7.py:4869-4887 appends to them). -/
def EntityStatePdu.trim (o x : EntityStatePdu) : EntityStatePdu :=
  { x with variableParameters := x.variableParameters.take o.variableParameters.length }

/-- `x` is the `EntityManagementFamilyPdu` object `o` after calls of `parse` (/repo/opendis/dis7.py:4904-4906):
attributes that are not read stay, lists only grow. -/
abbrev EntityManagementFamilyPdu.Since (o x : EntityManagementFamilyPdu) : Prop :=
  Pdu.Since o.toPdu x.toPdu

/-- `x` is the `StartResumePdu` object `o` after calls of `parse` (/repo/opendis/dis7.py:4935-4940):
attributes that are not read stay, lists only grow. -/
abbrev StartResumePdu.Since (o x : StartResumePdu) : Prop :=

    SimulationManagementFamilyPdu.Since o.toSimulationManagementFamilyPdu x.toSimulationManagementFamilyPdu ∧
    ClockTime.Since o.realWorldTime x.realWorldTime ∧
    ClockTime.Since o.simulationTime x.simulationTime

/-- `x` is the `ElectromagneticEmissionsPdu` object `o` after calls of `parse` (/repo/opendis/dis7.py:5157-5169):
attributes that are not read stay, lists only grow. -/
abbrev ElectromagneticEmissionsPdu.Since (o x : ElectromagneticEmissionsPdu) : Prop :=

    DistributedEmissionsFamilyPdu.Since o.toDistributedEmissionsFamilyPdu x.toDistributedEmissionsFamilyPdu ∧
    EntityIdentifier.Since o.emittingEntityID x.emittingEntityID ∧
    EventIdentifier.Since o.eventID x.eventID ∧ o.systems <+: x.systems

/-- The `ElectromagneticEmissionsPdu` object `x` with its lists cut back to their lengths in `o`
(/repo/opendis/dis7.py:5157-5169 appends to them). -/
def ElectromagneticEmissionsPdu.trim (o x : ElectromagneticEmissionsPdu) : ElectromagneticEmissionsPdu :=
  { x with systems := x.systems.take o.systems.length }

/-- `x` is the `ResupplyOfferPdu` object `o` after calls of `parse` (/repo/opendis/dis7.py:5316-5327):
attributes that are not read stay, lists only grow. -/
abbrev ResupplyOfferPdu.Since (o x : ResupplyOfferPdu) : Prop :=
  LogisticsFamilyPdu.Since o.toLogisticsFamilyPdu x.toLogisticsFamilyPdu ∧
    EntityIdentifier.Since o.receivingEntityID x.receivingEntityID ∧
    EntityIdentifier.Since o.supplyingEntityID x.supplyingEntityID ∧ o.supplies <+: x.supplies

/-- The `ResupplyOfferPdu` object `x` with its lists cut back to their lengths in `o`
(/repo/opendis/dis7.py:5316-5327 appends to them). -/
def ResupplyOfferPdu.trim (o x : ResupplyOfferPdu) : ResupplyOfferPdu :=
  { x with supplies := x.supplies.take o.supplies.length }

/-- `x` is the `AttributePdu` object `o` after calls of `parse` (/repo/opendis/dis7.py:5380-5391):
attributes that are not read stay, lists only grow. -/
abbrev AttributePdu.Since (o x : AttributePdu) : Prop :=
  EntityInformationFamilyPdu.Since o.toEntityInformationFamilyPdu x.toEntityInformationFamilyPdu ∧
    SimulationAddress.Since o.originatingSimulationAddress x.originatingSimulationAddress

/-- `x` is the `MinefieldFamilyPdu` object `o` after calls of `parse` (/repo/opendis/dis7.py:5408-5410):
attributes that are not read stay, lists only grow. -/
abbrev MinefieldFamilyPdu.Since (o x : MinefieldFamilyPdu) : Prop :=
  Pdu.Since o.toPdu x.toPdu

/-- `x` is the `SetDataReliablePdu` object `o` after calls of `parse` (/repo/opendis/dis7.py:5461-5468):
attributes that are not read stay, lists only grow. -/
abbrev SetDataReliablePdu.Since (o x : SetDataReliablePdu) : Prop :=

    SimulationManagementWithReliabilityFamilyPdu.Since o.toSimulationManagementWithReliabilityFamilyPdu x.toSimulationManagementWithReliabilityFamilyPdu ∧
    DatumSpecification.Since o._datums x._datums

/-- The `SetDataReliablePdu` object `x` with its lists cut back to their lengths in `o`
(/repo/opendis/dis7.py:5461-5468 appends to them). -/
def SetDataReliablePdu.trim (o x : SetDataReliablePdu) : SetDataReliablePdu :=
  { x with _datums := DatumSpecification.trim o._datums x._datums }

/-- `x` is the `EventReportPdu` object `o` after calls of `parse` (/repo/opendis/dis7.py:5497-5502):
attributes that are not read stay, lists only grow. -/
abbrev EventReportPdu.Since (o x : EventReportPdu) : Prop :=

    SimulationManagementFamilyPdu.Since o.toSimulationManagementFamilyPdu x.toSimulationManagementFamilyPdu ∧
    DatumSpecification.Since o._datums x._datums

/-- The `EventReportPdu` object `x` with its lists cut back to their lengths in `o`
(/repo/opendis/dis7.py:5497-5502 appends to them). -/
def EventReportPdu.trim (o x : EventReportPdu) : EventReportPdu :=
  { x with _datums := DatumSpecification.trim o._datums x._datums }

/-- `x` is the `PointObjectStatePdu` object `o` after calls of `parse` (/repo/opendis/dis7.py:5568-5582):
attributes that are not read stay, lists only grow. -/
abbrev PointObjectStatePdu.Since (o x : PointObjectStatePdu) : Prop :=

    SyntheticEnvironmentFamilyPdu.Since o.toSyntheticEnvironmentFamilyPdu x.toSyntheticEnvironmentFamilyPdu ∧
    EntityIdentifier.Since o.objectID x.objectID ∧
    EntityIdentifier.Since o.referencedObjectID x.referencedObjectID ∧
    ObjectType.Since o.objectType x.objectType ∧
    WorldCoordinates.Since o.objectLocation x.objectLocation ∧
    EulerAngles.Since o.objectOrientation x.objectOrientation ∧ x.pad1 = o.pad1 ∧
    SimulationAddress.Since o.requesterID x.requesterID ∧
    SimulationAddress.Since o.receivingID x.receivingID

/-- `x` is the `DataPdu` object `o` after calls of `parse` (/repo/opendis/dis7.py:5628-5634):
attributes that are not read stay, lists only grow. -/
abbrev DataPdu.Since (o x : DataPdu) : Prop :=

    SimulationManagementFamilyPdu.Since o.toSimulationManagementFamilyPdu x.toSimulationManagementFamilyPdu ∧
    DatumSpecification.Since o._datums x._datums

/-- The `DataPdu` object `x` with its lists cut back to their lengths in `o`
(/repo/opendis/dis7.py:5628-5634 appends to them). -/
def DataPdu.trim (o x : DataPdu) : DataPdu :=
  { x with _datums := DatumSpecification.trim o._datums x._datums }

/-- `x` is the `FastEntityStatePdu` object `o` after calls of `parse` (/repo/opendis/dis7.py:5813-5868):
attributes that are not read stay, lists only grow. -/
abbrev FastEntityStatePdu.Since (o x : FastEntityStatePdu) : Prop :=
  EntityInformationFamilyPdu.Since o.toEntityInformationFamilyPdu x.toEntityInformationFamilyPdu ∧
    o.variableParameters <+: x.variableParameters

/-- The `FastEntityStatePdu` object `x` with its lists cut back to their lengths in `o`
(/repo/opendis/dis7.py:5813-5868 appends to them). -/
def FastEntityStatePdu.trim (o x : FastEntityStatePdu) : FastEntityStatePdu :=
  { x with variableParameters := x.variableParameters.take o.variableParameters.length }

/-- `x` is the `AcknowledgeReliablePdu` object `o` after calls of `parse` (/repo/opendis/dis7.py:5897-5902):
attributes that are not read stay, lists only grow. -/
abbrev AcknowledgeReliablePdu.Since (o x : AcknowledgeReliablePdu) : Prop :=

    SimulationManagementWithReliabilityFamilyPdu.Since o.toSimulationManagementWithReliabilityFamilyPdu x.toSimulationManagementWithReliabilityFamilyPdu

/-- `x` is the `StartResumeReliablePdu` object `o` after calls of `parse` (/repo/opendis/dis7.py:5938-5946):
attributes that are not read stay, lists only grow. -/
abbrev StartResumeReliablePdu.Since (o x : StartResumeReliablePdu) : Prop :=

    SimulationManagementWithReliabilityFamilyPdu.Since o.toSimulationManagementWithReliabilityFamilyPdu x.toSimulationManagementWithReliabilityFamilyPdu ∧
    ClockTime.Since o.realWorldTime x.realWorldTime ∧
    ClockTime.Since o.simulationTime x.simulationTime

/-- `x` is the `ArealObjectStatePdu` object `o` after calls of `parse` (/repo/opendis/dis7.py:6008-6025):
attributes that are not read stay, lists only grow. -/
abbrev ArealObjectStatePdu.Since (o x : ArealObjectStatePdu) : Prop :=

    SyntheticEnvironmentFamilyPdu.Since o.toSyntheticEnvironmentFamilyPdu x.toSyntheticEnvironmentFamilyPdu ∧
    EntityIdentifier.Since o.objectID x.objectID ∧
    EntityIdentifier.Since o.referencedObjectID x.referencedObjectID ∧
    ObjectType.Since o.objectType x.objectType ∧
    SimulationAddress.Since o.requesterID x.requesterID ∧
    SimulationAddress.Since o.receivingID x.receivingID ∧ o.objectLocation <+: x.objectLocation

/-- The `ArealObjectStatePdu` object `x` with its lists cut back to their lengths in `o`
(/repo/opendis/dis7.py:6008-6025 appends to them). -/
def ArealObjectStatePdu.trim (o x : ArealObjectStatePdu) : ArealObjectStatePdu :=
  { x with objectLocation := x.objectLocation.take o.objectLocation.length }

/-- `x` is the `DataQueryReliablePdu` object `o` after calls of `parse` (/repo/opendis/dis7.py:6079-6087):
attributes that are not read stay, lists only grow. -/
abbrev DataQueryReliablePdu.Since (o x : DataQueryReliablePdu) : Prop :=

    SimulationManagementWithReliabilityFamilyPdu.Since o.toSimulationManagementWithReliabilityFamilyPdu x.toSimulationManagementWithReliabilityFamilyPdu ∧
    DataQueryDatumSpecification.Since o._dataQuery x._dataQuery

/-- The `DataQueryReliablePdu` object `x` with its lists cut back to their lengths in `o`
(/repo/opendis/dis7.py:6079-6087 appends to them). -/
def DataQueryReliablePdu.trim (o x : DataQueryReliablePdu) : DataQueryReliablePdu :=
  { x with _dataQuery := DataQueryDatumSpecification.trim o._dataQuery x._dataQuery }

/-- `x` is the `MinefieldStatePdu` object `o` after calls of `parse` (/repo/opendis/dis7.py:6151-6172):
attributes that are not read stay, lists only grow. -/
abbrev MinefieldStatePdu.Since (o x : MinefieldStatePdu) : Prop :=
  MinefieldFamilyPdu.Since o.toMinefieldFamilyPdu x.toMinefieldFamilyPdu ∧
    MinefieldIdentifier.Since o.minefieldID x.minefieldID ∧
    EntityType.Since o.minefieldType x.minefieldType ∧
    WorldCoordinates.Since o.minefieldLocation x.minefieldLocation ∧
    EulerAngles.Since o.minefieldOrientation x.minefieldOrientation ∧
    o.perimeterPoints <+: x.perimeterPoints ∧ o.mineTypes <+: x.mineTypes

/-- The `MinefieldStatePdu` object `x` with its lists cut back to their lengths in `o`
(/repo/opendis/dis7.py:6151-6172 appends to them). -/
def MinefieldStatePdu.trim (o x : MinefieldStatePdu) : MinefieldStatePdu :=
  { x with
    perimeterPoints := x.perimeterPoints.take o.perimeterPoints.length,
    mineTypes := x.mineTypes.take o.mineTypes.length }

/-- `x` is the `DataReliablePdu` object `o` after calls of `parse` (/repo/opendis/dis7.py:6223-6230):
attributes that are not read stay, lists only grow. -/
abbrev DataReliablePdu.Since (o x : DataReliablePdu) : Prop :=

    SimulationManagementWithReliabilityFamilyPdu.Since o.toSimulationManagementWithReliabilityFamilyPdu x.toSimulationManagementWithReliabilityFamilyPdu ∧
    DatumSpecification.Since o._datums x._datums

/-- The `DataReliablePdu` object `x` with its lists cut back to their lengths in `o`
(/repo/opendis/dis7.py:6223-6230 appends to them). -/
def DataReliablePdu.trim (o x : DataReliablePdu) : DataReliablePdu :=
  { x with _datums := DatumSpecification.trim o._datums x._datums }

/-- `x` is the `CommentPdu` object `o` after calls of `parse` (/repo/opendis/dis7.py:6269-6272):
attributes that are not read stay, lists only grow. -/
abbrev CommentPdu.Since (o x : CommentPdu) : Prop :=

    SimulationManagementFamilyPdu.Since o.toSimulationManagementFamilyPdu x.toSimulationManagementFamilyPdu ∧
    DatumSpecification.Since o._datums x._datums

/-- The `CommentPdu` object `x` with its lists cut back to their lengths in `o`
(/repo/opendis/dis7.py:6269-6272 appends to them). -/
def CommentPdu.trim (o x : CommentPdu) : CommentPdu :=
  { x with _datums := DatumSpecification.trim o._datums x._datums }

/-- `x` is the `CommentReliablePdu` object `o` after calls of `parse` (/repo/opendis/dis7.py:6312-6315):
attributes that are not read stay, lists only grow. -/
abbrev CommentReliablePdu.Since (o x : CommentReliablePdu) : Prop :=

    SimulationManagementWithReliabilityFamilyPdu.Since o.toSimulationManagementWithReliabilityFamilyPdu x.toSimulationManagementWithReliabilityFamilyPdu ∧
    DatumSpecification.Since o._datums x._datums

/-- The `CommentReliablePdu` object `x` with its lists cut back to their lengths in `o`
(/repo/opendis/dis7.py:6312-6315 appends to them). -/
def CommentReliablePdu.trim (o x : CommentReliablePdu) : CommentReliablePdu :=
  { x with _datums := DatumSpecification.trim o._datums x._datums }

/-- `x` is the `DetonationPdu` object `o` after calls of `parse` (/repo/opendis/dis7.py:6460-6475):
attributes that are not read stay, lists only grow. -/
abbrev DetonationPdu.Since (o x : DetonationPdu) : Prop :=
  WarfareFamilyPdu.Since o.toWarfareFamilyPdu x.toWarfareFamilyPdu ∧
    EntityIdentifier.Since o.explodingEntityID x.explodingEntityID ∧
    EventIdentifier.Since o.eventID x.eventID ∧ Vector3Float.Since o.velocity x.velocity ∧
    WorldCoordinates.Since o.location x.location ∧
    MunitionDescriptor.Since o.descriptor x.descriptor ∧
    Vector3Float.Since o.locationInEntityCoordinates x.locationInEntityCoordinates ∧
    o.variableParameters <+: x.variableParameters

/-- The `DetonationPdu` object `x` with its lists cut back to their lengths in `o`
(/repo/opendis/dis7.py:6460-6475 appends to them). -/
def DetonationPdu.trim (o x : DetonationPdu) : DetonationPdu :=
  { x with variableParameters := x.variableParameters.take o.variableParameters.length }

/-- `x` is the `SetDataPdu` object `o` after calls of `parse` (/repo/opendis/dis7.py:6519-6524):
attributes that are not read stay, lists only grow. -/
abbrev SetDataPdu.Since (o x : SetDataPdu) : Prop :=

    SimulationManagementFamilyPdu.Since o.toSimulationManagementFamilyPdu x.toSimulationManagementFamilyPdu ∧
    DatumSpecification.Since o._datums x._datums

/-- The `SetDataPdu` object `x` with its lists cut back to their lengths in `o`
(/repo/opendis/dis7.py:6519-6524 appends to them). -/
def SetDataPdu.trim (o x : SetDataPdu) : SetDataPdu :=
  { x with _datums := DatumSpecification.trim o._datums x._datums }

/-- `x` is the `RecordQueryReliablePdu` object `o` after calls of `parse` (/repo/opendis/dis7.py:6568-6581):
attributes that are not read stay, lists only grow. -/
abbrev RecordQueryReliablePdu.Since (o x : RecordQueryReliablePdu) : Prop :=

    SimulationManagementWithReliabilityFamilyPdu.Since o.toSimulationManagementWithReliabilityFamilyPdu x.toSimulationManagementWithReliabilityFamilyPdu ∧
    o.recordIDs <+: x.recordIDs

/-- The `RecordQueryReliablePdu` object `x` with its lists cut back to their lengths in `o`
(/repo/opendis/dis7.py:6568-6581 appends to them). -/
def RecordQueryReliablePdu.trim (o x : RecordQueryReliablePdu) : RecordQueryReliablePdu :=
  { x with recordIDs := x.recordIDs.take o.recordIDs.length }

/-- `x` is the `ActionResponsePdu` object `o` after calls of `parse` (/repo/opendis/dis7.py:6627-6632):
attributes that are not read stay, lists only grow. -/
abbrev ActionResponsePdu.Since (o x : ActionResponsePdu) : Prop :=

    SimulationManagementFamilyPdu.Since o.toSimulationManagementFamilyPdu x.toSimulationManagementFamilyPdu ∧
    DatumSpecification.Since o._datums x._datums

/-- The `ActionResponsePdu` object `x` with its lists cut back to their lengths in `o`
(/repo/opendis/dis7.py:6627-6632 appends to them). -/
def ActionResponsePdu.trim (o x : ActionResponsePdu) : ActionResponsePdu :=
  { x with _datums := DatumSpecification.trim o._datums x._datums }

/-- `x` is the `FirePdu` object `o` after calls of `parse` (/repo/opendis/dis7.py:6724-6733):
attributes that are not read stay, lists only grow. -/
abbrev FirePdu.Since (o x : FirePdu) : Prop :=
  WarfareFamilyPdu.Since o.toWarfareFamilyPdu x.toWarfareFamilyPdu ∧
    EntityIdentifier.Since o.munitionExpendableID x.munitionExpendableID ∧
    EventIdentifier.Since o.eventID x.eventID ∧ WorldCoordinates.Since o.location x.location ∧
    MunitionDescriptor.Since o.descriptor x.descriptor ∧ Vector3Float.Since o.velocity x.velocity

/-- `x` is the `ReceiverPdu` object `o` after calls of `parse` (/repo/opendis/dis7.py:6768-6775):
attributes that are not read stay, lists only grow. -/
abbrev ReceiverPdu.Since (o x : ReceiverPdu) : Prop :=

    RadioCommunicationsFamilyPdu.Since o.toRadioCommunicationsFamilyPdu x.toRadioCommunicationsFamilyPdu ∧
    EntityIdentifier.Since o.transmitterEntityID x.transmitterEntityID

/-- `x` is the `UaPdu` object `o` after calls of `parse` (/repo/opendis/dis7.py:6847-6870):
attributes that are not read stay, lists only grow. -/
abbrev UaPdu.Since (o x : UaPdu) : Prop :=

    DistributedEmissionsFamilyPdu.Since o.toDistributedEmissionsFamilyPdu x.toDistributedEmissionsFamilyPdu ∧
    EntityIdentifier.Since o.emittingEntityID x.emittingEntityID ∧
    EventIdentifier.Since o.eventID x.eventID ∧ o.shaftRPMs <+: x.shaftRPMs ∧
    o.apaData <+: x.apaData ∧ o.emitterSystems <+: x.emitterSystems

/-- The `UaPdu` object `x` with its lists cut back to their lengths in `o`
(/repo/opendis/dis7.py:6847-6870 appends to them). -/
def UaPdu.trim (o x : UaPdu) : UaPdu :=
  { x with
    shaftRPMs := x.shaftRPMs.take o.shaftRPMs.length,
    apaData := x.apaData.take o.apaData.length,
    emitterSystems := x.emitterSystems.take o.emitterSystems.length }

/-- `x` is the `SignalPdu` object `o` after calls of `parse` (/repo/opendis/dis7.py:7003-7015):
attributes that are not read stay, lists only grow. -/
abbrev SignalPdu.Since (o x : SignalPdu) : Prop :=

    RadioCommunicationsFamilyPdu.Since o.toRadioCommunicationsFamilyPdu x.toRadioCommunicationsFamilyPdu ∧
    EntityIdentifier.Since o.entityID x.entityID ∧ o.data <+: x.data

/-- The `SignalPdu` object `x` with its lists cut back to their lengths in `o`
(/repo/opendis/dis7.py:7003-7015 appends to them). -/
def SignalPdu.trim (o x : SignalPdu) : SignalPdu :=
  { x with data := x.data.take o.data.length }

/-- `x` is the `RemoveEntityReliablePdu` object `o` after calls of `parse` (/repo/opendis/dis7.py:7043-7049):
attributes that are not read stay, lists only grow. -/
abbrev RemoveEntityReliablePdu.Since (o x : RemoveEntityReliablePdu) : Prop :=

    SimulationManagementWithReliabilityFamilyPdu.Since o.toSimulationManagementWithReliabilityFamilyPdu x.toSimulationManagementWithReliabilityFamilyPdu

/-- `x` is the `SeesPdu` object `o` after calls of `parse` (/repo/opendis/dis7.py:7099-7119):
attributes that are not read stay, lists only grow. -/
abbrev SeesPdu.Since (o x : SeesPdu) : Prop :=

    DistributedEmissionsFamilyPdu.Since o.toDistributedEmissionsFamilyPdu x.toDistributedEmissionsFamilyPdu ∧
    EntityIdentifier.Since o.orginatingEntityID x.orginatingEntityID ∧
    o.propulsionSystemData <+: x.propulsionSystemData ∧
    o.vectoringSystemData <+: x.vectoringSystemData

/-- The `SeesPdu` object `x` with its lists cut back to their lengths in `o`
(/repo/opendis/dis7.py:7099-7119 appends to them). -/
def SeesPdu.trim (o x : SeesPdu) : SeesPdu :=
  { x with
    propulsionSystemData := x.propulsionSystemData.take o.propulsionSystemData.length,
    vectoringSystemData := x.vectoringSystemData.take o.vectoringSystemData.length }

/-- `x` is the `CreateEntityReliablePdu` object `o` after calls of `parse` (/repo/opendis/dis7.py:7147-7153):
attributes that are not read stay, lists only grow. -/
abbrev CreateEntityReliablePdu.Since (o x : CreateEntityReliablePdu) : Prop :=

    SimulationManagementWithReliabilityFamilyPdu.Since o.toSimulationManagementWithReliabilityFamilyPdu x.toSimulationManagementWithReliabilityFamilyPdu

/-- `x` is the `StopFreezeReliablePdu` object `o` after calls of `parse` (/repo/opendis/dis7.py:7191-7199):
attributes that are not read stay, lists only grow. -/
abbrev StopFreezeReliablePdu.Since (o x : StopFreezeReliablePdu) : Prop :=

    SimulationManagementWithReliabilityFamilyPdu.Since o.toSimulationManagementWithReliabilityFamilyPdu x.toSimulationManagementWithReliabilityFamilyPdu ∧
    ClockTime.Since o.realWorldTime x.realWorldTime

/-- `x` is the `EventReportReliablePdu` object `o` after calls of `parse` (/repo/opendis/dis7.py:7245-7250):
attributes that are not read stay, lists only grow. -/
abbrev EventReportReliablePdu.Since (o x : EventReportReliablePdu) : Prop :=

    SimulationManagementWithReliabilityFamilyPdu.Since o.toSimulationManagementWithReliabilityFamilyPdu x.toSimulationManagementWithReliabilityFamilyPdu ∧
    DatumSpecification.Since o._datums x._datums

/-- The `EventReportReliablePdu` object `x` with its lists cut back to their lengths in `o`
(/repo/opendis/dis7.py:7245-7250 appends to them). -/
def EventReportReliablePdu.trim (o x : EventReportReliablePdu) : EventReportReliablePdu :=
  { x with _datums := DatumSpecification.trim o._datums x._datums }

/-- `x` is the `MinefieldResponseNackPdu` object `o` after calls of `parse` (/repo/opendis/dis7.py:7288-7299):
attributes that are not read stay, lists only grow. -/
abbrev MinefieldResponseNackPdu.Since (o x : MinefieldResponseNackPdu) : Prop :=
  MinefieldFamilyPdu.Since o.toMinefieldFamilyPdu x.toMinefieldFamilyPdu ∧
    EntityIdentifier.Since o.minefieldID x.minefieldID ∧
    EntityIdentifier.Since o.requestingEntityID x.requestingEntityID ∧
    o.missingPduSequenceNumbers <+: x.missingPduSequenceNumbers

/-- The `MinefieldResponseNackPdu` object `x` with its lists cut back to their lengths in `o`
(/repo/opendis/dis7.py:7288-7299 appends to them). -/
def MinefieldResponseNackPdu.trim (o x : MinefieldResponseNackPdu) : MinefieldResponseNackPdu :=
  { x with
    missingPduSequenceNumbers := x.missingPduSequenceNumbers.take o.missingPduSequenceNumbers.length }

/-- `x` is the `ActionResponseReliablePdu` object `o` after calls of `parse` (/repo/opendis/dis7.py:7344-7349):
attributes that are not read stay, lists only grow. -/
abbrev ActionResponseReliablePdu.Since (o x : ActionResponseReliablePdu) : Prop :=

    SimulationManagementWithReliabilityFamilyPdu.Since o.toSimulationManagementWithReliabilityFamilyPdu x.toSimulationManagementWithReliabilityFamilyPdu ∧
    DatumSpecification.Since o._datums x._datums

/-- The `ActionResponseReliablePdu` object `x` with its lists cut back to their lengths in `o`
(/repo/opendis/dis7.py:7344-7349 appends to them). -/
def ActionResponseReliablePdu.trim (o x : ActionResponseReliablePdu) : ActionResponseReliablePdu :=
  { x with _datums := DatumSpecification.trim o._datums x._datums }

/-- `x` is the `IsPartOfPdu` object `o` after calls of `parse` (/repo/opendis/dis7.py:7389-7397):
attributes that are not read stay, lists only grow. -/
abbrev IsPartOfPdu.Since (o x : IsPartOfPdu) : Prop :=
  EntityManagementFamilyPdu.Since o.toEntityManagementFamilyPdu x.toEntityManagementFamilyPdu ∧
    EntityIdentifier.Since o.orginatingEntityID x.orginatingEntityID ∧
    EntityIdentifier.Since o.receivingEntityID x.receivingEntityID ∧
    Relationship.Since o.relationship x.relationship ∧
    Vector3Float.Since o.partLocation x.partLocation ∧
    NamedLocationIdentification.Since o.namedLocationID x.namedLocationID ∧
    EntityType.Since o.partEntityType x.partEntityType

/-- `x` is the `AggregateStatePdu` object `o` after calls of `parse` (/repo/opendis/dis7.py:7500-7537):
attributes that are not read stay, lists only grow. -/
abbrev AggregateStatePdu.Since (o x : AggregateStatePdu) : Prop :=
  EntityManagementFamilyPdu.Since o.toEntityManagementFamilyPdu x.toEntityManagementFamilyPdu ∧
    AggregateIdentifier.Since o.aggregateID x.aggregateID ∧
    AggregateType.Since o.aggregateType x.aggregateType ∧
    AggregateMarking.Since o.aggregateMarking x.aggregateMarking ∧
    Vector3Float.Since o.dimensions x.dimensions ∧ EulerAngles.Since o.orientation x.orientation ∧
    Vector3Float.Since o.centerOfMass x.centerOfMass ∧
    WorldCoordinates.Since o.velocity x.velocity ∧ o.aggregateIDs <+: x.aggregateIDs ∧
    o.entityIDs <+: x.entityIDs ∧ o.silentAggregateSystems <+: x.silentAggregateSystems ∧
    o.silentEntitySystems <+: x.silentEntitySystems ∧
    o.variableDatumRecords <+: x.variableDatumRecords

/-- The `AggregateStatePdu` object `x` with its lists cut back to their lengths in `o`
(/repo/opendis/dis7.py:7500-7537 appends to them). -/
def AggregateStatePdu.trim (o x : AggregateStatePdu) : AggregateStatePdu :=
  { x with
    aggregateIDs := x.aggregateIDs.take o.aggregateIDs.length,
    entityIDs := x.entityIDs.take o.entityIDs.length,
    silentAggregateSystems := x.silentAggregateSystems.take o.silentAggregateSystems.length,
    silentEntitySystems := x.silentEntitySystems.take o.silentEntitySystems.length,
    variableDatumRecords := x.variableDatumRecords.take o.variableDatumRecords.length }

end Dis
