import Verif.Model.Pdus5
import Verif.Spec.Heap

/-!
# The attributes of objects by name

Generated by `tools/genheap.py`.
-/

set_option linter.unusedVariables false
set_option linter.unusedSimpArgs false

namespace Dis

/-- The attributes of a `SimulationAddress` object by name (/repo/opendis/record/common.py:115-139). -/
def SimulationAddress.members (o : SimulationAddress) : List (String × Tree) :=
  [("site", .sc (.int o.site)), ("application", .sc (.int o.application))]

/-- The attributes of a `EntityIdentifier` object by name (/repo/opendis/record/common.py:32-54). -/
def EntityIdentifier.members (o : EntityIdentifier) : List (String × Tree) :=
  [("simulationAddress", .obj (SimulationAddress.members o.simulationAddress)),
    ("entityNumber", .sc (.int o.entityNumber))]

/-- The attributes of a `EulerAngles` object by name (/repo/opendis/record/common.py:57-85). -/
def EulerAngles.members (o : EulerAngles) : List (String × Tree) :=
  [("psi", .sc (.float o.psi)), ("theta", .sc (.float o.theta)), ("phi", .sc (.float o.phi))]

/-- The attributes of a `EventIdentifier` object by name (/repo/opendis/record/common.py:88-112). -/
def EventIdentifier.members (o : EventIdentifier) : List (String × Tree) :=
  [("simulationAddress", .obj (SimulationAddress.members o.simulationAddress)),
    ("eventNumber", .sc (.int o.eventNumber))]

/-- The attributes of a `Vector3Float` object by name (/repo/opendis/record/common.py:142-168). -/
def Vector3Float.members (o : Vector3Float) : List (String × Tree) :=
  [("x", .sc (.float o.x)), ("y", .sc (.float o.y)), ("z", .sc (.float o.z))]

/-- The attributes of a `WorldCoordinates` object by name (/repo/opendis/record/common.py:171-196). -/
def WorldCoordinates.members (o : WorldCoordinates) : List (String × Tree) :=
  [("x", .sc (.float o.x)), ("y", .sc (.float o.y)), ("z", .sc (.float o.z))]

/-- The attributes of a `DataQueryDatumSpecification` object by name (/repo/opendis/dis7.py:71-112). -/
def DataQueryDatumSpecification.members (o : DataQueryDatumSpecification) : List (String × Tree) :=
  [("fixedDatumIDs", .ints o.fixedDatumIDs), ("variableDatumIDs", .ints o.variableDatumIDs)]

/-- The attributes of a `RadioIdentifier` object by name (/repo/opendis/dis7.py:115-144). -/
def RadioIdentifier.members (o : RadioIdentifier) : List (String × Tree) :=
  [("siteNumber", .sc (.int o.siteNumber)), ("applicationNumber", .sc (.int o.applicationNumber)),
    ("referenceNumber", .sc (.int o.referenceNumber)), ("radioNumber", .sc (.int o.radioNumber))]

/-- The attributes of a `RequestID` object by name (/repo/opendis/dis7.py:147-164). -/
def RequestID.members (o : RequestID) : List (String × Tree) :=
  [("requestID", .sc (.int o.requestID))]

/-- The attributes of a `IFFData` object by name (/repo/opendis/dis7.py:167-201). -/
def IFFData.members (o : IFFData) : List (String × Tree) :=
  [("recordType", .sc (.int o.recordType)), ("recordLength", .sc (.int o.recordLength)),
    ("iffData", .ints o.iffData)]

/-- The attributes of a `EntityType` object by name (/repo/opendis/dis7.py:2497-2540). -/
def EntityType.members (o : EntityType) : List (String × Tree) :=
  [("entityKind", .sc (.int o.entityKind)), ("domain", .sc (.int o.domain)),
    ("country", .sc (.int o.country)), ("category", .sc (.int o.category)),
    ("subcategory", .sc (.int o.subcategory)), ("specific", .sc (.int o.specific)),
    ("extra", .sc (.int o.extra))]

/-- The attributes of a `MunitionDescriptor` object by name (/repo/opendis/dis7.py:204-243). -/
def MunitionDescriptor.members (o : MunitionDescriptor) : List (String × Tree) :=
  [("munitionType", .obj (EntityType.members o.munitionType)), ("warhead", .sc (.int o.warhead)),
    ("fuse", .sc (.int o.fuse)), ("quantity", .sc (.int o.quantity)), ("rate", .sc (.int o.rate))]

/-- The attributes of a `MinefieldSensorType` object by name (/repo/opendis/dis7.py:246-263). -/
def MinefieldSensorType.members (o : MinefieldSensorType) : List (String × Tree) :=
  [("sensorType", .sc (.int o.sensorType))]

/-- The attributes of a `GroupID` object by name (/repo/opendis/dis7.py:266-289). -/
def GroupID.members (o : GroupID) : List (String × Tree) :=
  [("simulationAddress", .obj (SimulationAddress.members o.simulationAddress)),
    ("groupNumber", .sc (.int o.groupNumber))]

/-- The attributes of a `LayerHeader` object by name (/repo/opendis/dis7.py:292-319). -/
def LayerHeader.members (o : LayerHeader) : List (String × Tree) :=
  [("layerNumber", .sc (.int o.layerNumber)),
    ("layerSpecificInformation", .sc (.int o.layerSpecificInformation)),
    ("length", .sc (.int o.length))]

/-- The attributes of a `UnsignedDISInteger` object by name (/repo/opendis/dis7.py:322-335). -/
def UnsignedDISInteger.members (o : UnsignedDISInteger) : List (String × Tree) :=
  [("val", .sc (.int o.val))]

/-- The attributes of a `DeadReckoningParameters` object by name (/repo/opendis/dis7.py:338-375). -/
def DeadReckoningParameters.members (o : DeadReckoningParameters) : List (String × Tree) :=
  [("deadReckoningAlgorithm", .sc (.int o.deadReckoningAlgorithm)),
    ("parameters", .ints o.parameters),
    ("entityLinearAcceleration", .obj (Vector3Float.members o.entityLinearAcceleration)),
    ("entityAngularVelocity", .obj (Vector3Float.members o.entityAngularVelocity))]

/-- The attributes of a `ProtocolMode` object by name (/repo/opendis/dis7.py:378-394). -/
def ProtocolMode.members (o : ProtocolMode) : List (String × Tree) :=
  [("protocolMode", .sc (.int o.protocolMode))]

/-- The attributes of a `AngleDeception` object by name (/repo/opendis/dis7.py:397-472). -/
def AngleDeception.members (o : AngleDeception) : List (String × Tree) :=
  [("recordType", .sc (.int o.recordType)), ("recordLength", .sc (.int o.recordLength)),
    ("padding", .sc (.int o.padding)), ("emitterNumber", .sc (.int o.emitterNumber)),
    ("beamNumber", .sc (.int o.beamNumber)), ("stateIndicator", .sc (.int o.stateIndicator)),
    ("padding2", .sc (.int o.padding2)), ("azimuthOffset", .sc (.float o.azimuthOffset)),
    ("azimuthWidth", .sc (.float o.azimuthWidth)),
    ("azimuthPullRate", .sc (.float o.azimuthPullRate)),
    ("azimuthPullAcceleration", .sc (.float o.azimuthPullAcceleration)),
    ("elevationOffset", .sc (.float o.elevationOffset)),
    ("elevationWidth", .sc (.float o.elevationWidth)),
    ("elevationPullRate", .sc (.float o.elevationPullRate)),
    ("elevationPullAcceleration", .sc (.float o.elevationPullAcceleration)),
    ("padding3", .sc (.int o.padding3))]

/-- The attributes of a `EntityAssociation` object by name (/repo/opendis/dis7.py:475-530). -/
def EntityAssociation.members (o : EntityAssociation) : List (String × Tree) :=
  [("recordType", .sc (.int o.recordType)), ("changeIndicator", .sc (.int o.changeIndicator)),
    ("associationStatus", .sc (.int o.associationStatus)),
    ("associationType", .sc (.int o.associationType)),
    ("entityID", .obj (EntityIdentifier.members o.entityID)),
    ("ownStationLocation", .sc (.int o.ownStationLocation)),
    ("physicalConnectionType", .sc (.int o.physicalConnectionType)),
    ("groupMemberType", .sc (.int o.groupMemberType)), ("groupNumber", .sc (.int o.groupNumber))]

/-- The attributes of a `VectoringNozzleSystem` object by name (/repo/opendis/dis7.py:533-553). -/
def VectoringNozzleSystem.members (o : VectoringNozzleSystem) : List (String × Tree) :=
  [("horizontalDeflectionAngle", .sc (.float o.horizontalDeflectionAngle)),
    ("verticalDeflectionAngle", .sc (.float o.verticalDeflectionAngle))]

/-- The attributes of a `FalseTargetsAttribute` object by name (/repo/opendis/dis7.py:556-621). -/
def FalseTargetsAttribute.members (o : FalseTargetsAttribute) : List (String × Tree) :=
  [("recordType", .sc (.int o.recordType)), ("recordLength", .sc (.int o.recordLength)),
    ("padding", .sc (.int o.padding)), ("emitterNumber", .sc (.int o.emitterNumber)),
    ("beamNumber", .sc (.int o.beamNumber)), ("stateIndicator", .sc (.int o.stateIndicator)),
    ("padding2", .sc (.int o.padding2)), ("falseTargetCount", .sc (.int o.falseTargetCount)),
    ("walkSpeed", .sc (.float o.walkSpeed)), ("walkAcceleration", .sc (.float o.walkAcceleration)),
    ("maximumWalkDistance", .sc (.float o.maximumWalkDistance)),
    ("keepTime", .sc (.float o.keepTime)), ("echoSpacing", .sc (.float o.echoSpacing))]

/-- The attributes of a `MinefieldIdentifier` object by name (/repo/opendis/dis7.py:624-644). -/
def MinefieldIdentifier.members (o : MinefieldIdentifier) : List (String × Tree) :=
  [("simulationAddress", .obj (SimulationAddress.members o.simulationAddress)),
    ("minefieldNumber", .sc (.int o.minefieldNumber))]

/-- The attributes of a `RadioType` object by name (/repo/opendis/dis7.py:647-690). -/
def RadioType.members (o : RadioType) : List (String × Tree) :=
  [("entityKind", .sc (.int o.entityKind)), ("domain", .sc (.int o.domain)),
    ("country", .sc (.int o.country)), ("category", .sc (.int o.category)),
    ("subcategory", .sc (.int o.subcategory)), ("specific", .sc (.int o.specific)),
    ("extra", .sc (.int o.extra))]

/-- The attributes of a `NamedLocationIdentification` object by name (/repo/opendis/dis7.py:693-717). -/
def NamedLocationIdentification.members (o : NamedLocationIdentification) : List (String × Tree) :=
  [("stationName", .sc (.int o.stationName)), ("stationNumber", .sc (.int o.stationNumber))]

/-- The attributes of a `IFFDataSpecification` object by name (/repo/opendis/dis7.py:720-745). -/
def IFFDataSpecification.members (o : IFFDataSpecification) : List (String × Tree) :=
  [("iffDataRecords", .objs IFFData.members o.iffDataRecords)]

/-- The attributes of a `OwnershipStatus` object by name (/repo/opendis/dis7.py:748-773). -/
def OwnershipStatus.members (o : OwnershipStatus) : List (String × Tree) :=
  [("entityId", .obj (EntityIdentifier.members o.entityId)),
    ("ownershipStatus", .sc (.int o.ownershipStatus)), ("padding", .sc (.int o.padding))]

/-- The attributes of a `AttachedParts` object by name (/repo/opendis/dis7.py:776-811). -/
def AttachedParts.members (o : AttachedParts) : List (String × Tree) :=
  [("recordType", .sc (.int o.recordType)), ("detachedIndicator", .sc (.int o.detachedIndicator)),
    ("partAttachedTo", .sc (.int o.partAttachedTo)), ("parameterType", .sc (.int o.parameterType)),
    ("attachedPartType", .obj (EntityType.members o.attachedPartType)),
    ("parameterValue", .optInt .absent o.parameterValue)]

/-- The attributes of a `Attribute` object by name (/repo/opendis/dis7.py:814-839). -/
def Attribute.members (o : Attribute) : List (String × Tree) :=
  [("recordType", .sc (.int o.recordType)), ("recordLength", .sc (.int o.recordLength)),
    ("recordSpecificFields", .sc (.int o.recordSpecificFields))]

/-- The attributes of a `RecordQuerySpecification` object by name (/repo/opendis/dis7.py:842-868). -/
def RecordQuerySpecification.members (o : RecordQuerySpecification) : List (String × Tree) :=
  [("recordIDs", .ints o.recordIDs)]

/-- The attributes of a `ArticulatedParts` object by name (/repo/opendis/dis7.py:871-907). -/
def ArticulatedParts.members (o : ArticulatedParts) : List (String × Tree) :=
  [("recordType", .sc (.int o.recordType)), ("changeIndicator", .sc (.int o.changeIndicator)),
    ("partAttachedTo", .sc (.int o.partAttachedTo)), ("parameterType", .sc (.int o.parameterType)),
    ("parameterValue", .sc (.int o.parameterValue))]

/-- The attributes of a `ObjectType` object by name (/repo/opendis/dis7.py:910-942). -/
def ObjectType.members (o : ObjectType) : List (String × Tree) :=
  [("domain", .sc (.int o.domain)), ("objectKind", .sc (.int o.objectKind)),
    ("category", .sc (.int o.category)), ("subcategory", .sc (.int o.subcategory))]

/-- The attributes of a `Association` object by name (/repo/opendis/dis7.py:945-979). -/
def Association.members (o : Association) : List (String × Tree) :=
  [("associationType", .sc (.int o.associationType)), ("padding4", .sc (.int o.padding4)),
    ("associatedEntityID", .obj (EntityIdentifier.members o.associatedEntityID)),
    ("associatedLocation", .obj (WorldCoordinates.members o.associatedLocation))]

/-- The attributes of a `RecordSpecificationElement` object by name (/repo/opendis/dis7.py:982-1022). -/
def RecordSpecificationElement.members (o : RecordSpecificationElement) : List (String × Tree) :=
  [("recordID", .sc (.int o.recordID)),
    ("recordSetSerialNumber", .sc (.int o.recordSetSerialNumber)),
    ("recordLength", .sc (.int o.recordLength)), ("recordCount", .sc (.int o.recordCount)),
    ("recordValues", .sc (.int o.recordValues)), ("pad4", .sc (.int o.pad4))]

/-- The attributes of a `AntennaLocation` object by name (/repo/opendis/dis7.py:1025-1048). -/
def AntennaLocation.members (o : AntennaLocation) : List (String × Tree) :=
  [("antennaLocation", .obj (WorldCoordinates.members o.antennaLocation)),
    ("relativeAntennaLocation", .obj (Vector3Float.members o.relativeAntennaLocation))]

/-- The attributes of a `ObjectIdentifier` object by name (/repo/opendis/dis7.py:1051-1073). -/
def ObjectIdentifier.members (o : ObjectIdentifier) : List (String × Tree) :=
  [("simulationAddress", .obj (SimulationAddress.members o.simulationAddress)),
    ("objectNumber", .sc (.int o.objectNumber))]

/-- The attributes of a `AggregateIdentifier` object by name (/repo/opendis/dis7.py:1076-1097). -/
def AggregateIdentifier.members (o : AggregateIdentifier) : List (String × Tree) :=
  [("simulationAddress", .obj (SimulationAddress.members o.simulationAddress)),
    ("aggregateID", .sc (.int o.aggregateID))]

/-- The attributes of a `FixedDatum` object by name (/repo/opendis/dis7.py:1100-1122). -/
def FixedDatum.members (o : FixedDatum) : List (String × Tree) :=
  [("fixedDatumID", .sc (.int o.fixedDatumID)), ("fixedDatumValue", .sc (.int o.fixedDatumValue))]

/-- The attributes of a `VariableParameter` object by name (/repo/opendis/dis7.py:1125-1163). -/
def VariableParameter.members (o : VariableParameter) : List (String × Tree) :=
  [("recordType", .sc (.int o.recordType)),
    ("variableParameterFields1", .sc (.float o.variableParameterFields1)),
    ("variableParameterFields2", .sc (.int o.variableParameterFields2)),
    ("variableParameterFields3", .sc (.int o.variableParameterFields3)),
    ("variableParameterFields4", .sc (.int o.variableParameterFields4))]

/-- The attributes of a `ChangeOptions` object by name (/repo/opendis/dis7.py:1166-1179). -/
def ChangeOptions.members (_o : ChangeOptions) : List (String × Tree) :=
  []

/-- The attributes of a `LiveSimulationAddress` object by name (/repo/opendis/dis7.py:1182-1205). -/
def LiveSimulationAddress.members (o : LiveSimulationAddress) : List (String × Tree) :=
  [("liveSiteNumber", .sc (.int o.liveSiteNumber)),
    ("liveApplicationNumber", .sc (.int o.liveApplicationNumber))]

/-- The attributes of a `EntityMarking` object by name (/repo/opendis/dis7.py:1208-1245). -/
def EntityMarking.members (o : EntityMarking) : List (String × Tree) :=
  [("characterSet", .sc (.int o.characterSet)), ("characters", .ints o.characters)]

/-- The attributes of a `UAFundamentalParameter` object by name (/repo/opendis/dis7.py:1248-1291). -/
def UAFundamentalParameter.members (o : UAFundamentalParameter) : List (String × Tree) :=
  [("activeEmissionParameterIndex", .sc (.int o.activeEmissionParameterIndex)),
    ("scanPattern", .sc (.int o.scanPattern)),
    ("beamCenterAzimuthHorizontal", .sc (.float o.beamCenterAzimuthHorizontal)),
    ("azimuthalBeamwidthHorizontal", .sc (.float o.azimuthalBeamwidthHorizontal)),
    ("beamCenterDepressionElevation", .sc (.float o.beamCenterDepressionElevation)),
    ("beamwidthDownElevation", .sc (.float o.beamwidthDownElevation))]

/-- The attributes of a `ExplosionDescriptor` object by name (/repo/opendis/dis7.py:1294-1324). -/
def ExplosionDescriptor.members (o : ExplosionDescriptor) : List (String × Tree) :=
  [("explodingObject", .obj (EntityType.members o.explodingObject)),
    ("explosiveMaterial", .sc (.int o.explosiveMaterial)), ("padding", .sc (.int o.padding)),
    ("explosiveForce", .sc (.float o.explosiveForce))]

/-- The attributes of a `ClockTime` object by name (/repo/opendis/dis7.py:1327-1352). -/
def ClockTime.members (o : ClockTime) : List (String × Tree) :=
  [("hour", .sc (.int o.hour)), ("timePastHour", .sc (.int o.timePastHour))]

/-- The attributes of a `SecondaryOperationalData` object by name (/repo/opendis/dis7.py:1355-1386). -/
def SecondaryOperationalData.members (o : SecondaryOperationalData) : List (String × Tree) :=
  [("operationalData1", .sc (.int o.operationalData1)),
    ("operationalData2", .sc (.int o.operationalData2)),
    ("numberOfIFFFundamentalParameterRecords", .sc (.int o.numberOfIFFFundamentalParameterRecords))]

/-- The attributes of a `EnvironmentType` object by name (/repo/opendis/dis7.py:1389-1433). -/
def EnvironmentType.members (o : EnvironmentType) : List (String × Tree) :=
  [("entityKind", .sc (.int o.entityKind)), ("domain", .sc (.int o.domain)),
    ("entityClass", .sc (.int o.entityClass)), ("category", .sc (.int o.category)),
    ("subcategory", .sc (.int o.subcategory)), ("specific", .sc (.int o.specific)),
    ("extra", .sc (.int o.extra))]

/-- The attributes of a `TotalRecordSets` object by name (/repo/opendis/dis7.py:1436-1453). -/
def TotalRecordSets.members (o : TotalRecordSets) : List (String × Tree) :=
  [("totalRecordSets", .sc (.int o.totalRecordSets)), ("padding", .sc (.int o.padding))]

/-- The attributes of a `MineEntityIdentifier` object by name (/repo/opendis/dis7.py:1456-1477). -/
def MineEntityIdentifier.members (o : MineEntityIdentifier) : List (String × Tree) :=
  [("simulationAddress", .obj (SimulationAddress.members o.simulationAddress)),
    ("mineEntityNumber", .sc (.int o.mineEntityNumber))]

/-- The attributes of a `Relationship` object by name (/repo/opendis/dis7.py:1480-1502). -/
def Relationship.members (o : Relationship) : List (String × Tree) :=
  [("nature", .sc (.int o.nature)), ("position", .sc (.int o.position))]

/-- The attributes of a `EEFundamentalParameterData` object by name (/repo/opendis/dis7.py:1505-1563). -/
def EEFundamentalParameterData.members (o : EEFundamentalParameterData) : List (String × Tree) :=
  [("frequency", .sc (.float o.frequency)), ("frequencyRange", .sc (.float o.frequencyRange)),
    ("effectiveRadiatedPower", .sc (.float o.effectiveRadiatedPower)),
    ("pulseRepetitionFrequency", .sc (.float o.pulseRepetitionFrequency)),
    ("pulseWidth", .sc (.float o.pulseWidth)),
    ("beamAzimuthCenter", .sc (.float o.beamAzimuthCenter)),
    ("beamAzimuthSweep", .sc (.float o.beamAzimuthSweep)),
    ("beamElevationCenter", .sc (.float o.beamElevationCenter)),
    ("beamElevationSweep", .sc (.float o.beamElevationSweep)),
    ("beamSweepSync", .sc (.float o.beamSweepSync))]

/-- The attributes of a `JammingTechnique` object by name (/repo/opendis/dis7.py:1566-1590). -/
def JammingTechnique.members (o : JammingTechnique) : List (String × Tree) :=
  [("kind", .sc (.int o.kind)), ("category", .sc (.int o.category)),
    ("subcategory", .sc (.int o.subcategory)), ("specific", .sc (.int o.specific))]

/-- The attributes of a `VariableDatum` object by name (/repo/opendis/dis7.py:3293-3339). -/
def VariableDatum.members (o : VariableDatum) : List (String × Tree) :=
  [("variableDatumID", .sc (.int o.variableDatumID)),
    ("variableDatumLength", .sc (.int o.variableDatumLength)),
    ("variableData", .ints o.variableData)]

/-- The attributes of a `DatumSpecification` object by name (/repo/opendis/dis7.py:1593-1637). -/
def DatumSpecification.members (o : DatumSpecification) : List (String × Tree) :=
  [("fixedDatumRecords", .objs FixedDatum.members o.fixedDatumRecords),
    ("variableDatumRecords", .objs VariableDatum.members o.variableDatumRecords)]

/-- The attributes of a `Expendable` object by name (/repo/opendis/dis7.py:1640-1672). -/
def Expendable.members (o : Expendable) : List (String × Tree) :=
  [("expendable", .obj (EntityType.members o.expendable)), ("station", .sc (.int o.station)),
    ("quantity", .sc (.int o.quantity)), ("expendableStatus", .sc (.int o.expendableStatus)),
    ("padding", .sc (.int o.padding))]

/-- The attributes of a `CommunicationsNodeID` object by name (/repo/opendis/dis7.py:3481-3501). -/
def CommunicationsNodeID.members (o : CommunicationsNodeID) : List (String × Tree) :=
  [("entityID", .obj (EntityIdentifier.members o.entityID)), ("elementID", .sc (.int o.elementID))]

/-- The attributes of a `IOCommunicationsNode` object by name (/repo/opendis/dis7.py:1675-1705). -/
def IOCommunicationsNode.members (o : IOCommunicationsNode) : List (String × Tree) :=
  [("recordType", .sc (.int o.recordType)), ("recordLength", .sc (.int o.recordLength)),
    ("communcationsNodeType", .sc (.int o.communcationsNodeType)),
    ("padding", .sc (.int o.padding)),
    ("communicationsNodeID", .obj (CommunicationsNodeID.members o.communicationsNodeID))]

/-- The attributes of a `LinearSegmentParameter` object by name (/repo/opendis/dis7.py:1708-1774). -/
def LinearSegmentParameter.members (o : LinearSegmentParameter) : List (String × Tree) :=
  [("segmentNumber", .sc (.int o.segmentNumber)),
    ("segmentModification", .sc (.int o.segmentModification)),
    ("generalSegmentAppearance", .sc (.int o.generalSegmentAppearance)),
    ("specificSegmentAppearance", .sc (.int o.specificSegmentAppearance)),
    ("segmentLocation", .obj (WorldCoordinates.members o.segmentLocation)),
    ("segmentOrientation", .obj (EulerAngles.members o.segmentOrientation)),
    ("segmentLength", .sc (.float o.segmentLength)), ("segmentWidth", .sc (.float o.segmentWidth)),
    ("segmentHeight", .sc (.float o.segmentHeight)), ("segmentDepth", .sc (.float o.segmentDepth)),
    ("padding", .sc (.int o.padding))]

/-- The attributes of a `SystemIdentifier` object by name (/repo/opendis/dis7.py:1777-1809). -/
def SystemIdentifier.members (o : SystemIdentifier) : List (String × Tree) :=
  [("systemType", .sc (.int o.systemType)), ("systemName", .sc (.int o.systemName)),
    ("systemMode", .sc (.int o.systemMode)),
    ("changeOptions", .obj (ChangeOptions.members o.changeOptions))]

/-- The attributes of a `TrackJamData` object by name (/repo/opendis/dis7.py:1812-1839). -/
def TrackJamData.members (o : TrackJamData) : List (String × Tree) :=
  [("entityID", .obj (EntityIdentifier.members o.entityID)),
    ("emitterNumber", .sc (.int o.emitterNumber)), ("beamNumber", .sc (.int o.beamNumber))]

/-- The attributes of a `AggregateType` object by name (/repo/opendis/dis7.py:1842-1888). -/
def AggregateType.members (o : AggregateType) : List (String × Tree) :=
  [("aggregateKind", .sc (.int o.aggregateKind)), ("domain", .sc (.int o.domain)),
    ("country", .sc (.int o.country)), ("category", .sc (.int o.category)),
    ("subcategory", .sc (.int o.subcategory)), ("specificInfo", .sc (.int o.specificInfo)),
    ("extra", .sc (.int o.extra))]

/-- The attributes of a `SimulationIdentifier` object by name (/repo/opendis/dis7.py:2050-2077). -/
def SimulationIdentifier.members (o : SimulationIdentifier) : List (String × Tree) :=
  [("simulationAddress", .obj (SimulationAddress.members o.simulationAddress)),
    ("referenceNumber", .sc (.int o.referenceNumber))]

/-- The attributes of a `PduHeader` object by name (/repo/opendis/dis7.py:3370-3421). -/
def PduHeader.members (o : PduHeader) : List (String × Tree) :=
  [("protocolVersion", .sc (.int o.protocolVersion)), ("exerciseID", .sc (.int o.exerciseID)),
    ("pduType", .sc (.int o.pduType)), ("protocolFamily", .sc (.int o.protocolFamily)),
    ("timestamp", .sc (.int o.timestamp)), ("pduLength", .sc (.int o.pduLength)),
    ("pduStatus", .sc (.int o.pduStatus)), ("padding", .sc (.int o.padding))]

/-- The attributes of a `SimulationManagementPduHeader` object by name (/repo/opendis/dis7.py:1891-1919). -/
def SimulationManagementPduHeader.members (o : SimulationManagementPduHeader) : List (String × Tree) :=
  [("pduHeader", .obj (PduHeader.members o.pduHeader)),
    ("originatingID", .obj (SimulationIdentifier.members o.originatingID)),
    ("receivingID", .obj (SimulationIdentifier.members o.receivingID))]

/-- The attributes of a `BeamData` object by name (/repo/opendis/dis7.py:1922-1960). -/
def BeamData.members (o : BeamData) : List (String × Tree) :=
  [("beamAzimuthCenter", .sc (.float o.beamAzimuthCenter)),
    ("beamAzimuthSweep", .sc (.float o.beamAzimuthSweep)),
    ("beamElevationCenter", .sc (.float o.beamElevationCenter)),
    ("beamElevationSweep", .sc (.float o.beamElevationSweep)),
    ("beamSweepSync", .sc (.float o.beamSweepSync))]

/-- The attributes of a `EngineFuel` object by name (/repo/opendis/dis7.py:1963-1998). -/
def EngineFuel.members (o : EngineFuel) : List (String × Tree) :=
  [("fuelQuantity", .sc (.int o.fuelQuantity)),
    ("fuelMeasurementUnits", .sc (.int o.fuelMeasurementUnits)),
    ("fuelType", .sc (.int o.fuelType)), ("fuelLocation", .sc (.int o.fuelLocation)),
    ("padding", .sc (.int o.padding))]

/-- The attributes of a `IOEffect` object by name (/repo/opendis/dis7.py:2001-2047). -/
def IOEffect.members (o : IOEffect) : List (String × Tree) :=
  [("recordType", .sc (.int o.recordType)), ("recordLength", .sc (.int o.recordLength)),
    ("ioStatus", .sc (.int o.ioStatus)), ("ioLinkType", .sc (.int o.ioLinkType)),
    ("ioEffect", .sc (.int o.ioEffect)), ("ioEffectDutyCycle", .sc (.int o.ioEffectDutyCycle)),
    ("ioEffectDuration", .sc (.int o.ioEffectDuration)), ("ioProcess", .sc (.int o.ioProcess)),
    ("padding", .sc (.int o.padding))]

/-- The attributes of a `GridAxisDescriptorVariable` object by name (/repo/opendis/dis7.py:2080-2155). -/
def GridAxisDescriptorVariable.members (o : GridAxisDescriptorVariable) : List (String × Tree) :=
  [("domainInitialXi", .sc (.float o.domainInitialXi)),
    ("domainFinalXi", .sc (.float o.domainFinalXi)),
    ("domainPointsXi", .sc (.int o.domainPointsXi)),
    ("interleafFactor", .sc (.int o.interleafFactor)), ("axisType", .sc (.int o.axisType)),
    ("numberOfPointsOnXiAxis", .sc (.int o.numberOfPointsOnXiAxis)),
    ("initialIndex", .sc (.int o.initialIndex)),
    ("coordinateScaleXi", .sc (.float o.coordinateScaleXi)),
    ("coordinateOffsetXi", .sc (.float o.coordinateOffsetXi)), ("xiValues", .ints o.xiValues)]

/-- The attributes of a `SupplyQuantity` object by name (/repo/opendis/dis7.py:2158-2179). -/
def SupplyQuantity.members (o : SupplyQuantity) : List (String × Tree) :=
  [("supplyType", .obj (EntityType.members o.supplyType)), ("quantity", .sc (.float o.quantity))]

/-- The attributes of a `SilentEntitySystem` object by name (/repo/opendis/dis7.py:2182-2218). -/
def SilentEntitySystem.members (o : SilentEntitySystem) : List (String × Tree) :=
  [("numberOfEntities", .sc (.int o.numberOfEntities)),
    ("entityType", .obj (EntityType.members o.entityType)),
    ("appearanceRecordList", .ints o.appearanceRecordList)]

/-- The attributes of a `SilentAggregateSystem` object by name (/repo/opendis/dis7.py:2221-2242). -/
def SilentAggregateSystem.members (o : SilentAggregateSystem) : List (String × Tree) :=
  [("numberOfAggregates", .sc (.int o.numberOfAggregates)),
    ("aggregateType", .obj (AggregateType.members o.aggregateType)),
    ("entityType", .optObj AggregateType.members o.entityType)]

/-- The attributes of a `BlankingSector` object by name (/repo/opendis/dis7.py:2245-2310). -/
def BlankingSector.members (o : BlankingSector) : List (String × Tree) :=
  [("recordType", .sc (.int o.recordType)), ("recordLength", .sc (.int o.recordLength)),
    ("padding", .sc (.int o.padding)), ("emitterNumber", .sc (.int o.emitterNumber)),
    ("beamNumber", .sc (.int o.beamNumber)), ("stateIndicator", .sc (.int o.stateIndicator)),
    ("padding2", .sc (.int o.padding2)), ("leftAzimuth", .sc (.float o.leftAzimuth)),
    ("rightAzimuth", .sc (.float o.rightAzimuth)),
    ("lowerElevation", .sc (.float o.lowerElevation)),
    ("upperElevation", .sc (.float o.upperElevation)),
    ("residualPower", .sc (.float o.residualPower)), ("padding3", .sc (.int o.padding3)),
    ("padding4", .sc (.int o.padding4))]

/-- The attributes of a `LaunchedMunitionRecord` object by name (/repo/opendis/dis7.py:2313-2350). -/
def LaunchedMunitionRecord.members (o : LaunchedMunitionRecord) : List (String × Tree) :=
  [("fireEventID", .obj (EventIdentifier.members o.fireEventID)), ("padding", .sc (.int o.padding)),
    ("firingEntityID", .obj (EventIdentifier.members o.firingEntityID)),
    ("padding2", .sc (.int o.padding2)),
    ("targetEntityID", .obj (EventIdentifier.members o.targetEntityID)),
    ("padding3", .sc (.int o.padding3)),
    ("targetLocation", .obj (WorldCoordinates.members o.targetLocation))]

/-- The attributes of a `IFFFundamentalParameterData` object by name (/repo/opendis/dis7.py:2353-2398). -/
def IFFFundamentalParameterData.members (o : IFFFundamentalParameterData) : List (String × Tree) :=
  [("erp", .sc (.float o.erp)), ("frequency", .sc (.float o.frequency)),
    ("pgrf", .sc (.float o.pgrf)), ("pulseWidth", .sc (.float o.pulseWidth)),
    ("burstLength", .sc (.int o.burstLength)), ("applicableModes", .sc (.int o.applicableModes)),
    ("systemSpecificData", .ints o.systemSpecificData)]

/-- The attributes of a `FundamentalOperationalData` object by name (/repo/opendis/dis7.py:2401-2463). -/
def FundamentalOperationalData.members (o : FundamentalOperationalData) : List (String × Tree) :=
  [("systemStatus", .sc (.int o.systemStatus)), ("dataField1", .sc (.int o.dataField1)),
    ("informationLayers", .sc (.int o.informationLayers)), ("dataField2", .sc (.int o.dataField2)),
    ("parameter1", .sc (.int o.parameter1)), ("parameter2", .sc (.int o.parameter2)),
    ("parameter3", .sc (.int o.parameter3)), ("parameter4", .sc (.int o.parameter4)),
    ("parameter5", .sc (.int o.parameter5)), ("parameter6", .sc (.int o.parameter6))]

/-- The attributes of a `IntercomCommunicationsParameters` object by name (/repo/opendis/dis7.py:2466-2494). -/
def IntercomCommunicationsParameters.members (o : IntercomCommunicationsParameters) : List (String × Tree) :=
  [("recordType", .sc (.int o.recordType)), ("recordLength", .sc (.int o.recordLength)),
    ("recordSpecificField", .sc (.int o.recordSpecificField))]

/-- The attributes of a `Munition` object by name (/repo/opendis/dis7.py:2543-2582). -/
def Munition.members (o : Munition) : List (String × Tree) :=
  [("munitionType", .obj (EntityType.members o.munitionType)), ("station", .sc (.int o.station)),
    ("quantity", .sc (.int o.quantity)), ("munitionStatus", .sc (.int o.munitionStatus)),
    ("padding", .sc (.int o.padding))]

/-- The attributes of a `StandardVariableSpecification` object by name (/repo/opendis/dis7.py:2585-2615). -/
def StandardVariableSpecification.members (o : StandardVariableSpecification) : List (String × Tree) :=
  [("standardVariables", .ints o.standardVariables)]

/-- The attributes of a `Vector2Float` object by name (/repo/opendis/dis7.py:2618-2633). -/
def Vector2Float.members (o : Vector2Float) : List (String × Tree) :=
  [("x", .sc (.float o.x)), ("y", .sc (.float o.y))]

/-- The attributes of a `Environment` object by name (/repo/opendis/dis7.py:2636-2668). -/
def Environment.members (o : Environment) : List (String × Tree) :=
  [("environmentType", .sc (.int o.environmentType)), ("length", .sc (.int o.length)),
    ("index", .sc (.int o.index)), ("padding0", .sc (.int o.padding0)),
    ("padding1", .sc (.int o.padding1)), ("padding", .optInt .absent o.padding)]

/-- The attributes of a `AcousticEmitter` object by name (/repo/opendis/dis7.py:2671-2698). -/
def AcousticEmitter.members (o : AcousticEmitter) : List (String × Tree) :=
  [("acousticSystemName", .sc (.int o.acousticSystemName)),
    ("acousticFunction", .sc (.int o.acousticFunction)),
    ("acousticIDNumber", .sc (.int o.acousticIDNumber))]

/-- The attributes of a `AngularVelocityVector` object by name (/repo/opendis/dis7.py:2701-2728). -/
def AngularVelocityVector.members (o : AngularVelocityVector) : List (String × Tree) :=
  [("x", .sc (.float o.x)), ("y", .sc (.float o.y)), ("z", .sc (.float o.z))]

/-- The attributes of a `AggregateMarking` object by name (/repo/opendis/dis7.py:2731-2759). -/
def AggregateMarking.members (o : AggregateMarking) : List (String × Tree) :=
  [("characterSet", .sc (.int o.characterSet)), ("characters", .ints o.characters)]

/-- The attributes of a `DataFilterRecord` object by name (/repo/opendis/dis7.py:2762-2781). -/
def DataFilterRecord.members (o : DataFilterRecord) : List (String × Tree) :=
  [("bitFlags", .sc (.int o.bitFlags))]

/-- The attributes of a `IntercomIdentifier` object by name (/repo/opendis/dis7.py:2784-2812). -/
def IntercomIdentifier.members (o : IntercomIdentifier) : List (String × Tree) :=
  [("siteNumber", .sc (.int o.siteNumber)), ("applicationNumber", .sc (.int o.applicationNumber)),
    ("referenceNumber", .sc (.int o.referenceNumber)),
    ("intercomNumber", .sc (.int o.intercomNumber))]

/-- The attributes of a `StorageFuel` object by name (/repo/opendis/dis7.py:2815-2850). -/
def StorageFuel.members (o : StorageFuel) : List (String × Tree) :=
  [("fuelQuantity", .sc (.int o.fuelQuantity)),
    ("fuelMeasurementUnits", .sc (.int o.fuelMeasurementUnits)),
    ("fuelType", .sc (.int o.fuelType)), ("fuelLocation", .sc (.int o.fuelLocation)),
    ("padding", .sc (.int o.padding))]

/-- The attributes of a `Sensor` object by name (/repo/opendis/dis7.py:2853-2893). -/
def Sensor.members (o : Sensor) : List (String × Tree) :=
  [("sensorTypeSource", .sc (.int o.sensorTypeSource)),
    ("sensorOnOffStatus", .sc (.int o.sensorOnOffStatus)), ("sensorType", .sc (.int o.sensorType)),
    ("station", .sc (.int o.station)), ("quantity", .sc (.int o.quantity)),
    ("padding", .sc (.int o.padding))]

/-- The attributes of a `MunitionReload` object by name (/repo/opendis/dis7.py:2896-2940). -/
def MunitionReload.members (o : MunitionReload) : List (String × Tree) :=
  [("munitionType", .obj (EntityType.members o.munitionType)), ("station", .sc (.int o.station)),
    ("standardQuantity", .sc (.int o.standardQuantity)),
    ("maximumQuantity", .sc (.int o.maximumQuantity)),
    ("standardQuantityReloadTime", .sc (.int o.standardQuantityReloadTime)),
    ("maximumQuantityReloadTime", .sc (.int o.maximumQuantityReloadTime))]

/-- The attributes of a `StorageFuelReload` object by name (/repo/opendis/dis7.py:2943-2996). -/
def StorageFuelReload.members (o : StorageFuelReload) : List (String × Tree) :=
  [("standardQuantity", .sc (.int o.standardQuantity)),
    ("maximumQuantity", .sc (.int o.maximumQuantity)),
    ("standardQuantityReloadTime", .sc (.int o.standardQuantityReloadTime)),
    ("maximumQuantityReloadTime", .sc (.int o.maximumQuantityReloadTime)),
    ("fuelMeasurementUnits", .sc (.int o.fuelMeasurementUnits)),
    ("fuelType", .sc (.int o.fuelType)), ("fuelLocation", .sc (.int o.fuelLocation)),
    ("padding", .sc (.int o.padding))]

/-- The attributes of a `ExpendableReload` object by name (/repo/opendis/dis7.py:2999-3037). -/
def ExpendableReload.members (o : ExpendableReload) : List (String × Tree) :=
  [("expendable", .obj (EntityType.members o.expendable)), ("station", .sc (.int o.station)),
    ("standardQuantity", .sc (.int o.standardQuantity)),
    ("maximumQuantity", .sc (.int o.maximumQuantity)),
    ("standardQuantityReloadTime", .sc (.int o.standardQuantityReloadTime)),
    ("maximumQuantityReloadTime", .sc (.int o.maximumQuantityReloadTime))]

/-- The attributes of a `EngineFuelReload` object by name (/repo/opendis/dis7.py:3040-3083). -/
def EngineFuelReload.members (o : EngineFuelReload) : List (String × Tree) :=
  [("standardQuantity", .sc (.int o.standardQuantity)),
    ("maximumQuantity", .sc (.int o.maximumQuantity)),
    ("standardQuantityReloadTime", .sc (.int o.standardQuantityReloadTime)),
    ("maximumQuantityReloadTime", .sc (.int o.maximumQuantityReloadTime)),
    ("fuelMeasurmentUnits", .sc (.int o.fuelMeasurmentUnits)),
    ("fuelLocation", .sc (.int o.fuelLocation)), ("padding", .sc (.int o.padding))]

/-- The attributes of a `UnattachedIdentifier` object by name (/repo/opendis/dis7.py:3086-3109). -/
def UnattachedIdentifier.members (o : UnattachedIdentifier) : List (String × Tree) :=
  [("simulationAddress", .obj (SimulationAddress.members o.simulationAddress)),
    ("referenceNumber", .sc (.int o.referenceNumber))]

/-- The attributes of a `EntityTypeVP` object by name (/repo/opendis/dis7.py:3112-3143). -/
def EntityTypeVP.members (o : EntityTypeVP) : List (String × Tree) :=
  [("recordType", .sc (.int o.recordType)), ("changeIndicator", .sc (.int o.changeIndicator)),
    ("entityType", .obj (EntityType.members o.entityType)), ("padding", .sc (.int o.padding)),
    ("padding1", .sc (.int o.padding1))]

/-- The attributes of a `BeamStatus` object by name (/repo/opendis/dis7.py:3146-3165). -/
def BeamStatus.members (o : BeamStatus) : List (String × Tree) :=
  [("beamState", .sc (.int o.beamState))]

/-- The attributes of a `EnvironmentGeneral` object by name (/repo/opendis/dis7.py:3168-3209). -/
def EnvironmentGeneral.members (o : EnvironmentGeneral) : List (String × Tree) :=
  [("environmentType", .sc (.int o.environmentType)), ("length", .sc (.int o.length)),
    ("index", .sc (.int o.index)), ("padding", .sc (.int o.padding)),
    ("geometry", .optInt .none o.geometry), ("padding2", .sc (.int o.padding2)),
    ("padding1", .optInt .absent o.padding1)]

/-- The attributes of a `GridAxis` object by name (/repo/opendis/dis7.py:3212-3259). -/
def GridAxis.members (o : GridAxis) : List (String × Tree) :=
  [("domainInitialXi", .sc (.float o.domainInitialXi)),
    ("domainFinalXi", .sc (.float o.domainFinalXi)),
    ("domainPointsXi", .sc (.int o.domainPointsXi)),
    ("interleafFactor", .sc (.int o.interleafFactor)), ("axisType", .sc (.int o.axisType)),
    ("numberOfPointsOnXiAxis", .sc (.int o.numberOfPointsOnXiAxis)),
    ("initialIndex", .sc (.int o.initialIndex))]

/-- The attributes of a `RecordSpecification` object by name (/repo/opendis/dis7.py:3262-3290). -/
def RecordSpecification.members (o : RecordSpecification) : List (String × Tree) :=
  [("recordSets", .objs RecordSpecificationElement.members o.recordSets)]

/-- The attributes of a `EventIdentifierLiveEntity` object by name (/repo/opendis/dis7.py:3342-3367). -/
def EventIdentifierLiveEntity.members (o : EventIdentifierLiveEntity) : List (String × Tree) :=
  [("siteNumber", .sc (.int o.siteNumber)), ("applicationNumber", .sc (.int o.applicationNumber)),
    ("eventNumber", .sc (.int o.eventNumber))]

/-- The attributes of a `ExpendableDescriptor` object by name (/repo/opendis/dis7.py:3504-3523). -/
def ExpendableDescriptor.members (o : ExpendableDescriptor) : List (String × Tree) :=
  [("expendableType", .obj (EntityType.members o.expendableType)),
    ("padding", .sc (.int o.padding))]

/-- The attributes of a `PropulsionSystemData` object by name (/repo/opendis/dis7.py:3526-3550). -/
def PropulsionSystemData.members (o : PropulsionSystemData) : List (String × Tree) :=
  [("powerSetting", .sc (.float o.powerSetting)), ("engineRpm", .sc (.float o.engineRpm))]

/-- The attributes of a `LiveEntityIdentifier` object by name (/repo/opendis/dis7.py:3553-3577). -/
def LiveEntityIdentifier.members (o : LiveEntityIdentifier) : List (String × Tree) :=
  [("liveSimulationAddress", .obj (LiveSimulationAddress.members o.liveSimulationAddress)),
    ("entityNumber", .sc (.int o.entityNumber))]

/-- The attributes of a `SeparationVP` object by name (/repo/opendis/dis7.py:3580-3621). -/
def SeparationVP.members (o : SeparationVP) : List (String × Tree) :=
  [("recordType", .sc (.int o.recordType)),
    ("reasonForSeparation", .sc (.int o.reasonForSeparation)),
    ("preEntityIndicator", .sc (.int o.preEntityIndicator)), ("padding1", .sc (.int o.padding1)),
    ("parentEntityID", .obj (EntityIdentifier.members o.parentEntityID)),
    ("padding2", .sc (.int o.padding2)),
    ("stationLocation", .intOr NamedLocationIdentification.members o.stationLocation)]

/-- The attributes of a `EmitterSystem` object by name (/repo/opendis/dis7.py:3624-3648). -/
def EmitterSystem.members (o : EmitterSystem) : List (String × Tree) :=
  [("emitterName", .sc (.int o.emitterName)), ("emitterFunction", .sc (.int o.emitterFunction)),
    ("emitterIDNumber", .sc (.int o.emitterIDNumber))]

/-- The attributes of a `PduStatus` object by name (/repo/opendis/dis7.py:3651-3668). -/
def PduStatus.members (o : PduStatus) : List (String × Tree) :=
  [("pduStatus", .sc (.int o.pduStatus))]

/-- The attributes of a `EmissionSystemBeamRecord` object by name (/repo/opendis/dis7.py:5172-5231). -/
def EmissionSystemBeamRecord.members (o : EmissionSystemBeamRecord) : List (String × Tree) :=
  [("beamDataLength", .sc (.int o.beamDataLength)), ("beamIDNumber", .sc (.int o.beamIDNumber)),
    ("beamParameterIndex", .sc (.int o.beamParameterIndex)),
    ("fundamentalParameterData", .obj (EEFundamentalParameterData.members o.fundamentalParameterData)),
    ("beamFunction", .sc (.int o.beamFunction)),
    ("highDensityTrackJam", .sc (.int o.highDensityTrackJam)),
    ("beamStatus", .obj (BeamStatus.members o.beamStatus)),
    ("jammingModeSequence", .sc (.int o.jammingModeSequence)),
    ("trackJamRecords", .objs TrackJamData.members o.trackJamRecords)]

/-- The attributes of a `EmissionSystemRecord` object by name (/repo/opendis/dis7.py:5234-5276). -/
def EmissionSystemRecord.members (o : EmissionSystemRecord) : List (String × Tree) :=
  [("systemDataLength", .sc (.int o.systemDataLength)),
    ("paddingForEmissionsPdu", .sc (.int o.paddingForEmissionsPdu)),
    ("emitterSystem", .obj (EmitterSystem.members o.emitterSystem)),
    ("location", .obj (Vector3Float.members o.location)),
    ("beamRecords", .objs EmissionSystemBeamRecord.members o.beamRecords)]

/-- The attributes of a `PduSuperclass` object by name (/repo/opendis/dis7.py:3424-3478). -/
def PduSuperclass.members (o : PduSuperclass) : List (String × Tree) :=
  [("protocolVersion", .sc (.int o.protocolVersion)), ("exerciseID", .sc (.int o.exerciseID)),
    ("pduType", .sc (.int o.pduType)), ("protocolFamily", .sc (.int o.protocolFamily)),
    ("timestamp", .sc (.int o.timestamp)), ("length", .sc (.int o.length))]

/-- The attributes of a `LiveEntityPdu` object by name (/repo/opendis/dis7.py:3671-3695). -/
def LiveEntityPdu.members (o : LiveEntityPdu) : List (String × Tree) :=
  PduSuperclass.members o.toPduSuperclass ++ [("subprotocolNumber", .sc (.int o.subprotocolNumber)),
     ("padding", .sc (.int o.padding))]

/-- The attributes of a `Pdu` object by name (/repo/opendis/dis7.py:3698-3718). -/
def Pdu.members (o : Pdu) : List (String × Tree) :=
  PduSuperclass.members o.toPduSuperclass ++ [("pduStatus", .sc (.int o.pduStatus)),
     ("padding", .sc (.int o.padding))]

/-- The attributes of a `EntityInformationFamilyPdu` object by name (/repo/opendis/dis7.py:3721-3738). -/
def EntityInformationFamilyPdu.members (o : EntityInformationFamilyPdu) : List (String × Tree) :=
  Pdu.members o.toPdu ++ []

/-- The attributes of a `LogisticsFamilyPdu` object by name (/repo/opendis/dis7.py:3741-3757). -/
def LogisticsFamilyPdu.members (o : LogisticsFamilyPdu) : List (String × Tree) :=
  Pdu.members o.toPdu ++ []

/-- The attributes of a `EntityStateUpdatePdu` object by name (/repo/opendis/dis7.py:3760-3820). -/
def EntityStateUpdatePdu.members (o : EntityStateUpdatePdu) : List (String × Tree) :=
  EntityInformationFamilyPdu.members o.toEntityInformationFamilyPdu ++
    [("entityID", .obj (EntityIdentifier.members o.entityID)), ("padding1", .sc (.int o.padding1)),
     ("entityLinearVelocity", .obj (Vector3Float.members o.entityLinearVelocity)),
     ("entityLocation", .obj (WorldCoordinates.members o.entityLocation)),
     ("entityOrientation", .obj (EulerAngles.members o.entityOrientation)),
     ("entityAppearance", .sc (.int o.entityAppearance)),
     ("variableParameters", .objs VariableParameter.members o.variableParameters)]

/-- The attributes of a `ServiceRequestPdu` object by name (/repo/opendis/dis7.py:3823-3872). -/
def ServiceRequestPdu.members (o : ServiceRequestPdu) : List (String × Tree) :=
  LogisticsFamilyPdu.members o.toLogisticsFamilyPdu ++
    [("requestingEntityID", .obj (EntityIdentifier.members o.requestingEntityID)),
     ("servicingEntityID", .obj (EntityIdentifier.members o.servicingEntityID)),
     ("serviceTypeRequested", .sc (.int o.serviceTypeRequested)),
     ("serviceRequestPadding", .sc (.int o.serviceRequestPadding)),
     ("supplies", .objs SupplyQuantity.members o.supplies)]

/-- The attributes of a `RepairCompletePdu` object by name (/repo/opendis/dis7.py:3875-3910). -/
def RepairCompletePdu.members (o : RepairCompletePdu) : List (String × Tree) :=
  LogisticsFamilyPdu.members o.toLogisticsFamilyPdu ++
    [("receivingEntityID", .obj (EntityIdentifier.members o.receivingEntityID)),
     ("repairingEntityID", .obj (EntityIdentifier.members o.repairingEntityID)),
     ("repair", .sc (.int o.repair)), ("padding4", .sc (.int o.padding4))]

/-- The attributes of a `SyntheticEnvironmentFamilyPdu` object by name (/repo/opendis/dis7.py:3913-3929). -/
def SyntheticEnvironmentFamilyPdu.members (o : SyntheticEnvironmentFamilyPdu) : List (String × Tree) :=
  Pdu.members o.toPdu ++ []

/-- The attributes of a `CollisionPdu` object by name (/repo/opendis/dis7.py:3932-3987). -/
def CollisionPdu.members (o : CollisionPdu) : List (String × Tree) :=
  EntityInformationFamilyPdu.members o.toEntityInformationFamilyPdu ++
    [("issuingEntityID", .obj (EntityIdentifier.members o.issuingEntityID)),
     ("collidingEntityID", .obj (EntityIdentifier.members o.collidingEntityID)),
     ("eventID", .obj (EventIdentifier.members o.eventID)),
     ("collisionType", .sc (.int o.collisionType)), ("pad", .sc (.int o.pad)),
     ("velocity", .obj (Vector3Float.members o.velocity)), ("mass", .sc (.float o.mass)),
     ("location", .obj (Vector3Float.members o.location))]

/-- The attributes of a `RepairResponsePdu` object by name (/repo/opendis/dis7.py:3990-4027). -/
def RepairResponsePdu.members (o : RepairResponsePdu) : List (String × Tree) :=
  LogisticsFamilyPdu.members o.toLogisticsFamilyPdu ++
    [("receivingEntityID", .obj (EntityIdentifier.members o.receivingEntityID)),
     ("repairingEntityID", .obj (EntityIdentifier.members o.repairingEntityID)),
     ("repairResult", .sc (.int o.repairResult)), ("padding1", .sc (.int o.padding1)),
     ("padding2", .sc (.int o.padding2))]

/-- The attributes of a `SimulationManagementFamilyPdu` object by name (/repo/opendis/dis7.py:4030-4056). -/
def SimulationManagementFamilyPdu.members (o : SimulationManagementFamilyPdu) : List (String × Tree) :=
  Pdu.members o.toPdu ++ [
     ("originatingEntityID", .obj (EntityIdentifier.members o.originatingEntityID)),
     ("receivingEntityID", .obj (EntityIdentifier.members o.receivingEntityID))]

/-- The attributes of a `DataQueryPdu` object by name (/repo/opendis/dis7.py:4059-4107). -/
def DataQueryPdu.members (o : DataQueryPdu) : List (String × Tree) :=
  SimulationManagementFamilyPdu.members o.toSimulationManagementFamilyPdu ++
    [("requestID", .sc (.int o.requestID)), ("timeInterval", .sc (.int o.timeInterval)),
     ("_dataQuery", .obj (DataQueryDatumSpecification.members o._dataQuery))]

/-- The attributes of a `LinearObjectStatePdu` object by name (/repo/opendis/dis7.py:4110-4175). -/
def LinearObjectStatePdu.members (o : LinearObjectStatePdu) : List (String × Tree) :=
  SyntheticEnvironmentFamilyPdu.members o.toSyntheticEnvironmentFamilyPdu ++
    [("objectID", .obj (EntityIdentifier.members o.objectID)),
     ("referencedObjectID", .obj (EntityIdentifier.members o.referencedObjectID)),
     ("updateNumber", .sc (.int o.updateNumber)), ("forceID", .sc (.int o.forceID)),
     ("requesterID", .obj (SimulationAddress.members o.requesterID)),
     ("receivingID", .obj (SimulationAddress.members o.receivingID)),
     ("objectType", .obj (ObjectType.members o.objectType)),
     ("linearSegmentParameters", .objs LinearSegmentParameter.members o.linearSegmentParameters)]

/-- The attributes of a `CreateEntityPdu` object by name (/repo/opendis/dis7.py:4178-4198). -/
def CreateEntityPdu.members (o : CreateEntityPdu) : List (String × Tree) :=
  SimulationManagementFamilyPdu.members o.toSimulationManagementFamilyPdu ++ [
     ("requestID", .sc (.int o.requestID))]

/-- The attributes of a `RadioCommunicationsFamilyPdu` object by name (/repo/opendis/dis7.py:4201-4217). -/
def RadioCommunicationsFamilyPdu.members (o : RadioCommunicationsFamilyPdu) : List (String × Tree) :=
  Pdu.members o.toPdu ++ []

/-- The attributes of a `IntercomSignalPdu` object by name (/repo/opendis/dis7.py:4220-4280). -/
def IntercomSignalPdu.members (o : IntercomSignalPdu) : List (String × Tree) :=
  RadioCommunicationsFamilyPdu.members o.toRadioCommunicationsFamilyPdu ++
    [("entityID", .obj (EntityIdentifier.members o.entityID)),
     ("communicationsDeviceID", .sc (.int o.communicationsDeviceID)),
     ("encodingScheme", .sc (.int o.encodingScheme)), ("tdlType", .sc (.int o.tdlType)),
     ("sampleRate", .sc (.int o.sampleRate)), ("samples", .sc (.int o.samples)),
     ("data", .ints o.data)]

/-- The attributes of a `RemoveEntityPdu` object by name (/repo/opendis/dis7.py:4283-4305). -/
def RemoveEntityPdu.members (o : RemoveEntityPdu) : List (String × Tree) :=
  SimulationManagementFamilyPdu.members o.toSimulationManagementFamilyPdu ++ [
     ("requestID", .sc (.int o.requestID))]

/-- The attributes of a `ResupplyReceivedPdu` object by name (/repo/opendis/dis7.py:4308-4355). -/
def ResupplyReceivedPdu.members (o : ResupplyReceivedPdu) : List (String × Tree) :=
  LogisticsFamilyPdu.members o.toLogisticsFamilyPdu ++
    [("receivingEntityID", .obj (EntityIdentifier.members o.receivingEntityID)),
     ("supplyingEntityID", .obj (EntityIdentifier.members o.supplyingEntityID)),
     ("padding1", .sc (.int o.padding1)), ("padding2", .sc (.int o.padding2)),
     ("supplies", .objs SupplyQuantity.members o.supplies)]

/-- The attributes of a `WarfareFamilyPdu` object by name (/repo/opendis/dis7.py:4358-4385). -/
def WarfareFamilyPdu.members (o : WarfareFamilyPdu) : List (String × Tree) :=
  Pdu.members o.toPdu ++ [("firingEntityID", .obj (EntityIdentifier.members o.firingEntityID)),
     ("targetEntityID", .obj (EntityIdentifier.members o.targetEntityID))]

/-- The attributes of a `CollisionElasticPdu` object by name (/repo/opendis/dis7.py:4388-4474). -/
def CollisionElasticPdu.members (o : CollisionElasticPdu) : List (String × Tree) :=
  EntityInformationFamilyPdu.members o.toEntityInformationFamilyPdu ++
    [("issuingEntityID", .obj (EntityIdentifier.members o.issuingEntityID)),
     ("collidingEntityID", .obj (EntityIdentifier.members o.collidingEntityID)),
     ("collisionEventID", .obj (EventIdentifier.members o.collisionEventID)),
     ("pad", .sc (.int o.pad)), ("contactVelocity", .obj (Vector3Float.members o.contactVelocity)),
     ("mass", .sc (.float o.mass)),
     ("locationOfImpact", .obj (Vector3Float.members o.locationOfImpact)),
     ("collisionIntermediateResultXX", .sc (.float o.collisionIntermediateResultXX)),
     ("collisionIntermediateResultXY", .sc (.float o.collisionIntermediateResultXY)),
     ("collisionIntermediateResultXZ", .sc (.float o.collisionIntermediateResultXZ)),
     ("collisionIntermediateResultYY", .sc (.float o.collisionIntermediateResultYY)),
     ("collisionIntermediateResultYZ", .sc (.float o.collisionIntermediateResultYZ)),
     ("collisionIntermediateResultZZ", .sc (.float o.collisionIntermediateResultZZ)),
     ("unitSurfaceNormal", .obj (Vector3Float.members o.unitSurfaceNormal)),
     ("coefficientOfRestitution", .sc (.float o.coefficientOfRestitution))]

/-- The attributes of a `ActionRequestPdu` object by name (/repo/opendis/dis7.py:4477-4527). -/
def ActionRequestPdu.members (o : ActionRequestPdu) : List (String × Tree) :=
  SimulationManagementFamilyPdu.members o.toSimulationManagementFamilyPdu ++
    [("requestID", .sc (.int o.requestID)), ("actionID", .sc (.int o.actionID)),
     ("_datums", .obj (DatumSpecification.members o._datums))]

/-- The attributes of a `AcknowledgePdu` object by name (/repo/opendis/dis7.py:4530-4562). -/
def AcknowledgePdu.members (o : AcknowledgePdu) : List (String × Tree) :=
  SimulationManagementFamilyPdu.members o.toSimulationManagementFamilyPdu ++
    [("acknowledgeFlag", .sc (.int o.acknowledgeFlag)), ("responseFlag", .sc (.int o.responseFlag)),
     ("requestID", .sc (.int o.requestID))]

/-- The attributes of a `DistributedEmissionsFamilyPdu` object by name (/repo/opendis/dis7.py:4565-4581). -/
def DistributedEmissionsFamilyPdu.members (o : DistributedEmissionsFamilyPdu) : List (String × Tree) :=
  Pdu.members o.toPdu ++ []

/-- The attributes of a `SimulationManagementWithReliabilityFamilyPdu` object by name (/repo/opendis/dis7.py:4584-4610). -/
def SimulationManagementWithReliabilityFamilyPdu.members (o : SimulationManagementWithReliabilityFamilyPdu) : List (String × Tree) :=
  Pdu.members o.toPdu ++ [
     ("originatingEntityID", .obj (EntityIdentifier.members o.originatingEntityID)),
     ("receivingEntityID", .obj (EntityIdentifier.members o.receivingEntityID))]

/-- The attributes of a `ActionRequestReliablePdu` object by name (/repo/opendis/dis7.py:4613-4675). -/
def ActionRequestReliablePdu.members (o : ActionRequestReliablePdu) : List (String × Tree) :=
  SimulationManagementWithReliabilityFamilyPdu.members o.toSimulationManagementWithReliabilityFamilyPdu ++
    [("requiredReliabilityService", .sc (.int o.requiredReliabilityService)),
     ("pad1", .sc (.int o.pad1)), ("pad2", .sc (.int o.pad2)),
     ("requestID", .sc (.int o.requestID)), ("actionID", .sc (.int o.actionID)),
     ("pad3", .sc (.int o.pad3)), ("_datums", .obj (DatumSpecification.members o._datums))]

/-- The attributes of a `DesignatorPdu` object by name (/repo/opendis/dis7.py:4678-4753). -/
def DesignatorPdu.members (o : DesignatorPdu) : List (String × Tree) :=
  DistributedEmissionsFamilyPdu.members o.toDistributedEmissionsFamilyPdu ++
    [("designatingEntityID", .obj (EntityIdentifier.members o.designatingEntityID)),
     ("codeName", .sc (.int o.codeName)),
     ("designatedEntityID", .obj (EntityIdentifier.members o.designatedEntityID)),
     ("designatorCode", .sc (.int o.designatorCode)),
     ("designatorPower", .sc (.float o.designatorPower)),
     ("designatorWavelength", .sc (.float o.designatorWavelength)),
     ("designatorSpotWrtDesignated", .obj (Vector3Float.members o.designatorSpotWrtDesignated)),
     ("designatorSpotLocation", .obj (WorldCoordinates.members o.designatorSpotLocation)),
     ("deadReckoningAlgorithm", .sc (.int o.deadReckoningAlgorithm)),
     ("padding1", .sc (.int o.padding1)), ("padding2", .sc (.int o.padding2)),
     ("entityLinearAcceleration", .obj (Vector3Float.members o.entityLinearAcceleration))]

/-- The attributes of a `StopFreezePdu` object by name (/repo/opendis/dis7.py:4756-4795). -/
def StopFreezePdu.members (o : StopFreezePdu) : List (String × Tree) :=
  SimulationManagementFamilyPdu.members o.toSimulationManagementFamilyPdu ++
    [("realWorldTime", .obj (ClockTime.members o.realWorldTime)), ("reason", .sc (.int o.reason)),
     ("frozenBehavior", .sc (.int o.frozenBehavior)), ("padding1", .sc (.int o.padding1)),
     ("requestID", .sc (.int o.requestID))]

/-- The attributes of a `EntityStatePdu` object by name (/repo/opendis/dis7.py:4798-4887). -/
def EntityStatePdu.members (o : EntityStatePdu) : List (String × Tree) :=
  EntityInformationFamilyPdu.members o.toEntityInformationFamilyPdu ++
    [("entityID", .obj (EntityIdentifier.members o.entityID)), ("forceId", .sc (.int o.forceId)),
     ("entityType", .obj (EntityType.members o.entityType)),
     ("alternativeEntityType", .obj (EntityType.members o.alternativeEntityType)),
     ("entityLinearVelocity", .obj (Vector3Float.members o.entityLinearVelocity)),
     ("entityLocation", .obj (WorldCoordinates.members o.entityLocation)),
     ("entityOrientation", .obj (EulerAngles.members o.entityOrientation)),
     ("entityAppearance", .sc (.int o.entityAppearance)),
     ("deadReckoningParameters", .obj (DeadReckoningParameters.members o.deadReckoningParameters)),
     ("marking", .obj (EntityMarking.members o.marking)),
     ("capabilities", .sc (.int o.capabilities)),
     ("variableParameters", .objs VariableParameter.members o.variableParameters)]

/-- The attributes of a `EntityManagementFamilyPdu` object by name (/repo/opendis/dis7.py:4890-4906). -/
def EntityManagementFamilyPdu.members (o : EntityManagementFamilyPdu) : List (String × Tree) :=
  Pdu.members o.toPdu ++ []

/-- The attributes of a `StartResumePdu` object by name (/repo/opendis/dis7.py:4909-4940). -/
def StartResumePdu.members (o : StartResumePdu) : List (String × Tree) :=
  SimulationManagementFamilyPdu.members o.toSimulationManagementFamilyPdu ++
    [("realWorldTime", .obj (ClockTime.members o.realWorldTime)),
     ("simulationTime", .obj (ClockTime.members o.simulationTime)),
     ("requestID", .sc (.int o.requestID))]

/-- The attributes of a `ElectromagneticEmissionsPdu` object by name (/repo/opendis/dis7.py:5119-5169). -/
def ElectromagneticEmissionsPdu.members (o : ElectromagneticEmissionsPdu) : List (String × Tree) :=
  DistributedEmissionsFamilyPdu.members o.toDistributedEmissionsFamilyPdu ++
    [("emittingEntityID", .obj (EntityIdentifier.members o.emittingEntityID)),
     ("eventID", .obj (EventIdentifier.members o.eventID)),
     ("stateUpdateIndicator", .sc (.int o.stateUpdateIndicator)),
     ("systems", .objs EmissionSystemRecord.members o.systems),
     ("paddingForEmissionsPdu", .sc (.int o.paddingForEmissionsPdu))]

/-- The attributes of a `ResupplyOfferPdu` object by name (/repo/opendis/dis7.py:5279-5327). -/
def ResupplyOfferPdu.members (o : ResupplyOfferPdu) : List (String × Tree) :=
  LogisticsFamilyPdu.members o.toLogisticsFamilyPdu ++
    [("receivingEntityID", .obj (EntityIdentifier.members o.receivingEntityID)),
     ("supplyingEntityID", .obj (EntityIdentifier.members o.supplyingEntityID)),
     ("padding1", .sc (.int o.padding1)), ("padding2", .sc (.int o.padding2)),
     ("supplies", .objs SupplyQuantity.members o.supplies)]

/-- The attributes of a `AttributePdu` object by name (/repo/opendis/dis7.py:5330-5391). -/
def AttributePdu.members (o : AttributePdu) : List (String × Tree) :=
  EntityInformationFamilyPdu.members o.toEntityInformationFamilyPdu ++
    [
     ("originatingSimulationAddress", .obj (SimulationAddress.members o.originatingSimulationAddress)),
     ("padding1", .sc (.int o.padding1)), ("padding2", .sc (.int o.padding2)),
     ("attributeRecordPduType", .sc (.int o.attributeRecordPduType)),
     ("attributeRecordProtocolVersion", .sc (.int o.attributeRecordProtocolVersion)),
     ("masterAttributeRecordType", .sc (.int o.masterAttributeRecordType)),
     ("actionCode", .sc (.int o.actionCode)), ("padding3", .sc (.int o.padding3)),
     ("numberOfAttributeRecordSets", .sc (.int o.numberOfAttributeRecordSets))]

/-- The attributes of a `MinefieldFamilyPdu` object by name (/repo/opendis/dis7.py:5394-5410). -/
def MinefieldFamilyPdu.members (o : MinefieldFamilyPdu) : List (String × Tree) :=
  Pdu.members o.toPdu ++ []

/-- The attributes of a `SetDataReliablePdu` object by name (/repo/opendis/dis7.py:5413-5468). -/
def SetDataReliablePdu.members (o : SetDataReliablePdu) : List (String × Tree) :=
  SimulationManagementWithReliabilityFamilyPdu.members o.toSimulationManagementWithReliabilityFamilyPdu ++
    [("requiredReliabilityService", .sc (.int o.requiredReliabilityService)),
     ("pad1", .sc (.int o.pad1)), ("pad2", .sc (.int o.pad2)),
     ("requestID", .sc (.int o.requestID)),
     ("_datums", .obj (DatumSpecification.members o._datums))]

/-- The attributes of a `EventReportPdu` object by name (/repo/opendis/dis7.py:5471-5502). -/
def EventReportPdu.members (o : EventReportPdu) : List (String × Tree) :=
  SimulationManagementFamilyPdu.members o.toSimulationManagementFamilyPdu ++
    [("eventType", .sc (.int o.eventType)), ("padding1", .sc (.int o.padding1)),
     ("_datums", .obj (DatumSpecification.members o._datums))]

/-- The attributes of a `PointObjectStatePdu` object by name (/repo/opendis/dis7.py:5505-5582). -/
def PointObjectStatePdu.members (o : PointObjectStatePdu) : List (String × Tree) :=
  SyntheticEnvironmentFamilyPdu.members o.toSyntheticEnvironmentFamilyPdu ++
    [("objectID", .obj (EntityIdentifier.members o.objectID)),
     ("referencedObjectID", .obj (EntityIdentifier.members o.referencedObjectID)),
     ("updateNumber", .sc (.int o.updateNumber)), ("forceID", .sc (.int o.forceID)),
     ("modifications", .sc (.int o.modifications)),
     ("objectType", .obj (ObjectType.members o.objectType)),
     ("objectLocation", .obj (WorldCoordinates.members o.objectLocation)),
     ("objectOrientation", .obj (EulerAngles.members o.objectOrientation)),
     ("objectAppearance", .sc (.float o.objectAppearance)), ("pad1", .sc (.int o.pad1)),
     ("requesterID", .obj (SimulationAddress.members o.requesterID)),
     ("receivingID", .obj (SimulationAddress.members o.receivingID)), ("pad2", .sc (.int o.pad2))]

/-- The attributes of a `DataPdu` object by name (/repo/opendis/dis7.py:5585-5634). -/
def DataPdu.members (o : DataPdu) : List (String × Tree) :=
  SimulationManagementFamilyPdu.members o.toSimulationManagementFamilyPdu ++
    [("requestID", .sc (.int o.requestID)), ("padding1", .sc (.int o.padding1)),
     ("_datums", .obj (DatumSpecification.members o._datums))]

/-- The attributes of a `FastEntityStatePdu` object by name (/repo/opendis/dis7.py:5637-5868). -/
def FastEntityStatePdu.members (o : FastEntityStatePdu) : List (String × Tree) :=
  EntityInformationFamilyPdu.members o.toEntityInformationFamilyPdu ++
    [("site", .sc (.int o.site)), ("application", .sc (.int o.application)),
     ("entity", .sc (.int o.entity)), ("forceId", .sc (.int o.forceId)),
     ("numberOfVariableParameters", .sc (.int o.numberOfVariableParameters)),
     ("entityKind", .sc (.int o.entityKind)), ("domain", .sc (.int o.domain)),
     ("country", .sc (.int o.country)), ("category", .sc (.int o.category)),
     ("subcategory", .sc (.int o.subcategory)), ("specific", .sc (.int o.specific)),
     ("extra", .sc (.int o.extra)), ("altEntityKind", .sc (.int o.altEntityKind)),
     ("altDomain", .sc (.int o.altDomain)), ("altCountry", .sc (.int o.altCountry)),
     ("altCategory", .sc (.int o.altCategory)), ("altSubcategory", .sc (.int o.altSubcategory)),
     ("altSpecific", .sc (.int o.altSpecific)), ("altExtra", .sc (.int o.altExtra)),
     ("xVelocity", .sc (.float o.xVelocity)), ("yVelocity", .sc (.float o.yVelocity)),
     ("zVelocity", .sc (.float o.zVelocity)), ("xLocation", .sc (.float o.xLocation)),
     ("yLocation", .sc (.float o.yLocation)), ("zLocation", .sc (.float o.zLocation)),
     ("psi", .sc (.float o.psi)), ("theta", .sc (.float o.theta)), ("phi", .sc (.float o.phi)),
     ("entityAppearance", .sc (.int o.entityAppearance)),
     ("deadReckoningAlgorithm", .sc (.int o.deadReckoningAlgorithm)),
     ("otherParameters", .ints o.otherParameters), ("xAcceleration", .sc (.float o.xAcceleration)),
     ("yAcceleration", .sc (.float o.yAcceleration)),
     ("zAcceleration", .sc (.float o.zAcceleration)),
     ("xAngularVelocity", .sc (.float o.xAngularVelocity)),
     ("yAngularVelocity", .sc (.float o.yAngularVelocity)),
     ("zAngularVelocity", .sc (.float o.zAngularVelocity)), ("marking", .ints o.marking),
     ("capabilities", .sc (.int o.capabilities)),
     ("variableParameters", .objs VariableParameter.members o.variableParameters)]

/-- The attributes of a `AcknowledgeReliablePdu` object by name (/repo/opendis/dis7.py:5871-5902). -/
def AcknowledgeReliablePdu.members (o : AcknowledgeReliablePdu) : List (String × Tree) :=
  SimulationManagementWithReliabilityFamilyPdu.members o.toSimulationManagementWithReliabilityFamilyPdu ++
    [("acknowledgeFlag", .sc (.int o.acknowledgeFlag)), ("responseFlag", .sc (.int o.responseFlag)),
     ("requestID", .sc (.int o.requestID))]

/-- The attributes of a `StartResumeReliablePdu` object by name (/repo/opendis/dis7.py:5905-5946). -/
def StartResumeReliablePdu.members (o : StartResumeReliablePdu) : List (String × Tree) :=
  SimulationManagementWithReliabilityFamilyPdu.members o.toSimulationManagementWithReliabilityFamilyPdu ++
    [("realWorldTime", .obj (ClockTime.members o.realWorldTime)),
     ("simulationTime", .obj (ClockTime.members o.simulationTime)),
     ("requiredReliabilityService", .sc (.int o.requiredReliabilityService)),
     ("pad1", .sc (.int o.pad1)), ("pad2", .sc (.int o.pad2)),
     ("requestID", .sc (.int o.requestID))]

/-- The attributes of a `ArealObjectStatePdu` object by name (/repo/opendis/dis7.py:5949-6025). -/
def ArealObjectStatePdu.members (o : ArealObjectStatePdu) : List (String × Tree) :=
  SyntheticEnvironmentFamilyPdu.members o.toSyntheticEnvironmentFamilyPdu ++
    [("objectID", .obj (EntityIdentifier.members o.objectID)),
     ("referencedObjectID", .obj (EntityIdentifier.members o.referencedObjectID)),
     ("updateNumber", .sc (.int o.updateNumber)), ("forceID", .sc (.int o.forceID)),
     ("modifications", .sc (.int o.modifications)),
     ("objectType", .obj (ObjectType.members o.objectType)),
     ("specificObjectAppearance", .sc (.int o.specificObjectAppearance)),
     ("generalObjectAppearance", .sc (.int o.generalObjectAppearance)),
     ("requesterID", .obj (SimulationAddress.members o.requesterID)),
     ("receivingID", .obj (SimulationAddress.members o.receivingID)),
     ("objectLocation", .objs WorldCoordinates.members o.objectLocation)]

/-- The attributes of a `DataQueryReliablePdu` object by name (/repo/opendis/dis7.py:6028-6087). -/
def DataQueryReliablePdu.members (o : DataQueryReliablePdu) : List (String × Tree) :=
  SimulationManagementWithReliabilityFamilyPdu.members o.toSimulationManagementWithReliabilityFamilyPdu ++
    [("requiredReliabilityService", .sc (.int o.requiredReliabilityService)),
     ("pad1", .sc (.int o.pad1)), ("pad2", .sc (.int o.pad2)),
     ("requestID", .sc (.int o.requestID)), ("timeInterval", .sc (.int o.timeInterval)),
     ("_dataQuery", .obj (DataQueryDatumSpecification.members o._dataQuery))]

/-- The attributes of a `MinefieldStatePdu` object by name (/repo/opendis/dis7.py:6090-6172). -/
def MinefieldStatePdu.members (o : MinefieldStatePdu) : List (String × Tree) :=
  MinefieldFamilyPdu.members o.toMinefieldFamilyPdu ++
    [("minefieldID", .obj (MinefieldIdentifier.members o.minefieldID)),
     ("minefieldSequence", .sc (.int o.minefieldSequence)), ("forceID", .sc (.int o.forceID)),
     ("minefieldType", .obj (EntityType.members o.minefieldType)),
     ("minefieldLocation", .obj (WorldCoordinates.members o.minefieldLocation)),
     ("minefieldOrientation", .obj (EulerAngles.members o.minefieldOrientation)),
     ("appearance", .sc (.int o.appearance)), ("protocolMode", .sc (.int o.protocolMode)),
     ("perimeterPoints", .objs Vector2Float.members o.perimeterPoints),
     ("mineTypes", .objs EntityType.members o.mineTypes)]

/-- The attributes of a `DataReliablePdu` object by name (/repo/opendis/dis7.py:6175-6230). -/
def DataReliablePdu.members (o : DataReliablePdu) : List (String × Tree) :=
  SimulationManagementWithReliabilityFamilyPdu.members o.toSimulationManagementWithReliabilityFamilyPdu ++
    [("requestID", .sc (.int o.requestID)),
     ("requiredReliabilityService", .sc (.int o.requiredReliabilityService)),
     ("pad1", .sc (.int o.pad1)), ("pad2", .sc (.int o.pad2)),
     ("_datums", .obj (DatumSpecification.members o._datums))]

/-- The attributes of a `CommentPdu` object by name (/repo/opendis/dis7.py:6233-6272). -/
def CommentPdu.members (o : CommentPdu) : List (String × Tree) :=
  SimulationManagementFamilyPdu.members o.toSimulationManagementFamilyPdu ++ [
     ("_datums", .obj (DatumSpecification.members o._datums))]

/-- The attributes of a `CommentReliablePdu` object by name (/repo/opendis/dis7.py:6275-6315). -/
def CommentReliablePdu.members (o : CommentReliablePdu) : List (String × Tree) :=
  SimulationManagementWithReliabilityFamilyPdu.members o.toSimulationManagementWithReliabilityFamilyPdu ++ [
     ("_datums", .obj (DatumSpecification.members o._datums))]

/-- The attributes of a `DetonationPdu` object by name (/repo/opendis/dis7.py:6406-6475). -/
def DetonationPdu.members (o : DetonationPdu) : List (String × Tree) :=
  WarfareFamilyPdu.members o.toWarfareFamilyPdu ++
    [("explodingEntityID", .obj (EntityIdentifier.members o.explodingEntityID)),
     ("eventID", .obj (EventIdentifier.members o.eventID)),
     ("velocity", .obj (Vector3Float.members o.velocity)),
     ("location", .obj (WorldCoordinates.members o.location)),
     ("descriptor", .obj (MunitionDescriptor.members o.descriptor)),
     ("locationInEntityCoordinates", .obj (Vector3Float.members o.locationInEntityCoordinates)),
     ("detonationResult", .sc (.int o.detonationResult)), ("pad", .sc (.int o.pad)),
     ("variableParameters", .objs VariableParameter.members o.variableParameters)]

/-- The attributes of a `SetDataPdu` object by name (/repo/opendis/dis7.py:6478-6524). -/
def SetDataPdu.members (o : SetDataPdu) : List (String × Tree) :=
  SimulationManagementFamilyPdu.members o.toSimulationManagementFamilyPdu ++
    [("requestID", .sc (.int o.requestID)), ("padding1", .sc (.int o.padding1)),
     ("_datums", .obj (DatumSpecification.members o._datums))]

/-- The attributes of a `RecordQueryReliablePdu` object by name (/repo/opendis/dis7.py:6527-6581). -/
def RecordQueryReliablePdu.members (o : RecordQueryReliablePdu) : List (String × Tree) :=
  SimulationManagementWithReliabilityFamilyPdu.members o.toSimulationManagementWithReliabilityFamilyPdu ++
    [("requestID", .sc (.int o.requestID)),
     ("requiredReliabilityService", .sc (.int o.requiredReliabilityService)),
     ("pad1", .sc (.int o.pad1)), ("pad2", .sc (.int o.pad2)),
     ("eventType", .sc (.int o.eventType)), ("time", .sc (.int o.time)),
     ("recordIDs", .ints o.recordIDs)]

/-- The attributes of a `ActionResponsePdu` object by name (/repo/opendis/dis7.py:6584-6632). -/
def ActionResponsePdu.members (o : ActionResponsePdu) : List (String × Tree) :=
  SimulationManagementFamilyPdu.members o.toSimulationManagementFamilyPdu ++
    [("requestID", .sc (.int o.requestID)), ("requestStatus", .sc (.int o.requestStatus)),
     ("_datums", .obj (DatumSpecification.members o._datums))]

/-- The attributes of a `FirePdu` object by name (/repo/opendis/dis7.py:6680-6733). -/
def FirePdu.members (o : FirePdu) : List (String × Tree) :=
  WarfareFamilyPdu.members o.toWarfareFamilyPdu ++
    [("munitionExpendableID", .obj (EntityIdentifier.members o.munitionExpendableID)),
     ("eventID", .obj (EventIdentifier.members o.eventID)),
     ("fireMissionIndex", .sc (.int o.fireMissionIndex)),
     ("location", .obj (WorldCoordinates.members o.location)),
     ("descriptor", .obj (MunitionDescriptor.members o.descriptor)),
     ("velocity", .obj (Vector3Float.members o.velocity)), ("range", .sc (.float o.range))]

/-- The attributes of a `ReceiverPdu` object by name (/repo/opendis/dis7.py:6736-6775). -/
def ReceiverPdu.members (o : ReceiverPdu) : List (String × Tree) :=
  RadioCommunicationsFamilyPdu.members o.toRadioCommunicationsFamilyPdu ++
    [("receiverState", .sc (.int o.receiverState)), ("padding1", .sc (.int o.padding1)),
     ("receivedPower", .sc (.float o.receivedPower)),
     ("transmitterEntityID", .obj (EntityIdentifier.members o.transmitterEntityID)),
     ("transmitterRadioId", .sc (.int o.transmitterRadioId))]

/-- The attributes of a `UaPdu` object by name (/repo/opendis/dis7.py:6778-6870). -/
def UaPdu.members (o : UaPdu) : List (String × Tree) :=
  DistributedEmissionsFamilyPdu.members o.toDistributedEmissionsFamilyPdu ++
    [("emittingEntityID", .obj (EntityIdentifier.members o.emittingEntityID)),
     ("eventID", .obj (EventIdentifier.members o.eventID)),
     ("stateChangeIndicator", .sc (.int o.stateChangeIndicator)), ("pad", .sc (.int o.pad)),
     ("passiveParameterIndex", .sc (.int o.passiveParameterIndex)),
     ("propulsionPlantConfiguration", .sc (.int o.propulsionPlantConfiguration)),
     ("shaftRPMs", .ints o.shaftRPMs), ("apaData", .ints o.apaData),
     ("emitterSystems", .ints o.emitterSystems)]

/-- The attributes of a `SignalPdu` object by name (/repo/opendis/dis7.py:6957-7015). -/
def SignalPdu.members (o : SignalPdu) : List (String × Tree) :=
  RadioCommunicationsFamilyPdu.members o.toRadioCommunicationsFamilyPdu ++
    [("entityID", .obj (EntityIdentifier.members o.entityID)), ("radioID", .sc (.int o.radioID)),
     ("encodingScheme", .sc (.int o.encodingScheme)), ("tdlType", .sc (.int o.tdlType)),
     ("sampleRate", .sc (.int o.sampleRate)), ("samples", .sc (.int o.samples)),
     ("data", .ints o.data)]

/-- The attributes of a `RemoveEntityReliablePdu` object by name (/repo/opendis/dis7.py:7018-7049). -/
def RemoveEntityReliablePdu.members (o : RemoveEntityReliablePdu) : List (String × Tree) :=
  SimulationManagementWithReliabilityFamilyPdu.members o.toSimulationManagementWithReliabilityFamilyPdu ++
    [("requiredReliabilityService", .sc (.int o.requiredReliabilityService)),
     ("pad1", .sc (.int o.pad1)), ("pad2", .sc (.int o.pad2)),
     ("requestID", .sc (.int o.requestID))]

/-- The attributes of a `SeesPdu` object by name (/repo/opendis/dis7.py:7052-7119). -/
def SeesPdu.members (o : SeesPdu) : List (String × Tree) :=
  DistributedEmissionsFamilyPdu.members o.toDistributedEmissionsFamilyPdu ++
    [("orginatingEntityID", .obj (EntityIdentifier.members o.orginatingEntityID)),
     ("infraredSignatureRepresentationIndex", .sc (.int o.infraredSignatureRepresentationIndex)),
     ("acousticSignatureRepresentationIndex", .sc (.int o.acousticSignatureRepresentationIndex)),
     ("radarCrossSectionSignatureRepresentationIndex", .sc (.int o.radarCrossSectionSignatureRepresentationIndex)),
     ("propulsionSystemData", .objs PropulsionSystemData.members o.propulsionSystemData),
     ("vectoringSystemData", .objs VectoringNozzleSystem.members o.vectoringSystemData)]

/-- The attributes of a `CreateEntityReliablePdu` object by name (/repo/opendis/dis7.py:7122-7153). -/
def CreateEntityReliablePdu.members (o : CreateEntityReliablePdu) : List (String × Tree) :=
  SimulationManagementWithReliabilityFamilyPdu.members o.toSimulationManagementWithReliabilityFamilyPdu ++
    [("requiredReliabilityService", .sc (.int o.requiredReliabilityService)),
     ("pad1", .sc (.int o.pad1)), ("pad2", .sc (.int o.pad2)),
     ("requestID", .sc (.int o.requestID))]

/-- The attributes of a `StopFreezeReliablePdu` object by name (/repo/opendis/dis7.py:7156-7199). -/
def StopFreezeReliablePdu.members (o : StopFreezeReliablePdu) : List (String × Tree) :=
  SimulationManagementWithReliabilityFamilyPdu.members o.toSimulationManagementWithReliabilityFamilyPdu ++
    [("realWorldTime", .obj (ClockTime.members o.realWorldTime)), ("reason", .sc (.int o.reason)),
     ("frozenBehavior", .sc (.int o.frozenBehavior)),
     ("requiredReliablityService", .sc (.int o.requiredReliablityService)),
     ("pad1", .sc (.int o.pad1)), ("requestID", .sc (.int o.requestID))]

/-- The attributes of a `EventReportReliablePdu` object by name (/repo/opendis/dis7.py:7202-7250). -/
def EventReportReliablePdu.members (o : EventReportReliablePdu) : List (String × Tree) :=
  SimulationManagementWithReliabilityFamilyPdu.members o.toSimulationManagementWithReliabilityFamilyPdu ++
    [("eventType", .sc (.int o.eventType)), ("pad1", .sc (.int o.pad1)),
     ("_datums", .obj (DatumSpecification.members o._datums))]

/-- The attributes of a `MinefieldResponseNackPdu` object by name (/repo/opendis/dis7.py:7253-7299). -/
def MinefieldResponseNackPdu.members (o : MinefieldResponseNackPdu) : List (String × Tree) :=
  MinefieldFamilyPdu.members o.toMinefieldFamilyPdu ++
    [("minefieldID", .obj (EntityIdentifier.members o.minefieldID)),
     ("requestingEntityID", .obj (EntityIdentifier.members o.requestingEntityID)),
     ("requestID", .sc (.int o.requestID)),
     ("missingPduSequenceNumbers", .ints o.missingPduSequenceNumbers)]

/-- The attributes of a `ActionResponseReliablePdu` object by name (/repo/opendis/dis7.py:7302-7349). -/
def ActionResponseReliablePdu.members (o : ActionResponseReliablePdu) : List (String × Tree) :=
  SimulationManagementWithReliabilityFamilyPdu.members o.toSimulationManagementWithReliabilityFamilyPdu ++
    [("requestID", .sc (.int o.requestID)), ("responseStatus", .sc (.int o.responseStatus)),
     ("_datums", .obj (DatumSpecification.members o._datums))]

/-- The attributes of a `IsPartOfPdu` object by name (/repo/opendis/dis7.py:7352-7397). -/
def IsPartOfPdu.members (o : IsPartOfPdu) : List (String × Tree) :=
  EntityManagementFamilyPdu.members o.toEntityManagementFamilyPdu ++
    [("orginatingEntityID", .obj (EntityIdentifier.members o.orginatingEntityID)),
     ("receivingEntityID", .obj (EntityIdentifier.members o.receivingEntityID)),
     ("relationship", .obj (Relationship.members o.relationship)),
     ("partLocation", .obj (Vector3Float.members o.partLocation)),
     ("namedLocationID", .obj (NamedLocationIdentification.members o.namedLocationID)),
     ("partEntityType", .obj (EntityType.members o.partEntityType))]

/-- The attributes of a `AggregateStatePdu` object by name (/repo/opendis/dis7.py:7400-7537). -/
def AggregateStatePdu.members (o : AggregateStatePdu) : List (String × Tree) :=
  EntityManagementFamilyPdu.members o.toEntityManagementFamilyPdu ++
    [("aggregateID", .obj (AggregateIdentifier.members o.aggregateID)),
     ("forceID", .sc (.int o.forceID)), ("aggregateState", .sc (.int o.aggregateState)),
     ("aggregateType", .obj (AggregateType.members o.aggregateType)),
     ("formation", .sc (.int o.formation)),
     ("aggregateMarking", .obj (AggregateMarking.members o.aggregateMarking)),
     ("dimensions", .obj (Vector3Float.members o.dimensions)),
     ("orientation", .obj (EulerAngles.members o.orientation)),
     ("centerOfMass", .obj (Vector3Float.members o.centerOfMass)),
     ("velocity", .obj (WorldCoordinates.members o.velocity)),
     ("aggregateIDs", .objs AggregateIdentifier.members o.aggregateIDs),
     ("entityIDs", .objs EntityIdentifier.members o.entityIDs),
     ("silentAggregateSystems", .objs SilentAggregateSystem.members o.silentAggregateSystems),
     ("silentEntitySystems", .objs SilentEntitySystem.members o.silentEntitySystems),
     ("variableDatumRecords", .objs VariableDatum.members o.variableDatumRecords)]

end Dis
