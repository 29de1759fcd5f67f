import Verif.Spec.HeapArgs
import Verif.Model.HeapArgs

/-!
# What the parameters of each constructor stand for

Generated by `tools/genheapargs.py`.
-/

set_option linter.unusedVariables false
set_option linter.unusedSimpArgs false

namespace Dis

/-- The constructor of `SimulationAddress` (/repo/opendis/record/common.py:122-128). -/
def Ctor.SimulationAddress : Ctor where
  cls := .SimulationAddress
  params :=
    [⟨"site", ["site"], .asIs⟩, ⟨"application", ["application"], .asIs⟩]
  new := Dis.SimulationAddress.callHeap

/-- The constructor of `EntityIdentifier` (/repo/opendis/record/common.py:39-43). -/
def Ctor.EntityIdentifier : Ctor where
  cls := .EntityIdentifier
  params :=
    [⟨"simulationAddress", ["simulationAddress"], .orFresh⟩, ⟨"entityNumber", ["entityNumber"], .asIs⟩]
  new := Dis.EntityIdentifier.callHeap

/-- The constructor of `EulerAngles` (/repo/opendis/record/common.py:66-72). -/
def Ctor.EulerAngles : Ctor where
  cls := .EulerAngles
  params :=
    [⟨"psi", ["psi"], .asIs⟩, ⟨"theta", ["theta"], .asIs⟩, ⟨"phi", ["phi"], .asIs⟩]
  new := Dis.EulerAngles.callHeap

/-- The constructor of `EventIdentifier` (/repo/opendis/record/common.py:96-101). -/
def Ctor.EventIdentifier : Ctor where
  cls := .EventIdentifier
  params :=
    [⟨"simulationAddress", ["simulationAddress"], .orFresh⟩, ⟨"eventNumber", ["eventNumber"], .asIs⟩]
  new := Dis.EventIdentifier.callHeap

/-- The constructor of `Vector3Float` (/repo/opendis/record/common.py:152-155). -/
def Ctor.Vector3Float : Ctor where
  cls := .Vector3Float
  params :=
    [⟨"x", ["x"], .asIs⟩, ⟨"y", ["y"], .asIs⟩, ⟨"z", ["z"], .asIs⟩]
  new := Dis.Vector3Float.callHeap

/-- The constructor of `WorldCoordinates` (/repo/opendis/record/common.py:180-183). -/
def Ctor.WorldCoordinates : Ctor where
  cls := .WorldCoordinates
  params :=
    [⟨"x", ["x"], .asIs⟩, ⟨"y", ["y"], .asIs⟩, ⟨"z", ["z"], .asIs⟩]
  new := Dis.WorldCoordinates.callHeap

/-- Constructors of `heapCommon` (/repo/opendis). -/
def ctorsCommon : List Ctor :=
  [.SimulationAddress,
   .EntityIdentifier,
   .EulerAngles,
   .EventIdentifier,
   .Vector3Float,
   .WorldCoordinates]

/-- The constructor of `DataQueryDatumSpecification` (/repo/opendis/dis7.py:77-83). -/
def Ctor.DataQueryDatumSpecification : Ctor where
  cls := .DataQueryDatumSpecification
  params :=
    [⟨"fixedDatumIDs", ["fixedDatumIDs"], .orFresh⟩, ⟨"variableDatumIDs", ["variableDatumIDs"], .orFresh⟩]
  new := Dis.DataQueryDatumSpecification.callHeap

/-- The constructor of `RadioIdentifier` (/repo/opendis/dis7.py:122-130). -/
def Ctor.RadioIdentifier : Ctor where
  cls := .RadioIdentifier
  params :=
    [⟨"siteNumber", ["siteNumber"], .asIs⟩, ⟨"applicationNumber", ["applicationNumber"], .asIs⟩,
     ⟨"referenceNumber", ["referenceNumber"], .asIs⟩, ⟨"radioNumber", ["radioNumber"], .asIs⟩]
  new := Dis.RadioIdentifier.callHeap

/-- The constructor of `RequestID` (/repo/opendis/dis7.py:154-156). -/
def Ctor.RequestID : Ctor where
  cls := .RequestID
  params :=
    [⟨"requestID", ["requestID"], .asIs⟩]
  new := Dis.RequestID.callHeap

/-- The constructor of `IFFData` (/repo/opendis/dis7.py:173-182). -/
def Ctor.IFFData : Ctor where
  cls := .IFFData
  params :=
    [⟨"recordType", ["recordType"], .asIs⟩, ⟨"recordLength", ["recordLength"], .asIs⟩,
     ⟨"iffData", ["iffData"], .orFresh⟩]
  new := Dis.IFFData.callHeap

/-- The constructor of `EntityType` (/repo/opendis/dis7.py:2503-2520). -/
def Ctor.EntityType : Ctor where
  cls := .EntityType
  params :=
    [⟨"entityKind", ["entityKind"], .asIs⟩, ⟨"domain", ["domain"], .asIs⟩, ⟨"country", ["country"], .asIs⟩,
     ⟨"category", ["category"], .asIs⟩, ⟨"subcategory", ["subcategory"], .asIs⟩,
     ⟨"specific", ["specific"], .asIs⟩, ⟨"extra", ["extra"], .asIs⟩]
  new := Dis.EntityType.callHeap

/-- The constructor of `MunitionDescriptor` (/repo/opendis/dis7.py:210-227). -/
def Ctor.MunitionDescriptor : Ctor where
  cls := .MunitionDescriptor
  params :=
    [⟨"munitionType", ["munitionType"], .orFresh⟩, ⟨"warhead", ["warhead"], .asIs⟩, ⟨"fuse", ["fuse"], .asIs⟩,
     ⟨"quantity", ["quantity"], .asIs⟩, ⟨"rate", ["rate"], .asIs⟩]
  new := Dis.MunitionDescriptor.callHeap

/-- The constructor of `MinefieldSensorType` (/repo/opendis/dis7.py:252-254). -/
def Ctor.MinefieldSensorType : Ctor where
  cls := .MinefieldSensorType
  params :=
    [⟨"sensorType", ["sensorType"], .asIs⟩]
  new := Dis.MinefieldSensorType.callHeap

/-- The constructor of `GroupID` (/repo/opendis/dis7.py:273-279). -/
def Ctor.GroupID : Ctor where
  cls := .GroupID
  params :=
    [⟨"simulationAddress", ["simulationAddress"], .orFresh⟩, ⟨"groupNumber", ["groupNumber"], .asIs⟩]
  new := Dis.GroupID.callHeap

/-- The constructor of `LayerHeader` (/repo/opendis/dis7.py:299-307). -/
def Ctor.LayerHeader : Ctor where
  cls := .LayerHeader
  params :=
    [⟨"layerNumber", ["layerNumber"], .asIs⟩,
     ⟨"layerSpecificInformation", ["layerSpecificInformation"], .asIs⟩, ⟨"length", ["length"], .asIs⟩]
  new := Dis.LayerHeader.callHeap

/-- The constructor of `UnsignedDISInteger` (/repo/opendis/dis7.py:325-327). -/
def Ctor.UnsignedDISInteger : Ctor where
  cls := .UnsignedDISInteger
  params :=
    [⟨"val", ["val"], .asIs⟩]
  new := Dis.UnsignedDISInteger.callHeap

/-- The constructor of `DeadReckoningParameters` (/repo/opendis/dis7.py:341-354). -/
def Ctor.DeadReckoningParameters : Ctor where
  cls := .DeadReckoningParameters
  params :=
    [⟨"deadReckoningAlgorithm", ["deadReckoningAlgorithm"], .asIs⟩, ⟨"parameters", ["parameters"], .orFresh⟩,
     ⟨"entityLinearAcceleration", ["entityLinearAcceleration"], .orFresh⟩,
     ⟨"entityAngularVelocity", ["entityAngularVelocity"], .orFresh⟩]
  new := Dis.DeadReckoningParameters.callHeap

/-- The constructor of `ProtocolMode` (/repo/opendis/dis7.py:384-386). -/
def Ctor.ProtocolMode : Ctor where
  cls := .ProtocolMode
  params :=
    [⟨"protocolMode", ["protocolMode"], .asIs⟩]
  new := Dis.ProtocolMode.callHeap

/-- The constructor of `AngleDeception` (/repo/opendis/dis7.py:409-434). -/
def Ctor.AngleDeception : Ctor where
  cls := .AngleDeception
  params :=
    [⟨"emitterNumber", ["emitterNumber"], .asIs⟩, ⟨"beamNumber", ["beamNumber"], .asIs⟩,
     ⟨"stateIndicator", ["stateIndicator"], .asIs⟩, ⟨"azimuthOffset", ["azimuthOffset"], .asIs⟩,
     ⟨"azimuthWidth", ["azimuthWidth"], .asIs⟩, ⟨"azimuthPullRate", ["azimuthPullRate"], .asIs⟩,
     ⟨"azimuthPullAcceleration", ["azimuthPullAcceleration"], .asIs⟩,
     ⟨"elevationOffset", ["elevationOffset"], .asIs⟩, ⟨"elevationWidth", ["elevationWidth"], .asIs⟩,
     ⟨"elevationPullRate", ["elevationPullRate"], .asIs⟩,
     ⟨"elevationPullAcceleration", ["elevationPullAcceleration"], .asIs⟩]
  new := Dis.AngleDeception.callHeap

/-- The constructor of `EntityAssociation` (/repo/opendis/dis7.py:482-506). -/
def Ctor.EntityAssociation : Ctor where
  cls := .EntityAssociation
  params :=
    [⟨"changeIndicator", ["changeIndicator"], .asIs⟩, ⟨"associationStatus", ["associationStatus"], .asIs⟩,
     ⟨"associationType", ["associationType"], .asIs⟩, ⟨"entityID", ["entityID"], .orFresh⟩,
     ⟨"ownStationLocation", ["ownStationLocation"], .asIs⟩,
     ⟨"physicalConnectionType", ["physicalConnectionType"], .asIs⟩,
     ⟨"groupMemberType", ["groupMemberType"], .asIs⟩, ⟨"groupNumber", ["groupNumber"], .asIs⟩]
  new := Dis.EntityAssociation.callHeap

/-- The constructor of `VectoringNozzleSystem` (/repo/opendis/dis7.py:539-543). -/
def Ctor.VectoringNozzleSystem : Ctor where
  cls := .VectoringNozzleSystem
  params :=
    [⟨"horizontalDeflectionAngle", ["horizontalDeflectionAngle"], .asIs⟩,
     ⟨"verticalDeflectionAngle", ["verticalDeflectionAngle"], .asIs⟩]
  new := Dis.VectoringNozzleSystem.callHeap

/-- The constructor of `FalseTargetsAttribute` (/repo/opendis/dis7.py:569-589). -/
def Ctor.FalseTargetsAttribute : Ctor where
  cls := .FalseTargetsAttribute
  params :=
    [⟨"emitterNumber", ["emitterNumber"], .asIs⟩, ⟨"beamNumber", ["beamNumber"], .asIs⟩,
     ⟨"stateIndicator", ["stateIndicator"], .asIs⟩, ⟨"falseTargetCount", ["falseTargetCount"], .asIs⟩,
     ⟨"walkSpeed", ["walkSpeed"], .asIs⟩, ⟨"walkAcceleration", ["walkAcceleration"], .asIs⟩,
     ⟨"maximumWalkDistance", ["maximumWalkDistance"], .asIs⟩, ⟨"keepTime", ["keepTime"], .asIs⟩,
     ⟨"echoSpacing", ["echoSpacing"], .asIs⟩]
  new := Dis.FalseTargetsAttribute.callHeap

/-- The constructor of `MinefieldIdentifier` (/repo/opendis/dis7.py:630-634). -/
def Ctor.MinefieldIdentifier : Ctor where
  cls := .MinefieldIdentifier
  params :=
    [⟨"simulationAddress", ["simulationAddress"], .orFresh⟩, ⟨"minefieldNumber", ["minefieldNumber"], .asIs⟩]
  new := Dis.MinefieldIdentifier.callHeap

/-- The constructor of `RadioType` (/repo/opendis/dis7.py:654-670). -/
def Ctor.RadioType : Ctor where
  cls := .RadioType
  params :=
    [⟨"domain", ["domain"], .asIs⟩, ⟨"country", ["country"], .asIs⟩, ⟨"category", ["category"], .asIs⟩,
     ⟨"subcategory", ["subcategory"], .asIs⟩, ⟨"specific", ["specific"], .asIs⟩, ⟨"extra", ["extra"], .asIs⟩]
  new := Dis.RadioType.callHeap

/-- The constructor of `NamedLocationIdentification` (/repo/opendis/dis7.py:700-707). -/
def Ctor.NamedLocationIdentification : Ctor where
  cls := .NamedLocationIdentification
  params :=
    [⟨"stationName", ["stationName"], .asIs⟩, ⟨"stationNumber", ["stationNumber"], .asIs⟩]
  new := Dis.NamedLocationIdentification.callHeap

/-- The constructor of `IFFDataSpecification` (/repo/opendis/dis7.py:726-727). -/
def Ctor.IFFDataSpecification : Ctor where
  cls := .IFFDataSpecification
  params :=
    [⟨"iffDataRecords", ["iffDataRecords"], .orFresh⟩]
  new := Dis.IFFDataSpecification.callHeap

/-- The constructor of `OwnershipStatus` (/repo/opendis/dis7.py:754-761). -/
def Ctor.OwnershipStatus : Ctor where
  cls := .OwnershipStatus
  params :=
    [⟨"entityId", ["entityId"], .orFresh⟩, ⟨"ownershipStatus", ["ownershipStatus"], .asIs⟩]
  new := Dis.OwnershipStatus.callHeap

/-- The constructor of `AttachedParts` (/repo/opendis/dis7.py:783-795). -/
def Ctor.AttachedParts : Ctor where
  cls := .AttachedParts
  params :=
    [⟨"detachedIndicator", ["detachedIndicator"], .asIs⟩, ⟨"partAttachedTo", ["partAttachedTo"], .asIs⟩,
     ⟨"parameterType", ["parameterType"], .asIs⟩, ⟨"attachedPartType", ["attachedPartType"], .orFresh⟩]
  new := Dis.AttachedParts.callHeap

/-- Constructors of `heapRecords1` (/repo/opendis). -/
def ctorsRecords1 : List Ctor :=
  [.DataQueryDatumSpecification,
   .RadioIdentifier,
   .RequestID,
   .IFFData,
   .EntityType,
   .MunitionDescriptor,
   .MinefieldSensorType,
   .GroupID,
   .LayerHeader,
   .UnsignedDISInteger,
   .DeadReckoningParameters,
   .ProtocolMode,
   .AngleDeception,
   .EntityAssociation,
   .VectoringNozzleSystem,
   .FalseTargetsAttribute,
   .MinefieldIdentifier,
   .RadioType,
   .NamedLocationIdentification,
   .IFFDataSpecification,
   .OwnershipStatus,
   .AttachedParts]

/-- The constructor of `Attribute` (/repo/opendis/dis7.py:821-827). -/
def Ctor.Attribute : Ctor where
  cls := .Attribute
  params :=
    [⟨"recordType", ["recordType"], .asIs⟩, ⟨"recordLength", ["recordLength"], .asIs⟩,
     ⟨"recordSpecificFields", ["recordSpecificFields"], .asIs⟩]
  new := Dis.Attribute.callHeap

/-- The constructor of `RecordQuerySpecification` (/repo/opendis/dis7.py:848-851). -/
def Ctor.RecordQuerySpecification : Ctor where
  cls := .RecordQuerySpecification
  params :=
    [⟨"recordIDs", ["recordIDs"], .orFresh⟩]
  new := Dis.RecordQuerySpecification.callHeap

/-- The constructor of `ArticulatedParts` (/repo/opendis/dis7.py:879-891). -/
def Ctor.ArticulatedParts : Ctor where
  cls := .ArticulatedParts
  params :=
    [⟨"changeIndicator", ["changeIndicator"], .asIs⟩, ⟨"partAttachedTo", ["partAttachedTo"], .asIs⟩,
     ⟨"parameterType", ["parameterType"], .asIs⟩, ⟨"parameterValue", ["parameterValue"], .asIs⟩]
  new := Dis.ArticulatedParts.callHeap

/-- The constructor of `ObjectType` (/repo/opendis/dis7.py:916-928). -/
def Ctor.ObjectType : Ctor where
  cls := .ObjectType
  params :=
    [⟨"domain", ["domain"], .asIs⟩, ⟨"objectKind", ["objectKind"], .asIs⟩, ⟨"category", ["category"], .asIs⟩,
     ⟨"subcategory", ["subcategory"], .asIs⟩]
  new := Dis.ObjectType.callHeap

/-- The constructor of `Association` (/repo/opendis/dis7.py:956-965). -/
def Ctor.Association : Ctor where
  cls := .Association
  params :=
    [⟨"associationType", ["associationType"], .asIs⟩,
     ⟨"associatedEntityID", ["associatedEntityID"], .orFresh⟩,
     ⟨"associatedLocation", ["associatedLocation"], .orFresh⟩]
  new := Dis.Association.callHeap

/-- The constructor of `RecordSpecificationElement` (/repo/opendis/dis7.py:987-1004). -/
def Ctor.RecordSpecificationElement : Ctor where
  cls := .RecordSpecificationElement
  params :=
    [⟨"recordID", ["recordID"], .asIs⟩, ⟨"recordSetSerialNumber", ["recordSetSerialNumber"], .asIs⟩,
     ⟨"recordLength", ["recordLength"], .asIs⟩, ⟨"recordCount", ["recordCount"], .asIs⟩,
     ⟨"recordValues", ["recordValues"], .asIs⟩]
  new := Dis.RecordSpecificationElement.callHeap

/-- The constructor of `AntennaLocation` (/repo/opendis/dis7.py:1031-1038). -/
def Ctor.AntennaLocation : Ctor where
  cls := .AntennaLocation
  params :=
    [⟨"antennaLocation", ["antennaLocation"], .orFresh⟩,
     ⟨"relativeAntennaLocation", ["relativeAntennaLocation"], .orFresh⟩]
  new := Dis.AntennaLocation.callHeap

/-- The constructor of `ObjectIdentifier` (/repo/opendis/dis7.py:1057-1063). -/
def Ctor.ObjectIdentifier : Ctor where
  cls := .ObjectIdentifier
  params :=
    [⟨"simulationAddress", ["simulationAddress"], .orFresh⟩, ⟨"objectNumber", ["objectNumber"], .asIs⟩]
  new := Dis.ObjectIdentifier.callHeap

/-- The constructor of `AggregateIdentifier` (/repo/opendis/dis7.py:1082-1087). -/
def Ctor.AggregateIdentifier : Ctor where
  cls := .AggregateIdentifier
  params :=
    [⟨"simulationAddress", ["simulationAddress"], .orFresh⟩, ⟨"aggregateID", ["aggregateID"], .asIs⟩]
  new := Dis.AggregateIdentifier.callHeap

/-- The constructor of `FixedDatum` (/repo/opendis/dis7.py:1106-1112). -/
def Ctor.FixedDatum : Ctor where
  cls := .FixedDatum
  params :=
    [⟨"fixedDatumID", ["fixedDatumID"], .asIs⟩, ⟨"fixedDatumValue", ["fixedDatumValue"], .asIs⟩]
  new := Dis.FixedDatum.callHeap

/-- The constructor of `VariableParameter` (/repo/opendis/dis7.py:1132-1147). -/
def Ctor.VariableParameter : Ctor where
  cls := .VariableParameter
  params :=
    [⟨"recordType", ["recordType"], .asIs⟩, ⟨"variableParameterFields1", ["variableParameterFields1"], .asIs⟩,
     ⟨"variableParameterFields2", ["variableParameterFields2"], .asIs⟩,
     ⟨"variableParameterFields3", ["variableParameterFields3"], .asIs⟩,
     ⟨"variableParameterFields4", ["variableParameterFields4"], .asIs⟩]
  new := Dis.VariableParameter.callHeap

/-- The constructor of `ChangeOptions` (/repo/opendis/dis7.py:1169-1171). -/
def Ctor.ChangeOptions : Ctor where
  cls := .ChangeOptions
  params :=
    []
  new := Dis.ChangeOptions.callHeap

/-- The constructor of `LiveSimulationAddress` (/repo/opendis/dis7.py:1189-1195). -/
def Ctor.LiveSimulationAddress : Ctor where
  cls := .LiveSimulationAddress
  params :=
    [⟨"liveSiteNumber", ["liveSiteNumber"], .asIs⟩,
     ⟨"liveApplicationNumber", ["liveApplicationNumber"], .asIs⟩]
  new := Dis.LiveSimulationAddress.callHeap

/-- The constructor of `EntityMarking` (/repo/opendis/dis7.py:1214-1220). -/
def Ctor.EntityMarking : Ctor where
  cls := .EntityMarking
  params :=
    [⟨"characterSet", ["characterSet"], .asIs⟩, ⟨"characters", ["characters"], .orFresh⟩]
  new := Dis.EntityMarking.callHeap

/-- The constructor of `UAFundamentalParameter` (/repo/opendis/dis7.py:1255-1273). -/
def Ctor.UAFundamentalParameter : Ctor where
  cls := .UAFundamentalParameter
  params :=
    [⟨"activeEmissionParameterIndex", ["activeEmissionParameterIndex"], .asIs⟩,
     ⟨"scanPattern", ["scanPattern"], .asIs⟩,
     ⟨"beamCenterAzimuthHorizontal", ["beamCenterAzimuthHorizontal"], .asIs⟩,
     ⟨"azimuthBeamwidthHorizontal", ["azimuthalBeamwidthHorizontal"], .asIs⟩,
     ⟨"beamCenterDepressionElevation", ["beamCenterDepressionElevation"], .asIs⟩,
     ⟨"beamwidthDownElevation", ["beamwidthDownElevation"], .asIs⟩]
  new := Dis.UAFundamentalParameter.callHeap

/-- The constructor of `ExplosionDescriptor` (/repo/opendis/dis7.py:1300-1310). -/
def Ctor.ExplosionDescriptor : Ctor where
  cls := .ExplosionDescriptor
  params :=
    [⟨"explodingObject", ["explodingObject"], .orFresh⟩, ⟨"explosiveMaterial", ["explosiveMaterial"], .asIs⟩,
     ⟨"explosiveForce", ["explosiveForce"], .asIs⟩]
  new := Dis.ExplosionDescriptor.callHeap

/-- The constructor of `ClockTime` (/repo/opendis/dis7.py:1336-1342). -/
def Ctor.ClockTime : Ctor where
  cls := .ClockTime
  params :=
    [⟨"hour", ["hour"], .asIs⟩, ⟨"timePastHour", ["timePastHour"], .asIs⟩]
  new := Dis.ClockTime.callHeap

/-- The constructor of `SecondaryOperationalData` (/repo/opendis/dis7.py:1363-1372). -/
def Ctor.SecondaryOperationalData : Ctor where
  cls := .SecondaryOperationalData
  params :=
    [⟨"operationalData1", ["operationalData1"], .asIs⟩, ⟨"operationalData2", ["operationalData2"], .asIs⟩,
     ⟨"numberOfIFFFundamentalParameterRecords", ["numberOfIFFFundamentalParameterRecords"], .asIs⟩]
  new := Dis.SecondaryOperationalData.callHeap

/-- The constructor of `EnvironmentType` (/repo/opendis/dis7.py:1392-1412). -/
def Ctor.EnvironmentType : Ctor where
  cls := .EnvironmentType
  params :=
    [⟨"entityKind", ["entityKind"], .asIs⟩, ⟨"domain", ["domain"], .asIs⟩,
     ⟨"entityClass", ["entityClass"], .asIs⟩, ⟨"category", ["category"], .asIs⟩,
     ⟨"subcategory", ["subcategory"], .asIs⟩, ⟨"specific", ["specific"], .asIs⟩, ⟨"extra", ["extra"], .asIs⟩]
  new := Dis.EnvironmentType.callHeap

/-- The constructor of `TotalRecordSets` (/repo/opendis/dis7.py:1439-1442). -/
def Ctor.TotalRecordSets : Ctor where
  cls := .TotalRecordSets
  params :=
    [⟨"totalRecordSets", ["totalRecordSets"], .asIs⟩]
  new := Dis.TotalRecordSets.callHeap

/-- The constructor of `MineEntityIdentifier` (/repo/opendis/dis7.py:1463-1467). -/
def Ctor.MineEntityIdentifier : Ctor where
  cls := .MineEntityIdentifier
  params :=
    [⟨"simulationAddress", ["simulationAddress"], .orFresh⟩, ⟨"mineEntityNumber", ["mineEntityNumber"], .asIs⟩]
  new := Dis.MineEntityIdentifier.callHeap

/-- The constructor of `Relationship` (/repo/opendis/dis7.py:1486-1492). -/
def Ctor.Relationship : Ctor where
  cls := .Relationship
  params :=
    [⟨"nature", ["nature"], .asIs⟩, ⟨"position", ["position"], .asIs⟩]
  new := Dis.Relationship.callHeap

/-- Constructors of `heapRecords2` (/repo/opendis). -/
def ctorsRecords2 : List Ctor :=
  [.Attribute,
   .RecordQuerySpecification,
   .ArticulatedParts,
   .ObjectType,
   .Association,
   .RecordSpecificationElement,
   .AntennaLocation,
   .ObjectIdentifier,
   .AggregateIdentifier,
   .FixedDatum,
   .VariableParameter,
   .ChangeOptions,
   .LiveSimulationAddress,
   .EntityMarking,
   .UAFundamentalParameter,
   .ExplosionDescriptor,
   .ClockTime,
   .SecondaryOperationalData,
   .EnvironmentType,
   .TotalRecordSets,
   .MineEntityIdentifier,
   .Relationship]

/-- The constructor of `EEFundamentalParameterData` (/repo/opendis/dis7.py:1512-1537). -/
def Ctor.EEFundamentalParameterData : Ctor where
  cls := .EEFundamentalParameterData
  params :=
    [⟨"frequency", ["frequency"], .asIs⟩, ⟨"frequencyRange", ["frequencyRange"], .asIs⟩,
     ⟨"effectiveRadiatedPower", ["effectiveRadiatedPower"], .asIs⟩,
     ⟨"pulseRepetitionFrequency", ["pulseRepetitionFrequency"], .asIs⟩, ⟨"pulseWidth", ["pulseWidth"], .asIs⟩,
     ⟨"beamAzimuthCenter", ["beamAzimuthCenter"], .asIs⟩, ⟨"beamAzimuthSweep", ["beamAzimuthSweep"], .asIs⟩,
     ⟨"beamElevationCenter", ["beamElevationCenter"], .asIs⟩,
     ⟨"beamElevationSweep", ["beamElevationSweep"], .asIs⟩, ⟨"beamSweepSync", ["beamSweepSync"], .asIs⟩]
  new := Dis.EEFundamentalParameterData.callHeap

/-- The constructor of `JammingTechnique` (/repo/opendis/dis7.py:1572-1576). -/
def Ctor.JammingTechnique : Ctor where
  cls := .JammingTechnique
  params :=
    [⟨"kind", ["kind"], .asIs⟩, ⟨"category", ["category"], .asIs⟩, ⟨"subcategory", ["subcategory"], .asIs⟩,
     ⟨"specific", ["specific"], .asIs⟩]
  new := Dis.JammingTechnique.callHeap

/-- The constructor of `VariableDatum` (/repo/opendis/dis7.py:3300-3309). -/
def Ctor.VariableDatum : Ctor where
  cls := .VariableDatum
  params :=
    [⟨"variableDatumID", ["variableDatumID"], .asIs⟩, ⟨"variableDatumLength", ["variableDatumLength"], .asIs⟩,
     ⟨"variableData", ["variableData"], .orFresh⟩]
  new := Dis.VariableDatum.callHeap

/-- The constructor of `DatumSpecification` (/repo/opendis/dis7.py:1599-1605). -/
def Ctor.DatumSpecification : Ctor where
  cls := .DatumSpecification
  params :=
    [⟨"fixedDatumRecords", ["fixedDatumRecords"], .orFresh⟩,
     ⟨"variableDatumRecords", ["variableDatumRecords"], .orFresh⟩]
  new := Dis.DatumSpecification.callHeap

/-- The constructor of `Expendable` (/repo/opendis/dis7.py:1646-1656). -/
def Ctor.Expendable : Ctor where
  cls := .Expendable
  params :=
    [⟨"expendable", ["expendable"], .orFresh⟩, ⟨"station", ["station"], .asIs⟩,
     ⟨"quantity", ["quantity"], .asIs⟩, ⟨"expendableStatus", ["expendableStatus"], .asIs⟩]
  new := Dis.Expendable.callHeap

/-- The constructor of `CommunicationsNodeID` (/repo/opendis/dis7.py:3487-3491). -/
def Ctor.CommunicationsNodeID : Ctor where
  cls := .CommunicationsNodeID
  params :=
    [⟨"entityID", ["entityID"], .orFresh⟩, ⟨"elementID", ["elementID"], .asIs⟩]
  new := Dis.CommunicationsNodeID.callHeap

/-- The constructor of `IOCommunicationsNode` (/repo/opendis/dis7.py:1683-1689). -/
def Ctor.IOCommunicationsNode : Ctor where
  cls := .IOCommunicationsNode
  params :=
    [⟨"communicationsNodeType", ["communcationsNodeType"], .asIs⟩,
     ⟨"communicationsNodeID", ["communicationsNodeID"], .orFresh⟩]
  new := Dis.IOCommunicationsNode.callHeap

/-- The constructor of `LinearSegmentParameter` (/repo/opendis/dis7.py:1715-1746). -/
def Ctor.LinearSegmentParameter : Ctor where
  cls := .LinearSegmentParameter
  params :=
    [⟨"segmentNumber", ["segmentNumber"], .asIs⟩, ⟨"segmentModification", ["segmentModification"], .asIs⟩,
     ⟨"generalSegmentAppearance", ["generalSegmentAppearance"], .asIs⟩,
     ⟨"specificSegmentAppearance", ["specificSegmentAppearance"], .asIs⟩,
     ⟨"segmentLocation", ["segmentLocation"], .orFresh⟩,
     ⟨"segmentOrientation", ["segmentOrientation"], .orFresh⟩, ⟨"segmentLength", ["segmentLength"], .asIs⟩,
     ⟨"segmentWidth", ["segmentWidth"], .asIs⟩, ⟨"segmentHeight", ["segmentHeight"], .asIs⟩,
     ⟨"segmentDepth", ["segmentDepth"], .asIs⟩]
  new := Dis.LinearSegmentParameter.callHeap

/-- The constructor of `SystemIdentifier` (/repo/opendis/dis7.py:1783-1795). -/
def Ctor.SystemIdentifier : Ctor where
  cls := .SystemIdentifier
  params :=
    [⟨"systemType", ["systemType"], .asIs⟩, ⟨"systemName", ["systemName"], .asIs⟩,
     ⟨"systemMode", ["systemMode"], .asIs⟩, ⟨"changeOptions", ["changeOptions"], .orFresh⟩]
  new := Dis.SystemIdentifier.callHeap

/-- The constructor of `TrackJamData` (/repo/opendis/dis7.py:1818-1827). -/
def Ctor.TrackJamData : Ctor where
  cls := .TrackJamData
  params :=
    [⟨"entityID", ["entityID"], .orFresh⟩, ⟨"emitterNumber", ["emitterNumber"], .asIs⟩,
     ⟨"beamNumber", ["beamNumber"], .asIs⟩]
  new := Dis.TrackJamData.callHeap

/-- The constructor of `AggregateType` (/repo/opendis/dis7.py:1848-1868). -/
def Ctor.AggregateType : Ctor where
  cls := .AggregateType
  params :=
    [⟨"aggregateKind", ["aggregateKind"], .asIs⟩, ⟨"domain", ["domain"], .asIs⟩,
     ⟨"country", ["country"], .asIs⟩, ⟨"category", ["category"], .asIs⟩,
     ⟨"subcategory", ["subcategory"], .asIs⟩, ⟨"specificInfo", ["specificInfo"], .asIs⟩,
     ⟨"extra", ["extra"], .asIs⟩]
  new := Dis.AggregateType.callHeap

/-- The constructor of `SimulationIdentifier` (/repo/opendis/dis7.py:2061-2067). -/
def Ctor.SimulationIdentifier : Ctor where
  cls := .SimulationIdentifier
  params :=
    [⟨"simulationAddress", ["simulationAddress"], .orFresh⟩, ⟨"referenceNumber", ["referenceNumber"], .asIs⟩]
  new := Dis.SimulationIdentifier.callHeap

/-- The constructor of `PduHeader` (/repo/opendis/dis7.py:3377-3399). -/
def Ctor.PduHeader : Ctor where
  cls := .PduHeader
  params :=
    [⟨"protocolVersion", ["protocolVersion"], .asIs⟩, ⟨"exerciseID", ["exerciseID"], .asIs⟩,
     ⟨"pduType", ["pduType"], .asIs⟩, ⟨"protocolFamily", ["protocolFamily"], .asIs⟩,
     ⟨"timestamp", ["timestamp"], .asIs⟩, ⟨"pduLength", ["pduLength"], .asIs⟩,
     ⟨"pduStatus", ["pduStatus"], .asIs⟩]
  new := Dis.PduHeader.callHeap

/-- The constructor of `SimulationManagementPduHeader` (/repo/opendis/dis7.py:1898-1907). -/
def Ctor.SimulationManagementPduHeader : Ctor where
  cls := .SimulationManagementPduHeader
  params :=
    [⟨"pduHeader", ["pduHeader"], .orFresh⟩, ⟨"originatingID", ["originatingID"], .orFresh⟩,
     ⟨"receivingID", ["receivingID"], .orFresh⟩]
  new := Dis.SimulationManagementPduHeader.callHeap

/-- The constructor of `BeamData` (/repo/opendis/dis7.py:1928-1944). -/
def Ctor.BeamData : Ctor where
  cls := .BeamData
  params :=
    [⟨"beamAzimuthCenter", ["beamAzimuthCenter"], .asIs⟩, ⟨"beamAzimuthSweep", ["beamAzimuthSweep"], .asIs⟩,
     ⟨"beamElevationCenter", ["beamElevationCenter"], .asIs⟩,
     ⟨"beamElevationSweep", ["beamElevationSweep"], .asIs⟩, ⟨"beamSweepSync", ["beamSweepSync"], .asIs⟩]
  new := Dis.BeamData.callHeap

/-- The constructor of `EngineFuel` (/repo/opendis/dis7.py:1969-1982). -/
def Ctor.EngineFuel : Ctor where
  cls := .EngineFuel
  params :=
    [⟨"fuelQuantity", [], .asIs⟩, ⟨"fuelMeasurementUnits", [], .asIs⟩, ⟨"fuelType", [], .asIs⟩,
     ⟨"fuelLocation", [], .asIs⟩]
  new := Dis.EngineFuel.callHeap

/-- The constructor of `IOEffect` (/repo/opendis/dis7.py:2009-2023). -/
def Ctor.IOEffect : Ctor where
  cls := .IOEffect
  params :=
    [⟨"ioStatus", ["ioStatus"], .asIs⟩, ⟨"ioLinkType", ["ioLinkType"], .asIs⟩,
     ⟨"ioEffect", ["ioEffect"], .asIs⟩, ⟨"ioEffectDutyCycle", ["ioEffectDutyCycle"], .asIs⟩,
     ⟨"ioEffectDuration", ["ioEffectDuration"], .asIs⟩, ⟨"ioProcess", ["ioProcess"], .asIs⟩]
  new := Dis.IOEffect.callHeap

/-- The constructor of `GridAxisDescriptorVariable` (/repo/opendis/dis7.py:2087-2120). -/
def Ctor.GridAxisDescriptorVariable : Ctor where
  cls := .GridAxisDescriptorVariable
  params :=
    [⟨"domainInitialXi", ["domainInitialXi"], .asIs⟩, ⟨"domainFinalXi", ["domainFinalXi"], .asIs⟩,
     ⟨"domainPointsXi", ["domainPointsXi"], .asIs⟩, ⟨"interleafFactor", ["interleafFactor"], .asIs⟩,
     ⟨"axisType", ["axisType"], .asIs⟩, ⟨"numberOfPointsOnXiAxis", ["numberOfPointsOnXiAxis"], .asIs⟩,
     ⟨"initialIndex", ["initialIndex"], .asIs⟩, ⟨"coordinateScaleXi", ["coordinateScaleXi"], .asIs⟩,
     ⟨"coordinateOffsetXi", ["coordinateOffsetXi"], .asIs⟩, ⟨"xiValues", ["xiValues"], .orFresh⟩]
  new := Dis.GridAxisDescriptorVariable.callHeap

/-- The constructor of `SupplyQuantity` (/repo/opendis/dis7.py:2164-2169). -/
def Ctor.SupplyQuantity : Ctor where
  cls := .SupplyQuantity
  params :=
    [⟨"supplyType", ["supplyType"], .orFresh⟩, ⟨"quantity", ["quantity"], .asIs⟩]
  new := Dis.SupplyQuantity.callHeap

/-- The constructor of `SilentEntitySystem` (/repo/opendis/dis7.py:2188-2196). -/
def Ctor.SilentEntitySystem : Ctor where
  cls := .SilentEntitySystem
  params :=
    [⟨"numberOfEntities", ["numberOfEntities"], .asIs⟩, ⟨"entityType", ["entityType"], .orFresh⟩,
     ⟨"appearanceRecordList", ["appearanceRecordList"], .orFresh⟩]
  new := Dis.SilentEntitySystem.callHeap

/-- The constructor of `SilentAggregateSystem` (/repo/opendis/dis7.py:2227-2232). -/
def Ctor.SilentAggregateSystem : Ctor where
  cls := .SilentAggregateSystem
  params :=
    [⟨"numberOfAggregates", ["numberOfAggregates"], .asIs⟩, ⟨"aggregateType", ["aggregateType"], .orFresh⟩]
  new := Dis.SilentAggregateSystem.callHeap

/-- The constructor of `BlankingSector` (/repo/opendis/dis7.py:2254-2275). -/
def Ctor.BlankingSector : Ctor where
  cls := .BlankingSector
  params :=
    [⟨"emitterNumber", ["emitterNumber"], .asIs⟩, ⟨"beamNumber", ["beamNumber"], .asIs⟩,
     ⟨"stateIndicator", ["stateIndicator"], .asIs⟩, ⟨"leftAzimuth", ["leftAzimuth"], .asIs⟩,
     ⟨"rightAzimuth", ["rightAzimuth"], .asIs⟩, ⟨"lowerElevation", ["lowerElevation"], .asIs⟩,
     ⟨"upperElevation", ["upperElevation"], .asIs⟩, ⟨"residualPower", ["residualPower"], .asIs⟩]
  new := Dis.BlankingSector.callHeap

/-- Constructors of `heapRecords3` (/repo/opendis). -/
def ctorsRecords3 : List Ctor :=
  [.EEFundamentalParameterData,
   .JammingTechnique,
   .VariableDatum,
   .DatumSpecification,
   .Expendable,
   .CommunicationsNodeID,
   .IOCommunicationsNode,
   .LinearSegmentParameter,
   .SystemIdentifier,
   .TrackJamData,
   .AggregateType,
   .SimulationIdentifier,
   .PduHeader,
   .SimulationManagementPduHeader,
   .BeamData,
   .EngineFuel,
   .IOEffect,
   .GridAxisDescriptorVariable,
   .SupplyQuantity,
   .SilentEntitySystem,
   .SilentAggregateSystem,
   .BlankingSector]

/-- The constructor of `LaunchedMunitionRecord` (/repo/opendis/dis7.py:2319-2330). -/
def Ctor.LaunchedMunitionRecord : Ctor where
  cls := .LaunchedMunitionRecord
  params :=
    [⟨"fireEventID", ["fireEventID"], .orFresh⟩, ⟨"firingEntityID", ["firingEntityID"], .orFresh⟩,
     ⟨"targetEntityID", ["targetEntityID"], .orFresh⟩, ⟨"targetLocation", ["targetLocation"], .orFresh⟩]
  new := Dis.LaunchedMunitionRecord.callHeap

/-- The constructor of `IFFFundamentalParameterData` (/repo/opendis/dis7.py:2359-2373). -/
def Ctor.IFFFundamentalParameterData : Ctor where
  cls := .IFFFundamentalParameterData
  params :=
    [⟨"erp", ["erp"], .asIs⟩, ⟨"frequency", ["frequency"], .asIs⟩, ⟨"pgrf", ["pgrf"], .asIs⟩,
     ⟨"pulseWidth", ["pulseWidth"], .asIs⟩, ⟨"burstLength", ["burstLength"], .asIs⟩,
     ⟨"applicableModes", ["applicableModes"], .asIs⟩, ⟨"systemSpecificData", ["systemSpecificData"], .orFresh⟩]
  new := Dis.IFFFundamentalParameterData.callHeap

/-- The constructor of `FundamentalOperationalData` (/repo/opendis/dis7.py:2407-2437). -/
def Ctor.FundamentalOperationalData : Ctor where
  cls := .FundamentalOperationalData
  params :=
    [⟨"systemStatus", ["systemStatus"], .asIs⟩, ⟨"dataField1", ["dataField1"], .asIs⟩,
     ⟨"informationLayers", ["informationLayers"], .asIs⟩, ⟨"dataField2", ["dataField2"], .asIs⟩,
     ⟨"parameter1", ["parameter1"], .asIs⟩, ⟨"parameter2", ["parameter2"], .asIs⟩,
     ⟨"parameter3", ["parameter3"], .asIs⟩, ⟨"parameter4", ["parameter4"], .asIs⟩,
     ⟨"parameter5", ["parameter5"], .asIs⟩, ⟨"parameter6", ["parameter6"], .asIs⟩]
  new := Dis.FundamentalOperationalData.callHeap

/-- The constructor of `IntercomCommunicationsParameters` (/repo/opendis/dis7.py:2472-2481). -/
def Ctor.IntercomCommunicationsParameters : Ctor where
  cls := .IntercomCommunicationsParameters
  params :=
    [⟨"recordType", ["recordType"], .asIs⟩, ⟨"recordLength", ["recordLength"], .asIs⟩,
     ⟨"recordSpecificField", ["recordSpecificField"], .asIs⟩]
  new := Dis.IntercomCommunicationsParameters.callHeap

/-- The constructor of `Munition` (/repo/opendis/dis7.py:2552-2566). -/
def Ctor.Munition : Ctor where
  cls := .Munition
  params :=
    [⟨"munitionType", ["munitionType"], .orFresh⟩, ⟨"station", ["station"], .asIs⟩,
     ⟨"quantity", ["quantity"], .asIs⟩, ⟨"munitionStatus", ["munitionStatus"], .asIs⟩]
  new := Dis.Munition.callHeap

/-- The constructor of `StandardVariableSpecification` (/repo/opendis/dis7.py:2591-2596). -/
def Ctor.StandardVariableSpecification : Ctor where
  cls := .StandardVariableSpecification
  params :=
    [⟨"standardVariables", ["standardVariables"], .orFresh⟩]
  new := Dis.StandardVariableSpecification.callHeap

/-- The constructor of `Vector2Float` (/repo/opendis/dis7.py:2621-2623). -/
def Ctor.Vector2Float : Ctor where
  cls := .Vector2Float
  params :=
    [⟨"x", ["x"], .asIs⟩, ⟨"y", ["y"], .asIs⟩]
  new := Dis.Vector2Float.callHeap

/-- The constructor of `Environment` (/repo/opendis/dis7.py:2642-2654). -/
def Ctor.Environment : Ctor where
  cls := .Environment
  params :=
    [⟨"environmentType", ["environmentType"], .asIs⟩, ⟨"length", ["length"], .asIs⟩,
     ⟨"index", ["index"], .asIs⟩]
  new := Dis.Environment.callHeap

/-- The constructor of `AcousticEmitter` (/repo/opendis/dis7.py:2677-2686). -/
def Ctor.AcousticEmitter : Ctor where
  cls := .AcousticEmitter
  params :=
    [⟨"acousticSystemName", ["acousticSystemName"], .asIs⟩, ⟨"acousticFunction", ["acousticFunction"], .asIs⟩,
     ⟨"acousticIDNumber", ["acousticIDNumber"], .asIs⟩]
  new := Dis.AcousticEmitter.callHeap

/-- The constructor of `AngularVelocityVector` (/repo/opendis/dis7.py:2710-2716). -/
def Ctor.AngularVelocityVector : Ctor where
  cls := .AngularVelocityVector
  params :=
    [⟨"x", [], .asIs⟩, ⟨"y", [], .asIs⟩, ⟨"z", [], .asIs⟩]
  new := Dis.AngularVelocityVector.callHeap

/-- The constructor of `AggregateMarking` (/repo/opendis/dis7.py:2738-2744). -/
def Ctor.AggregateMarking : Ctor where
  cls := .AggregateMarking
  params :=
    [⟨"characterSet", ["characterSet"], .asIs⟩, ⟨"characters", [], .asIs⟩]
  new := Dis.AggregateMarking.callHeap

/-- The constructor of `DataFilterRecord` (/repo/opendis/dis7.py:2771-2773). -/
def Ctor.DataFilterRecord : Ctor where
  cls := .DataFilterRecord
  params :=
    [⟨"bitFlags", ["bitFlags"], .asIs⟩]
  new := Dis.DataFilterRecord.callHeap

/-- The constructor of `IntercomIdentifier` (/repo/opendis/dis7.py:2790-2798). -/
def Ctor.IntercomIdentifier : Ctor where
  cls := .IntercomIdentifier
  params :=
    [⟨"siteNumber", ["siteNumber"], .asIs⟩, ⟨"applicationNumber", ["applicationNumber"], .asIs⟩,
     ⟨"referenceNumber", ["referenceNumber"], .asIs⟩, ⟨"intercomNumber", ["intercomNumber"], .asIs⟩]
  new := Dis.IntercomIdentifier.callHeap

/-- The constructor of `StorageFuel` (/repo/opendis/dis7.py:2821-2834). -/
def Ctor.StorageFuel : Ctor where
  cls := .StorageFuel
  params :=
    [⟨"fuelQuantity", ["fuelQuantity"], .asIs⟩, ⟨"fuelMeasurementUnits", ["fuelMeasurementUnits"], .asIs⟩,
     ⟨"fuelType", ["fuelType"], .asIs⟩, ⟨"fuelLocation", ["fuelLocation"], .asIs⟩]
  new := Dis.StorageFuel.callHeap

/-- The constructor of `Sensor` (/repo/opendis/dis7.py:2859-2875). -/
def Ctor.Sensor : Ctor where
  cls := .Sensor
  params :=
    [⟨"sensorTypeSource", ["sensorTypeSource"], .asIs⟩, ⟨"sensorOnOffStatus", ["sensorOnOffStatus"], .asIs⟩,
     ⟨"sensorType", ["sensorType"], .asIs⟩, ⟨"station", ["station"], .asIs⟩, ⟨"quantity", ["quantity"], .asIs⟩]
  new := Dis.Sensor.callHeap

/-- The constructor of `MunitionReload` (/repo/opendis/dis7.py:2903-2922). -/
def Ctor.MunitionReload : Ctor where
  cls := .MunitionReload
  params :=
    [⟨"munitionType", ["munitionType"], .orFresh⟩, ⟨"station", ["station"], .asIs⟩,
     ⟨"standardQuantity", ["standardQuantity"], .asIs⟩, ⟨"maximumQuantity", ["maximumQuantity"], .asIs⟩,
     ⟨"standardQuantityReloadTime", ["standardQuantityReloadTime"], .asIs⟩,
     ⟨"maximumQuantityReloadTime", ["maximumQuantityReloadTime"], .asIs⟩]
  new := Dis.MunitionReload.callHeap

/-- The constructor of `StorageFuelReload` (/repo/opendis/dis7.py:2952-2974). -/
def Ctor.StorageFuelReload : Ctor where
  cls := .StorageFuelReload
  params :=
    [⟨"standardQuantity", ["standardQuantity"], .asIs⟩, ⟨"maximumQuantity", ["maximumQuantity"], .asIs⟩,
     ⟨"standardQuantityReloadTime", ["standardQuantityReloadTime"], .asIs⟩,
     ⟨"maximumQuantityReloadTime", ["maximumQuantityReloadTime"], .asIs⟩,
     ⟨"fuelMeasurementUnits", ["fuelMeasurementUnits"], .asIs⟩, ⟨"fuelType", ["fuelType"], .asIs⟩,
     ⟨"fuelLocation", ["fuelLocation"], .asIs⟩]
  new := Dis.StorageFuelReload.callHeap

/-- The constructor of `ExpendableReload` (/repo/opendis/dis7.py:3005-3019). -/
def Ctor.ExpendableReload : Ctor where
  cls := .ExpendableReload
  params :=
    [⟨"expendable", ["expendable"], .orFresh⟩, ⟨"station", ["station"], .asIs⟩,
     ⟨"standardQuantity", ["standardQuantity"], .asIs⟩, ⟨"maximumQuantity", ["maximumQuantity"], .asIs⟩,
     ⟨"standardQuantityReloadTime", ["standardQuantityReloadTime"], .asIs⟩,
     ⟨"maximumQuantityReloadTime", ["maximumQuantityReloadTime"], .asIs⟩]
  new := Dis.ExpendableReload.callHeap

/-- The constructor of `EngineFuelReload` (/repo/opendis/dis7.py:3043-3062). -/
def Ctor.EngineFuelReload : Ctor where
  cls := .EngineFuelReload
  params :=
    [⟨"standardQuantity", ["standardQuantity"], .asIs⟩, ⟨"maximumQuantity", ["maximumQuantity"], .asIs⟩,
     ⟨"standardQuantityReloadTime", ["standardQuantityReloadTime"], .asIs⟩,
     ⟨"maximumQuantityReloadTime", ["maximumQuantityReloadTime"], .asIs⟩,
     ⟨"fuelMeasurementUnits", ["fuelMeasurmentUnits"], .asIs⟩, ⟨"fuelLocation", ["fuelLocation"], .asIs⟩]
  new := Dis.EngineFuelReload.callHeap

/-- The constructor of `UnattachedIdentifier` (/repo/opendis/dis7.py:3093-3099). -/
def Ctor.UnattachedIdentifier : Ctor where
  cls := .UnattachedIdentifier
  params :=
    [⟨"simulationAddress", ["simulationAddress"], .orFresh⟩, ⟨"referenceNumber", ["referenceNumber"], .asIs⟩]
  new := Dis.UnattachedIdentifier.callHeap

/-- The constructor of `EntityTypeVP` (/repo/opendis/dis7.py:3119-3127). -/
def Ctor.EntityTypeVP : Ctor where
  cls := .EntityTypeVP
  params :=
    [⟨"changeIndicator", ["changeIndicator"], .asIs⟩, ⟨"entityType", ["entityType"], .orFresh⟩]
  new := Dis.EntityTypeVP.callHeap

/-- The constructor of `BeamStatus` (/repo/opendis/dis7.py:3154-3156). -/
def Ctor.BeamStatus : Ctor where
  cls := .BeamStatus
  params :=
    [⟨"beamState", ["beamState"], .lowBit⟩]
  new := Dis.BeamStatus.callHeap

/-- Constructors of `heapRecords4` (/repo/opendis). -/
def ctorsRecords4 : List Ctor :=
  [.LaunchedMunitionRecord,
   .IFFFundamentalParameterData,
   .FundamentalOperationalData,
   .IntercomCommunicationsParameters,
   .Munition,
   .StandardVariableSpecification,
   .Vector2Float,
   .Environment,
   .AcousticEmitter,
   .AngularVelocityVector,
   .AggregateMarking,
   .DataFilterRecord,
   .IntercomIdentifier,
   .StorageFuel,
   .Sensor,
   .MunitionReload,
   .StorageFuelReload,
   .ExpendableReload,
   .EngineFuelReload,
   .UnattachedIdentifier,
   .EntityTypeVP,
   .BeamStatus]

/-- The constructor of `EnvironmentGeneral` (/repo/opendis/dis7.py:3176-3191). -/
def Ctor.EnvironmentGeneral : Ctor where
  cls := .EnvironmentGeneral
  params :=
    [⟨"environmentType", ["environmentType"], .asIs⟩, ⟨"length", ["length"], .asIs⟩,
     ⟨"index", ["index"], .asIs⟩, ⟨"geometry", ["geometry"], .asIs⟩]
  new := Dis.EnvironmentGeneral.callHeap

/-- The constructor of `GridAxis` (/repo/opendis/dis7.py:3218-3239). -/
def Ctor.GridAxis : Ctor where
  cls := .GridAxis
  params :=
    [⟨"domainInitialXi", ["domainInitialXi"], .asIs⟩, ⟨"domainFinalXi", ["domainFinalXi"], .asIs⟩,
     ⟨"domainPointsXi", ["domainPointsXi"], .asIs⟩, ⟨"interleafFactor", ["interleafFactor"], .asIs⟩,
     ⟨"axisType", ["axisType"], .asIs⟩, ⟨"numberOfPointsOnXiAxis", ["numberOfPointsOnXiAxis"], .asIs⟩,
     ⟨"initialIndex", ["initialIndex"], .asIs⟩]
  new := Dis.GridAxis.callHeap

/-- The constructor of `RecordSpecification` (/repo/opendis/dis7.py:3269-3272). -/
def Ctor.RecordSpecification : Ctor where
  cls := .RecordSpecification
  params :=
    [⟨"recordSets", ["recordSets"], .orFresh⟩]
  new := Dis.RecordSpecification.callHeap

/-- The constructor of `EventIdentifierLiveEntity` (/repo/opendis/dis7.py:3349-3355). -/
def Ctor.EventIdentifierLiveEntity : Ctor where
  cls := .EventIdentifierLiveEntity
  params :=
    [⟨"siteNumber", ["siteNumber"], .asIs⟩, ⟨"applicationNumber", ["applicationNumber"], .asIs⟩,
     ⟨"eventNumber", ["eventNumber"], .asIs⟩]
  new := Dis.EventIdentifierLiveEntity.callHeap

/-- The constructor of `ExpendableDescriptor` (/repo/opendis/dis7.py:3510-3513). -/
def Ctor.ExpendableDescriptor : Ctor where
  cls := .ExpendableDescriptor
  params :=
    [⟨"expendableType", ["expendableType"], .orFresh⟩]
  new := Dis.ExpendableDescriptor.callHeap

/-- The constructor of `PropulsionSystemData` (/repo/opendis/dis7.py:3534-3540). -/
def Ctor.PropulsionSystemData : Ctor where
  cls := .PropulsionSystemData
  params :=
    [⟨"powerSetting", ["powerSetting"], .asIs⟩, ⟨"engineRpm", ["engineRpm"], .asIs⟩]
  new := Dis.PropulsionSystemData.callHeap

/-- The constructor of `LiveEntityIdentifier` (/repo/opendis/dis7.py:3560-3567). -/
def Ctor.LiveEntityIdentifier : Ctor where
  cls := .LiveEntityIdentifier
  params :=
    [⟨"liveSimulationAddress", ["liveSimulationAddress"], .orFresh⟩, ⟨"entityNumber", ["entityNumber"], .asIs⟩]
  new := Dis.LiveEntityIdentifier.callHeap

/-- The constructor of `SeparationVP` (/repo/opendis/dis7.py:3587-3601). -/
def Ctor.SeparationVP : Ctor where
  cls := .SeparationVP
  params :=
    [⟨"reasonForSeparation", ["reasonForSeparation"], .asIs⟩,
     ⟨"preEntityIndicator", ["preEntityIndicator"], .asIs⟩, ⟨"parentEntityID", ["parentEntityID"], .orFresh⟩,
     ⟨"stationLocation", ["stationLocation"], .orFresh⟩]
  new := Dis.SeparationVP.callHeap

/-- The constructor of `EmitterSystem` (/repo/opendis/dis7.py:3630-3636). -/
def Ctor.EmitterSystem : Ctor where
  cls := .EmitterSystem
  params :=
    [⟨"emitterName", ["emitterName"], .asIs⟩, ⟨"emitterFunction", ["emitterFunction"], .asIs⟩,
     ⟨"emitterIDNumber", ["emitterIDNumber"], .asIs⟩]
  new := Dis.EmitterSystem.callHeap

/-- The constructor of `PduStatus` (/repo/opendis/dis7.py:3658-3660). -/
def Ctor.PduStatus : Ctor where
  cls := .PduStatus
  params :=
    [⟨"pduStatus", ["pduStatus"], .asIs⟩]
  new := Dis.PduStatus.callHeap

/-- The constructor of `EmissionSystemBeamRecord` (/repo/opendis/dis7.py:5178-5197). -/
def Ctor.EmissionSystemBeamRecord : Ctor where
  cls := .EmissionSystemBeamRecord
  params :=
    [⟨"beamDataLength", ["beamDataLength"], .asIs⟩, ⟨"beamIDNumber", ["beamIDNumber"], .asIs⟩,
     ⟨"beamParameterIndex", ["beamParameterIndex"], .asIs⟩,
     ⟨"fundamentalParameterData", ["fundamentalParameterData"], .orFresh⟩,
     ⟨"beamFunction", ["beamFunction"], .asIs⟩, ⟨"highDensityTrackJam", ["highDensityTrackJam"], .asIs⟩,
     ⟨"beamStatus", ["beamStatus"], .orFresh⟩, ⟨"jammingModeSequence", ["jammingModeSequence"], .asIs⟩,
     ⟨"trackJamRecords", ["trackJamRecords"], .orFresh⟩]
  new := Dis.EmissionSystemBeamRecord.callHeap

/-- The constructor of `EmissionSystemRecord` (/repo/opendis/dis7.py:5240-5252). -/
def Ctor.EmissionSystemRecord : Ctor where
  cls := .EmissionSystemRecord
  params :=
    [⟨"systemDataLength", ["systemDataLength"], .asIs⟩, ⟨"emitterSystem", ["emitterSystem"], .orFresh⟩,
     ⟨"location", ["location"], .orFresh⟩, ⟨"beamRecords", ["beamRecords"], .orFresh⟩]
  new := Dis.EmissionSystemRecord.callHeap

/-- Constructors of `heapRecords5` (/repo/opendis). -/
def ctorsRecords5 : List Ctor :=
  [.EnvironmentGeneral,
   .GridAxis,
   .RecordSpecification,
   .EventIdentifierLiveEntity,
   .ExpendableDescriptor,
   .PropulsionSystemData,
   .LiveEntityIdentifier,
   .SeparationVP,
   .EmitterSystem,
   .PduStatus,
   .EmissionSystemBeamRecord,
   .EmissionSystemRecord]

/-- The constructor of `EntityStateUpdatePdu` (/repo/opendis/dis7.py:3768-3788). -/
def Ctor.EntityStateUpdatePdu : Ctor where
  cls := .EntityStateUpdatePdu
  params :=
    [⟨"entityID", ["entityID"], .orFresh⟩, ⟨"entityLinearVelocity", ["entityLinearVelocity"], .orFresh⟩,
     ⟨"entityLocation", ["entityLocation"], .orFresh⟩, ⟨"entityOrientation", ["entityOrientation"], .orFresh⟩,
     ⟨"entityAppearance", ["entityAppearance"], .asIs⟩,
     ⟨"variableParameters", ["variableParameters"], .orFresh⟩]
  new := Dis.EntityStateUpdatePdu.callHeap

/-- The constructor of `ServiceRequestPdu` (/repo/opendis/dis7.py:3831-3844). -/
def Ctor.ServiceRequestPdu : Ctor where
  cls := .ServiceRequestPdu
  params :=
    [⟨"requestingEntityID", ["requestingEntityID"], .orFresh⟩,
     ⟨"servicingEntityID", ["servicingEntityID"], .orFresh⟩,
     ⟨"serviceTypeRequested", ["serviceTypeRequested"], .asIs⟩, ⟨"supplies", ["supplies"], .orFresh⟩]
  new := Dis.ServiceRequestPdu.callHeap

/-- The constructor of `RepairCompletePdu` (/repo/opendis/dis7.py:3882-3894). -/
def Ctor.RepairCompletePdu : Ctor where
  cls := .RepairCompletePdu
  params :=
    [⟨"receivingEntityID", ["receivingEntityID"], .orFresh⟩,
     ⟨"repairingEntityID", ["repairingEntityID"], .orFresh⟩, ⟨"repair", ["repair"], .asIs⟩]
  new := Dis.RepairCompletePdu.callHeap

/-- The constructor of `CollisionPdu` (/repo/opendis/dis7.py:3940-3963). -/
def Ctor.CollisionPdu : Ctor where
  cls := .CollisionPdu
  params :=
    [⟨"issuingEntityID", ["issuingEntityID"], .orFresh⟩,
     ⟨"collidingEntityID", ["collidingEntityID"], .orFresh⟩, ⟨"eventID", ["eventID"], .orFresh⟩,
     ⟨"collisionType", ["collisionType"], .asIs⟩, ⟨"velocity", ["velocity"], .orFresh⟩,
     ⟨"mass", ["mass"], .asIs⟩, ⟨"location", ["location"], .orFresh⟩]
  new := Dis.CollisionPdu.callHeap

/-- The constructor of `RepairResponsePdu` (/repo/opendis/dis7.py:3997-4009). -/
def Ctor.RepairResponsePdu : Ctor where
  cls := .RepairResponsePdu
  params :=
    [⟨"receivingEntityID", ["receivingEntityID"], .orFresh⟩,
     ⟨"repairingEntityID", ["repairingEntityID"], .orFresh⟩, ⟨"repairResult", ["repairResult"], .asIs⟩]
  new := Dis.RepairResponsePdu.callHeap

/-- The constructor of `DataQueryPdu` (/repo/opendis/dis7.py:4066-4077). -/
def Ctor.DataQueryPdu : Ctor where
  cls := .DataQueryPdu
  params :=
    [⟨"requestID", [], .asIs⟩, ⟨"timeInterval", [], .asIs⟩,
     ⟨"fixedDatumIDs", ["_dataQuery", "fixedDatumIDs"], .orFresh⟩,
     ⟨"variableDatumIDs", ["_dataQuery", "variableDatumIDs"], .orFresh⟩]
  new := Dis.DataQueryPdu.callHeap

/-- Constructors of `heapPdus1` (/repo/opendis). -/
def ctorsPdus1 : List Ctor :=
  [.EntityStateUpdatePdu,
   .ServiceRequestPdu,
   .RepairCompletePdu,
   .CollisionPdu,
   .RepairResponsePdu,
   .DataQueryPdu]

/-- The constructor of `CreateEntityPdu` (/repo/opendis/dis7.py:4185-4188). -/
def Ctor.CreateEntityPdu : Ctor where
  cls := .CreateEntityPdu
  params :=
    [⟨"requestID", ["requestID"], .asIs⟩]
  new := Dis.CreateEntityPdu.callHeap

/-- The constructor of `IntercomSignalPdu` (/repo/opendis/dis7.py:4227-4244). -/
def Ctor.IntercomSignalPdu : Ctor where
  cls := .IntercomSignalPdu
  params :=
    [⟨"entityID", ["entityID"], .orFresh⟩, ⟨"communicationsDeviceID", ["communicationsDeviceID"], .asIs⟩,
     ⟨"encodingScheme", ["encodingScheme"], .asIs⟩, ⟨"tdlType", ["tdlType"], .asIs⟩,
     ⟨"sampleRate", ["sampleRate"], .asIs⟩, ⟨"samples", ["samples"], .asIs⟩, ⟨"data", ["data"], .orFresh⟩]
  new := Dis.IntercomSignalPdu.callHeap

/-- The constructor of `RemoveEntityPdu` (/repo/opendis/dis7.py:4291-4295). -/
def Ctor.RemoveEntityPdu : Ctor where
  cls := .RemoveEntityPdu
  params :=
    [⟨"requestID", ["requestID"], .asIs⟩]
  new := Dis.RemoveEntityPdu.callHeap

/-- The constructor of `ResupplyReceivedPdu` (/repo/opendis/dis7.py:4315-4327). -/
def Ctor.ResupplyReceivedPdu : Ctor where
  cls := .ResupplyReceivedPdu
  params :=
    [⟨"receivingEntityID", ["receivingEntityID"], .orFresh⟩,
     ⟨"supplyingEntityID", ["supplyingEntityID"], .orFresh⟩, ⟨"supplies", ["supplies"], .orFresh⟩]
  new := Dis.ResupplyReceivedPdu.callHeap

/-- The constructor of `CollisionElasticPdu` (/repo/opendis/dis7.py:4396-4436). -/
def Ctor.CollisionElasticPdu : Ctor where
  cls := .CollisionElasticPdu
  params :=
    [⟨"issuingEntityID", ["issuingEntityID"], .orFresh⟩,
     ⟨"collidingEntityID", ["collidingEntityID"], .orFresh⟩,
     ⟨"collisionEventID", ["collisionEventID"], .orFresh⟩, ⟨"contactVelocity", ["contactVelocity"], .orFresh⟩,
     ⟨"mass", ["mass"], .asIs⟩, ⟨"locationOfImpact", ["locationOfImpact"], .orFresh⟩,
     ⟨"collisionIntermediateResultXX", ["collisionIntermediateResultXX"], .asIs⟩,
     ⟨"collisionIntermediateResultXY", ["collisionIntermediateResultXY"], .asIs⟩,
     ⟨"collisionIntermediateResultXZ", ["collisionIntermediateResultXZ"], .asIs⟩,
     ⟨"collisionIntermediateResultYY", ["collisionIntermediateResultYY"], .asIs⟩,
     ⟨"collisionIntermediateResultYZ", ["collisionIntermediateResultYZ"], .asIs⟩,
     ⟨"collisionIntermediateResultZZ", ["collisionIntermediateResultZZ"], .asIs⟩,
     ⟨"unitSurfaceNormal", ["unitSurfaceNormal"], .orFresh⟩,
     ⟨"coefficientOfRestitution", ["coefficientOfRestitution"], .asIs⟩]
  new := Dis.CollisionElasticPdu.callHeap

/-- The constructor of `ActionRequestPdu` (/repo/opendis/dis7.py:4485-4497). -/
def Ctor.ActionRequestPdu : Ctor where
  cls := .ActionRequestPdu
  params :=
    [⟨"requestID", ["requestID"], .asIs⟩, ⟨"actionID", ["actionID"], .asIs⟩,
     ⟨"fixedDatumRecords", ["_datums", "fixedDatumRecords"], .orFresh⟩,
     ⟨"variableDatumRecords", ["_datums", "variableDatumRecords"], .orFresh⟩]
  new := Dis.ActionRequestPdu.callHeap

/-- The constructor of `AcknowledgePdu` (/repo/opendis/dis7.py:4538-4548). -/
def Ctor.AcknowledgePdu : Ctor where
  cls := .AcknowledgePdu
  params :=
    [⟨"acknowledgeFlag", ["acknowledgeFlag"], .asIs⟩, ⟨"responseFlag", ["responseFlag"], .asIs⟩,
     ⟨"requestID", ["requestID"], .asIs⟩]
  new := Dis.AcknowledgePdu.callHeap

/-- The constructor of `ActionRequestReliablePdu` (/repo/opendis/dis7.py:4621-4637). -/
def Ctor.ActionRequestReliablePdu : Ctor where
  cls := .ActionRequestReliablePdu
  params :=
    [⟨"requiredReliabilityService", ["requiredReliabilityService"], .asIs⟩,
     ⟨"requestID", ["requestID"], .asIs⟩, ⟨"actionID", ["actionID"], .asIs⟩,
     ⟨"fixedDatumRecords", ["_datums", "fixedDatumRecords"], .orFresh⟩,
     ⟨"variableDatumRecords", ["_datums", "variableDatumRecords"], .orFresh⟩]
  new := Dis.ActionRequestReliablePdu.callHeap

/-- Constructors of `heapPdus2` (/repo/opendis). -/
def ctorsPdus2 : List Ctor :=
  [.CreateEntityPdu,
   .IntercomSignalPdu,
   .RemoveEntityPdu,
   .ResupplyReceivedPdu,
   .CollisionElasticPdu,
   .ActionRequestPdu,
   .AcknowledgePdu,
   .ActionRequestReliablePdu]

/-- The constructor of `DesignatorPdu` (/repo/opendis/dis7.py:4685-4721). -/
def Ctor.DesignatorPdu : Ctor where
  cls := .DesignatorPdu
  params :=
    [⟨"designatingEntityID", ["designatingEntityID"], .orFresh⟩, ⟨"codeName", ["codeName"], .asIs⟩,
     ⟨"designatedEntityID", ["designatedEntityID"], .orFresh⟩, ⟨"designatorCode", ["designatorCode"], .asIs⟩,
     ⟨"designatorPower", ["designatorPower"], .asIs⟩,
     ⟨"designatorWavelength", ["designatorWavelength"], .asIs⟩,
     ⟨"designatorSpotWrtDesignated", ["designatorSpotWrtDesignated"], .orFresh⟩,
     ⟨"designatorSpotLocation", ["designatorSpotLocation"], .orFresh⟩,
     ⟨"deadReckoningAlgorithm", ["deadReckoningAlgorithm"], .asIs⟩,
     ⟨"entityLinearAcceleration", ["entityLinearAcceleration"], .orFresh⟩]
  new := Dis.DesignatorPdu.callHeap

/-- The constructor of `StopFreezePdu` (/repo/opendis/dis7.py:4763-4777). -/
def Ctor.StopFreezePdu : Ctor where
  cls := .StopFreezePdu
  params :=
    [⟨"realWorldTime", ["realWorldTime"], .orFresh⟩, ⟨"reason", ["reason"], .asIs⟩,
     ⟨"frozenBehavior", ["frozenBehavior"], .asIs⟩, ⟨"requestID", ["requestID"], .asIs⟩]
  new := Dis.StopFreezePdu.callHeap

/-- The constructor of `EntityStatePdu` (/repo/opendis/dis7.py:4805-4842). -/
def Ctor.EntityStatePdu : Ctor where
  cls := .EntityStatePdu
  params :=
    [⟨"entityID", ["entityID"], .orFresh⟩, ⟨"forceId", ["forceId"], .asIs⟩,
     ⟨"entityType", ["entityType"], .orFresh⟩, ⟨"alternativeEntityType", ["alternativeEntityType"], .orFresh⟩,
     ⟨"entityLinearVelocity", ["entityLinearVelocity"], .orFresh⟩,
     ⟨"entityLocation", ["entityLocation"], .orFresh⟩, ⟨"entityOrientation", ["entityOrientation"], .orFresh⟩,
     ⟨"entityAppearance", ["entityAppearance"], .asIs⟩,
     ⟨"deadReckoningParameters", ["deadReckoningParameters"], .orFresh⟩, ⟨"marking", ["marking"], .orFresh⟩,
     ⟨"capabilities", ["capabilities"], .asIs⟩, ⟨"variableParameters", ["variableParameters"], .orFresh⟩]
  new := Dis.EntityStatePdu.callHeap

/-- The constructor of `StartResumePdu` (/repo/opendis/dis7.py:4916-4926). -/
def Ctor.StartResumePdu : Ctor where
  cls := .StartResumePdu
  params :=
    [⟨"realWorldTime", ["realWorldTime"], .orFresh⟩, ⟨"simulationTime", ["simulationTime"], .orFresh⟩,
     ⟨"requestID", ["requestID"], .asIs⟩]
  new := Dis.StartResumePdu.callHeap

/-- The constructor of `ElectromagneticEmissionsPdu` (/repo/opendis/dis7.py:5127-5140). -/
def Ctor.ElectromagneticEmissionsPdu : Ctor where
  cls := .ElectromagneticEmissionsPdu
  params :=
    [⟨"emittingEntityID", ["emittingEntityID"], .orFresh⟩, ⟨"eventID", ["eventID"], .orFresh⟩,
     ⟨"stateUpdateIndicator", ["stateUpdateIndicator"], .asIs⟩, ⟨"systems", ["systems"], .orFresh⟩]
  new := Dis.ElectromagneticEmissionsPdu.callHeap

/-- The constructor of `ResupplyOfferPdu` (/repo/opendis/dis7.py:5287-5299). -/
def Ctor.ResupplyOfferPdu : Ctor where
  cls := .ResupplyOfferPdu
  params :=
    [⟨"receivingEntityID", ["receivingEntityID"], .orFresh⟩,
     ⟨"supplyingEntityID", ["supplyingEntityID"], .orFresh⟩, ⟨"supplies", ["supplies"], .orFresh⟩]
  new := Dis.ResupplyOfferPdu.callHeap

/-- The constructor of `SetDataReliablePdu` (/repo/opendis/dis7.py:5421-5434). -/
def Ctor.SetDataReliablePdu : Ctor where
  cls := .SetDataReliablePdu
  params :=
    [⟨"requiredReliabilityService", ["requiredReliabilityService"], .asIs⟩,
     ⟨"requestID", ["requestID"], .asIs⟩, ⟨"fixedDatumRecords", ["_datums", "fixedDatumRecords"], .orFresh⟩,
     ⟨"variableDatumRecords", ["_datums", "variableDatumRecords"], .orFresh⟩]
  new := Dis.SetDataReliablePdu.callHeap

/-- The constructor of `EventReportPdu` (/repo/opendis/dis7.py:5479-5488). -/
def Ctor.EventReportPdu : Ctor where
  cls := .EventReportPdu
  params :=
    [⟨"eventType", ["eventType"], .asIs⟩, ⟨"fixedDatumRecords", ["_datums", "fixedDatumRecords"], .orFresh⟩,
     ⟨"variableDatumRecords", ["_datums", "variableDatumRecords"], .orFresh⟩]
  new := Dis.EventReportPdu.callHeap

/-- The constructor of `PointObjectStatePdu` (/repo/opendis/dis7.py:5513-5550). -/
def Ctor.PointObjectStatePdu : Ctor where
  cls := .PointObjectStatePdu
  params :=
    [⟨"objectID", ["objectID"], .orFresh⟩, ⟨"referencedObjectID", ["referencedObjectID"], .orFresh⟩,
     ⟨"updateNumber", ["updateNumber"], .asIs⟩, ⟨"forceID", ["forceID"], .asIs⟩,
     ⟨"modifications", ["modifications"], .asIs⟩, ⟨"objectType", ["objectType"], .orFresh⟩,
     ⟨"objectLocation", ["objectLocation"], .orFresh⟩, ⟨"objectOrientation", ["objectOrientation"], .orFresh⟩,
     ⟨"objectAppearance", ["objectAppearance"], .asIs⟩, ⟨"requesterID", ["requesterID"], .orFresh⟩,
     ⟨"receivingID", ["receivingID"], .orFresh⟩]
  new := Dis.PointObjectStatePdu.callHeap

/-- The constructor of `DataPdu` (/repo/opendis/dis7.py:5593-5603). -/
def Ctor.DataPdu : Ctor where
  cls := .DataPdu
  params :=
    [⟨"requestID", ["requestID"], .asIs⟩, ⟨"fixedDatumRecords", ["_datums", "fixedDatumRecords"], .orFresh⟩,
     ⟨"variableDatumRecords", ["_datums", "variableDatumRecords"], .orFresh⟩]
  new := Dis.DataPdu.callHeap

/-- Constructors of `heapPdus3` (/repo/opendis). -/
def ctorsPdus3 : List Ctor :=
  [.DesignatorPdu,
   .StopFreezePdu,
   .EntityStatePdu,
   .StartResumePdu,
   .ElectromagneticEmissionsPdu,
   .ResupplyOfferPdu,
   .SetDataReliablePdu,
   .EventReportPdu,
   .PointObjectStatePdu,
   .DataPdu]

/-- The constructor of `FastEntityStatePdu` (/repo/opendis/dis7.py:5646-5762). -/
def Ctor.FastEntityStatePdu : Ctor where
  cls := .FastEntityStatePdu
  params :=
    [⟨"site", ["site"], .asIs⟩, ⟨"application", ["application"], .asIs⟩, ⟨"entity", ["entity"], .asIs⟩,
     ⟨"forceId", ["forceId"], .asIs⟩, ⟨"numberOfVariableParameters", ["numberOfVariableParameters"], .asIs⟩,
     ⟨"entityKind", ["entityKind"], .asIs⟩, ⟨"domain", ["domain"], .asIs⟩, ⟨"country", ["country"], .asIs⟩,
     ⟨"category", ["category"], .asIs⟩, ⟨"subcategory", ["subcategory"], .asIs⟩,
     ⟨"specific", ["specific"], .asIs⟩, ⟨"extra", ["extra"], .asIs⟩,
     ⟨"altEntityKind", ["altEntityKind"], .asIs⟩, ⟨"altDomain", ["altDomain"], .asIs⟩,
     ⟨"altCountry", ["altCountry"], .asIs⟩, ⟨"altCategory", ["altCategory"], .asIs⟩,
     ⟨"altSubcategory", ["altSubcategory"], .asIs⟩, ⟨"altSpecific", ["altSpecific"], .asIs⟩,
     ⟨"altExtra", ["altExtra"], .asIs⟩, ⟨"xVelocity", ["xVelocity"], .asIs⟩,
     ⟨"yVelocity", ["yVelocity"], .asIs⟩, ⟨"zVelocity", ["zVelocity"], .asIs⟩,
     ⟨"xLocation", ["xLocation"], .asIs⟩, ⟨"yLocation", ["yLocation"], .asIs⟩,
     ⟨"zLocation", ["zLocation"], .asIs⟩, ⟨"psi", ["psi"], .asIs⟩, ⟨"theta", ["theta"], .asIs⟩,
     ⟨"phi", ["phi"], .asIs⟩, ⟨"entityAppearance", ["entityAppearance"], .asIs⟩,
     ⟨"deadReckoningAlgorithm", ["deadReckoningAlgorithm"], .asIs⟩,
     ⟨"otherParameters", ["otherParameters"], .orFresh⟩, ⟨"xAcceleration", ["xAcceleration"], .asIs⟩,
     ⟨"yAcceleration", ["yAcceleration"], .asIs⟩, ⟨"zAcceleration", ["zAcceleration"], .asIs⟩,
     ⟨"xAngularVelocity", ["xAngularVelocity"], .asIs⟩, ⟨"yAngularVelocity", ["yAngularVelocity"], .asIs⟩,
     ⟨"zAngularVelocity", ["zAngularVelocity"], .asIs⟩, ⟨"marking", ["marking"], .orFresh⟩,
     ⟨"capabilities", ["capabilities"], .asIs⟩, ⟨"variableParameters", ["variableParameters"], .orFresh⟩]
  new := Dis.FastEntityStatePdu.callHeap

/-- The constructor of `AcknowledgeReliablePdu` (/repo/opendis/dis7.py:5879-5888). -/
def Ctor.AcknowledgeReliablePdu : Ctor where
  cls := .AcknowledgeReliablePdu
  params :=
    [⟨"acknowledgeFlag", ["acknowledgeFlag"], .asIs⟩, ⟨"responseFlag", ["responseFlag"], .asIs⟩,
     ⟨"requestID", ["requestID"], .asIs⟩]
  new := Dis.AcknowledgeReliablePdu.callHeap

/-- The constructor of `StartResumeReliablePdu` (/repo/opendis/dis7.py:5912-5926). -/
def Ctor.StartResumeReliablePdu : Ctor where
  cls := .StartResumeReliablePdu
  params :=
    [⟨"realWorldTime", ["realWorldTime"], .orFresh⟩, ⟨"simulationTime", ["simulationTime"], .orFresh⟩,
     ⟨"requiredReliabilityService", ["requiredReliabilityService"], .asIs⟩,
     ⟨"requestID", ["requestID"], .asIs⟩]
  new := Dis.StartResumeReliablePdu.callHeap

/-- The constructor of `ArealObjectStatePdu` (/repo/opendis/dis7.py:5958-5985). -/
def Ctor.ArealObjectStatePdu : Ctor where
  cls := .ArealObjectStatePdu
  params :=
    [⟨"objectID", ["objectID"], .orFresh⟩, ⟨"referencedObjectID", ["referencedObjectID"], .orFresh⟩,
     ⟨"updateNumber", ["updateNumber"], .asIs⟩, ⟨"forceId", ["forceID"], .asIs⟩,
     ⟨"modifications", ["modifications"], .asIs⟩, ⟨"objectType", ["objectType"], .orFresh⟩,
     ⟨"specificObjectAppearance", ["specificObjectAppearance"], .asIs⟩,
     ⟨"generalObjectAppearance", ["generalObjectAppearance"], .asIs⟩,
     ⟨"requesterID", ["requesterID"], .orFresh⟩, ⟨"receivingID", ["receivingID"], .orFresh⟩,
     ⟨"objectLocation", ["objectLocation"], .orFresh⟩]
  new := Dis.ArealObjectStatePdu.callHeap

/-- The constructor of `DataQueryReliablePdu` (/repo/opendis/dis7.py:6035-6051). -/
def Ctor.DataQueryReliablePdu : Ctor where
  cls := .DataQueryReliablePdu
  params :=
    [⟨"requiredReliabilityService", ["requiredReliabilityService"], .asIs⟩,
     ⟨"requestID", ["requestID"], .asIs⟩, ⟨"timeInterval", ["timeInterval"], .asIs⟩,
     ⟨"fixedDatumIDs", ["_dataQuery", "fixedDatumIDs"], .orFresh⟩,
     ⟨"variableDatumIDs", ["_dataQuery", "variableDatumIDs"], .orFresh⟩]
  new := Dis.DataQueryReliablePdu.callHeap

/-- The constructor of `MinefieldStatePdu` (/repo/opendis/dis7.py:6098-6122). -/
def Ctor.MinefieldStatePdu : Ctor where
  cls := .MinefieldStatePdu
  params :=
    [⟨"minefieldID", ["minefieldID"], .orFresh⟩, ⟨"minefieldSequence", ["minefieldSequence"], .asIs⟩,
     ⟨"forceID", ["forceID"], .asIs⟩, ⟨"minefieldType", ["minefieldType"], .orFresh⟩,
     ⟨"minefieldLocation", ["minefieldLocation"], .orFresh⟩,
     ⟨"minefieldOrientation", ["minefieldOrientation"], .orFresh⟩, ⟨"appearance", ["appearance"], .asIs⟩,
     ⟨"protocolMode", ["protocolMode"], .asIs⟩, ⟨"perimeterPoints", ["perimeterPoints"], .orFresh⟩,
     ⟨"mineTypes", ["mineTypes"], .orFresh⟩]
  new := Dis.MinefieldStatePdu.callHeap

/-- The constructor of `DataReliablePdu` (/repo/opendis/dis7.py:6183-6196). -/
def Ctor.DataReliablePdu : Ctor where
  cls := .DataReliablePdu
  params :=
    [⟨"requestID", ["requestID"], .asIs⟩,
     ⟨"requiredReliabilityService", ["requiredReliabilityService"], .asIs⟩,
     ⟨"fixedDatumRecords", ["_datums", "fixedDatumRecords"], .orFresh⟩,
     ⟨"variableDatumRecords", ["_datums", "variableDatumRecords"], .orFresh⟩]
  new := Dis.DataReliablePdu.callHeap

/-- The constructor of `CommentPdu` (/repo/opendis/dis7.py:6240-6246). -/
def Ctor.CommentPdu : Ctor where
  cls := .CommentPdu
  params :=
    [⟨"fixedDatumRecords", ["_datums", "fixedDatumRecords"], .orFresh⟩,
     ⟨"variableDatumRecords", ["_datums", "variableDatumRecords"], .orFresh⟩]
  new := Dis.CommentPdu.callHeap

/-- The constructor of `CommentReliablePdu` (/repo/opendis/dis7.py:6283-6289). -/
def Ctor.CommentReliablePdu : Ctor where
  cls := .CommentReliablePdu
  params :=
    [⟨"fixedDatumRecords", ["_datums", "fixedDatumRecords"], .orFresh⟩,
     ⟨"variableDatumRecords", ["_datums", "variableDatumRecords"], .orFresh⟩]
  new := Dis.CommentReliablePdu.callHeap

/-- The constructor of `DetonationPdu` (/repo/opendis/dis7.py:6415-6439). -/
def Ctor.DetonationPdu : Ctor where
  cls := .DetonationPdu
  params :=
    [⟨"explodingEntityID", ["explodingEntityID"], .orFresh⟩, ⟨"eventID", ["eventID"], .orFresh⟩,
     ⟨"velocity", ["velocity"], .orFresh⟩, ⟨"location", ["location"], .orFresh⟩,
     ⟨"descriptor", ["descriptor"], .orFresh⟩,
     ⟨"locationInEntityCoordinates", ["locationInEntityCoordinates"], .orFresh⟩,
     ⟨"detonationResult", ["detonationResult"], .asIs⟩,
     ⟨"variableParameters", ["variableParameters"], .orFresh⟩]
  new := Dis.DetonationPdu.callHeap

/-- The constructor of `SetDataPdu` (/repo/opendis/dis7.py:6485-6494). -/
def Ctor.SetDataPdu : Ctor where
  cls := .SetDataPdu
  params :=
    [⟨"requestID", ["requestID"], .asIs⟩, ⟨"fixedDatumRecords", ["_datums", "fixedDatumRecords"], .orFresh⟩,
     ⟨"variableDatumRecords", ["_datums", "variableDatumRecords"], .orFresh⟩]
  new := Dis.SetDataPdu.callHeap

/-- The constructor of `RecordQueryReliablePdu` (/repo/opendis/dis7.py:6534-6549). -/
def Ctor.RecordQueryReliablePdu : Ctor where
  cls := .RecordQueryReliablePdu
  params :=
    [⟨"requestID", ["requestID"], .asIs⟩,
     ⟨"requiredReliabilityService", ["requiredReliabilityService"], .asIs⟩,
     ⟨"eventType", ["eventType"], .asIs⟩, ⟨"time", ["time"], .asIs⟩, ⟨"recordIDs", ["recordIDs"], .orFresh⟩]
  new := Dis.RecordQueryReliablePdu.callHeap

/-- The constructor of `ActionResponsePdu` (/repo/opendis/dis7.py:6591-6602). -/
def Ctor.ActionResponsePdu : Ctor where
  cls := .ActionResponsePdu
  params :=
    [⟨"requestID", ["requestID"], .asIs⟩, ⟨"requestStatus", ["requestStatus"], .asIs⟩,
     ⟨"fixedDatumRecords", ["_datums", "fixedDatumRecords"], .orFresh⟩,
     ⟨"variableDatumRecords", ["_datums", "variableDatumRecords"], .orFresh⟩]
  new := Dis.ActionResponsePdu.callHeap

/-- Constructors of `heapPdus4` (/repo/opendis). -/
def ctorsPdus4 : List Ctor :=
  [.FastEntityStatePdu,
   .AcknowledgeReliablePdu,
   .StartResumeReliablePdu,
   .ArealObjectStatePdu,
   .DataQueryReliablePdu,
   .MinefieldStatePdu,
   .DataReliablePdu,
   .CommentPdu,
   .CommentReliablePdu,
   .DetonationPdu,
   .SetDataPdu,
   .RecordQueryReliablePdu,
   .ActionResponsePdu]

/-- The constructor of `FirePdu` (/repo/opendis/dis7.py:6688-6711). -/
def Ctor.FirePdu : Ctor where
  cls := .FirePdu
  params :=
    [⟨"munitionExpendableID", ["munitionExpendableID"], .orFresh⟩, ⟨"eventID", ["eventID"], .orFresh⟩,
     ⟨"fireMissionIndex", ["fireMissionIndex"], .asIs⟩, ⟨"location", ["location"], .orFresh⟩,
     ⟨"descriptor", ["descriptor"], .orFresh⟩, ⟨"velocity", ["velocity"], .orFresh⟩,
     ⟨"range_", ["range"], .asIs⟩]
  new := Dis.FirePdu.callHeap

/-- The constructor of `ReceiverPdu` (/repo/opendis/dis7.py:6743-6757). -/
def Ctor.ReceiverPdu : Ctor where
  cls := .ReceiverPdu
  params :=
    [⟨"receiverState", ["receiverState"], .asIs⟩, ⟨"receivedPower", ["receivedPower"], .asIs⟩,
     ⟨"transmitterEntityID", ["transmitterEntityID"], .orFresh⟩,
     ⟨"transmitterRadioId", ["transmitterRadioId"], .asIs⟩]
  new := Dis.ReceiverPdu.callHeap

/-- The constructor of `UaPdu` (/repo/opendis/dis7.py:6787-6814). -/
def Ctor.UaPdu : Ctor where
  cls := .UaPdu
  params :=
    [⟨"emittingEntityID", ["emittingEntityID"], .orFresh⟩, ⟨"eventID", ["eventID"], .orFresh⟩,
     ⟨"stateChangeIndicator", ["stateChangeIndicator"], .asIs⟩,
     ⟨"passiveParameterIndex", ["passiveParameterIndex"], .asIs⟩,
     ⟨"propulsionPlantConfiguration", ["propulsionPlantConfiguration"], .asIs⟩,
     ⟨"shaftRPMs", ["shaftRPMs"], .orFresh⟩, ⟨"apaData", ["apaData"], .orFresh⟩,
     ⟨"emitterSystems", ["emitterSystems"], .orFresh⟩]
  new := Dis.UaPdu.callHeap

/-- The constructor of `SignalPdu` (/repo/opendis/dis7.py:6966-6982). -/
def Ctor.SignalPdu : Ctor where
  cls := .SignalPdu
  params :=
    [⟨"entityID", ["entityID"], .orFresh⟩, ⟨"radioID", ["radioID"], .asIs⟩,
     ⟨"encodingScheme", ["encodingScheme"], .asIs⟩, ⟨"tdlType", ["tdlType"], .asIs⟩,
     ⟨"sampleRate", ["sampleRate"], .asIs⟩, ⟨"samples", ["samples"], .asIs⟩, ⟨"data", ["data"], .orFresh⟩]
  new := Dis.SignalPdu.callHeap

/-- The constructor of `RemoveEntityReliablePdu` (/repo/opendis/dis7.py:7025-7033). -/
def Ctor.RemoveEntityReliablePdu : Ctor where
  cls := .RemoveEntityReliablePdu
  params :=
    [⟨"requiredReliabilityService", ["requiredReliabilityService"], .asIs⟩,
     ⟨"requestID", ["requestID"], .asIs⟩]
  new := Dis.RemoveEntityReliablePdu.callHeap

/-- The constructor of `SeesPdu` (/repo/opendis/dis7.py:7059-7072). -/
def Ctor.SeesPdu : Ctor where
  cls := .SeesPdu
  params :=
    [⟨"originatingEntityID", ["orginatingEntityID"], .orFresh⟩,
     ⟨"infraredSignatureRepresentationIndex", ["infraredSignatureRepresentationIndex"], .asIs⟩,
     ⟨"acousticSignatureRepresentationIndex", ["acousticSignatureRepresentationIndex"], .asIs⟩,
     ⟨"radarCrossSectionSignatureRepresentationIndex", ["radarCrossSectionSignatureRepresentationIndex"], .asIs⟩,
     ⟨"propulsionSystemData", ["propulsionSystemData"], .orFresh⟩,
     ⟨"vectoringSystemData", ["vectoringSystemData"], .orFresh⟩]
  new := Dis.SeesPdu.callHeap

/-- The constructor of `CreateEntityReliablePdu` (/repo/opendis/dis7.py:7129-7137). -/
def Ctor.CreateEntityReliablePdu : Ctor where
  cls := .CreateEntityReliablePdu
  params :=
    [⟨"requiredReliabilityService", ["requiredReliabilityService"], .asIs⟩,
     ⟨"requestID", ["requestID"], .asIs⟩]
  new := Dis.CreateEntityReliablePdu.callHeap

/-- The constructor of `StopFreezeReliablePdu` (/repo/opendis/dis7.py:7163-7179). -/
def Ctor.StopFreezeReliablePdu : Ctor where
  cls := .StopFreezeReliablePdu
  params :=
    [⟨"realWorldTime", ["realWorldTime"], .orFresh⟩, ⟨"reason", ["reason"], .asIs⟩,
     ⟨"frozenBehavior", ["frozenBehavior"], .asIs⟩,
     ⟨"requiredReliabilityService", ["requiredReliablityService"], .asIs⟩, ⟨"requestID", ["requestID"], .asIs⟩]
  new := Dis.StopFreezeReliablePdu.callHeap

/-- The constructor of `EventReportReliablePdu` (/repo/opendis/dis7.py:7210-7220). -/
def Ctor.EventReportReliablePdu : Ctor where
  cls := .EventReportReliablePdu
  params :=
    [⟨"eventType", ["eventType"], .asIs⟩, ⟨"fixedDatumRecords", ["_datums", "fixedDatumRecords"], .orFresh⟩,
     ⟨"variableDatumRecords", ["_datums", "variableDatumRecords"], .orFresh⟩]
  new := Dis.EventReportReliablePdu.callHeap

/-- The constructor of `MinefieldResponseNackPdu` (/repo/opendis/dis7.py:7260-7271). -/
def Ctor.MinefieldResponseNackPdu : Ctor where
  cls := .MinefieldResponseNackPdu
  params :=
    [⟨"minefieldID", ["minefieldID"], .orFresh⟩, ⟨"requestingEntityID", ["requestingEntityID"], .orFresh⟩,
     ⟨"requestID", ["requestID"], .asIs⟩,
     ⟨"missingPduSequenceNumbers", ["missingPduSequenceNumbers"], .orFresh⟩]
  new := Dis.MinefieldResponseNackPdu.callHeap

/-- The constructor of `ActionResponseReliablePdu` (/repo/opendis/dis7.py:7309-7319). -/
def Ctor.ActionResponseReliablePdu : Ctor where
  cls := .ActionResponseReliablePdu
  params :=
    [⟨"requestID", ["requestID"], .asIs⟩, ⟨"responseStatus", ["responseStatus"], .asIs⟩,
     ⟨"fixedDatumRecords", ["_datums", "fixedDatumRecords"], .orFresh⟩,
     ⟨"variableDatumRecords", ["_datums", "variableDatumRecords"], .orFresh⟩]
  new := Dis.ActionResponseReliablePdu.callHeap

/-- The constructor of `IsPartOfPdu` (/repo/opendis/dis7.py:7360-7377). -/
def Ctor.IsPartOfPdu : Ctor where
  cls := .IsPartOfPdu
  params :=
    [⟨"originatingEntityID", ["orginatingEntityID"], .orFresh⟩,
     ⟨"receivingEntityID", ["receivingEntityID"], .orFresh⟩, ⟨"relationship", ["relationship"], .orFresh⟩,
     ⟨"partLocation", ["partLocation"], .orFresh⟩, ⟨"namedLocationID", ["namedLocationID"], .orFresh⟩,
     ⟨"partEntityType", ["partEntityType"], .orFresh⟩]
  new := Dis.IsPartOfPdu.callHeap

/-- The constructor of `AggregateStatePdu` (/repo/opendis/dis7.py:7409-7449). -/
def Ctor.AggregateStatePdu : Ctor where
  cls := .AggregateStatePdu
  params :=
    [⟨"aggregateID", ["aggregateID"], .orFresh⟩, ⟨"forceID", ["forceID"], .asIs⟩,
     ⟨"aggregateState", ["aggregateState"], .asIs⟩, ⟨"aggregateType", ["aggregateType"], .orFresh⟩,
     ⟨"formation", ["formation"], .asIs⟩, ⟨"aggregateMarking", ["aggregateMarking"], .orFresh⟩,
     ⟨"dimensions", ["dimensions"], .orFresh⟩, ⟨"orientation", ["orientation"], .orFresh⟩,
     ⟨"centerOfMass", ["centerOfMass"], .orFresh⟩, ⟨"velocity", ["velocity"], .orFresh⟩,
     ⟨"aggregateIDs", ["aggregateIDs"], .orFresh⟩, ⟨"entityIDs", ["entityIDs"], .orFresh⟩,
     ⟨"silentAggregateSystems", ["silentAggregateSystems"], .orFresh⟩,
     ⟨"silentEntitySystems", ["silentEntitySystems"], .orFresh⟩,
     ⟨"variableDatumRecords", ["variableDatumRecords"], .orFresh⟩]
  new := Dis.AggregateStatePdu.callHeap

/-- Constructors of `heapPdus5` (/repo/opendis). -/
def ctorsPdus5 : List Ctor :=
  [.FirePdu,
   .ReceiverPdu,
   .UaPdu,
   .SignalPdu,
   .RemoveEntityReliablePdu,
   .SeesPdu,
   .CreateEntityReliablePdu,
   .StopFreezeReliablePdu,
   .EventReportReliablePdu,
   .MinefieldResponseNackPdu,
   .ActionResponseReliablePdu,
   .IsPartOfPdu,
   .AggregateStatePdu]

/-- The constructor of `BeamAntennaPattern` (/repo/opendis/record/radio/__init__.py:111-132). -/
def Ctor.BeamAntennaPattern : Ctor where
  cls := .BeamAntennaPattern
  params :=
    [⟨"beamDirection", ["beamDirection"], .orFresh⟩, ⟨"azimuthBeamwidth", ["azimuthBeamwidth"], .asIs⟩,
     ⟨"elevationBeamwidth", ["elevationBeamwidth"], .asIs⟩, ⟨"referenceSystem", ["referenceSystem"], .asIs⟩,
     ⟨"ez", ["ez"], .asIs⟩, ⟨"ex", ["ex"], .asIs⟩, ⟨"phase", ["phase"], .asIs⟩]
  new := Dis.BeamAntennaPattern.callHeap

/-- The constructor of `SpreadSpectrum` (/repo/opendis/record/radio/__init__.py:189-197). -/
def Ctor.SpreadSpectrum : Ctor where
  cls := .SpreadSpectrum
  params :=
    [⟨"frequencyHopping", ["frequencyHopping"], .asIs⟩, ⟨"pseudoNoise", ["pseudoNoise"], .asIs⟩,
     ⟨"timeHopping", ["timeHopping"], .asIs⟩, ⟨"padding", ["padding"], .asIs⟩]
  new := Dis.SpreadSpectrum.callHeap

/-- The constructor of `ModulationType` (/repo/opendis/record/radio/__init__.py:224-233). -/
def Ctor.ModulationType : Ctor where
  cls := .ModulationType
  params :=
    [⟨"spreadSpectrum", ["spreadSpectrum"], .orFresh⟩, ⟨"majorModulation", ["majorModulation"], .asIs⟩,
     ⟨"detail", ["detail"], .asIs⟩, ⟨"radioSystem", ["radioSystem"], .asIs⟩]
  new := Dis.ModulationType.callHeap

/-- The constructor of `NetId` (/repo/opendis/record/radio/__init__.py:283-292). -/
def Ctor.NetId : Ctor where
  cls := .NetId
  params :=
    [⟨"netNumber", ["netNumber"], .asIs⟩, ⟨"frequencyTable", ["frequencyTable"], .asIs⟩,
     ⟨"mode", ["mode"], .asIs⟩, ⟨"padding", ["padding"], .asIs⟩]
  new := Dis.NetId.callHeap

/-- The constructor of `BasicHaveQuickMP` (/repo/opendis/record/radio/__init__.py:360-374). -/
def Ctor.BasicHaveQuickMP : Ctor where
  cls := .BasicHaveQuickMP
  params :=
    [⟨"net_id", ["net_id"], .orFresh⟩, ⟨"mwod_index", ["mwod_index"], .asIs⟩,
     ⟨"reserved16", ["reserved16"], .asIs⟩, ⟨"reserved8_1", ["reserved8_1"], .asIs⟩,
     ⟨"reserved8_2", ["reserved8_2"], .asIs⟩, ⟨"time_of_day", ["time_of_day"], .asIs⟩,
     ⟨"padding", ["padding"], .asIs⟩]
  new := Dis.BasicHaveQuickMP.callHeap

/-- The constructor of `CCTTSincgarsMP` (/repo/opendis/record/radio/__init__.py:406-421). -/
def Ctor.CCTTSincgarsMP : Ctor where
  cls := .CCTTSincgarsMP
  params :=
    [⟨"fh_net_id", ["fh_net_id"], .asIs⟩, ⟨"hop_set_id", ["hop_set_id"], .asIs⟩,
     ⟨"lockout_set_id", ["lockout_set_id"], .asIs⟩, ⟨"start_of_message", ["start_of_message"], .asIs⟩,
     ⟨"clear_channel", ["clear_channel"], .asIs⟩, ⟨"fh_sync_time_offset", ["fh_sync_time_offset"], .asIs⟩,
     ⟨"transmission_security_key", ["transmission_security_key"], .asIs⟩]
  new := Dis.CCTTSincgarsMP.callHeap

/-- Constructors of `heapRadio` (/repo/opendis). -/
def ctorsRadio : List Ctor :=
  [.BeamAntennaPattern,
   .SpreadSpectrum,
   .ModulationType,
   .NetId,
   .BasicHaveQuickMP,
   .CCTTSincgarsMP]

/-- The constructor of `DEFireFlags` (/repo/opendis/record/warfare/enums.py:17-23). -/
def Ctor.DEFireFlags : Ctor where
  cls := .DEFireFlags
  params :=
    [⟨"weaponOn", ["weaponOn"], .asIs⟩, ⟨"stateUpdateFlag", ["stateUpdateFlag"], .asIs⟩]
  new := Dis.DEFireFlags.callHeap

/-- The constructor of `DirectedEnergyTargetEnergyDeposition` (/repo/opendis/record/warfare/__init__.py:260-265). -/
def Ctor.DirectedEnergyTargetEnergyDeposition : Ctor where
  cls := .DirectedEnergyTargetEnergyDeposition
  params :=
    [⟨"targetEntityID", ["targetEntityID"], .orFresh⟩, ⟨"peakIrradiance", ["peakIrradiance"], .asIs⟩]
  new := Dis.DirectedEnergyTargetEnergyDeposition.callHeap

/-- Constructors of `heapWarfare` (/repo/opendis). -/
def ctorsWarfare : List Ctor :=
  [.DEFireFlags,
   .DirectedEnergyTargetEnergyDeposition]

/-- The constructor of `DirectedEnergyFirePdu` (/repo/opendis/dis7.py:6326-6355). -/
def Ctor.DirectedEnergyFirePdu : Ctor where
  cls := .DirectedEnergyFirePdu
  params :=
    [⟨"munitionType", ["munitionType"], .orFresh⟩, ⟨"shotStartTime", ["shotStartTime"], .orFresh⟩,
     ⟨"cumulativeShotTime", ["cumulativeShotTime"], .asIs⟩,
     ⟨"apertureEmitterLocation", ["apertureEmitterLocation"], .orFresh⟩,
     ⟨"apertureDiameter", ["apertureDiameter"], .asIs⟩, ⟨"wavelength", ["wavelength"], .asIs⟩,
     ⟨"pulseRepetitionFrequency", ["pulseRepetitionFrequency"], .asIs⟩, ⟨"pulseWidth", ["pulseWidth"], .asIs⟩,
     ⟨"flags", ["flags"], .orFresh⟩, ⟨"pulseShape", ["pulseShape"], .asIs⟩,
     ⟨"dERecords", ["dERecords"], .orFresh⟩]
  new := Dis.DirectedEnergyFirePdu.callHeap

/-- The constructor of `EntityDamageStatusPdu` (/repo/opendis/dis7.py:6643-6651). -/
def Ctor.EntityDamageStatusPdu : Ctor where
  cls := .EntityDamageStatusPdu
  params :=
    [⟨"damagedEntityID", ["damagedEntityID"], .orFresh⟩,
     ⟨"damageDescriptions", ["damageDescriptions"], .orFresh⟩]
  new := Dis.EntityDamageStatusPdu.callHeap

/-- Constructors of `heapSpecial` (/repo/opendis). -/
def ctorsSpecial : List Ctor :=
  [.DirectedEnergyFirePdu,
   .EntityDamageStatusPdu]

/-- The constructor of `TransmitterPdu` (/repo/opendis/dis7.py:4952-4996). -/
def Ctor.TransmitterPdu : Ctor where
  cls := .TransmitterPdu
  params :=
    [⟨"radioReferenceID", ["radioReferenceID"], .orFresh⟩, ⟨"radioNumber", ["radioNumber"], .asIs⟩,
     ⟨"radioEntityType", ["radioEntityType"], .orFresh⟩, ⟨"transmitState", ["transmitState"], .asIs⟩,
     ⟨"inputSource", ["inputSource"], .asIs⟩, ⟨"antennaLocation", ["antennaLocation"], .orFresh⟩,
     ⟨"relativeAntennaLocation", ["relativeAntennaLocation"], .orFresh⟩,
     ⟨"antennaPatternType", ["antennaPatternType"], .asIs⟩, ⟨"frequency", ["frequency"], .asIs⟩,
     ⟨"transmitFrequencyBandwidth", ["transmitFrequencyBandwidth"], .asIs⟩, ⟨"power", ["power"], .asIs⟩,
     ⟨"modulationType", ["modulationType"], .orFresh⟩, ⟨"cryptoSystem", ["cryptoSystem"], .asIs⟩,
     ⟨"cryptoKeyId", ["cryptoKeyId"], .asIs⟩, ⟨"modulationParameters", ["modulationParameters"], .asIs⟩,
     ⟨"antennaPattern", ["antennaPattern"], .asIs⟩,
     ⟨"variableTransmitterParameters", ["variableTransmitterParameters"], .copy⟩]
  new := Dis.TransmitterPdu.callHeap

/-- The constructor of `IntercomControlPdu` (/repo/opendis/dis7.py:6883-6914). -/
def Ctor.IntercomControlPdu : Ctor where
  cls := .IntercomControlPdu
  params :=
    [⟨"controlType", ["controlType"], .asIs⟩,
     ⟨"communicationsChannelType", ["communicationsChannelType"], .asIs⟩,
     ⟨"sourceEntityID", ["sourceEntityID"], .orFresh⟩,
     ⟨"sourceCommunicationsDeviceID", ["sourceCommunicationsDeviceID"], .asIs⟩,
     ⟨"sourceLineID", ["sourceLineID"], .asIs⟩, ⟨"transmitPriority", ["transmitPriority"], .asIs⟩,
     ⟨"transmitLineState", ["transmitLineState"], .asIs⟩, ⟨"command", ["command"], .asIs⟩,
     ⟨"masterEntityID", ["masterEntityID"], .orFresh⟩,
     ⟨"masterCommunicationsDeviceID", ["masterCommunicationsDeviceID"], .asIs⟩,
     ⟨"intercomParameters", ["intercomParameters"], .asIs⟩]
  new := Dis.IntercomControlPdu.callHeap

/-- Constructors of `heapAlone` (/repo/opendis). -/
def ctorsAlone : List Ctor :=
  [.TransmitterPdu,
   .IntercomControlPdu]

/-- The constructors (/repo/opendis). -/
def heapCtors : List Ctor :=
  ctorsCommon ++
  ctorsRecords1 ++
  ctorsRecords2 ++
  ctorsRecords3 ++
  ctorsRecords4 ++
  ctorsRecords5 ++
  ctorsPdus1 ++
  ctorsPdus2 ++
  ctorsPdus3 ++
  ctorsPdus4 ++
  ctorsPdus5 ++
  ctorsRadio ++
  ctorsWarfare ++
  ctorsSpecial ++
  ctorsAlone

end Dis
