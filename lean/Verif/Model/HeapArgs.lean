import Verif.Model.HeapFactory

/-!
# Constructors called with arguments by name

Generated by `tools/genheapargs.py` from `Verif.Model.Heap1` to `Heap5` and `HeapSpecial`.
-/

set_option linter.unusedVariables false
set_option linter.unusedSimpArgs false

namespace Dis

/-- The argument for a parameter, or its default value (e.g. /repo/opendis/dis7.py:3770-3776). -/
def H.arg (args : List (String × Val)) (n : String) (d : Scalar) : Val := (attrOf n args).getD (.sc d)

/-- An operand of `&` (/repo/opendis/dis7.py:3156); `TypeError` for others than integers
and `bool`. -/
def H.argInt (v : Val) : H Int :=
  match v with
  | .sc (.int v) => pure v
  | .sc (.bool b) => pure (if b then 1 else 0)
  | _ => H.throw .typeError

/-- `SimulationAddress(...)` with arguments by name, /repo/opendis/record/common.py:122-128. -/
def SimulationAddress.callHeap (args : List (String × Val)) : H Ref :=
  SimulationAddress.newHeap (H.arg args "site" (.int 0)) (H.arg args "application" (.int 0))

/-- `EntityIdentifier(...)` with arguments by name, /repo/opendis/record/common.py:39-43. -/
def EntityIdentifier.callHeap (args : List (String × Val)) : H Ref :=
  EntityIdentifier.newHeap (H.arg args "simulationAddress" .none) (H.arg args "entityNumber" (.int 0))

/-- `EulerAngles(...)` with arguments by name, /repo/opendis/record/common.py:66-72. -/
def EulerAngles.callHeap (args : List (String × Val)) : H Ref :=
  EulerAngles.newHeap (H.arg args "psi" (.float 0x0000000000000000))
    (H.arg args "theta" (.float 0x0000000000000000)) (H.arg args "phi" (.float 0x0000000000000000))

/-- `EventIdentifier(...)` with arguments by name, /repo/opendis/record/common.py:96-101. -/
def EventIdentifier.callHeap (args : List (String × Val)) : H Ref :=
  EventIdentifier.newHeap (H.arg args "simulationAddress" .none) (H.arg args "eventNumber" (.int 0))

/-- `Vector3Float(...)` with arguments by name, /repo/opendis/record/common.py:152-155. -/
def Vector3Float.callHeap (args : List (String × Val)) : H Ref :=
  Vector3Float.newHeap (H.arg args "x" (.float 0x0000000000000000))
    (H.arg args "y" (.float 0x0000000000000000)) (H.arg args "z" (.float 0x0000000000000000))

/-- `WorldCoordinates(...)` with arguments by name, /repo/opendis/record/common.py:180-183. -/
def WorldCoordinates.callHeap (args : List (String × Val)) : H Ref :=
  WorldCoordinates.newHeap (H.arg args "x" (.float 0x0000000000000000))
    (H.arg args "y" (.float 0x0000000000000000)) (H.arg args "z" (.float 0x0000000000000000))

/-- `DataQueryDatumSpecification(...)` with arguments by name, /repo/opendis/dis7.py:77-83. -/
def DataQueryDatumSpecification.callHeap (args : List (String × Val)) : H Ref :=
  DataQueryDatumSpecification.newHeap (H.arg args "fixedDatumIDs" .none)
    (H.arg args "variableDatumIDs" .none)

/-- `RadioIdentifier(...)` with arguments by name, /repo/opendis/dis7.py:122-130. -/
def RadioIdentifier.callHeap (args : List (String × Val)) : H Ref :=
  RadioIdentifier.newHeap (H.arg args "siteNumber" (.int 0)) (H.arg args "applicationNumber" (.int 0))
    (H.arg args "referenceNumber" (.int 0)) (H.arg args "radioNumber" (.int 0))

/-- `RequestID(...)` with arguments by name, /repo/opendis/dis7.py:154-156. -/
def RequestID.callHeap (args : List (String × Val)) : H Ref :=
  RequestID.newHeap (H.arg args "requestID" (.int 0))

/-- `IFFData(...)` with arguments by name, /repo/opendis/dis7.py:173-182. -/
def IFFData.callHeap (args : List (String × Val)) : H Ref :=
  IFFData.newHeap (H.arg args "recordType" (.int 0)) (H.arg args "recordLength" (.int 0))
    (H.arg args "iffData" .none)

/-- `EntityType(...)` with arguments by name, /repo/opendis/dis7.py:2503-2520. -/
def EntityType.callHeap (args : List (String × Val)) : H Ref :=
  EntityType.newHeap (H.arg args "entityKind" (.int 0)) (H.arg args "domain" (.int 0))
    (H.arg args "country" (.int 0)) (H.arg args "category" (.int 0)) (H.arg args "subcategory" (.int 0))
    (H.arg args "specific" (.int 0)) (H.arg args "extra" (.int 0))

/-- `MunitionDescriptor(...)` with arguments by name, /repo/opendis/dis7.py:210-227. -/
def MunitionDescriptor.callHeap (args : List (String × Val)) : H Ref :=
  MunitionDescriptor.newHeap (H.arg args "munitionType" .none) (H.arg args "warhead" (.int 0))
    (H.arg args "fuse" (.int 0)) (H.arg args "quantity" (.int 0)) (H.arg args "rate" (.int 0))

/-- `MinefieldSensorType(...)` with arguments by name, /repo/opendis/dis7.py:252-254. -/
def MinefieldSensorType.callHeap (args : List (String × Val)) : H Ref :=
  MinefieldSensorType.newHeap (H.arg args "sensorType" (.int 0))

/-- `GroupID(...)` with arguments by name, /repo/opendis/dis7.py:273-279. -/
def GroupID.callHeap (args : List (String × Val)) : H Ref :=
  GroupID.newHeap (H.arg args "simulationAddress" .none) (H.arg args "groupNumber" (.int 0))

/-- `LayerHeader(...)` with arguments by name, /repo/opendis/dis7.py:299-307. -/
def LayerHeader.callHeap (args : List (String × Val)) : H Ref :=
  LayerHeader.newHeap (H.arg args "layerNumber" (.int 0)) (H.arg args "layerSpecificInformation" (.int 0))
    (H.arg args "length" (.int 0))

/-- `UnsignedDISInteger(...)` with arguments by name, /repo/opendis/dis7.py:325-327. -/
def UnsignedDISInteger.callHeap (args : List (String × Val)) : H Ref :=
  UnsignedDISInteger.newHeap (H.arg args "val" (.int 0))

/-- `DeadReckoningParameters(...)` with arguments by name, /repo/opendis/dis7.py:341-354. -/
def DeadReckoningParameters.callHeap (args : List (String × Val)) : H Ref :=
  DeadReckoningParameters.newHeap (H.arg args "deadReckoningAlgorithm" (.int 0))
    (H.arg args "parameters" .none) (H.arg args "entityLinearAcceleration" .none)
    (H.arg args "entityAngularVelocity" .none)

/-- `ProtocolMode(...)` with arguments by name, /repo/opendis/dis7.py:384-386. -/
def ProtocolMode.callHeap (args : List (String × Val)) : H Ref :=
  ProtocolMode.newHeap (H.arg args "protocolMode" (.int 0))

/-- `AngleDeception(...)` with arguments by name, /repo/opendis/dis7.py:409-434. -/
def AngleDeception.callHeap (args : List (String × Val)) : H Ref :=
  AngleDeception.newHeap (H.arg args "emitterNumber" (.int 0)) (H.arg args "beamNumber" (.int 0))
    (H.arg args "stateIndicator" (.int 0)) (H.arg args "azimuthOffset" (.float 0x0000000000000000))
    (H.arg args "azimuthWidth" (.float 0x0000000000000000))
    (H.arg args "azimuthPullRate" (.float 0x0000000000000000))
    (H.arg args "azimuthPullAcceleration" (.float 0x0000000000000000))
    (H.arg args "elevationOffset" (.float 0x0000000000000000))
    (H.arg args "elevationWidth" (.float 0x0000000000000000))
    (H.arg args "elevationPullRate" (.float 0x0000000000000000))
    (H.arg args "elevationPullAcceleration" (.float 0x0000000000000000))

/-- `EntityAssociation(...)` with arguments by name, /repo/opendis/dis7.py:482-506. -/
def EntityAssociation.callHeap (args : List (String × Val)) : H Ref :=
  EntityAssociation.newHeap (H.arg args "changeIndicator" (.int 0))
    (H.arg args "associationStatus" (.int 0)) (H.arg args "associationType" (.int 0))
    (H.arg args "entityID" .none) (H.arg args "ownStationLocation" (.int 0))
    (H.arg args "physicalConnectionType" (.int 0)) (H.arg args "groupMemberType" (.int 0))
    (H.arg args "groupNumber" (.int 0))

/-- `VectoringNozzleSystem(...)` with arguments by name, /repo/opendis/dis7.py:539-543. -/
def VectoringNozzleSystem.callHeap (args : List (String × Val)) : H Ref :=
  VectoringNozzleSystem.newHeap (H.arg args "horizontalDeflectionAngle" (.float 0x0000000000000000))
    (H.arg args "verticalDeflectionAngle" (.float 0x0000000000000000))

/-- `FalseTargetsAttribute(...)` with arguments by name, /repo/opendis/dis7.py:569-589. -/
def FalseTargetsAttribute.callHeap (args : List (String × Val)) : H Ref :=
  FalseTargetsAttribute.newHeap (H.arg args "emitterNumber" (.int 0)) (H.arg args "beamNumber" (.int 0))
    (H.arg args "stateIndicator" (.int 0)) (H.arg args "falseTargetCount" (.int 0))
    (H.arg args "walkSpeed" (.float 0x0000000000000000))
    (H.arg args "walkAcceleration" (.float 0x0000000000000000))
    (H.arg args "maximumWalkDistance" (.float 0x0000000000000000))
    (H.arg args "keepTime" (.float 0x0000000000000000)) (H.arg args "echoSpacing" (.float 0x0000000000000000))

/-- `MinefieldIdentifier(...)` with arguments by name, /repo/opendis/dis7.py:630-634. -/
def MinefieldIdentifier.callHeap (args : List (String × Val)) : H Ref :=
  MinefieldIdentifier.newHeap (H.arg args "simulationAddress" .none) (H.arg args "minefieldNumber" (.int 0))

/-- `RadioType(...)` with arguments by name, /repo/opendis/dis7.py:654-670. -/
def RadioType.callHeap (args : List (String × Val)) : H Ref :=
  RadioType.newHeap (H.arg args "domain" (.int 0)) (H.arg args "country" (.int 0))
    (H.arg args "category" (.int 0)) (H.arg args "subcategory" (.int 0)) (H.arg args "specific" (.int 0))
    (H.arg args "extra" (.int 0))

/-- `NamedLocationIdentification(...)` with arguments by name, /repo/opendis/dis7.py:700-707. -/
def NamedLocationIdentification.callHeap (args : List (String × Val)) : H Ref :=
  NamedLocationIdentification.newHeap (H.arg args "stationName" (.int 0))
    (H.arg args "stationNumber" (.int 0))

/-- `IFFDataSpecification(...)` with arguments by name, /repo/opendis/dis7.py:726-727. -/
def IFFDataSpecification.callHeap (args : List (String × Val)) : H Ref :=
  IFFDataSpecification.newHeap (H.arg args "iffDataRecords" .none)

/-- `OwnershipStatus(...)` with arguments by name, /repo/opendis/dis7.py:754-761. -/
def OwnershipStatus.callHeap (args : List (String × Val)) : H Ref :=
  OwnershipStatus.newHeap (H.arg args "entityId" .none) (H.arg args "ownershipStatus" (.int 0))

/-- `AttachedParts(...)` with arguments by name, /repo/opendis/dis7.py:783-795. -/
def AttachedParts.callHeap (args : List (String × Val)) : H Ref :=
  AttachedParts.newHeap (H.arg args "detachedIndicator" (.int 0)) (H.arg args "partAttachedTo" (.int 0))
    (H.arg args "parameterType" (.int 0)) (H.arg args "attachedPartType" .none)

/-- `Attribute(...)` with arguments by name, /repo/opendis/dis7.py:821-827. -/
def Attribute.callHeap (args : List (String × Val)) : H Ref :=
  Attribute.newHeap (H.arg args "recordType" (.int 0)) (H.arg args "recordLength" (.int 0))
    (H.arg args "recordSpecificFields" (.int 0))

/-- `RecordQuerySpecification(...)` with arguments by name, /repo/opendis/dis7.py:848-851. -/
def RecordQuerySpecification.callHeap (args : List (String × Val)) : H Ref :=
  RecordQuerySpecification.newHeap (H.arg args "recordIDs" .none)

/-- `ArticulatedParts(...)` with arguments by name, /repo/opendis/dis7.py:879-891. -/
def ArticulatedParts.callHeap (args : List (String × Val)) : H Ref :=
  ArticulatedParts.newHeap (H.arg args "changeIndicator" (.int 0)) (H.arg args "partAttachedTo" (.int 0))
    (H.arg args "parameterType" (.int 0)) (H.arg args "parameterValue" (.int 0))

/-- `ObjectType(...)` with arguments by name, /repo/opendis/dis7.py:916-928. -/
def ObjectType.callHeap (args : List (String × Val)) : H Ref :=
  ObjectType.newHeap (H.arg args "domain" (.int 0)) (H.arg args "objectKind" (.int 0))
    (H.arg args "category" (.int 0)) (H.arg args "subcategory" (.int 0))

/-- `Association(...)` with arguments by name, /repo/opendis/dis7.py:956-965. -/
def Association.callHeap (args : List (String × Val)) : H Ref :=
  Association.newHeap (H.arg args "associationType" (.int 0)) (H.arg args "associatedEntityID" .none)
    (H.arg args "associatedLocation" .none)

/-- `RecordSpecificationElement(...)` with arguments by name, /repo/opendis/dis7.py:987-1004. -/
def RecordSpecificationElement.callHeap (args : List (String × Val)) : H Ref :=
  RecordSpecificationElement.newHeap (H.arg args "recordID" (.int 0))
    (H.arg args "recordSetSerialNumber" (.int 0)) (H.arg args "recordLength" (.int 0))
    (H.arg args "recordCount" (.int 0)) (H.arg args "recordValues" (.int 0))

/-- `AntennaLocation(...)` with arguments by name, /repo/opendis/dis7.py:1031-1038. -/
def AntennaLocation.callHeap (args : List (String × Val)) : H Ref :=
  AntennaLocation.newHeap (H.arg args "antennaLocation" .none) (H.arg args "relativeAntennaLocation" .none)

/-- `ObjectIdentifier(...)` with arguments by name, /repo/opendis/dis7.py:1057-1063. -/
def ObjectIdentifier.callHeap (args : List (String × Val)) : H Ref :=
  ObjectIdentifier.newHeap (H.arg args "simulationAddress" .none) (H.arg args "objectNumber" (.int 0))

/-- `AggregateIdentifier(...)` with arguments by name, /repo/opendis/dis7.py:1082-1087. -/
def AggregateIdentifier.callHeap (args : List (String × Val)) : H Ref :=
  AggregateIdentifier.newHeap (H.arg args "simulationAddress" .none) (H.arg args "aggregateID" (.int 0))

/-- `FixedDatum(...)` with arguments by name, /repo/opendis/dis7.py:1106-1112. -/
def FixedDatum.callHeap (args : List (String × Val)) : H Ref :=
  FixedDatum.newHeap (H.arg args "fixedDatumID" (.int 0)) (H.arg args "fixedDatumValue" (.int 0))

/-- `VariableParameter(...)` with arguments by name, /repo/opendis/dis7.py:1132-1147. -/
def VariableParameter.callHeap (args : List (String × Val)) : H Ref :=
  VariableParameter.newHeap (H.arg args "recordType" (.int 0))
    (H.arg args "variableParameterFields1" (.float 0x0000000000000000))
    (H.arg args "variableParameterFields2" (.int 0)) (H.arg args "variableParameterFields3" (.int 0))
    (H.arg args "variableParameterFields4" (.int 0))

/-- `ChangeOptions(...)` with arguments by name, /repo/opendis/dis7.py:1169-1171. -/
def ChangeOptions.callHeap (_args : List (String × Val)) : H Ref :=
  ChangeOptions.newHeap

/-- `LiveSimulationAddress(...)` with arguments by name, /repo/opendis/dis7.py:1189-1195. -/
def LiveSimulationAddress.callHeap (args : List (String × Val)) : H Ref :=
  LiveSimulationAddress.newHeap (H.arg args "liveSiteNumber" (.int 0))
    (H.arg args "liveApplicationNumber" (.int 0))

/-- `EntityMarking(...)` with arguments by name, /repo/opendis/dis7.py:1214-1220. -/
def EntityMarking.callHeap (args : List (String × Val)) : H Ref :=
  EntityMarking.newHeap (H.arg args "characterSet" (.int 0)) (H.arg args "characters" .none)

/-- `UAFundamentalParameter(...)` with arguments by name, /repo/opendis/dis7.py:1255-1273. -/
def UAFundamentalParameter.callHeap (args : List (String × Val)) : H Ref :=
  UAFundamentalParameter.newHeap (H.arg args "activeEmissionParameterIndex" (.int 0))
    (H.arg args "scanPattern" (.int 0)) (H.arg args "beamCenterAzimuthHorizontal" (.float 0x0000000000000000))
    (H.arg args "azimuthBeamwidthHorizontal" (.float 0x0000000000000000))
    (H.arg args "beamCenterDepressionElevation" (.float 0x0000000000000000))
    (H.arg args "beamwidthDownElevation" (.float 0x0000000000000000))

/-- `ExplosionDescriptor(...)` with arguments by name, /repo/opendis/dis7.py:1300-1310. -/
def ExplosionDescriptor.callHeap (args : List (String × Val)) : H Ref :=
  ExplosionDescriptor.newHeap (H.arg args "explodingObject" .none) (H.arg args "explosiveMaterial" (.int 0))
    (H.arg args "explosiveForce" (.float 0x0000000000000000))

/-- `ClockTime(...)` with arguments by name, /repo/opendis/dis7.py:1336-1342. -/
def ClockTime.callHeap (args : List (String × Val)) : H Ref :=
  ClockTime.newHeap (H.arg args "hour" (.int 0)) (H.arg args "timePastHour" (.int 0))

/-- `SecondaryOperationalData(...)` with arguments by name, /repo/opendis/dis7.py:1363-1372. -/
def SecondaryOperationalData.callHeap (args : List (String × Val)) : H Ref :=
  SecondaryOperationalData.newHeap (H.arg args "operationalData1" (.int 0))
    (H.arg args "operationalData2" (.int 0)) (H.arg args "numberOfIFFFundamentalParameterRecords" (.int 0))

/-- `EnvironmentType(...)` with arguments by name, /repo/opendis/dis7.py:1392-1412. -/
def EnvironmentType.callHeap (args : List (String × Val)) : H Ref :=
  EnvironmentType.newHeap (H.arg args "entityKind" (.int 0)) (H.arg args "domain" (.int 0))
    (H.arg args "entityClass" (.int 0)) (H.arg args "category" (.int 0)) (H.arg args "subcategory" (.int 0))
    (H.arg args "specific" (.int 0)) (H.arg args "extra" (.int 0))

/-- `TotalRecordSets(...)` with arguments by name, /repo/opendis/dis7.py:1439-1442. -/
def TotalRecordSets.callHeap (args : List (String × Val)) : H Ref :=
  TotalRecordSets.newHeap (H.arg args "totalRecordSets" (.int 0))

/-- `MineEntityIdentifier(...)` with arguments by name, /repo/opendis/dis7.py:1463-1467. -/
def MineEntityIdentifier.callHeap (args : List (String × Val)) : H Ref :=
  MineEntityIdentifier.newHeap (H.arg args "simulationAddress" .none)
    (H.arg args "mineEntityNumber" (.int 0))

/-- `Relationship(...)` with arguments by name, /repo/opendis/dis7.py:1486-1492. -/
def Relationship.callHeap (args : List (String × Val)) : H Ref :=
  Relationship.newHeap (H.arg args "nature" (.int 0)) (H.arg args "position" (.int 0))

/-- `EEFundamentalParameterData(...)` with arguments by name, /repo/opendis/dis7.py:1512-1537. -/
def EEFundamentalParameterData.callHeap (args : List (String × Val)) : H Ref :=
  EEFundamentalParameterData.newHeap (H.arg args "frequency" (.float 0x0000000000000000))
    (H.arg args "frequencyRange" (.float 0x0000000000000000))
    (H.arg args "effectiveRadiatedPower" (.float 0x0000000000000000))
    (H.arg args "pulseRepetitionFrequency" (.float 0x0000000000000000))
    (H.arg args "pulseWidth" (.float 0x0000000000000000))
    (H.arg args "beamAzimuthCenter" (.float 0x0000000000000000))
    (H.arg args "beamAzimuthSweep" (.float 0x0000000000000000))
    (H.arg args "beamElevationCenter" (.float 0x0000000000000000))
    (H.arg args "beamElevationSweep" (.float 0x0000000000000000))
    (H.arg args "beamSweepSync" (.float 0x0000000000000000))

/-- `JammingTechnique(...)` with arguments by name, /repo/opendis/dis7.py:1572-1576. -/
def JammingTechnique.callHeap (args : List (String × Val)) : H Ref :=
  JammingTechnique.newHeap (H.arg args "kind" (.int 0)) (H.arg args "category" (.int 0))
    (H.arg args "subcategory" (.int 0)) (H.arg args "specific" (.int 0))

/-- `VariableDatum(...)` with arguments by name, /repo/opendis/dis7.py:3300-3309. -/
def VariableDatum.callHeap (args : List (String × Val)) : H Ref :=
  VariableDatum.newHeap (H.arg args "variableDatumID" (.int 0)) (H.arg args "variableDatumLength" (.int 0))
    (H.arg args "variableData" .none)

/-- `DatumSpecification(...)` with arguments by name, /repo/opendis/dis7.py:1599-1605. -/
def DatumSpecification.callHeap (args : List (String × Val)) : H Ref :=
  DatumSpecification.newHeap (H.arg args "fixedDatumRecords" .none)
    (H.arg args "variableDatumRecords" .none)

/-- `Expendable(...)` with arguments by name, /repo/opendis/dis7.py:1646-1656. -/
def Expendable.callHeap (args : List (String × Val)) : H Ref :=
  Expendable.newHeap (H.arg args "expendable" .none) (H.arg args "station" (.int 0))
    (H.arg args "quantity" (.int 0)) (H.arg args "expendableStatus" (.int 0))

/-- `CommunicationsNodeID(...)` with arguments by name, /repo/opendis/dis7.py:3487-3491. -/
def CommunicationsNodeID.callHeap (args : List (String × Val)) : H Ref :=
  CommunicationsNodeID.newHeap (H.arg args "entityID" .none) (H.arg args "elementID" (.int 0))

/-- `IOCommunicationsNode(...)` with arguments by name, /repo/opendis/dis7.py:1683-1689. -/
def IOCommunicationsNode.callHeap (args : List (String × Val)) : H Ref :=
  IOCommunicationsNode.newHeap (H.arg args "communicationsNodeType" (.int 0))
    (H.arg args "communicationsNodeID" .none)

/-- `LinearSegmentParameter(...)` with arguments by name, /repo/opendis/dis7.py:1715-1746. -/
def LinearSegmentParameter.callHeap (args : List (String × Val)) : H Ref :=
  LinearSegmentParameter.newHeap (H.arg args "segmentNumber" (.int 0))
    (H.arg args "segmentModification" (.int 0)) (H.arg args "generalSegmentAppearance" (.int 0))
    (H.arg args "specificSegmentAppearance" (.int 0)) (H.arg args "segmentLocation" .none)
    (H.arg args "segmentOrientation" .none) (H.arg args "segmentLength" (.float 0x0000000000000000))
    (H.arg args "segmentWidth" (.float 0x0000000000000000))
    (H.arg args "segmentHeight" (.float 0x0000000000000000))
    (H.arg args "segmentDepth" (.float 0x0000000000000000))

/-- `SystemIdentifier(...)` with arguments by name, /repo/opendis/dis7.py:1783-1795. -/
def SystemIdentifier.callHeap (args : List (String × Val)) : H Ref :=
  SystemIdentifier.newHeap (H.arg args "systemType" (.int 0)) (H.arg args "systemName" (.int 0))
    (H.arg args "systemMode" (.int 0)) (H.arg args "changeOptions" .none)

/-- `TrackJamData(...)` with arguments by name, /repo/opendis/dis7.py:1818-1827. -/
def TrackJamData.callHeap (args : List (String × Val)) : H Ref :=
  TrackJamData.newHeap (H.arg args "entityID" .none) (H.arg args "emitterNumber" (.int 0))
    (H.arg args "beamNumber" (.int 0))

/-- `AggregateType(...)` with arguments by name, /repo/opendis/dis7.py:1848-1868. -/
def AggregateType.callHeap (args : List (String × Val)) : H Ref :=
  AggregateType.newHeap (H.arg args "aggregateKind" (.int 0)) (H.arg args "domain" (.int 0))
    (H.arg args "country" (.int 0)) (H.arg args "category" (.int 0)) (H.arg args "subcategory" (.int 0))
    (H.arg args "specificInfo" (.int 0)) (H.arg args "extra" (.int 0))

/-- `SimulationIdentifier(...)` with arguments by name, /repo/opendis/dis7.py:2061-2067. -/
def SimulationIdentifier.callHeap (args : List (String × Val)) : H Ref :=
  SimulationIdentifier.newHeap (H.arg args "simulationAddress" .none)
    (H.arg args "referenceNumber" (.int 0))

/-- `PduHeader(...)` with arguments by name, /repo/opendis/dis7.py:3377-3399. -/
def PduHeader.callHeap (args : List (String × Val)) : H Ref :=
  PduHeader.newHeap (H.arg args "protocolVersion" (.int 7)) (H.arg args "exerciseID" (.int 0))
    (H.arg args "pduType" (.int 0)) (H.arg args "protocolFamily" (.int 0)) (H.arg args "timestamp" (.int 0))
    (H.arg args "pduLength" (.int 0)) (H.arg args "pduStatus" (.int 0))

/-- `SimulationManagementPduHeader(...)` with arguments by name, /repo/opendis/dis7.py:1898-1907. -/
def SimulationManagementPduHeader.callHeap (args : List (String × Val)) : H Ref :=
  SimulationManagementPduHeader.newHeap (H.arg args "pduHeader" .none) (H.arg args "originatingID" .none)
    (H.arg args "receivingID" .none)

/-- `BeamData(...)` with arguments by name, /repo/opendis/dis7.py:1928-1944. -/
def BeamData.callHeap (args : List (String × Val)) : H Ref :=
  BeamData.newHeap (H.arg args "beamAzimuthCenter" (.float 0x0000000000000000))
    (H.arg args "beamAzimuthSweep" (.float 0x0000000000000000))
    (H.arg args "beamElevationCenter" (.float 0x0000000000000000))
    (H.arg args "beamElevationSweep" (.float 0x0000000000000000))
    (H.arg args "beamSweepSync" (.float 0x0000000000000000))

/-- `EngineFuel(...)` with arguments by name, /repo/opendis/dis7.py:1969-1982. -/
def EngineFuel.callHeap (args : List (String × Val)) : H Ref :=
  EngineFuel.newHeap (H.arg args "fuelQuantity" (.int 0)) (H.arg args "fuelMeasurementUnits" (.int 0))
    (H.arg args "fuelType" (.int 0)) (H.arg args "fuelLocation" (.int 0))

/-- `IOEffect(...)` with arguments by name, /repo/opendis/dis7.py:2009-2023. -/
def IOEffect.callHeap (args : List (String × Val)) : H Ref :=
  IOEffect.newHeap (H.arg args "ioStatus" (.int 0)) (H.arg args "ioLinkType" (.int 0))
    (H.arg args "ioEffect" (.int 0)) (H.arg args "ioEffectDutyCycle" (.int 0))
    (H.arg args "ioEffectDuration" (.int 0)) (H.arg args "ioProcess" (.int 0))

/-- `GridAxisDescriptorVariable(...)` with arguments by name, /repo/opendis/dis7.py:2087-2120. -/
def GridAxisDescriptorVariable.callHeap (args : List (String × Val)) : H Ref :=
  GridAxisDescriptorVariable.newHeap (H.arg args "domainInitialXi" (.float 0x0000000000000000))
    (H.arg args "domainFinalXi" (.float 0x0000000000000000)) (H.arg args "domainPointsXi" (.int 0))
    (H.arg args "interleafFactor" (.int 0)) (H.arg args "axisType" (.int 0))
    (H.arg args "numberOfPointsOnXiAxis" (.int 0)) (H.arg args "initialIndex" (.int 0))
    (H.arg args "coordinateScaleXi" (.float 0x0000000000000000))
    (H.arg args "coordinateOffsetXi" (.float 0x0000000000000000)) (H.arg args "xiValues" .none)

/-- `SupplyQuantity(...)` with arguments by name, /repo/opendis/dis7.py:2164-2169. -/
def SupplyQuantity.callHeap (args : List (String × Val)) : H Ref :=
  SupplyQuantity.newHeap (H.arg args "supplyType" .none) (H.arg args "quantity" (.float 0x0000000000000000))

/-- `SilentEntitySystem(...)` with arguments by name, /repo/opendis/dis7.py:2188-2196. -/
def SilentEntitySystem.callHeap (args : List (String × Val)) : H Ref :=
  SilentEntitySystem.newHeap (H.arg args "numberOfEntities" (.int 0)) (H.arg args "entityType" .none)
    (H.arg args "appearanceRecordList" .none)

/-- `SilentAggregateSystem(...)` with arguments by name, /repo/opendis/dis7.py:2227-2232. -/
def SilentAggregateSystem.callHeap (args : List (String × Val)) : H Ref :=
  SilentAggregateSystem.newHeap (H.arg args "numberOfAggregates" (.int 0))
    (H.arg args "aggregateType" .none)

/-- `BlankingSector(...)` with arguments by name, /repo/opendis/dis7.py:2254-2275. -/
def BlankingSector.callHeap (args : List (String × Val)) : H Ref :=
  BlankingSector.newHeap (H.arg args "emitterNumber" (.int 0)) (H.arg args "beamNumber" (.int 0))
    (H.arg args "stateIndicator" (.int 0)) (H.arg args "leftAzimuth" (.float 0x0000000000000000))
    (H.arg args "rightAzimuth" (.float 0x0000000000000000))
    (H.arg args "lowerElevation" (.float 0x0000000000000000))
    (H.arg args "upperElevation" (.float 0x0000000000000000))
    (H.arg args "residualPower" (.float 0x0000000000000000))

/-- `LaunchedMunitionRecord(...)` with arguments by name, /repo/opendis/dis7.py:2319-2330. -/
def LaunchedMunitionRecord.callHeap (args : List (String × Val)) : H Ref :=
  LaunchedMunitionRecord.newHeap (H.arg args "fireEventID" .none) (H.arg args "firingEntityID" .none)
    (H.arg args "targetEntityID" .none) (H.arg args "targetLocation" .none)

/-- `IFFFundamentalParameterData(...)` with arguments by name, /repo/opendis/dis7.py:2359-2373. -/
def IFFFundamentalParameterData.callHeap (args : List (String × Val)) : H Ref :=
  IFFFundamentalParameterData.newHeap (H.arg args "erp" (.float 0x0000000000000000))
    (H.arg args "frequency" (.float 0x0000000000000000)) (H.arg args "pgrf" (.float 0x0000000000000000))
    (H.arg args "pulseWidth" (.float 0x0000000000000000)) (H.arg args "burstLength" (.int 0))
    (H.arg args "applicableModes" (.int 0)) (H.arg args "systemSpecificData" .none)

/-- `FundamentalOperationalData(...)` with arguments by name, /repo/opendis/dis7.py:2407-2437. -/
def FundamentalOperationalData.callHeap (args : List (String × Val)) : H Ref :=
  FundamentalOperationalData.newHeap (H.arg args "systemStatus" (.int 0)) (H.arg args "dataField1" (.int 0))
    (H.arg args "informationLayers" (.int 0)) (H.arg args "dataField2" (.int 0))
    (H.arg args "parameter1" (.int 0)) (H.arg args "parameter2" (.int 0)) (H.arg args "parameter3" (.int 0))
    (H.arg args "parameter4" (.int 0)) (H.arg args "parameter5" (.int 0)) (H.arg args "parameter6" (.int 0))

/-- `IntercomCommunicationsParameters(...)` with arguments by name, /repo/opendis/dis7.py:2472-2481. -/
def IntercomCommunicationsParameters.callHeap (args : List (String × Val)) : H Ref :=
  IntercomCommunicationsParameters.newHeap (H.arg args "recordType" (.int 0))
    (H.arg args "recordLength" (.int 0)) (H.arg args "recordSpecificField" (.int 0))

/-- `Munition(...)` with arguments by name, /repo/opendis/dis7.py:2552-2566. -/
def Munition.callHeap (args : List (String × Val)) : H Ref :=
  Munition.newHeap (H.arg args "munitionType" .none) (H.arg args "station" (.int 0))
    (H.arg args "quantity" (.int 0)) (H.arg args "munitionStatus" (.int 0))

/-- `StandardVariableSpecification(...)` with arguments by name, /repo/opendis/dis7.py:2591-2596. -/
def StandardVariableSpecification.callHeap (args : List (String × Val)) : H Ref :=
  StandardVariableSpecification.newHeap (H.arg args "standardVariables" .none)

/-- `Vector2Float(...)` with arguments by name, /repo/opendis/dis7.py:2621-2623. -/
def Vector2Float.callHeap (args : List (String × Val)) : H Ref :=
  Vector2Float.newHeap (H.arg args "x" (.float 0x0000000000000000))
    (H.arg args "y" (.float 0x0000000000000000))

/-- `Environment(...)` with arguments by name, /repo/opendis/dis7.py:2642-2654. -/
def Environment.callHeap (args : List (String × Val)) : H Ref :=
  Environment.newHeap (H.arg args "environmentType" (.int 0)) (H.arg args "length" (.int 0))
    (H.arg args "index" (.int 0))

/-- `AcousticEmitter(...)` with arguments by name, /repo/opendis/dis7.py:2677-2686. -/
def AcousticEmitter.callHeap (args : List (String × Val)) : H Ref :=
  AcousticEmitter.newHeap (H.arg args "acousticSystemName" (.int 0))
    (H.arg args "acousticFunction" (.int 0)) (H.arg args "acousticIDNumber" (.int 0))

/-- `AngularVelocityVector(...)` with arguments by name, /repo/opendis/dis7.py:2710-2716. -/
def AngularVelocityVector.callHeap (args : List (String × Val)) : H Ref :=
  AngularVelocityVector.newHeap (H.arg args "x" (.float 0x0000000000000000))
    (H.arg args "y" (.float 0x0000000000000000)) (H.arg args "z" (.float 0x0000000000000000))

/-- `AggregateMarking(...)` with arguments by name, /repo/opendis/dis7.py:2738-2744. -/
def AggregateMarking.callHeap (args : List (String × Val)) : H Ref :=
  AggregateMarking.newHeap (H.arg args "characterSet" (.int 0)) (H.arg args "characters" .none)

/-- `DataFilterRecord(...)` with arguments by name, /repo/opendis/dis7.py:2771-2773. -/
def DataFilterRecord.callHeap (args : List (String × Val)) : H Ref :=
  DataFilterRecord.newHeap (H.arg args "bitFlags" (.int 0))

/-- `IntercomIdentifier(...)` with arguments by name, /repo/opendis/dis7.py:2790-2798. -/
def IntercomIdentifier.callHeap (args : List (String × Val)) : H Ref :=
  IntercomIdentifier.newHeap (H.arg args "siteNumber" (.int 0)) (H.arg args "applicationNumber" (.int 0))
    (H.arg args "referenceNumber" (.int 0)) (H.arg args "intercomNumber" (.int 0))

/-- `StorageFuel(...)` with arguments by name, /repo/opendis/dis7.py:2821-2834. -/
def StorageFuel.callHeap (args : List (String × Val)) : H Ref :=
  StorageFuel.newHeap (H.arg args "fuelQuantity" (.int 0)) (H.arg args "fuelMeasurementUnits" (.int 0))
    (H.arg args "fuelType" (.int 0)) (H.arg args "fuelLocation" (.int 0))

/-- `Sensor(...)` with arguments by name, /repo/opendis/dis7.py:2859-2875. -/
def Sensor.callHeap (args : List (String × Val)) : H Ref :=
  Sensor.newHeap (H.arg args "sensorTypeSource" (.int 0)) (H.arg args "sensorOnOffStatus" (.int 0))
    (H.arg args "sensorType" (.int 0)) (H.arg args "station" (.int 0)) (H.arg args "quantity" (.int 0))

/-- `MunitionReload(...)` with arguments by name, /repo/opendis/dis7.py:2903-2922. -/
def MunitionReload.callHeap (args : List (String × Val)) : H Ref :=
  MunitionReload.newHeap (H.arg args "munitionType" .none) (H.arg args "station" (.int 0))
    (H.arg args "standardQuantity" (.int 0)) (H.arg args "maximumQuantity" (.int 0))
    (H.arg args "standardQuantityReloadTime" (.int 0)) (H.arg args "maximumQuantityReloadTime" (.int 0))

/-- `StorageFuelReload(...)` with arguments by name, /repo/opendis/dis7.py:2952-2974. -/
def StorageFuelReload.callHeap (args : List (String × Val)) : H Ref :=
  StorageFuelReload.newHeap (H.arg args "standardQuantity" (.int 0)) (H.arg args "maximumQuantity" (.int 0))
    (H.arg args "standardQuantityReloadTime" (.int 0)) (H.arg args "maximumQuantityReloadTime" (.int 0))
    (H.arg args "fuelMeasurementUnits" (.int 0)) (H.arg args "fuelType" (.int 0))
    (H.arg args "fuelLocation" (.int 0))

/-- `ExpendableReload(...)` with arguments by name, /repo/opendis/dis7.py:3005-3019. -/
def ExpendableReload.callHeap (args : List (String × Val)) : H Ref :=
  ExpendableReload.newHeap (H.arg args "expendable" .none) (H.arg args "station" (.int 0))
    (H.arg args "standardQuantity" (.int 0)) (H.arg args "maximumQuantity" (.int 0))
    (H.arg args "standardQuantityReloadTime" (.int 0)) (H.arg args "maximumQuantityReloadTime" (.int 0))

/-- `EngineFuelReload(...)` with arguments by name, /repo/opendis/dis7.py:3043-3062. -/
def EngineFuelReload.callHeap (args : List (String × Val)) : H Ref :=
  EngineFuelReload.newHeap (H.arg args "standardQuantity" (.int 0)) (H.arg args "maximumQuantity" (.int 0))
    (H.arg args "standardQuantityReloadTime" (.int 0)) (H.arg args "maximumQuantityReloadTime" (.int 0))
    (H.arg args "fuelMeasurementUnits" (.int 0)) (H.arg args "fuelLocation" (.int 0))

/-- `UnattachedIdentifier(...)` with arguments by name, /repo/opendis/dis7.py:3093-3099. -/
def UnattachedIdentifier.callHeap (args : List (String × Val)) : H Ref :=
  UnattachedIdentifier.newHeap (H.arg args "simulationAddress" .none)
    (H.arg args "referenceNumber" (.int 0))

/-- `EntityTypeVP(...)` with arguments by name, /repo/opendis/dis7.py:3119-3127. -/
def EntityTypeVP.callHeap (args : List (String × Val)) : H Ref :=
  EntityTypeVP.newHeap (H.arg args "changeIndicator" (.int 0)) (H.arg args "entityType" .none)

/-- `BeamStatus(...)` with arguments by name, /repo/opendis/dis7.py:3154-3156. -/
def BeamStatus.callHeap (args : List (String × Val)) : H Ref := do
  BeamStatus.newHeap (← H.argInt (H.arg args "beamState" (.int 0)))

/-- `EnvironmentGeneral(...)` with arguments by name, /repo/opendis/dis7.py:3176-3191. -/
def EnvironmentGeneral.callHeap (args : List (String × Val)) : H Ref :=
  EnvironmentGeneral.newHeap (H.arg args "environmentType" (.int 0)) (H.arg args "length" (.int 0))
    (H.arg args "index" (.int 0)) (H.arg args "geometry" .none)

/-- `GridAxis(...)` with arguments by name, /repo/opendis/dis7.py:3218-3239. -/
def GridAxis.callHeap (args : List (String × Val)) : H Ref :=
  GridAxis.newHeap (H.arg args "domainInitialXi" (.float 0x0000000000000000))
    (H.arg args "domainFinalXi" (.float 0x0000000000000000)) (H.arg args "domainPointsXi" (.int 0))
    (H.arg args "interleafFactor" (.int 0)) (H.arg args "axisType" (.int 0))
    (H.arg args "numberOfPointsOnXiAxis" (.int 0)) (H.arg args "initialIndex" (.int 0))

/-- `RecordSpecification(...)` with arguments by name, /repo/opendis/dis7.py:3269-3272. -/
def RecordSpecification.callHeap (args : List (String × Val)) : H Ref :=
  RecordSpecification.newHeap (H.arg args "recordSets" .none)

/-- `EventIdentifierLiveEntity(...)` with arguments by name, /repo/opendis/dis7.py:3349-3355. -/
def EventIdentifierLiveEntity.callHeap (args : List (String × Val)) : H Ref :=
  EventIdentifierLiveEntity.newHeap (H.arg args "siteNumber" (.int 0))
    (H.arg args "applicationNumber" (.int 0)) (H.arg args "eventNumber" (.int 0))

/-- `ExpendableDescriptor(...)` with arguments by name, /repo/opendis/dis7.py:3510-3513. -/
def ExpendableDescriptor.callHeap (args : List (String × Val)) : H Ref :=
  ExpendableDescriptor.newHeap (H.arg args "expendableType" .none)

/-- `PropulsionSystemData(...)` with arguments by name, /repo/opendis/dis7.py:3534-3540. -/
def PropulsionSystemData.callHeap (args : List (String × Val)) : H Ref :=
  PropulsionSystemData.newHeap (H.arg args "powerSetting" (.float 0x0000000000000000))
    (H.arg args "engineRpm" (.float 0x0000000000000000))

/-- `LiveEntityIdentifier(...)` with arguments by name, /repo/opendis/dis7.py:3560-3567. -/
def LiveEntityIdentifier.callHeap (args : List (String × Val)) : H Ref :=
  LiveEntityIdentifier.newHeap (H.arg args "liveSimulationAddress" .none)
    (H.arg args "entityNumber" (.int 0))

/-- `SeparationVP(...)` with arguments by name, /repo/opendis/dis7.py:3587-3601. -/
def SeparationVP.callHeap (args : List (String × Val)) : H Ref :=
  SeparationVP.newHeap (H.arg args "reasonForSeparation" (.int 0))
    (H.arg args "preEntityIndicator" (.int 0)) (H.arg args "parentEntityID" .none)
    (H.arg args "stationLocation" .none)

/-- `EmitterSystem(...)` with arguments by name, /repo/opendis/dis7.py:3630-3636. -/
def EmitterSystem.callHeap (args : List (String × Val)) : H Ref :=
  EmitterSystem.newHeap (H.arg args "emitterName" (.int 0)) (H.arg args "emitterFunction" (.int 0))
    (H.arg args "emitterIDNumber" (.int 0))

/-- `PduStatus(...)` with arguments by name, /repo/opendis/dis7.py:3658-3660. -/
def PduStatus.callHeap (args : List (String × Val)) : H Ref :=
  PduStatus.newHeap (H.arg args "pduStatus" (.int 0))

/-- `EmissionSystemBeamRecord(...)` with arguments by name, /repo/opendis/dis7.py:5178-5197. -/
def EmissionSystemBeamRecord.callHeap (args : List (String × Val)) : H Ref :=
  EmissionSystemBeamRecord.newHeap (H.arg args "beamDataLength" (.int 0))
    (H.arg args "beamIDNumber" (.int 0)) (H.arg args "beamParameterIndex" (.int 0))
    (H.arg args "fundamentalParameterData" .none) (H.arg args "beamFunction" (.int 0))
    (H.arg args "highDensityTrackJam" (.int 0)) (H.arg args "beamStatus" .none)
    (H.arg args "jammingModeSequence" (.int 0)) (H.arg args "trackJamRecords" .none)

/-- `EmissionSystemRecord(...)` with arguments by name, /repo/opendis/dis7.py:5240-5252. -/
def EmissionSystemRecord.callHeap (args : List (String × Val)) : H Ref :=
  EmissionSystemRecord.newHeap (H.arg args "systemDataLength" (.int 0)) (H.arg args "emitterSystem" .none)
    (H.arg args "location" .none) (H.arg args "beamRecords" .none)

/-- `EntityStateUpdatePdu(...)` with arguments by name, /repo/opendis/dis7.py:3768-3788. -/
def EntityStateUpdatePdu.callHeap (args : List (String × Val)) : H Ref :=
  EntityStateUpdatePdu.newHeap (H.arg args "entityID" .none) (H.arg args "entityLinearVelocity" .none)
    (H.arg args "entityLocation" .none) (H.arg args "entityOrientation" .none)
    (H.arg args "entityAppearance" (.int 0)) (H.arg args "variableParameters" .none)

/-- `ServiceRequestPdu(...)` with arguments by name, /repo/opendis/dis7.py:3831-3844. -/
def ServiceRequestPdu.callHeap (args : List (String × Val)) : H Ref :=
  ServiceRequestPdu.newHeap (H.arg args "requestingEntityID" .none) (H.arg args "servicingEntityID" .none)
    (H.arg args "serviceTypeRequested" (.int 0)) (H.arg args "supplies" .none)

/-- `RepairCompletePdu(...)` with arguments by name, /repo/opendis/dis7.py:3882-3894. -/
def RepairCompletePdu.callHeap (args : List (String × Val)) : H Ref :=
  RepairCompletePdu.newHeap (H.arg args "receivingEntityID" .none) (H.arg args "repairingEntityID" .none)
    (H.arg args "repair" (.int 0))

/-- `CollisionPdu(...)` with arguments by name, /repo/opendis/dis7.py:3940-3963. -/
def CollisionPdu.callHeap (args : List (String × Val)) : H Ref :=
  CollisionPdu.newHeap (H.arg args "issuingEntityID" .none) (H.arg args "collidingEntityID" .none)
    (H.arg args "eventID" .none) (H.arg args "collisionType" (.int 0)) (H.arg args "velocity" .none)
    (H.arg args "mass" (.float 0x0000000000000000)) (H.arg args "location" .none)

/-- `RepairResponsePdu(...)` with arguments by name, /repo/opendis/dis7.py:3997-4009. -/
def RepairResponsePdu.callHeap (args : List (String × Val)) : H Ref :=
  RepairResponsePdu.newHeap (H.arg args "receivingEntityID" .none) (H.arg args "repairingEntityID" .none)
    (H.arg args "repairResult" (.int 0))

/-- `DataQueryPdu(...)` with arguments by name, /repo/opendis/dis7.py:4066-4077. -/
def DataQueryPdu.callHeap (args : List (String × Val)) : H Ref :=
  DataQueryPdu.newHeap (H.arg args "requestID" (.int 0)) (H.arg args "timeInterval" (.int 0))
    (H.arg args "fixedDatumIDs" .none) (H.arg args "variableDatumIDs" .none)

/-- `CreateEntityPdu(...)` with arguments by name, /repo/opendis/dis7.py:4185-4188. -/
def CreateEntityPdu.callHeap (args : List (String × Val)) : H Ref :=
  CreateEntityPdu.newHeap (H.arg args "requestID" (.int 0))

/-- `IntercomSignalPdu(...)` with arguments by name, /repo/opendis/dis7.py:4227-4244. -/
def IntercomSignalPdu.callHeap (args : List (String × Val)) : H Ref :=
  IntercomSignalPdu.newHeap (H.arg args "entityID" .none) (H.arg args "communicationsDeviceID" (.int 0))
    (H.arg args "encodingScheme" (.int 0)) (H.arg args "tdlType" (.int 0)) (H.arg args "sampleRate" (.int 0))
    (H.arg args "samples" (.int 0)) (H.arg args "data" .none)

/-- `RemoveEntityPdu(...)` with arguments by name, /repo/opendis/dis7.py:4291-4295. -/
def RemoveEntityPdu.callHeap (args : List (String × Val)) : H Ref :=
  RemoveEntityPdu.newHeap (H.arg args "requestID" (.int 0))

/-- `ResupplyReceivedPdu(...)` with arguments by name, /repo/opendis/dis7.py:4315-4327. -/
def ResupplyReceivedPdu.callHeap (args : List (String × Val)) : H Ref :=
  ResupplyReceivedPdu.newHeap (H.arg args "receivingEntityID" .none) (H.arg args "supplyingEntityID" .none)
    (H.arg args "supplies" .none)

/-- `CollisionElasticPdu(...)` with arguments by name, /repo/opendis/dis7.py:4396-4436. -/
def CollisionElasticPdu.callHeap (args : List (String × Val)) : H Ref :=
  CollisionElasticPdu.newHeap (H.arg args "issuingEntityID" .none) (H.arg args "collidingEntityID" .none)
    (H.arg args "collisionEventID" .none) (H.arg args "contactVelocity" .none)
    (H.arg args "mass" (.float 0x0000000000000000)) (H.arg args "locationOfImpact" .none)
    (H.arg args "collisionIntermediateResultXX" (.float 0x0000000000000000))
    (H.arg args "collisionIntermediateResultXY" (.float 0x0000000000000000))
    (H.arg args "collisionIntermediateResultXZ" (.float 0x0000000000000000))
    (H.arg args "collisionIntermediateResultYY" (.float 0x0000000000000000))
    (H.arg args "collisionIntermediateResultYZ" (.float 0x0000000000000000))
    (H.arg args "collisionIntermediateResultZZ" (.float 0x0000000000000000))
    (H.arg args "unitSurfaceNormal" .none) (H.arg args "coefficientOfRestitution" (.float 0x0000000000000000))

/-- `ActionRequestPdu(...)` with arguments by name, /repo/opendis/dis7.py:4485-4497. -/
def ActionRequestPdu.callHeap (args : List (String × Val)) : H Ref :=
  ActionRequestPdu.newHeap (H.arg args "requestID" (.int 0)) (H.arg args "actionID" (.int 0))
    (H.arg args "fixedDatumRecords" .none) (H.arg args "variableDatumRecords" .none)

/-- `AcknowledgePdu(...)` with arguments by name, /repo/opendis/dis7.py:4538-4548. -/
def AcknowledgePdu.callHeap (args : List (String × Val)) : H Ref :=
  AcknowledgePdu.newHeap (H.arg args "acknowledgeFlag" (.int 0)) (H.arg args "responseFlag" (.int 0))
    (H.arg args "requestID" (.int 0))

/-- `ActionRequestReliablePdu(...)` with arguments by name, /repo/opendis/dis7.py:4621-4637. -/
def ActionRequestReliablePdu.callHeap (args : List (String × Val)) : H Ref :=
  ActionRequestReliablePdu.newHeap (H.arg args "requiredReliabilityService" (.int 0))
    (H.arg args "requestID" (.int 0)) (H.arg args "actionID" (.int 0)) (H.arg args "fixedDatumRecords" .none)
    (H.arg args "variableDatumRecords" .none)

/-- `DesignatorPdu(...)` with arguments by name, /repo/opendis/dis7.py:4685-4721. -/
def DesignatorPdu.callHeap (args : List (String × Val)) : H Ref :=
  DesignatorPdu.newHeap (H.arg args "designatingEntityID" .none) (H.arg args "codeName" (.int 0))
    (H.arg args "designatedEntityID" .none) (H.arg args "designatorCode" (.int 0))
    (H.arg args "designatorPower" (.float 0x0000000000000000))
    (H.arg args "designatorWavelength" (.float 0x0000000000000000))
    (H.arg args "designatorSpotWrtDesignated" .none) (H.arg args "designatorSpotLocation" .none)
    (H.arg args "deadReckoningAlgorithm" (.int 0)) (H.arg args "entityLinearAcceleration" .none)

/-- `StopFreezePdu(...)` with arguments by name, /repo/opendis/dis7.py:4763-4777. -/
def StopFreezePdu.callHeap (args : List (String × Val)) : H Ref :=
  StopFreezePdu.newHeap (H.arg args "realWorldTime" .none) (H.arg args "reason" (.int 0))
    (H.arg args "frozenBehavior" (.int 0)) (H.arg args "requestID" (.int 0))

/-- `EntityStatePdu(...)` with arguments by name, /repo/opendis/dis7.py:4805-4842. -/
def EntityStatePdu.callHeap (args : List (String × Val)) : H Ref :=
  EntityStatePdu.newHeap (H.arg args "entityID" .none) (H.arg args "forceId" (.int 0))
    (H.arg args "entityType" .none) (H.arg args "alternativeEntityType" .none)
    (H.arg args "entityLinearVelocity" .none) (H.arg args "entityLocation" .none)
    (H.arg args "entityOrientation" .none) (H.arg args "entityAppearance" (.int 0))
    (H.arg args "deadReckoningParameters" .none) (H.arg args "marking" .none)
    (H.arg args "capabilities" (.int 0)) (H.arg args "variableParameters" .none)

/-- `StartResumePdu(...)` with arguments by name, /repo/opendis/dis7.py:4916-4926. -/
def StartResumePdu.callHeap (args : List (String × Val)) : H Ref :=
  StartResumePdu.newHeap (H.arg args "realWorldTime" .none) (H.arg args "simulationTime" .none)
    (H.arg args "requestID" (.int 0))

/-- `ElectromagneticEmissionsPdu(...)` with arguments by name, /repo/opendis/dis7.py:5127-5140. -/
def ElectromagneticEmissionsPdu.callHeap (args : List (String × Val)) : H Ref :=
  ElectromagneticEmissionsPdu.newHeap (H.arg args "emittingEntityID" .none) (H.arg args "eventID" .none)
    (H.arg args "stateUpdateIndicator" (.int 0)) (H.arg args "systems" .none)

/-- `ResupplyOfferPdu(...)` with arguments by name, /repo/opendis/dis7.py:5287-5299. -/
def ResupplyOfferPdu.callHeap (args : List (String × Val)) : H Ref :=
  ResupplyOfferPdu.newHeap (H.arg args "receivingEntityID" .none) (H.arg args "supplyingEntityID" .none)
    (H.arg args "supplies" .none)

/-- `SetDataReliablePdu(...)` with arguments by name, /repo/opendis/dis7.py:5421-5434. -/
def SetDataReliablePdu.callHeap (args : List (String × Val)) : H Ref :=
  SetDataReliablePdu.newHeap (H.arg args "requiredReliabilityService" (.int 0))
    (H.arg args "requestID" (.int 0)) (H.arg args "fixedDatumRecords" .none)
    (H.arg args "variableDatumRecords" .none)

/-- `EventReportPdu(...)` with arguments by name, /repo/opendis/dis7.py:5479-5488. -/
def EventReportPdu.callHeap (args : List (String × Val)) : H Ref :=
  EventReportPdu.newHeap (H.arg args "eventType" (.int 0)) (H.arg args "fixedDatumRecords" .none)
    (H.arg args "variableDatumRecords" .none)

/-- `PointObjectStatePdu(...)` with arguments by name, /repo/opendis/dis7.py:5513-5550. -/
def PointObjectStatePdu.callHeap (args : List (String × Val)) : H Ref :=
  PointObjectStatePdu.newHeap (H.arg args "objectID" .none) (H.arg args "referencedObjectID" .none)
    (H.arg args "updateNumber" (.int 0)) (H.arg args "forceID" (.int 0)) (H.arg args "modifications" (.int 0))
    (H.arg args "objectType" .none) (H.arg args "objectLocation" .none) (H.arg args "objectOrientation" .none)
    (H.arg args "objectAppearance" (.float 0x0000000000000000)) (H.arg args "requesterID" .none)
    (H.arg args "receivingID" .none)

/-- `DataPdu(...)` with arguments by name, /repo/opendis/dis7.py:5593-5603. -/
def DataPdu.callHeap (args : List (String × Val)) : H Ref :=
  DataPdu.newHeap (H.arg args "requestID" (.int 0)) (H.arg args "fixedDatumRecords" .none)
    (H.arg args "variableDatumRecords" .none)

/-- `FastEntityStatePdu(...)` with arguments by name, /repo/opendis/dis7.py:5646-5762. -/
def FastEntityStatePdu.callHeap (args : List (String × Val)) : H Ref :=
  FastEntityStatePdu.newHeap (H.arg args "site" (.int 0)) (H.arg args "application" (.int 0))
    (H.arg args "entity" (.int 0)) (H.arg args "forceId" (.int 0))
    (H.arg args "numberOfVariableParameters" (.int 0)) (H.arg args "entityKind" (.int 0))
    (H.arg args "domain" (.int 0)) (H.arg args "country" (.int 0)) (H.arg args "category" (.int 0))
    (H.arg args "subcategory" (.int 0)) (H.arg args "specific" (.int 0)) (H.arg args "extra" (.int 0))
    (H.arg args "altEntityKind" (.int 0)) (H.arg args "altDomain" (.int 0)) (H.arg args "altCountry" (.int 0))
    (H.arg args "altCategory" (.int 0)) (H.arg args "altSubcategory" (.int 0))
    (H.arg args "altSpecific" (.int 0)) (H.arg args "altExtra" (.int 0))
    (H.arg args "xVelocity" (.float 0x0000000000000000)) (H.arg args "yVelocity" (.float 0x0000000000000000))
    (H.arg args "zVelocity" (.float 0x0000000000000000)) (H.arg args "xLocation" (.float 0x0000000000000000))
    (H.arg args "yLocation" (.float 0x0000000000000000)) (H.arg args "zLocation" (.float 0x0000000000000000))
    (H.arg args "psi" (.float 0x0000000000000000)) (H.arg args "theta" (.float 0x0000000000000000))
    (H.arg args "phi" (.float 0x0000000000000000)) (H.arg args "entityAppearance" (.int 0))
    (H.arg args "deadReckoningAlgorithm" (.int 0)) (H.arg args "otherParameters" .none)
    (H.arg args "xAcceleration" (.float 0x0000000000000000))
    (H.arg args "yAcceleration" (.float 0x0000000000000000))
    (H.arg args "zAcceleration" (.float 0x0000000000000000))
    (H.arg args "xAngularVelocity" (.float 0x0000000000000000))
    (H.arg args "yAngularVelocity" (.float 0x0000000000000000))
    (H.arg args "zAngularVelocity" (.float 0x0000000000000000)) (H.arg args "marking" .none)
    (H.arg args "capabilities" (.int 0)) (H.arg args "variableParameters" .none)

/-- `AcknowledgeReliablePdu(...)` with arguments by name, /repo/opendis/dis7.py:5879-5888. -/
def AcknowledgeReliablePdu.callHeap (args : List (String × Val)) : H Ref :=
  AcknowledgeReliablePdu.newHeap (H.arg args "acknowledgeFlag" (.int 0))
    (H.arg args "responseFlag" (.int 0)) (H.arg args "requestID" (.int 0))

/-- `StartResumeReliablePdu(...)` with arguments by name, /repo/opendis/dis7.py:5912-5926. -/
def StartResumeReliablePdu.callHeap (args : List (String × Val)) : H Ref :=
  StartResumeReliablePdu.newHeap (H.arg args "realWorldTime" .none) (H.arg args "simulationTime" .none)
    (H.arg args "requiredReliabilityService" (.int 0)) (H.arg args "requestID" (.int 0))

/-- `ArealObjectStatePdu(...)` with arguments by name, /repo/opendis/dis7.py:5958-5985. -/
def ArealObjectStatePdu.callHeap (args : List (String × Val)) : H Ref :=
  ArealObjectStatePdu.newHeap (H.arg args "objectID" .none) (H.arg args "referencedObjectID" .none)
    (H.arg args "updateNumber" (.int 0)) (H.arg args "forceId" (.int 0)) (H.arg args "modifications" (.int 0))
    (H.arg args "objectType" .none) (H.arg args "specificObjectAppearance" (.int 0))
    (H.arg args "generalObjectAppearance" (.int 0)) (H.arg args "requesterID" .none)
    (H.arg args "receivingID" .none) (H.arg args "objectLocation" .none)

/-- `DataQueryReliablePdu(...)` with arguments by name, /repo/opendis/dis7.py:6035-6051. -/
def DataQueryReliablePdu.callHeap (args : List (String × Val)) : H Ref :=
  DataQueryReliablePdu.newHeap (H.arg args "requiredReliabilityService" (.int 0))
    (H.arg args "requestID" (.int 0)) (H.arg args "timeInterval" (.int 0)) (H.arg args "fixedDatumIDs" .none)
    (H.arg args "variableDatumIDs" .none)

/-- `MinefieldStatePdu(...)` with arguments by name, /repo/opendis/dis7.py:6098-6122. -/
def MinefieldStatePdu.callHeap (args : List (String × Val)) : H Ref :=
  MinefieldStatePdu.newHeap (H.arg args "minefieldID" .none) (H.arg args "minefieldSequence" (.int 0))
    (H.arg args "forceID" (.int 0)) (H.arg args "minefieldType" .none) (H.arg args "minefieldLocation" .none)
    (H.arg args "minefieldOrientation" .none) (H.arg args "appearance" (.int 0))
    (H.arg args "protocolMode" (.int 0)) (H.arg args "perimeterPoints" .none) (H.arg args "mineTypes" .none)

/-- `DataReliablePdu(...)` with arguments by name, /repo/opendis/dis7.py:6183-6196. -/
def DataReliablePdu.callHeap (args : List (String × Val)) : H Ref :=
  DataReliablePdu.newHeap (H.arg args "requestID" (.int 0))
    (H.arg args "requiredReliabilityService" (.int 0)) (H.arg args "fixedDatumRecords" .none)
    (H.arg args "variableDatumRecords" .none)

/-- `CommentPdu(...)` with arguments by name, /repo/opendis/dis7.py:6240-6246. -/
def CommentPdu.callHeap (args : List (String × Val)) : H Ref :=
  CommentPdu.newHeap (H.arg args "fixedDatumRecords" .none) (H.arg args "variableDatumRecords" .none)

/-- `CommentReliablePdu(...)` with arguments by name, /repo/opendis/dis7.py:6283-6289. -/
def CommentReliablePdu.callHeap (args : List (String × Val)) : H Ref :=
  CommentReliablePdu.newHeap (H.arg args "fixedDatumRecords" .none)
    (H.arg args "variableDatumRecords" .none)

/-- `DetonationPdu(...)` with arguments by name, /repo/opendis/dis7.py:6415-6439. -/
def DetonationPdu.callHeap (args : List (String × Val)) : H Ref :=
  DetonationPdu.newHeap (H.arg args "explodingEntityID" .none) (H.arg args "eventID" .none)
    (H.arg args "velocity" .none) (H.arg args "location" .none) (H.arg args "descriptor" .none)
    (H.arg args "locationInEntityCoordinates" .none) (H.arg args "detonationResult" (.int 0))
    (H.arg args "variableParameters" .none)

/-- `SetDataPdu(...)` with arguments by name, /repo/opendis/dis7.py:6485-6494. -/
def SetDataPdu.callHeap (args : List (String × Val)) : H Ref :=
  SetDataPdu.newHeap (H.arg args "requestID" (.int 0)) (H.arg args "fixedDatumRecords" .none)
    (H.arg args "variableDatumRecords" .none)

/-- `RecordQueryReliablePdu(...)` with arguments by name, /repo/opendis/dis7.py:6534-6549. -/
def RecordQueryReliablePdu.callHeap (args : List (String × Val)) : H Ref :=
  RecordQueryReliablePdu.newHeap (H.arg args "requestID" (.int 0))
    (H.arg args "requiredReliabilityService" (.int 0)) (H.arg args "eventType" (.int 0))
    (H.arg args "time" (.int 0)) (H.arg args "recordIDs" .none)

/-- `ActionResponsePdu(...)` with arguments by name, /repo/opendis/dis7.py:6591-6602. -/
def ActionResponsePdu.callHeap (args : List (String × Val)) : H Ref :=
  ActionResponsePdu.newHeap (H.arg args "requestID" (.int 0)) (H.arg args "requestStatus" (.int 0))
    (H.arg args "fixedDatumRecords" .none) (H.arg args "variableDatumRecords" .none)

/-- `FirePdu(...)` with arguments by name, /repo/opendis/dis7.py:6688-6711. -/
def FirePdu.callHeap (args : List (String × Val)) : H Ref :=
  FirePdu.newHeap (H.arg args "munitionExpendableID" .none) (H.arg args "eventID" .none)
    (H.arg args "fireMissionIndex" (.int 0)) (H.arg args "location" .none) (H.arg args "descriptor" .none)
    (H.arg args "velocity" .none) (H.arg args "range_" (.float 0x0000000000000000))

/-- `ReceiverPdu(...)` with arguments by name, /repo/opendis/dis7.py:6743-6757. -/
def ReceiverPdu.callHeap (args : List (String × Val)) : H Ref :=
  ReceiverPdu.newHeap (H.arg args "receiverState" (.int 0))
    (H.arg args "receivedPower" (.float 0x0000000000000000)) (H.arg args "transmitterEntityID" .none)
    (H.arg args "transmitterRadioId" (.int 0))

/-- `UaPdu(...)` with arguments by name, /repo/opendis/dis7.py:6787-6814. -/
def UaPdu.callHeap (args : List (String × Val)) : H Ref :=
  UaPdu.newHeap (H.arg args "emittingEntityID" .none) (H.arg args "eventID" .none)
    (H.arg args "stateChangeIndicator" (.int 0)) (H.arg args "passiveParameterIndex" (.int 0))
    (H.arg args "propulsionPlantConfiguration" (.int 0)) (H.arg args "shaftRPMs" .none)
    (H.arg args "apaData" .none) (H.arg args "emitterSystems" .none)

/-- `SignalPdu(...)` with arguments by name, /repo/opendis/dis7.py:6966-6982. -/
def SignalPdu.callHeap (args : List (String × Val)) : H Ref :=
  SignalPdu.newHeap (H.arg args "entityID" .none) (H.arg args "radioID" (.int 0))
    (H.arg args "encodingScheme" (.int 0)) (H.arg args "tdlType" (.int 0)) (H.arg args "sampleRate" (.int 0))
    (H.arg args "samples" (.int 0)) (H.arg args "data" .none)

/-- `RemoveEntityReliablePdu(...)` with arguments by name, /repo/opendis/dis7.py:7025-7033. -/
def RemoveEntityReliablePdu.callHeap (args : List (String × Val)) : H Ref :=
  RemoveEntityReliablePdu.newHeap (H.arg args "requiredReliabilityService" (.int 0))
    (H.arg args "requestID" (.int 0))

/-- `SeesPdu(...)` with arguments by name, /repo/opendis/dis7.py:7059-7072. -/
def SeesPdu.callHeap (args : List (String × Val)) : H Ref :=
  SeesPdu.newHeap (H.arg args "originatingEntityID" .none)
    (H.arg args "infraredSignatureRepresentationIndex" (.int 0))
    (H.arg args "acousticSignatureRepresentationIndex" (.int 0))
    (H.arg args "radarCrossSectionSignatureRepresentationIndex" (.int 0))
    (H.arg args "propulsionSystemData" .none) (H.arg args "vectoringSystemData" .none)

/-- `CreateEntityReliablePdu(...)` with arguments by name, /repo/opendis/dis7.py:7129-7137. -/
def CreateEntityReliablePdu.callHeap (args : List (String × Val)) : H Ref :=
  CreateEntityReliablePdu.newHeap (H.arg args "requiredReliabilityService" (.int 0))
    (H.arg args "requestID" (.int 0))

/-- `StopFreezeReliablePdu(...)` with arguments by name, /repo/opendis/dis7.py:7163-7179. -/
def StopFreezeReliablePdu.callHeap (args : List (String × Val)) : H Ref :=
  StopFreezeReliablePdu.newHeap (H.arg args "realWorldTime" .none) (H.arg args "reason" (.int 0))
    (H.arg args "frozenBehavior" (.int 0)) (H.arg args "requiredReliabilityService" (.int 0))
    (H.arg args "requestID" (.int 0))

/-- `EventReportReliablePdu(...)` with arguments by name, /repo/opendis/dis7.py:7210-7220. -/
def EventReportReliablePdu.callHeap (args : List (String × Val)) : H Ref :=
  EventReportReliablePdu.newHeap (H.arg args "eventType" (.int 0)) (H.arg args "fixedDatumRecords" .none)
    (H.arg args "variableDatumRecords" .none)

/-- `MinefieldResponseNackPdu(...)` with arguments by name, /repo/opendis/dis7.py:7260-7271. -/
def MinefieldResponseNackPdu.callHeap (args : List (String × Val)) : H Ref :=
  MinefieldResponseNackPdu.newHeap (H.arg args "minefieldID" .none) (H.arg args "requestingEntityID" .none)
    (H.arg args "requestID" (.int 0)) (H.arg args "missingPduSequenceNumbers" .none)

/-- `ActionResponseReliablePdu(...)` with arguments by name, /repo/opendis/dis7.py:7309-7319. -/
def ActionResponseReliablePdu.callHeap (args : List (String × Val)) : H Ref :=
  ActionResponseReliablePdu.newHeap (H.arg args "requestID" (.int 0)) (H.arg args "responseStatus" (.int 0))
    (H.arg args "fixedDatumRecords" .none) (H.arg args "variableDatumRecords" .none)

/-- `IsPartOfPdu(...)` with arguments by name, /repo/opendis/dis7.py:7360-7377. -/
def IsPartOfPdu.callHeap (args : List (String × Val)) : H Ref :=
  IsPartOfPdu.newHeap (H.arg args "originatingEntityID" .none) (H.arg args "receivingEntityID" .none)
    (H.arg args "relationship" .none) (H.arg args "partLocation" .none) (H.arg args "namedLocationID" .none)
    (H.arg args "partEntityType" .none)

/-- `AggregateStatePdu(...)` with arguments by name, /repo/opendis/dis7.py:7409-7449. -/
def AggregateStatePdu.callHeap (args : List (String × Val)) : H Ref :=
  AggregateStatePdu.newHeap (H.arg args "aggregateID" .none) (H.arg args "forceID" (.int 0))
    (H.arg args "aggregateState" (.int 0)) (H.arg args "aggregateType" .none)
    (H.arg args "formation" (.int 0)) (H.arg args "aggregateMarking" .none) (H.arg args "dimensions" .none)
    (H.arg args "orientation" .none) (H.arg args "centerOfMass" .none) (H.arg args "velocity" .none)
    (H.arg args "aggregateIDs" .none) (H.arg args "entityIDs" .none)
    (H.arg args "silentAggregateSystems" .none) (H.arg args "silentEntitySystems" .none)
    (H.arg args "variableDatumRecords" .none)

/-- `BeamAntennaPattern(...)` with arguments by name, /repo/opendis/record/radio/__init__.py:111-132. -/
def BeamAntennaPattern.callHeap (args : List (String × Val)) : H Ref :=
  BeamAntennaPattern.newHeap (H.arg args "beamDirection" .none)
    (H.arg args "azimuthBeamwidth" (.float 0x0000000000000000))
    (H.arg args "elevationBeamwidth" (.float 0x0000000000000000)) (H.arg args "referenceSystem" (.int 0))
    (H.arg args "ez" (.float 0x0000000000000000)) (H.arg args "ex" (.float 0x0000000000000000))
    (H.arg args "phase" (.float 0x0000000000000000))

/-- `SpreadSpectrum(...)` with arguments by name, /repo/opendis/record/radio/__init__.py:189-197. -/
def SpreadSpectrum.callHeap (args : List (String × Val)) : H Ref :=
  SpreadSpectrum.newHeap (H.arg args "frequencyHopping" (.bool false))
    (H.arg args "pseudoNoise" (.bool false)) (H.arg args "timeHopping" (.bool false))
    (H.arg args "padding" (.int 0))

/-- `ModulationType(...)` with arguments by name, /repo/opendis/record/radio/__init__.py:224-233. -/
def ModulationType.callHeap (args : List (String × Val)) : H Ref :=
  ModulationType.newHeap (H.arg args "spreadSpectrum" .none) (H.arg args "majorModulation" (.int 0))
    (H.arg args "detail" (.int 0)) (H.arg args "radioSystem" (.int 0))

/-- `NetId(...)` with arguments by name, /repo/opendis/record/radio/__init__.py:283-292. -/
def NetId.callHeap (args : List (String × Val)) : H Ref :=
  NetId.newHeap (H.arg args "netNumber" (.int 0)) (H.arg args "frequencyTable" (.int 0))
    (H.arg args "mode" (.int 0)) (H.arg args "padding" (.int 0))

/-- `BasicHaveQuickMP(...)` with arguments by name, /repo/opendis/record/radio/__init__.py:360-374. -/
def BasicHaveQuickMP.callHeap (args : List (String × Val)) : H Ref :=
  BasicHaveQuickMP.newHeap (H.arg args "net_id" .none) (H.arg args "mwod_index" (.int 1))
    (H.arg args "reserved16" (.int 0)) (H.arg args "reserved8_1" (.int 0)) (H.arg args "reserved8_2" (.int 0))
    (H.arg args "time_of_day" (.int 0)) (H.arg args "padding" (.int 0))

/-- `CCTTSincgarsMP(...)` with arguments by name, /repo/opendis/record/radio/__init__.py:406-421. -/
def CCTTSincgarsMP.callHeap (args : List (String × Val)) : H Ref :=
  CCTTSincgarsMP.newHeap (H.arg args "fh_net_id" (.int 0)) (H.arg args "hop_set_id" (.int 0))
    (H.arg args "lockout_set_id" (.int 0)) (H.arg args "start_of_message" (.int 0))
    (H.arg args "clear_channel" (.int 0)) (H.arg args "fh_sync_time_offset" (.int 0))
    (H.arg args "transmission_security_key" (.int 0))

/-- `DEFireFlags(...)` with arguments by name, /repo/opendis/record/warfare/enums.py:17-23. -/
def DEFireFlags.callHeap (args : List (String × Val)) : H Ref :=
  DEFireFlags.newHeap (H.arg args "weaponOn" (.int 0)) (H.arg args "stateUpdateFlag" (.int 0))

/-- `DirectedEnergyTargetEnergyDeposition(...)` with arguments by name, /repo/opendis/record/warfare/__init__.py:260-265. -/
def DirectedEnergyTargetEnergyDeposition.callHeap (args : List (String × Val)) : H Ref :=
  DirectedEnergyTargetEnergyDeposition.newHeap (H.arg args "targetEntityID" .none)
    (H.arg args "peakIrradiance" (.float 0x0000000000000000))

/-- `DirectedEnergyFirePdu(...)` with arguments by name, /repo/opendis/dis7.py:6326-6355. -/
def DirectedEnergyFirePdu.callHeap (args : List (String × Val)) : H Ref :=
  DirectedEnergyFirePdu.newHeap (H.arg args "munitionType" .none) (H.arg args "shotStartTime" .none)
    (H.arg args "cumulativeShotTime" (.float 0x0000000000000000)) (H.arg args "apertureEmitterLocation" .none)
    (H.arg args "apertureDiameter" (.float 0x0000000000000000))
    (H.arg args "wavelength" (.float 0x0000000000000000))
    (H.arg args "pulseRepetitionFrequency" (.float 0x0000000000000000))
    (H.arg args "pulseWidth" (.float 0x0000000000000000)) (H.arg args "flags" .none)
    (H.arg args "pulseShape" (.int 0)) (H.arg args "dERecords" .none)

/-- `EntityDamageStatusPdu(...)` with arguments by name, /repo/opendis/dis7.py:6643-6651. -/
def EntityDamageStatusPdu.callHeap (args : List (String × Val)) : H Ref :=
  EntityDamageStatusPdu.newHeap (H.arg args "damagedEntityID" .none) (H.arg args "damageDescriptions" .none)

/-- `TransmitterPdu(...)` with arguments by name, /repo/opendis/dis7.py:4952-4996. -/
def TransmitterPdu.callHeap (args : List (String × Val)) : H Ref :=
  TransmitterPdu.newHeap (H.arg args "radioReferenceID" .none) (H.arg args "radioNumber" (.int 0))
    (H.arg args "radioEntityType" .none) (H.arg args "transmitState" (.int 0))
    (H.arg args "inputSource" (.int 0)) (H.arg args "antennaLocation" .none)
    (H.arg args "relativeAntennaLocation" .none) (H.arg args "antennaPatternType" (.int 0))
    (H.arg args "frequency" (.int 0)) (H.arg args "transmitFrequencyBandwidth" (.float 0x0000000000000000))
    (H.arg args "power" (.float 0x0000000000000000)) (H.arg args "modulationType" .none)
    (H.arg args "cryptoSystem" (.int 0)) (H.arg args "cryptoKeyId" (.int 0))
    (H.arg args "modulationParameters" .none) (H.arg args "antennaPattern" .none)
    (H.arg args "variableTransmitterParameters" .none)

/-- `IntercomControlPdu(...)` with arguments by name, /repo/opendis/dis7.py:6883-6914. -/
def IntercomControlPdu.callHeap (args : List (String × Val)) : H Ref :=
  IntercomControlPdu.newHeap (H.arg args "controlType" (.int 0))
    (H.arg args "communicationsChannelType" (.int 0)) (H.arg args "sourceEntityID" .none)
    (H.arg args "sourceCommunicationsDeviceID" (.int 0)) (H.arg args "sourceLineID" (.int 0))
    (H.arg args "transmitPriority" (.int 0)) (H.arg args "transmitLineState" (.int 0))
    (H.arg args "command" (.int 0)) (H.arg args "masterEntityID" .none)
    (H.arg args "masterCommunicationsDeviceID" (.int 0)) (H.arg args "intercomParameters" .none)

end Dis
