import Verif.Source.Program
import Verif.Model.InPlace4

/-!
# Objects of the model as values, part 1

Written by `tools/gensourceproof.py`.
-/

set_option linter.unusedVariables false
set_option linter.unusedSimpArgs false

namespace Dis.Src

/-- The attributes of a `SimulationAddress` object (/repo/opendis/record/common.py:115-139). -/
abbrev SimulationAddress.fields (x : Dis.SimulationAddress) : List (Ident × Val) :=
   [(I.site, .int x.site),
    (I.application, .int x.application)]

/-- A `SimulationAddress` object (/repo/opendis/record/common.py:115-139). -/
abbrev SimulationAddress.enc (x : Dis.SimulationAddress) : Val := .obj I.SimulationAddress (SimulationAddress.fields x)

/-- The attributes of a `EntityIdentifier` object (/repo/opendis/record/common.py:32-54). -/
abbrev EntityIdentifier.fields (x : Dis.EntityIdentifier) : List (Ident × Val) :=
   [(I.simulationAddress, SimulationAddress.enc x.simulationAddress),
    (I.entityNumber, .int x.entityNumber)]

/-- A `EntityIdentifier` object (/repo/opendis/record/common.py:32-54). -/
abbrev EntityIdentifier.enc (x : Dis.EntityIdentifier) : Val := .obj I.EntityIdentifier (EntityIdentifier.fields x)

/-- The attributes of a `EulerAngles` object (/repo/opendis/record/common.py:57-85). -/
abbrev EulerAngles.fields (x : Dis.EulerAngles) : List (Ident × Val) :=
   [(I.psi, .float x.psi),
    (I.theta, .float x.theta),
    (I.phi, .float x.phi)]

/-- A `EulerAngles` object (/repo/opendis/record/common.py:57-85). -/
abbrev EulerAngles.enc (x : Dis.EulerAngles) : Val := .obj I.EulerAngles (EulerAngles.fields x)

/-- The attributes of a `EventIdentifier` object (/repo/opendis/record/common.py:88-112). -/
abbrev EventIdentifier.fields (x : Dis.EventIdentifier) : List (Ident × Val) :=
   [(I.simulationAddress, SimulationAddress.enc x.simulationAddress),
    (I.eventNumber, .int x.eventNumber)]

/-- A `EventIdentifier` object (/repo/opendis/record/common.py:88-112). -/
abbrev EventIdentifier.enc (x : Dis.EventIdentifier) : Val := .obj I.EventIdentifier (EventIdentifier.fields x)

/-- The attributes of a `Vector3Float` object (/repo/opendis/record/common.py:142-168). -/
abbrev Vector3Float.fields (x : Dis.Vector3Float) : List (Ident × Val) :=
   [(I.x, .float x.x),
    (I.y, .float x.y),
    (I.z, .float x.z)]

/-- A `Vector3Float` object (/repo/opendis/record/common.py:142-168). -/
abbrev Vector3Float.enc (x : Dis.Vector3Float) : Val := .obj I.Vector3Float (Vector3Float.fields x)

/-- The attributes of a `WorldCoordinates` object (/repo/opendis/record/common.py:171-196). -/
abbrev WorldCoordinates.fields (x : Dis.WorldCoordinates) : List (Ident × Val) :=
   [(I.x, .float x.x),
    (I.y, .float x.y),
    (I.z, .float x.z)]

/-- A `WorldCoordinates` object (/repo/opendis/record/common.py:171-196). -/
abbrev WorldCoordinates.enc (x : Dis.WorldCoordinates) : Val := .obj I.WorldCoordinates (WorldCoordinates.fields x)

/-- The attributes of a `DataQueryDatumSpecification` object (/repo/opendis/dis7.py:71-112). -/
abbrev DataQueryDatumSpecification.fields (x : Dis.DataQueryDatumSpecification) : List (Ident × Val) :=
   [(I.fixedDatumIDs, .list (x.fixedDatumIDs.map .int)),
    (I.variableDatumIDs, .list (x.variableDatumIDs.map .int))]

/-- A `DataQueryDatumSpecification` object (/repo/opendis/dis7.py:71-112). -/
abbrev DataQueryDatumSpecification.enc (x : Dis.DataQueryDatumSpecification) : Val := .obj I.DataQueryDatumSpecification (DataQueryDatumSpecification.fields x)

/-- The attributes of a `RadioIdentifier` object (/repo/opendis/dis7.py:115-144). -/
abbrev RadioIdentifier.fields (x : Dis.RadioIdentifier) : List (Ident × Val) :=
   [(I.siteNumber, .int x.siteNumber),
    (I.applicationNumber, .int x.applicationNumber),
    (I.referenceNumber, .int x.referenceNumber),
    (I.radioNumber, .int x.radioNumber)]

/-- A `RadioIdentifier` object (/repo/opendis/dis7.py:115-144). -/
abbrev RadioIdentifier.enc (x : Dis.RadioIdentifier) : Val := .obj I.RadioIdentifier (RadioIdentifier.fields x)

/-- The attributes of a `RequestID` object (/repo/opendis/dis7.py:147-164). -/
abbrev RequestID.fields (x : Dis.RequestID) : List (Ident × Val) :=
   [(I.requestID, .int x.requestID)]

/-- A `RequestID` object (/repo/opendis/dis7.py:147-164). -/
abbrev RequestID.enc (x : Dis.RequestID) : Val := .obj I.RequestID (RequestID.fields x)

/-- The attributes of a `IFFData` object (/repo/opendis/dis7.py:167-201). -/
abbrev IFFData.fields (x : Dis.IFFData) : List (Ident × Val) :=
   [(I.recordType, .int x.recordType),
    (I.recordLength, .int x.recordLength),
    (I.iffData, .list (x.iffData.map .int))]

/-- A `IFFData` object (/repo/opendis/dis7.py:167-201). -/
abbrev IFFData.enc (x : Dis.IFFData) : Val := .obj I.IFFData (IFFData.fields x)

/-- The attributes of a `EntityType` object (/repo/opendis/dis7.py:2497-2540). -/
abbrev EntityType.fields (x : Dis.EntityType) : List (Ident × Val) :=
   [(I.domain, .int x.domain),
    (I.country, .int x.country),
    (I.category, .int x.category),
    (I.subcategory, .int x.subcategory),
    (I.specific, .int x.specific),
    (I.extra, .int x.extra),
    (I.entityKind, .int x.entityKind)]

/-- A `EntityType` object (/repo/opendis/dis7.py:2497-2540). -/
abbrev EntityType.enc (x : Dis.EntityType) : Val := .obj I.EntityType (EntityType.fields x)

/-- The attributes of a `MunitionDescriptor` object (/repo/opendis/dis7.py:204-243). -/
abbrev MunitionDescriptor.fields (x : Dis.MunitionDescriptor) : List (Ident × Val) :=
   [(I.munitionType, EntityType.enc x.munitionType),
    (I.warhead, .int x.warhead),
    (I.fuse, .int x.fuse),
    (I.quantity, .int x.quantity),
    (I.rate, .int x.rate)]

/-- A `MunitionDescriptor` object (/repo/opendis/dis7.py:204-243). -/
abbrev MunitionDescriptor.enc (x : Dis.MunitionDescriptor) : Val := .obj I.MunitionDescriptor (MunitionDescriptor.fields x)

/-- The attributes of a `MinefieldSensorType` object (/repo/opendis/dis7.py:246-263). -/
abbrev MinefieldSensorType.fields (x : Dis.MinefieldSensorType) : List (Ident × Val) :=
   [(I.sensorType, .int x.sensorType)]

/-- A `MinefieldSensorType` object (/repo/opendis/dis7.py:246-263). -/
abbrev MinefieldSensorType.enc (x : Dis.MinefieldSensorType) : Val := .obj I.MinefieldSensorType (MinefieldSensorType.fields x)

/-- The attributes of a `GroupID` object (/repo/opendis/dis7.py:266-289). -/
abbrev GroupID.fields (x : Dis.GroupID) : List (Ident × Val) :=
   [(I.simulationAddress, SimulationAddress.enc x.simulationAddress),
    (I.groupNumber, .int x.groupNumber)]

/-- A `GroupID` object (/repo/opendis/dis7.py:266-289). -/
abbrev GroupID.enc (x : Dis.GroupID) : Val := .obj I.GroupID (GroupID.fields x)

/-- The attributes of a `LayerHeader` object (/repo/opendis/dis7.py:292-319). -/
abbrev LayerHeader.fields (x : Dis.LayerHeader) : List (Ident × Val) :=
   [(I.length, .int x.length),
    (I.layerNumber, .int x.layerNumber),
    (I.layerSpecificInformation, .int x.layerSpecificInformation)]

/-- A `LayerHeader` object (/repo/opendis/dis7.py:292-319). -/
abbrev LayerHeader.enc (x : Dis.LayerHeader) : Val := .obj I.LayerHeader (LayerHeader.fields x)

/-- The attributes of a `UnsignedDISInteger` object (/repo/opendis/dis7.py:322-335). -/
abbrev UnsignedDISInteger.fields (x : Dis.UnsignedDISInteger) : List (Ident × Val) :=
   [(I.val, .int x.val)]

/-- A `UnsignedDISInteger` object (/repo/opendis/dis7.py:322-335). -/
abbrev UnsignedDISInteger.enc (x : Dis.UnsignedDISInteger) : Val := .obj I.UnsignedDISInteger (UnsignedDISInteger.fields x)

/-- The attributes of a `DeadReckoningParameters` object (/repo/opendis/dis7.py:338-375). -/
abbrev DeadReckoningParameters.fields (x : Dis.DeadReckoningParameters) : List (Ident × Val) :=
   [(I.deadReckoningAlgorithm, .int x.deadReckoningAlgorithm),
    (I.parameters, .list (x.parameters.map .int)),
    (I.entityLinearAcceleration, Vector3Float.enc x.entityLinearAcceleration),
    (I.entityAngularVelocity, Vector3Float.enc x.entityAngularVelocity)]

/-- A `DeadReckoningParameters` object (/repo/opendis/dis7.py:338-375). -/
abbrev DeadReckoningParameters.enc (x : Dis.DeadReckoningParameters) : Val := .obj I.DeadReckoningParameters (DeadReckoningParameters.fields x)

/-- The attributes of a `ProtocolMode` object (/repo/opendis/dis7.py:378-394). -/
abbrev ProtocolMode.fields (x : Dis.ProtocolMode) : List (Ident × Val) :=
   [(I.protocolMode, .int x.protocolMode)]

/-- A `ProtocolMode` object (/repo/opendis/dis7.py:378-394). -/
abbrev ProtocolMode.enc (x : Dis.ProtocolMode) : Val := .obj I.ProtocolMode (ProtocolMode.fields x)

/-- The attributes of a `AngleDeception` object (/repo/opendis/dis7.py:397-472). -/
abbrev AngleDeception.fields (x : Dis.AngleDeception) : List (Ident × Val) :=
   [(I.padding, .int x.padding),
    (I.recordType, .int x.recordType),
    (I.recordLength, .int x.recordLength),
    (I.padding2, .int x.padding2),
    (I.padding3, .int x.padding3),
    (I.emitterNumber, .int x.emitterNumber),
    (I.beamNumber, .int x.beamNumber),
    (I.stateIndicator, .int x.stateIndicator),
    (I.azimuthOffset, .float x.azimuthOffset),
    (I.azimuthWidth, .float x.azimuthWidth),
    (I.azimuthPullRate, .float x.azimuthPullRate),
    (I.azimuthPullAcceleration, .float x.azimuthPullAcceleration),
    (I.elevationOffset, .float x.elevationOffset),
    (I.elevationWidth, .float x.elevationWidth),
    (I.elevationPullRate, .float x.elevationPullRate),
    (I.elevationPullAcceleration, .float x.elevationPullAcceleration)]

/-- A `AngleDeception` object (/repo/opendis/dis7.py:397-472). -/
abbrev AngleDeception.enc (x : Dis.AngleDeception) : Val := .obj I.AngleDeception (AngleDeception.fields x)

/-- The attributes of a `EntityAssociation` object (/repo/opendis/dis7.py:475-530). -/
abbrev EntityAssociation.fields (x : Dis.EntityAssociation) : List (Ident × Val) :=
   [(I.recordType, .int x.recordType),
    (I.groupNumber, .int x.groupNumber),
    (I.changeIndicator, .int x.changeIndicator),
    (I.associationStatus, .int x.associationStatus),
    (I.associationType, .int x.associationType),
    (I.entityID, EntityIdentifier.enc x.entityID),
    (I.ownStationLocation, .int x.ownStationLocation),
    (I.physicalConnectionType, .int x.physicalConnectionType),
    (I.groupMemberType, .int x.groupMemberType)]

/-- A `EntityAssociation` object (/repo/opendis/dis7.py:475-530). -/
abbrev EntityAssociation.enc (x : Dis.EntityAssociation) : Val := .obj I.EntityAssociation (EntityAssociation.fields x)

/-- The attributes of a `VectoringNozzleSystem` object (/repo/opendis/dis7.py:533-553). -/
abbrev VectoringNozzleSystem.fields (x : Dis.VectoringNozzleSystem) : List (Ident × Val) :=
   [(I.horizontalDeflectionAngle, .float x.horizontalDeflectionAngle),
    (I.verticalDeflectionAngle, .float x.verticalDeflectionAngle)]

/-- A `VectoringNozzleSystem` object (/repo/opendis/dis7.py:533-553). -/
abbrev VectoringNozzleSystem.enc (x : Dis.VectoringNozzleSystem) : Val := .obj I.VectoringNozzleSystem (VectoringNozzleSystem.fields x)

/-- The attributes of a `FalseTargetsAttribute` object (/repo/opendis/dis7.py:556-621). -/
abbrev FalseTargetsAttribute.fields (x : Dis.FalseTargetsAttribute) : List (Ident × Val) :=
   [(I.padding, .int x.padding),
    (I.recordType, .int x.recordType),
    (I.recordLength, .int x.recordLength),
    (I.padding2, .int x.padding2),
    (I.emitterNumber, .int x.emitterNumber),
    (I.beamNumber, .int x.beamNumber),
    (I.stateIndicator, .int x.stateIndicator),
    (I.falseTargetCount, .int x.falseTargetCount),
    (I.walkSpeed, .float x.walkSpeed),
    (I.walkAcceleration, .float x.walkAcceleration),
    (I.maximumWalkDistance, .float x.maximumWalkDistance),
    (I.keepTime, .float x.keepTime),
    (I.echoSpacing, .float x.echoSpacing)]

/-- A `FalseTargetsAttribute` object (/repo/opendis/dis7.py:556-621). -/
abbrev FalseTargetsAttribute.enc (x : Dis.FalseTargetsAttribute) : Val := .obj I.FalseTargetsAttribute (FalseTargetsAttribute.fields x)

/-- The attributes of a `MinefieldIdentifier` object (/repo/opendis/dis7.py:624-644). -/
abbrev MinefieldIdentifier.fields (x : Dis.MinefieldIdentifier) : List (Ident × Val) :=
   [(I.simulationAddress, SimulationAddress.enc x.simulationAddress),
    (I.minefieldNumber, .int x.minefieldNumber)]

/-- A `MinefieldIdentifier` object (/repo/opendis/dis7.py:624-644). -/
abbrev MinefieldIdentifier.enc (x : Dis.MinefieldIdentifier) : Val := .obj I.MinefieldIdentifier (MinefieldIdentifier.fields x)

/-- The attributes of a `RadioType` object (/repo/opendis/dis7.py:647-690). -/
abbrev RadioType.fields (x : Dis.RadioType) : List (Ident × Val) :=
   [(I.domain, .int x.domain),
    (I.country, .int x.country),
    (I.category, .int x.category),
    (I.subcategory, .int x.subcategory),
    (I.specific, .int x.specific),
    (I.extra, .int x.extra),
    (I.entityKind, .int x.entityKind)]

/-- A `RadioType` object (/repo/opendis/dis7.py:647-690). -/
abbrev RadioType.enc (x : Dis.RadioType) : Val := .obj I.RadioType (RadioType.fields x)

/-- The attributes of a `NamedLocationIdentification` object (/repo/opendis/dis7.py:693-717). -/
abbrev NamedLocationIdentification.fields (x : Dis.NamedLocationIdentification) : List (Ident × Val) :=
   [(I.stationName, .int x.stationName),
    (I.stationNumber, .int x.stationNumber)]

/-- A `NamedLocationIdentification` object (/repo/opendis/dis7.py:693-717). -/
abbrev NamedLocationIdentification.enc (x : Dis.NamedLocationIdentification) : Val := .obj I.NamedLocationIdentification (NamedLocationIdentification.fields x)

/-- The attributes of a `IFFDataSpecification` object (/repo/opendis/dis7.py:720-745). -/
abbrev IFFDataSpecification.fields (x : Dis.IFFDataSpecification) : List (Ident × Val) :=
   [(I.iffDataRecords, .list (x.iffDataRecords.map IFFData.enc))]

/-- A `IFFDataSpecification` object (/repo/opendis/dis7.py:720-745). -/
abbrev IFFDataSpecification.enc (x : Dis.IFFDataSpecification) : Val := .obj I.IFFDataSpecification (IFFDataSpecification.fields x)

/-- The attributes of a `OwnershipStatus` object (/repo/opendis/dis7.py:748-773). -/
abbrev OwnershipStatus.fields (x : Dis.OwnershipStatus) : List (Ident × Val) :=
   [(I.padding, .int x.padding),
    (I.entityId, EntityIdentifier.enc x.entityId),
    (I.ownershipStatus, .int x.ownershipStatus)]

/-- A `OwnershipStatus` object (/repo/opendis/dis7.py:748-773). -/
abbrev OwnershipStatus.enc (x : Dis.OwnershipStatus) : Val := .obj I.OwnershipStatus (OwnershipStatus.fields x)

/-- The attributes of a `Attribute` object (/repo/opendis/dis7.py:814-839). -/
abbrev Attribute.fields (x : Dis.Attribute) : List (Ident × Val) :=
   [(I.recordType, .int x.recordType),
    (I.recordLength, .int x.recordLength),
    (I.recordSpecificFields, .int x.recordSpecificFields)]

/-- A `Attribute` object (/repo/opendis/dis7.py:814-839). -/
abbrev Attribute.enc (x : Dis.Attribute) : Val := .obj I.Attribute (Attribute.fields x)

/-- The attributes of a `RecordQuerySpecification` object (/repo/opendis/dis7.py:842-868). -/
abbrev RecordQuerySpecification.fields (x : Dis.RecordQuerySpecification) : List (Ident × Val) :=
   [(I.recordIDs, .list (x.recordIDs.map .int))]

/-- A `RecordQuerySpecification` object (/repo/opendis/dis7.py:842-868). -/
abbrev RecordQuerySpecification.enc (x : Dis.RecordQuerySpecification) : Val := .obj I.RecordQuerySpecification (RecordQuerySpecification.fields x)

/-- The attributes of a `ArticulatedParts` object (/repo/opendis/dis7.py:871-907). -/
abbrev ArticulatedParts.fields (x : Dis.ArticulatedParts) : List (Ident × Val) :=
   [(I.recordType, .int x.recordType),
    (I.changeIndicator, .int x.changeIndicator),
    (I.partAttachedTo, .int x.partAttachedTo),
    (I.parameterType, .int x.parameterType),
    (I.parameterValue, .int x.parameterValue)]

/-- A `ArticulatedParts` object (/repo/opendis/dis7.py:871-907). -/
abbrev ArticulatedParts.enc (x : Dis.ArticulatedParts) : Val := .obj I.ArticulatedParts (ArticulatedParts.fields x)

/-- The attributes of a `ObjectType` object (/repo/opendis/dis7.py:910-942). -/
abbrev ObjectType.fields (x : Dis.ObjectType) : List (Ident × Val) :=
   [(I.domain, .int x.domain),
    (I.category, .int x.category),
    (I.subcategory, .int x.subcategory),
    (I.objectKind, .int x.objectKind)]

/-- A `ObjectType` object (/repo/opendis/dis7.py:910-942). -/
abbrev ObjectType.enc (x : Dis.ObjectType) : Val := .obj I.ObjectType (ObjectType.fields x)

/-- The attributes of a `Association` object (/repo/opendis/dis7.py:945-979). -/
abbrev Association.fields (x : Dis.Association) : List (Ident × Val) :=
   [(I.associationType, .int x.associationType),
    (I.associatedEntityID, EntityIdentifier.enc x.associatedEntityID),
    (I.associatedLocation, WorldCoordinates.enc x.associatedLocation),
    (I.padding4, .int x.padding4)]

/-- A `Association` object (/repo/opendis/dis7.py:945-979). -/
abbrev Association.enc (x : Dis.Association) : Val := .obj I.Association (Association.fields x)

/-- The attributes of a `RecordSpecificationElement` object (/repo/opendis/dis7.py:982-1022). -/
abbrev RecordSpecificationElement.fields (x : Dis.RecordSpecificationElement) : List (Ident × Val) :=
   [(I.recordLength, .int x.recordLength),
    (I.recordID, .int x.recordID),
    (I.recordSetSerialNumber, .int x.recordSetSerialNumber),
    (I.recordCount, .int x.recordCount),
    (I.recordValues, .int x.recordValues),
    (I.pad4, .int x.pad4)]

/-- A `RecordSpecificationElement` object (/repo/opendis/dis7.py:982-1022). -/
abbrev RecordSpecificationElement.enc (x : Dis.RecordSpecificationElement) : Val := .obj I.RecordSpecificationElement (RecordSpecificationElement.fields x)

/-- The attributes of a `AntennaLocation` object (/repo/opendis/dis7.py:1025-1048). -/
abbrev AntennaLocation.fields (x : Dis.AntennaLocation) : List (Ident × Val) :=
   [(I.antennaLocation, WorldCoordinates.enc x.antennaLocation),
    (I.relativeAntennaLocation, Vector3Float.enc x.relativeAntennaLocation)]

/-- A `AntennaLocation` object (/repo/opendis/dis7.py:1025-1048). -/
abbrev AntennaLocation.enc (x : Dis.AntennaLocation) : Val := .obj I.AntennaLocation (AntennaLocation.fields x)

/-- The attributes of a `ObjectIdentifier` object (/repo/opendis/dis7.py:1051-1073). -/
abbrev ObjectIdentifier.fields (x : Dis.ObjectIdentifier) : List (Ident × Val) :=
   [(I.simulationAddress, SimulationAddress.enc x.simulationAddress),
    (I.objectNumber, .int x.objectNumber)]

/-- A `ObjectIdentifier` object (/repo/opendis/dis7.py:1051-1073). -/
abbrev ObjectIdentifier.enc (x : Dis.ObjectIdentifier) : Val := .obj I.ObjectIdentifier (ObjectIdentifier.fields x)

/-- The attributes of a `AggregateIdentifier` object (/repo/opendis/dis7.py:1076-1097). -/
abbrev AggregateIdentifier.fields (x : Dis.AggregateIdentifier) : List (Ident × Val) :=
   [(I.simulationAddress, SimulationAddress.enc x.simulationAddress),
    (I.aggregateID, .int x.aggregateID)]

/-- A `AggregateIdentifier` object (/repo/opendis/dis7.py:1076-1097). -/
abbrev AggregateIdentifier.enc (x : Dis.AggregateIdentifier) : Val := .obj I.AggregateIdentifier (AggregateIdentifier.fields x)

/-- The attributes of a `FixedDatum` object (/repo/opendis/dis7.py:1100-1122). -/
abbrev FixedDatum.fields (x : Dis.FixedDatum) : List (Ident × Val) :=
   [(I.fixedDatumID, .int x.fixedDatumID),
    (I.fixedDatumValue, .int x.fixedDatumValue)]

/-- A `FixedDatum` object (/repo/opendis/dis7.py:1100-1122). -/
abbrev FixedDatum.enc (x : Dis.FixedDatum) : Val := .obj I.FixedDatum (FixedDatum.fields x)

/-- The attributes of a `VariableParameter` object (/repo/opendis/dis7.py:1125-1163). -/
abbrev VariableParameter.fields (x : Dis.VariableParameter) : List (Ident × Val) :=
   [(I.recordType, .int x.recordType),
    (I.variableParameterFields1, .float x.variableParameterFields1),
    (I.variableParameterFields2, .int x.variableParameterFields2),
    (I.variableParameterFields3, .int x.variableParameterFields3),
    (I.variableParameterFields4, .int x.variableParameterFields4)]

/-- A `VariableParameter` object (/repo/opendis/dis7.py:1125-1163). -/
abbrev VariableParameter.enc (x : Dis.VariableParameter) : Val := .obj I.VariableParameter (VariableParameter.fields x)

/-- A `VariableParameter` object of the model, and what the attributes hold that the constructor gives an integer (/repo/opendis/dis7.py:1125-1163). -/
structure VariableParameter.Raw where
  obj : Dis.VariableParameter
  variableParameterFields1 : Val

/-- The object of the model (/repo/opendis/dis7.py:1125-1163). -/
abbrev VariableParameter.Raw.out (r : VariableParameter.Raw) : Dis.VariableParameter := r.obj

/-- Its attributes (/repo/opendis/dis7.py:1125-1163). -/
abbrev VariableParameter.rawFields (r : VariableParameter.Raw) : List (Ident × Val) :=
   [(I.recordType, .int r.obj.recordType),
    (I.variableParameterFields1, r.variableParameterFields1),
    (I.variableParameterFields2, .int r.obj.variableParameterFields2),
    (I.variableParameterFields3, .int r.obj.variableParameterFields3),
    (I.variableParameterFields4, .int r.obj.variableParameterFields4)]

/-- What the constructor makes (/repo/opendis/dis7.py:1125-1163). -/
abbrev VariableParameter.made : VariableParameter.Raw := ⟨Dis.VariableParameter.init, .int 0⟩

/-- `VariableParameter.parse` (/repo/opendis/dis7.py:1157-1163). -/
def VariableParameter.parseRaw : P VariableParameter.Raw Unit := do
  let recordType ← P.read read_unsigned_byte
  P.set fun o => { o with obj := { o.obj with recordType := recordType } }
  let variableParameterFields1 ← P.read read_double
  P.set fun o => { o with obj := { o.obj with variableParameterFields1 := variableParameterFields1 }, variableParameterFields1 := .float variableParameterFields1 }
  let variableParameterFields2 ← P.read read_unsigned_int
  P.set fun o => { o with obj := { o.obj with variableParameterFields2 := variableParameterFields2 } }
  let variableParameterFields3 ← P.read read_unsigned_short
  P.set fun o => { o with obj := { o.obj with variableParameterFields3 := variableParameterFields3 } }
  let variableParameterFields4 ← P.read read_unsigned_byte
  P.set fun o => { o with obj := { o.obj with variableParameterFields4 := variableParameterFields4 } }
  return ()
/-- The attributes of a `ChangeOptions` object (/repo/opendis/dis7.py:1166-1179). -/
abbrev ChangeOptions.fields (_x : Dis.ChangeOptions) : List (Ident × Val) :=
   []

/-- A `ChangeOptions` object (/repo/opendis/dis7.py:1166-1179). -/
abbrev ChangeOptions.enc (x : Dis.ChangeOptions) : Val := .obj I.ChangeOptions (ChangeOptions.fields x)

/-- The attributes of a `LiveSimulationAddress` object (/repo/opendis/dis7.py:1182-1205). -/
abbrev LiveSimulationAddress.fields (x : Dis.LiveSimulationAddress) : List (Ident × Val) :=
   [(I.liveSiteNumber, .int x.liveSiteNumber),
    (I.liveApplicationNumber, .int x.liveApplicationNumber)]

/-- A `LiveSimulationAddress` object (/repo/opendis/dis7.py:1182-1205). -/
abbrev LiveSimulationAddress.enc (x : Dis.LiveSimulationAddress) : Val := .obj I.LiveSimulationAddress (LiveSimulationAddress.fields x)

end Dis.Src
