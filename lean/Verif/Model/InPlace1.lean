import Verif.Model.Pdus5
import Verif.Py.InPlace

/-!
# Parse methods as programs that change their object, part 1

Generated by `tools/geninplace.py` from the Python source; each definition cites the lines it transliterates.
-/

set_option linter.unusedVariables false
set_option linter.unusedSimpArgs false

namespace Dis

/-- `SimulationAddress.parse`, /repo/opendis/record/common.py:137-139, statement by statement. -/
def SimulationAddress.parseInto : P SimulationAddress Unit := do
  let site ← P.read read_unsigned_short
  P.set fun o => { o with site := site }
  let application ← P.read read_unsigned_short
  P.set fun o => { o with application := application }
  return ()

/-- `EntityIdentifier.parse`, /repo/opendis/record/common.py:52-54, statement by statement. -/
def EntityIdentifier.parseInto : P EntityIdentifier Unit := do
  P.call ⟨(·.simulationAddress), fun o v => { o with simulationAddress := v }⟩ SimulationAddress.parseInto
  let entityNumber ← P.read read_uint16
  P.set fun o => { o with entityNumber := entityNumber }
  return ()

/-- `EulerAngles.parse`, /repo/opendis/record/common.py:82-85, statement by statement. -/
def EulerAngles.parseInto : P EulerAngles Unit := do
  let psi ← P.read read_float32
  P.set fun o => { o with psi := psi }
  let theta ← P.read read_float32
  P.set fun o => { o with theta := theta }
  let phi ← P.read read_float32
  P.set fun o => { o with phi := phi }
  return ()

/-- `EventIdentifier.parse`, /repo/opendis/record/common.py:110-112, statement by statement. -/
def EventIdentifier.parseInto : P EventIdentifier Unit := do
  P.call ⟨(·.simulationAddress), fun o v => { o with simulationAddress := v }⟩ SimulationAddress.parseInto
  let eventNumber ← P.read read_unsigned_short
  P.set fun o => { o with eventNumber := eventNumber }
  return ()

/-- `Vector3Float.parse`, /repo/opendis/record/common.py:165-168, statement by statement. -/
def Vector3Float.parseInto : P Vector3Float Unit := do
  let x ← P.read read_float
  P.set fun o => { o with x := x }
  let y ← P.read read_float
  P.set fun o => { o with y := y }
  let z ← P.read read_float
  P.set fun o => { o with z := z }
  return ()

/-- `WorldCoordinates.parse`, /repo/opendis/record/common.py:193-196, statement by statement. -/
def WorldCoordinates.parseInto : P WorldCoordinates Unit := do
  let x ← P.read read_float64
  P.set fun o => { o with x := x }
  let y ← P.read read_float64
  P.set fun o => { o with y := y }
  let z ← P.read read_float64
  P.set fun o => { o with z := z }
  return ()

/-- `DataQueryDatumSpecification.parse`, /repo/opendis/dis7.py:103-112, statement by statement. -/
def DataQueryDatumSpecification.parseInto : P DataQueryDatumSpecification Unit := do
  let numberOfFixedDatumIDs ← P.read read_unsigned_int
  let numberOfVariableDatumIDs ← P.read read_unsigned_int
  P.appendReads numberOfFixedDatumIDs.toNat read_unsigned_int ⟨(·.fixedDatumIDs), fun o v => { o with fixedDatumIDs := v }⟩
  P.appendReads numberOfVariableDatumIDs.toNat read_unsigned_int ⟨(·.variableDatumIDs), fun o v => { o with variableDatumIDs := v }⟩
  return ()

/-- `RadioIdentifier.parse`, /repo/opendis/dis7.py:139-144, statement by statement. -/
def RadioIdentifier.parseInto : P RadioIdentifier Unit := do
  let siteNumber ← P.read read_unsigned_short
  P.set fun o => { o with siteNumber := siteNumber }
  let applicationNumber ← P.read read_unsigned_short
  P.set fun o => { o with applicationNumber := applicationNumber }
  let referenceNumber ← P.read read_unsigned_short
  P.set fun o => { o with referenceNumber := referenceNumber }
  let radioNumber ← P.read read_unsigned_short
  P.set fun o => { o with radioNumber := radioNumber }
  return ()

/-- `RequestID.parse`, /repo/opendis/dis7.py:162-164, statement by statement. -/
def RequestID.parseInto : P RequestID Unit := do
  let requestID ← P.read read_unsigned_int
  P.set fun o => { o with requestID := requestID }
  return ()

/-- `IFFData.parse`, /repo/opendis/dis7.py:192-201, statement by statement. -/
def IFFData.parseInto : P IFFData Unit := do
  let recordType ← P.read read_unsigned_int
  P.set fun o => { o with recordType := recordType }
  let recordLength ← P.read read_unsigned_short
  P.set fun o => { o with recordLength := recordLength }
  P.appendReads (recordLength - 6).toNat read_unsigned_byte ⟨(·.iffData), fun o v => { o with iffData := v }⟩
  return ()

/-- `EntityType.parse`, /repo/opendis/dis7.py:2532-2540, statement by statement. -/
def EntityType.parseInto : P EntityType Unit := do
  let entityKind ← P.read read_unsigned_byte
  P.set fun o => { o with entityKind := entityKind }
  let domain ← P.read read_unsigned_byte
  P.set fun o => { o with domain := domain }
  let country ← P.read read_unsigned_short
  P.set fun o => { o with country := country }
  let category ← P.read read_unsigned_byte
  P.set fun o => { o with category := category }
  let subcategory ← P.read read_unsigned_byte
  P.set fun o => { o with subcategory := subcategory }
  let specific ← P.read read_unsigned_byte
  P.set fun o => { o with specific := specific }
  let extra ← P.read read_unsigned_byte
  P.set fun o => { o with extra := extra }
  return ()

/-- `MunitionDescriptor.parse`, /repo/opendis/dis7.py:237-243, statement by statement. -/
def MunitionDescriptor.parseInto : P MunitionDescriptor Unit := do
  P.call ⟨(·.munitionType), fun o v => { o with munitionType := v }⟩ EntityType.parseInto
  let warhead ← P.read read_unsigned_short
  P.set fun o => { o with warhead := warhead }
  let fuse ← P.read read_unsigned_short
  P.set fun o => { o with fuse := fuse }
  let quantity ← P.read read_unsigned_short
  P.set fun o => { o with quantity := quantity }
  let rate ← P.read read_unsigned_short
  P.set fun o => { o with rate := rate }
  return ()

/-- `MinefieldSensorType.parse`, /repo/opendis/dis7.py:261-263, statement by statement. -/
def MinefieldSensorType.parseInto : P MinefieldSensorType Unit := do
  let sensorType ← P.read read_unsigned_short
  P.set fun o => { o with sensorType := sensorType }
  return ()

/-- `GroupID.parse`, /repo/opendis/dis7.py:286-289, statement by statement. -/
def GroupID.parseInto : P GroupID Unit := do
  P.call ⟨(·.simulationAddress), fun o v => { o with simulationAddress := v }⟩ SimulationAddress.parseInto
  let groupNumber ← P.read read_unsigned_short
  P.set fun o => { o with groupNumber := groupNumber }
  return ()

/-- `LayerHeader.parse`, /repo/opendis/dis7.py:315-319, statement by statement. -/
def LayerHeader.parseInto : P LayerHeader Unit := do
  let layerNumber ← P.read read_unsigned_byte
  P.set fun o => { o with layerNumber := layerNumber }
  let layerSpecificInformation ← P.read read_unsigned_byte
  P.set fun o => { o with layerSpecificInformation := layerSpecificInformation }
  let length ← P.read read_unsigned_short
  P.set fun o => { o with length := length }
  return ()

/-- `UnsignedDISInteger.parse`, /repo/opendis/dis7.py:333-335, statement by statement. -/
def UnsignedDISInteger.parseInto : P UnsignedDISInteger Unit := do
  let val ← P.read read_unsigned_int
  P.set fun o => { o with val := val }
  return ()

/-- `DeadReckoningParameters.parse`, /repo/opendis/dis7.py:365-375, statement by statement. -/
def DeadReckoningParameters.parseInto : P DeadReckoningParameters Unit := do
  let deadReckoningAlgorithm ← P.read read_unsigned_byte
  P.set fun o => { o with deadReckoningAlgorithm := deadReckoningAlgorithm }
  P.fillReads 15 read_unsigned_byte ⟨(·.parameters), fun o v => { o with parameters := v }⟩
  P.call ⟨(·.entityLinearAcceleration), fun o v => { o with entityLinearAcceleration := v }⟩ Vector3Float.parseInto
  P.call ⟨(·.entityAngularVelocity), fun o v => { o with entityAngularVelocity := v }⟩ Vector3Float.parseInto
  return ()

/-- `ProtocolMode.parse`, /repo/opendis/dis7.py:392-394, statement by statement. -/
def ProtocolMode.parseInto : P ProtocolMode Unit := do
  let protocolMode ← P.read read_unsigned_short
  P.set fun o => { o with protocolMode := protocolMode }
  return ()

/-- `AngleDeception.parse`, /repo/opendis/dis7.py:455-472, statement by statement. -/
def AngleDeception.parseInto : P AngleDeception Unit := do
  let recordType ← P.read read_unsigned_int
  P.set fun o => { o with recordType := recordType }
  let recordLength ← P.read read_unsigned_short
  P.set fun o => { o with recordLength := recordLength }
  let padding ← P.read read_unsigned_short
  P.set fun o => { o with padding := padding }
  let emitterNumber ← P.read read_unsigned_byte
  P.set fun o => { o with emitterNumber := emitterNumber }
  let beamNumber ← P.read read_unsigned_byte
  P.set fun o => { o with beamNumber := beamNumber }
  let stateIndicator ← P.read read_unsigned_byte
  P.set fun o => { o with stateIndicator := stateIndicator }
  let padding2 ← P.read read_unsigned_byte
  P.set fun o => { o with padding2 := padding2 }
  let azimuthOffset ← P.read read_float
  P.set fun o => { o with azimuthOffset := azimuthOffset }
  let azimuthWidth ← P.read read_float
  P.set fun o => { o with azimuthWidth := azimuthWidth }
  let azimuthPullRate ← P.read read_float
  P.set fun o => { o with azimuthPullRate := azimuthPullRate }
  let azimuthPullAcceleration ← P.read read_float
  P.set fun o => { o with azimuthPullAcceleration := azimuthPullAcceleration }
  let elevationOffset ← P.read read_float
  P.set fun o => { o with elevationOffset := elevationOffset }
  let elevationWidth ← P.read read_float
  P.set fun o => { o with elevationWidth := elevationWidth }
  let elevationPullRate ← P.read read_float
  P.set fun o => { o with elevationPullRate := elevationPullRate }
  let elevationPullAcceleration ← P.read read_float
  P.set fun o => { o with elevationPullAcceleration := elevationPullAcceleration }
  let padding3 ← P.read read_unsigned_int
  P.set fun o => { o with padding3 := padding3 }
  return ()

/-- `EntityAssociation.parse`, /repo/opendis/dis7.py:520-530, statement by statement. -/
def EntityAssociation.parseInto : P EntityAssociation Unit := do
  let recordType ← P.read read_unsigned_byte
  P.set fun o => { o with recordType := recordType }
  let changeIndicator ← P.read read_unsigned_byte
  P.set fun o => { o with changeIndicator := changeIndicator }
  let associationStatus ← P.read read_unsigned_byte
  P.set fun o => { o with associationStatus := associationStatus }
  let associationType ← P.read read_unsigned_byte
  P.set fun o => { o with associationType := associationType }
  P.call ⟨(·.entityID), fun o v => { o with entityID := v }⟩ EntityIdentifier.parseInto
  let ownStationLocation ← P.read read_unsigned_short
  P.set fun o => { o with ownStationLocation := ownStationLocation }
  let physicalConnectionType ← P.read read_unsigned_byte
  P.set fun o => { o with physicalConnectionType := physicalConnectionType }
  let groupMemberType ← P.read read_unsigned_byte
  P.set fun o => { o with groupMemberType := groupMemberType }
  let groupNumber ← P.read read_unsigned_short
  P.set fun o => { o with groupNumber := groupNumber }
  return ()

/-- `VectoringNozzleSystem.parse`, /repo/opendis/dis7.py:550-553, statement by statement. -/
def VectoringNozzleSystem.parseInto : P VectoringNozzleSystem Unit := do
  let horizontalDeflectionAngle ← P.read read_float
  P.set fun o => { o with horizontalDeflectionAngle := horizontalDeflectionAngle }
  let verticalDeflectionAngle ← P.read read_float
  P.set fun o => { o with verticalDeflectionAngle := verticalDeflectionAngle }
  return ()

/-- `FalseTargetsAttribute.parse`, /repo/opendis/dis7.py:607-621, statement by statement. -/
def FalseTargetsAttribute.parseInto : P FalseTargetsAttribute Unit := do
  let recordType ← P.read read_unsigned_int
  P.set fun o => { o with recordType := recordType }
  let recordLength ← P.read read_unsigned_short
  P.set fun o => { o with recordLength := recordLength }
  let padding ← P.read read_unsigned_short
  P.set fun o => { o with padding := padding }
  let emitterNumber ← P.read read_unsigned_byte
  P.set fun o => { o with emitterNumber := emitterNumber }
  let beamNumber ← P.read read_unsigned_byte
  P.set fun o => { o with beamNumber := beamNumber }
  let stateIndicator ← P.read read_unsigned_byte
  P.set fun o => { o with stateIndicator := stateIndicator }
  let padding2 ← P.read read_unsigned_byte
  P.set fun o => { o with padding2 := padding2 }
  let falseTargetCount ← P.read read_unsigned_short
  P.set fun o => { o with falseTargetCount := falseTargetCount }
  let walkSpeed ← P.read read_float
  P.set fun o => { o with walkSpeed := walkSpeed }
  let walkAcceleration ← P.read read_float
  P.set fun o => { o with walkAcceleration := walkAcceleration }
  let maximumWalkDistance ← P.read read_float
  P.set fun o => { o with maximumWalkDistance := maximumWalkDistance }
  let keepTime ← P.read read_float
  P.set fun o => { o with keepTime := keepTime }
  let echoSpacing ← P.read read_float
  P.set fun o => { o with echoSpacing := echoSpacing }
  return ()

/-- `MinefieldIdentifier.parse`, /repo/opendis/dis7.py:641-644, statement by statement. -/
def MinefieldIdentifier.parseInto : P MinefieldIdentifier Unit := do
  P.call ⟨(·.simulationAddress), fun o v => { o with simulationAddress := v }⟩ SimulationAddress.parseInto
  let minefieldNumber ← P.read read_unsigned_short
  P.set fun o => { o with minefieldNumber := minefieldNumber }
  return ()

/-- `RadioType.parse`, /repo/opendis/dis7.py:682-690, statement by statement. -/
def RadioType.parseInto : P RadioType Unit := do
  let entityKind ← P.read read_unsigned_byte
  P.set fun o => { o with entityKind := entityKind }
  let domain ← P.read read_unsigned_byte
  P.set fun o => { o with domain := domain }
  let country ← P.read read_unsigned_short
  P.set fun o => { o with country := country }
  let category ← P.read read_unsigned_byte
  P.set fun o => { o with category := category }
  let subcategory ← P.read read_unsigned_byte
  P.set fun o => { o with subcategory := subcategory }
  let specific ← P.read read_unsigned_byte
  P.set fun o => { o with specific := specific }
  let extra ← P.read read_unsigned_byte
  P.set fun o => { o with extra := extra }
  return ()

/-- `NamedLocationIdentification.parse`, /repo/opendis/dis7.py:714-717, statement by statement. -/
def NamedLocationIdentification.parseInto : P NamedLocationIdentification Unit := do
  let stationName ← P.read read_unsigned_short
  P.set fun o => { o with stationName := stationName }
  let stationNumber ← P.read read_unsigned_short
  P.set fun o => { o with stationNumber := stationNumber }
  return ()

/-- `IFFDataSpecification.parse`, /repo/opendis/dis7.py:739-745, statement by statement. -/
def IFFDataSpecification.parseInto : P IFFDataSpecification Unit := do
  let numberOfIFFDataRecords ← P.read read_unsigned_short
  P.appendObjs numberOfIFFDataRecords.toNat IFFData.init IFFData.parseInto ⟨(·.iffDataRecords), fun o v => { o with iffDataRecords := v }⟩
  return ()

/-- `OwnershipStatus.parse`, /repo/opendis/dis7.py:769-773, statement by statement. -/
def OwnershipStatus.parseInto : P OwnershipStatus Unit := do
  P.call ⟨(·.entityId), fun o v => { o with entityId := v }⟩ EntityIdentifier.parseInto
  let ownershipStatus ← P.read read_unsigned_byte
  P.set fun o => { o with ownershipStatus := ownershipStatus }
  let padding ← P.read read_unsigned_byte
  P.set fun o => { o with padding := padding }
  return ()

/-- `AttachedParts.parse`, /repo/opendis/dis7.py:805-811, statement by statement. -/
def AttachedParts.parseInto : P AttachedParts Unit := do
  let recordType ← P.read read_unsigned_byte
  P.set fun o => { o with recordType := recordType }
  let detachedIndicator ← P.read read_unsigned_byte
  P.set fun o => { o with detachedIndicator := detachedIndicator }
  let partAttachedTo ← P.read read_unsigned_short
  P.set fun o => { o with partAttachedTo := partAttachedTo }
  let parameterType ← P.read read_unsigned_int
  P.set fun o => { o with parameterType := parameterType }
  let parameterValue ← P.read read_long
  P.set fun o => { o with parameterValue := some parameterValue }
  return ()

/-- `Attribute.parse`, /repo/opendis/dis7.py:835-839, statement by statement. -/
def Attribute.parseInto : P Attribute Unit := do
  let recordType ← P.read read_unsigned_int
  P.set fun o => { o with recordType := recordType }
  let recordLength ← P.read read_unsigned_short
  P.set fun o => { o with recordLength := recordLength }
  let recordSpecificFields ← P.read read_long
  P.set fun o => { o with recordSpecificFields := recordSpecificFields }
  return ()

/-- `RecordQuerySpecification.parse`, /repo/opendis/dis7.py:863-868, statement by statement. -/
def RecordQuerySpecification.parseInto : P RecordQuerySpecification Unit := do
  let numberOfRecords ← P.read read_unsigned_int
  P.appendReads numberOfRecords.toNat read_unsigned_int ⟨(·.recordIDs), fun o v => { o with recordIDs := v }⟩
  return ()

/-- `ArticulatedParts.parse`, /repo/opendis/dis7.py:901-907, statement by statement. -/
def ArticulatedParts.parseInto : P ArticulatedParts Unit := do
  let recordType ← P.read read_unsigned_byte
  P.set fun o => { o with recordType := recordType }
  let changeIndicator ← P.read read_unsigned_byte
  P.set fun o => { o with changeIndicator := changeIndicator }
  let partAttachedTo ← P.read read_unsigned_short
  P.set fun o => { o with partAttachedTo := partAttachedTo }
  let parameterType ← P.read read_unsigned_int
  P.set fun o => { o with parameterType := parameterType }
  let parameterValue ← P.read read_long
  P.set fun o => { o with parameterValue := parameterValue }
  return ()

/-- `ObjectType.parse`, /repo/opendis/dis7.py:937-942, statement by statement. -/
def ObjectType.parseInto : P ObjectType Unit := do
  let domain ← P.read read_unsigned_byte
  P.set fun o => { o with domain := domain }
  let objectKind ← P.read read_unsigned_byte
  P.set fun o => { o with objectKind := objectKind }
  let category ← P.read read_unsigned_byte
  P.set fun o => { o with category := category }
  let subcategory ← P.read read_unsigned_byte
  P.set fun o => { o with subcategory := subcategory }
  return ()

/-- `Association.parse`, /repo/opendis/dis7.py:974-979, statement by statement. -/
def Association.parseInto : P Association Unit := do
  let associationType ← P.read read_unsigned_byte
  P.set fun o => { o with associationType := associationType }
  let padding4 ← P.read read_unsigned_byte
  P.set fun o => { o with padding4 := padding4 }
  P.call ⟨(·.associatedEntityID), fun o v => { o with associatedEntityID := v }⟩ EntityIdentifier.parseInto
  P.call ⟨(·.associatedLocation), fun o v => { o with associatedLocation := v }⟩ WorldCoordinates.parseInto
  return ()

/-- `RecordSpecificationElement.parse`, /repo/opendis/dis7.py:1015-1022, statement by statement. -/
def RecordSpecificationElement.parseInto : P RecordSpecificationElement Unit := do
  let recordID ← P.read read_unsigned_int
  P.set fun o => { o with recordID := recordID }
  let recordSetSerialNumber ← P.read read_unsigned_int
  P.set fun o => { o with recordSetSerialNumber := recordSetSerialNumber }
  let recordLength ← P.read read_unsigned_short
  P.set fun o => { o with recordLength := recordLength }
  let recordCount ← P.read read_unsigned_short
  P.set fun o => { o with recordCount := recordCount }
  let recordValues ← P.read read_unsigned_short
  P.set fun o => { o with recordValues := recordValues }
  let pad4 ← P.read read_unsigned_byte
  P.set fun o => { o with pad4 := pad4 }
  return ()

/-- `AntennaLocation.parse`, /repo/opendis/dis7.py:1045-1048, statement by statement. -/
def AntennaLocation.parseInto : P AntennaLocation Unit := do
  P.call ⟨(·.antennaLocation), fun o v => { o with antennaLocation := v }⟩ WorldCoordinates.parseInto
  P.call ⟨(·.relativeAntennaLocation), fun o v => { o with relativeAntennaLocation := v }⟩ Vector3Float.parseInto
  return ()

/-- `ObjectIdentifier.parse`, /repo/opendis/dis7.py:1070-1073, statement by statement. -/
def ObjectIdentifier.parseInto : P ObjectIdentifier Unit := do
  P.call ⟨(·.simulationAddress), fun o v => { o with simulationAddress := v }⟩ SimulationAddress.parseInto
  let objectNumber ← P.read read_unsigned_short
  P.set fun o => { o with objectNumber := objectNumber }
  return ()

/-- `AggregateIdentifier.parse`, /repo/opendis/dis7.py:1094-1097, statement by statement. -/
def AggregateIdentifier.parseInto : P AggregateIdentifier Unit := do
  P.call ⟨(·.simulationAddress), fun o v => { o with simulationAddress := v }⟩ SimulationAddress.parseInto
  let aggregateID ← P.read read_unsigned_short
  P.set fun o => { o with aggregateID := aggregateID }
  return ()

/-- `FixedDatum.parse`, /repo/opendis/dis7.py:1119-1122, statement by statement. -/
def FixedDatum.parseInto : P FixedDatum Unit := do
  let fixedDatumID ← P.read read_unsigned_int
  P.set fun o => { o with fixedDatumID := fixedDatumID }
  let fixedDatumValue ← P.read read_unsigned_int
  P.set fun o => { o with fixedDatumValue := fixedDatumValue }
  return ()

/-- `VariableParameter.parse`, /repo/opendis/dis7.py:1157-1163, statement by statement. -/
def VariableParameter.parseInto : P VariableParameter Unit := do
  let recordType ← P.read read_unsigned_byte
  P.set fun o => { o with recordType := recordType }
  let variableParameterFields1 ← P.read read_double
  P.set fun o => { o with variableParameterFields1 := variableParameterFields1 }
  let variableParameterFields2 ← P.read read_unsigned_int
  P.set fun o => { o with variableParameterFields2 := variableParameterFields2 }
  let variableParameterFields3 ← P.read read_unsigned_short
  P.set fun o => { o with variableParameterFields3 := variableParameterFields3 }
  let variableParameterFields4 ← P.read read_unsigned_byte
  P.set fun o => { o with variableParameterFields4 := variableParameterFields4 }
  return ()

/-- `ChangeOptions.parse`, /repo/opendis/dis7.py:1177-1179, statement by statement. -/
def ChangeOptions.parseInto : P ChangeOptions Unit := do
  return ()

/-- `LiveSimulationAddress.parse`, /repo/opendis/dis7.py:1202-1205, statement by statement. -/
def LiveSimulationAddress.parseInto : P LiveSimulationAddress Unit := do
  let liveSiteNumber ← P.read read_unsigned_byte
  P.set fun o => { o with liveSiteNumber := liveSiteNumber }
  let liveApplicationNumber ← P.read read_unsigned_byte
  P.set fun o => { o with liveApplicationNumber := liveApplicationNumber }
  return ()

/-- `EntityMarking.parse`, /repo/opendis/dis7.py:1239-1245, statement by statement. -/
def EntityMarking.parseInto : P EntityMarking Unit := do
  let characterSet ← P.read read_unsigned_byte
  P.set fun o => { o with characterSet := characterSet }
  P.fillReads 11 read_byte ⟨(·.characters), fun o v => { o with characters := v }⟩
  return ()

/-- `UAFundamentalParameter.parse`, /repo/opendis/dis7.py:1284-1291, statement by statement. -/
def UAFundamentalParameter.parseInto : P UAFundamentalParameter Unit := do
  let activeEmissionParameterIndex ← P.read read_unsigned_short
  P.set fun o => { o with activeEmissionParameterIndex := activeEmissionParameterIndex }
  let scanPattern ← P.read read_unsigned_short
  P.set fun o => { o with scanPattern := scanPattern }
  let beamCenterAzimuthHorizontal ← P.read read_float
  P.set fun o => { o with beamCenterAzimuthHorizontal := beamCenterAzimuthHorizontal }
  let azimuthalBeamwidthHorizontal ← P.read read_float
  P.set fun o => { o with azimuthalBeamwidthHorizontal := azimuthalBeamwidthHorizontal }
  let beamCenterDepressionElevation ← P.read read_float
  P.set fun o => { o with beamCenterDepressionElevation := beamCenterDepressionElevation }
  let beamwidthDownElevation ← P.read read_float
  P.set fun o => { o with beamwidthDownElevation := beamwidthDownElevation }
  return ()

/-- `ExplosionDescriptor.parse`, /repo/opendis/dis7.py:1319-1324, statement by statement. -/
def ExplosionDescriptor.parseInto : P ExplosionDescriptor Unit := do
  P.call ⟨(·.explodingObject), fun o v => { o with explodingObject := v }⟩ EntityType.parseInto
  let explosiveMaterial ← P.read read_unsigned_short
  P.set fun o => { o with explosiveMaterial := explosiveMaterial }
  let padding ← P.read read_unsigned_short
  P.set fun o => { o with padding := padding }
  let explosiveForce ← P.read read_float
  P.set fun o => { o with explosiveForce := explosiveForce }
  return ()

/-- `ClockTime.parse`, /repo/opendis/dis7.py:1349-1352, statement by statement. -/
def ClockTime.parseInto : P ClockTime Unit := do
  let hour ← P.read read_unsigned_int
  P.set fun o => { o with hour := hour }
  let timePastHour ← P.read read_unsigned_int
  P.set fun o => { o with timePastHour := timePastHour }
  return ()

/-- `SecondaryOperationalData.parse`, /repo/opendis/dis7.py:1382-1386, statement by statement. -/
def SecondaryOperationalData.parseInto : P SecondaryOperationalData Unit := do
  let operationalData1 ← P.read read_unsigned_byte
  P.set fun o => { o with operationalData1 := operationalData1 }
  let operationalData2 ← P.read read_unsigned_byte
  P.set fun o => { o with operationalData2 := operationalData2 }
  let numberOfIFFFundamentalParameterRecords ← P.read read_unsigned_short
  P.set fun o => { o with numberOfIFFFundamentalParameterRecords := numberOfIFFFundamentalParameterRecords }
  return ()

/-- `EnvironmentType.parse`, /repo/opendis/dis7.py:1424-1433, statement by statement. -/
def EnvironmentType.parseInto : P EnvironmentType Unit := do
  let entityKind ← P.read read_unsigned_byte
  P.set fun o => { o with entityKind := entityKind }
  let domain ← P.read read_unsigned_byte
  P.set fun o => { o with domain := domain }
  let entityClass ← P.read read_unsigned_short
  P.set fun o => { o with entityClass := entityClass }
  let category ← P.read read_unsigned_byte
  P.set fun o => { o with category := category }
  let subcategory ← P.read read_unsigned_byte
  P.set fun o => { o with subcategory := subcategory }
  let specific ← P.read read_unsigned_byte
  P.set fun o => { o with specific := specific }
  let extra ← P.read read_unsigned_byte
  P.set fun o => { o with extra := extra }
  return ()

/-- `TotalRecordSets.parse`, /repo/opendis/dis7.py:1449-1453, statement by statement. -/
def TotalRecordSets.parseInto : P TotalRecordSets Unit := do
  let totalRecordSets ← P.read read_unsigned_short
  P.set fun o => { o with totalRecordSets := totalRecordSets }
  let padding ← P.read read_unsigned_short
  P.set fun o => { o with padding := padding }
  return ()

/-- `MineEntityIdentifier.parse`, /repo/opendis/dis7.py:1474-1477, statement by statement. -/
def MineEntityIdentifier.parseInto : P MineEntityIdentifier Unit := do
  P.call ⟨(·.simulationAddress), fun o v => { o with simulationAddress := v }⟩ SimulationAddress.parseInto
  let mineEntityNumber ← P.read read_unsigned_short
  P.set fun o => { o with mineEntityNumber := mineEntityNumber }
  return ()

/-- `Relationship.parse`, /repo/opendis/dis7.py:1499-1502, statement by statement. -/
def Relationship.parseInto : P Relationship Unit := do
  let nature ← P.read read_unsigned_short
  P.set fun o => { o with nature := nature }
  let position ← P.read read_unsigned_short
  P.set fun o => { o with position := position }
  return ()

end Dis
