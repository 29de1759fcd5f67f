import Verif.Model.Records1

/-!
# Records of `opendis/dis7.py`, part 2

Generated by `tools/gen.py` from the Python source; each definition cites the lines it transliterates.
-/

set_option linter.unusedVariables false

namespace Dis

/-- Attributes of a `Attribute` object, /repo/opendis/dis7.py:814-839; default values are those of an
object made by `Attribute()`, /repo/opendis/dis7.py:821-827. -/
structure Attribute where
  recordType : Int := 0
  recordLength : Int := 0
  recordSpecificFields : Int := 0
  deriving DecidableEq

/-- Constructor `Attribute(...)`, /repo/opendis/dis7.py:821-827. `x or T()` and `x or []` keep a given
value and replace `None` (absent) by a fresh one. -/
def Attribute.init (recordType : Int := 0) (recordLength : Int := 0)
    (recordSpecificFields : Int := 0) : Attribute :=
  { recordType := recordType,
    recordLength := recordLength,
    recordSpecificFields := recordSpecificFields }

/-- `Attribute.serialize`, /repo/opendis/dis7.py:829-833. -/
def Attribute.serialize (self : Attribute) : W Unit := do
  write_unsigned_int self.recordType
  write_unsigned_short self.recordLength
  write_long self.recordSpecificFields

/-- `Attribute.parse`, /repo/opendis/dis7.py:835-839; returns the updated object. -/
def Attribute.parse (self : Attribute) : R Attribute := do
  let recordType ← read_unsigned_int
  let recordLength ← read_unsigned_short
  let recordSpecificFields ← read_long
  return { self with
    recordType := recordType,
    recordLength := recordLength,
    recordSpecificFields := recordSpecificFields }

/-- Attributes of a `RecordQuerySpecification` object, /repo/opendis/dis7.py:842-868; default values are those of an
object made by `RecordQuerySpecification()`, /repo/opendis/dis7.py:848-851. -/
structure RecordQuerySpecification where
  recordIDs : List Int := []
  deriving DecidableEq

/-- Constructor `RecordQuerySpecification(...)`, /repo/opendis/dis7.py:848-851. `x or T()` and `x or []` keep a given
value and replace `None` (absent) by a fresh one. -/
def RecordQuerySpecification.init (recordIDs : List Int := []) : RecordQuerySpecification :=
  { recordIDs := recordIDs }

/-- `RecordQuerySpecification.serialize`, /repo/opendis/dis7.py:857-861. -/
def RecordQuerySpecification.serialize (self : RecordQuerySpecification) : W Unit := do
  write_unsigned_int (self.recordIDs.length : Int)
  W.forEach self.recordIDs write_unsigned_int

/-- `RecordQuerySpecification.parse`, /repo/opendis/dis7.py:863-868; returns the updated object. -/
def RecordQuerySpecification.parse (self : RecordQuerySpecification) : R RecordQuerySpecification := do
  let numberOfRecords ← read_unsigned_int
  let recordIDs ← R.times numberOfRecords.toNat read_unsigned_int
  return { self with recordIDs := self.recordIDs ++ recordIDs }

/-- Attributes of a `ArticulatedParts` object, /repo/opendis/dis7.py:871-907; default values are those of an
object made by `ArticulatedParts()`, /repo/opendis/dis7.py:879-891. -/
structure ArticulatedParts where
  recordType : Int := 0
  changeIndicator : Int := 0
  partAttachedTo : Int := 0
  parameterType : Int := 0
  parameterValue : Int := 0
  deriving DecidableEq

/-- Constructor `ArticulatedParts(...)`, /repo/opendis/dis7.py:879-891. `x or T()` and `x or []` keep a given
value and replace `None` (absent) by a fresh one. -/
def ArticulatedParts.init (changeIndicator : Int := 0) (partAttachedTo : Int := 0)
    (parameterType : Int := 0) (parameterValue : Int := 0) : ArticulatedParts :=
  { changeIndicator := changeIndicator,
    partAttachedTo := partAttachedTo,
    parameterType := parameterType,
    parameterValue := parameterValue }

/-- `ArticulatedParts.serialize`, /repo/opendis/dis7.py:893-899. -/
def ArticulatedParts.serialize (self : ArticulatedParts) : W Unit := do
  write_unsigned_byte self.recordType
  write_unsigned_byte self.changeIndicator
  write_unsigned_short self.partAttachedTo
  write_unsigned_int self.parameterType
  write_long self.parameterValue

/-- `ArticulatedParts.parse`, /repo/opendis/dis7.py:901-907; returns the updated object. -/
def ArticulatedParts.parse (self : ArticulatedParts) : R ArticulatedParts := do
  let recordType ← read_unsigned_byte
  let changeIndicator ← read_unsigned_byte
  let partAttachedTo ← read_unsigned_short
  let parameterType ← read_unsigned_int
  let parameterValue ← read_long
  return { self with
    recordType := recordType,
    changeIndicator := changeIndicator,
    partAttachedTo := partAttachedTo,
    parameterType := parameterType,
    parameterValue := parameterValue }

/-- Attributes of a `ObjectType` object, /repo/opendis/dis7.py:910-942; default values are those of an
object made by `ObjectType()`, /repo/opendis/dis7.py:916-928. -/
structure ObjectType where
  domain : Int := 0
  objectKind : Int := 0
  category : Int := 0
  subcategory : Int := 0
  deriving DecidableEq

/-- Constructor `ObjectType(...)`, /repo/opendis/dis7.py:916-928. `x or T()` and `x or []` keep a given
value and replace `None` (absent) by a fresh one. -/
def ObjectType.init (domain : Int := 0) (objectKind : Int := 0) (category : Int := 0)
    (subcategory : Int := 0) : ObjectType :=
  { domain := domain,
    objectKind := objectKind,
    category := category,
    subcategory := subcategory }

/-- `ObjectType.serialize`, /repo/opendis/dis7.py:930-935. -/
def ObjectType.serialize (self : ObjectType) : W Unit := do
  write_unsigned_byte self.domain
  write_unsigned_byte self.objectKind
  write_unsigned_byte self.category
  write_unsigned_byte self.subcategory

/-- `ObjectType.parse`, /repo/opendis/dis7.py:937-942; returns the updated object. -/
def ObjectType.parse (self : ObjectType) : R ObjectType := do
  let domain ← read_unsigned_byte
  let objectKind ← read_unsigned_byte
  let category ← read_unsigned_byte
  let subcategory ← read_unsigned_byte
  return { self with
    domain := domain,
    objectKind := objectKind,
    category := category,
    subcategory := subcategory }

/-- Attributes of a `Association` object, /repo/opendis/dis7.py:945-979; default values are those of an
object made by `Association()`, /repo/opendis/dis7.py:956-965. -/
structure Association where
  associationType : Int := 0
  padding4 : Int := 0
  associatedEntityID : EntityIdentifier := EntityIdentifier.init
  associatedLocation : WorldCoordinates := WorldCoordinates.init
  deriving DecidableEq

/-- Constructor `Association(...)`, /repo/opendis/dis7.py:956-965. `x or T()` and `x or []` keep a given
value and replace `None` (absent) by a fresh one. -/
def Association.init (associationType : Int := 0)
    (associatedEntityID : Option EntityIdentifier := none)
    (associatedLocation : Option WorldCoordinates := none) : Association :=
  { associationType := associationType,
    padding4 := 0,
    associatedEntityID := associatedEntityID.getD EntityIdentifier.init,
    associatedLocation := associatedLocation.getD WorldCoordinates.init }

/-- `Association.serialize`, /repo/opendis/dis7.py:967-972. -/
def Association.serialize (self : Association) : W Unit := do
  write_unsigned_byte self.associationType
  write_unsigned_byte self.padding4
  EntityIdentifier.serialize self.associatedEntityID
  WorldCoordinates.serialize self.associatedLocation

/-- `Association.parse`, /repo/opendis/dis7.py:974-979; returns the updated object. -/
def Association.parse (self : Association) : R Association := do
  let associationType ← read_unsigned_byte
  let padding4 ← read_unsigned_byte
  let associatedEntityID ← EntityIdentifier.parse self.associatedEntityID
  let associatedLocation ← WorldCoordinates.parse self.associatedLocation
  return { self with
    associationType := associationType,
    padding4 := padding4,
    associatedEntityID := associatedEntityID,
    associatedLocation := associatedLocation }

/-- Attributes of a `RecordSpecificationElement` object, /repo/opendis/dis7.py:982-1022; default values are those of an
object made by `RecordSpecificationElement()`, /repo/opendis/dis7.py:987-1004. -/
structure RecordSpecificationElement where
  recordID : Int := 0
  recordSetSerialNumber : Int := 0
  recordLength : Int := 0
  recordCount : Int := 0
  recordValues : Int := 0
  pad4 : Int := 0
  deriving DecidableEq

/-- Constructor `RecordSpecificationElement(...)`, /repo/opendis/dis7.py:987-1004. `x or T()` and `x or []` keep a given
value and replace `None` (absent) by a fresh one. -/
def RecordSpecificationElement.init (recordID : Int := 0) (recordSetSerialNumber : Int := 0)
    (recordLength : Int := 0) (recordCount : Int := 0) (recordValues : Int := 0) : RecordSpecificationElement :=
  { recordID := recordID,
    recordSetSerialNumber := recordSetSerialNumber,
    recordLength := recordLength,
    recordCount := recordCount,
    recordValues := recordValues,
    pad4 := 0 }

/-- `RecordSpecificationElement.serialize`, /repo/opendis/dis7.py:1006-1013. -/
def RecordSpecificationElement.serialize (self : RecordSpecificationElement) : W Unit := do
  write_unsigned_int self.recordID
  write_unsigned_int self.recordSetSerialNumber
  write_unsigned_short self.recordLength
  write_unsigned_short self.recordCount
  write_unsigned_short self.recordValues
  write_unsigned_byte self.pad4

/-- `RecordSpecificationElement.parse`, /repo/opendis/dis7.py:1015-1022; returns the updated object. -/
def RecordSpecificationElement.parse (self : RecordSpecificationElement) : R RecordSpecificationElement := do
  let recordID ← read_unsigned_int
  let recordSetSerialNumber ← read_unsigned_int
  let recordLength ← read_unsigned_short
  let recordCount ← read_unsigned_short
  let recordValues ← read_unsigned_short
  let pad4 ← read_unsigned_byte
  return { self with
    recordID := recordID,
    recordSetSerialNumber := recordSetSerialNumber,
    recordLength := recordLength,
    recordCount := recordCount,
    recordValues := recordValues,
    pad4 := pad4 }

/-- Attributes of a `AntennaLocation` object, /repo/opendis/dis7.py:1025-1048; default values are those of an
object made by `AntennaLocation()`, /repo/opendis/dis7.py:1031-1038. -/
structure AntennaLocation where
  antennaLocation : WorldCoordinates := WorldCoordinates.init
  relativeAntennaLocation : Vector3Float := Vector3Float.init
  deriving DecidableEq

/-- Constructor `AntennaLocation(...)`, /repo/opendis/dis7.py:1031-1038. `x or T()` and `x or []` keep a given
value and replace `None` (absent) by a fresh one. -/
def AntennaLocation.init (antennaLocation : Option WorldCoordinates := none)
    (relativeAntennaLocation : Option Vector3Float := none) : AntennaLocation :=
  { antennaLocation := antennaLocation.getD WorldCoordinates.init,
    relativeAntennaLocation := relativeAntennaLocation.getD Vector3Float.init }

/-- `AntennaLocation.serialize`, /repo/opendis/dis7.py:1040-1043. -/
def AntennaLocation.serialize (self : AntennaLocation) : W Unit := do
  WorldCoordinates.serialize self.antennaLocation
  Vector3Float.serialize self.relativeAntennaLocation

/-- `AntennaLocation.parse`, /repo/opendis/dis7.py:1045-1048; returns the updated object. -/
def AntennaLocation.parse (self : AntennaLocation) : R AntennaLocation := do
  let antennaLocation ← WorldCoordinates.parse self.antennaLocation
  let relativeAntennaLocation ← Vector3Float.parse self.relativeAntennaLocation
  return { self with
    antennaLocation := antennaLocation,
    relativeAntennaLocation := relativeAntennaLocation }

/-- Attributes of a `ObjectIdentifier` object, /repo/opendis/dis7.py:1051-1073; default values are those of an
object made by `ObjectIdentifier()`, /repo/opendis/dis7.py:1057-1063. -/
structure ObjectIdentifier where
  simulationAddress : SimulationAddress := SimulationAddress.init
  objectNumber : Int := 0
  deriving DecidableEq

/-- Constructor `ObjectIdentifier(...)`, /repo/opendis/dis7.py:1057-1063. `x or T()` and `x or []` keep a given
value and replace `None` (absent) by a fresh one. -/
def ObjectIdentifier.init (simulationAddress : Option SimulationAddress := none)
    (objectNumber : Int := 0) : ObjectIdentifier :=
  { simulationAddress := simulationAddress.getD SimulationAddress.init,
    objectNumber := objectNumber }

/-- `ObjectIdentifier.serialize`, /repo/opendis/dis7.py:1065-1068. -/
def ObjectIdentifier.serialize (self : ObjectIdentifier) : W Unit := do
  SimulationAddress.serialize self.simulationAddress
  write_unsigned_short self.objectNumber

/-- `ObjectIdentifier.parse`, /repo/opendis/dis7.py:1070-1073; returns the updated object. -/
def ObjectIdentifier.parse (self : ObjectIdentifier) : R ObjectIdentifier := do
  let simulationAddress ← SimulationAddress.parse self.simulationAddress
  let objectNumber ← read_unsigned_short
  return { self with simulationAddress := simulationAddress, objectNumber := objectNumber }

/-- Attributes of a `AggregateIdentifier` object, /repo/opendis/dis7.py:1076-1097; default values are those of an
object made by `AggregateIdentifier()`, /repo/opendis/dis7.py:1082-1087. -/
structure AggregateIdentifier where
  simulationAddress : SimulationAddress := SimulationAddress.init
  aggregateID : Int := 0
  deriving DecidableEq

/-- Constructor `AggregateIdentifier(...)`, /repo/opendis/dis7.py:1082-1087. `x or T()` and `x or []` keep a given
value and replace `None` (absent) by a fresh one. -/
def AggregateIdentifier.init (simulationAddress : Option SimulationAddress := none)
    (aggregateID : Int := 0) : AggregateIdentifier :=
  { simulationAddress := simulationAddress.getD SimulationAddress.init,
    aggregateID := aggregateID }

/-- `AggregateIdentifier.serialize`, /repo/opendis/dis7.py:1089-1092. -/
def AggregateIdentifier.serialize (self : AggregateIdentifier) : W Unit := do
  SimulationAddress.serialize self.simulationAddress
  write_unsigned_short self.aggregateID

/-- `AggregateIdentifier.parse`, /repo/opendis/dis7.py:1094-1097; returns the updated object. -/
def AggregateIdentifier.parse (self : AggregateIdentifier) : R AggregateIdentifier := do
  let simulationAddress ← SimulationAddress.parse self.simulationAddress
  let aggregateID ← read_unsigned_short
  return { self with simulationAddress := simulationAddress, aggregateID := aggregateID }

/-- Attributes of a `FixedDatum` object, /repo/opendis/dis7.py:1100-1122; default values are those of an
object made by `FixedDatum()`, /repo/opendis/dis7.py:1106-1112. -/
structure FixedDatum where
  fixedDatumID : Int := 0
  fixedDatumValue : Int := 0
  deriving DecidableEq

/-- Constructor `FixedDatum(...)`, /repo/opendis/dis7.py:1106-1112. `x or T()` and `x or []` keep a given
value and replace `None` (absent) by a fresh one. -/
def FixedDatum.init (fixedDatumID : Int := 0) (fixedDatumValue : Int := 0) : FixedDatum :=
  { fixedDatumID := fixedDatumID,
    fixedDatumValue := fixedDatumValue }

/-- `FixedDatum.serialize`, /repo/opendis/dis7.py:1114-1117. -/
def FixedDatum.serialize (self : FixedDatum) : W Unit := do
  write_unsigned_int self.fixedDatumID
  write_unsigned_int self.fixedDatumValue

/-- `FixedDatum.parse`, /repo/opendis/dis7.py:1119-1122; returns the updated object. -/
def FixedDatum.parse (self : FixedDatum) : R FixedDatum := do
  let fixedDatumID ← read_unsigned_int
  let fixedDatumValue ← read_unsigned_int
  return { self with fixedDatumID := fixedDatumID, fixedDatumValue := fixedDatumValue }

/-- Attributes of a `VariableParameter` object, /repo/opendis/dis7.py:1125-1163; default values are those of an
object made by `VariableParameter()`, /repo/opendis/dis7.py:1132-1147. -/
structure VariableParameter where
  recordType : Int := 0
  variableParameterFields1 : F64 := 0x0000000000000000
  variableParameterFields2 : Int := 0
  variableParameterFields3 : Int := 0
  variableParameterFields4 : Int := 0
  deriving DecidableEq

/-- Constructor `VariableParameter(...)`, /repo/opendis/dis7.py:1132-1147. `x or T()` and `x or []` keep a given
value and replace `None` (absent) by a fresh one. -/
def VariableParameter.init (recordType : Int := 0)
    (variableParameterFields1 : F64 := 0x0000000000000000) (variableParameterFields2 : Int := 0)
    (variableParameterFields3 : Int := 0) (variableParameterFields4 : Int := 0) : VariableParameter :=
  { recordType := recordType,
    variableParameterFields1 := variableParameterFields1,
    variableParameterFields2 := variableParameterFields2,
    variableParameterFields3 := variableParameterFields3,
    variableParameterFields4 := variableParameterFields4 }

/-- `VariableParameter.serialize`, /repo/opendis/dis7.py:1149-1155. -/
def VariableParameter.serialize (self : VariableParameter) : W Unit := do
  write_unsigned_byte self.recordType
  write_double self.variableParameterFields1
  write_unsigned_int self.variableParameterFields2
  write_unsigned_short self.variableParameterFields3
  write_unsigned_byte self.variableParameterFields4

/-- `VariableParameter.parse`, /repo/opendis/dis7.py:1157-1163; returns the updated object. -/
def VariableParameter.parse (self : VariableParameter) : R VariableParameter := do
  let recordType ← read_unsigned_byte
  let variableParameterFields1 ← read_double
  let variableParameterFields2 ← read_unsigned_int
  let variableParameterFields3 ← read_unsigned_short
  let variableParameterFields4 ← read_unsigned_byte
  return { self with
    recordType := recordType,
    variableParameterFields1 := variableParameterFields1,
    variableParameterFields2 := variableParameterFields2,
    variableParameterFields3 := variableParameterFields3,
    variableParameterFields4 := variableParameterFields4 }

/-- Attributes of a `ChangeOptions` object, /repo/opendis/dis7.py:1166-1179; default values are those of an
object made by `ChangeOptions()`, /repo/opendis/dis7.py:1169-1171. -/
structure ChangeOptions where
  deriving DecidableEq

/-- Constructor `ChangeOptions(...)`, /repo/opendis/dis7.py:1169-1171. `x or T()` and `x or []` keep a given
value and replace `None` (absent) by a fresh one. -/
def ChangeOptions.init : ChangeOptions :=
  {}

/-- `ChangeOptions.serialize`, /repo/opendis/dis7.py:1173-1175. -/
def ChangeOptions.serialize (self : ChangeOptions) : W Unit := do
  let _ := self
  pure ()

/-- `ChangeOptions.parse`, /repo/opendis/dis7.py:1177-1179; returns the updated object. -/
def ChangeOptions.parse (self : ChangeOptions) : R ChangeOptions := do
  return self

/-- Attributes of a `LiveSimulationAddress` object, /repo/opendis/dis7.py:1182-1205; default values are those of an
object made by `LiveSimulationAddress()`, /repo/opendis/dis7.py:1189-1195. -/
structure LiveSimulationAddress where
  liveSiteNumber : Int := 0
  liveApplicationNumber : Int := 0
  deriving DecidableEq

/-- Constructor `LiveSimulationAddress(...)`, /repo/opendis/dis7.py:1189-1195. `x or T()` and `x or []` keep a given
value and replace `None` (absent) by a fresh one. -/
def LiveSimulationAddress.init (liveSiteNumber : Int := 0) (liveApplicationNumber : Int := 0) : LiveSimulationAddress :=
  { liveSiteNumber := liveSiteNumber,
    liveApplicationNumber := liveApplicationNumber }

/-- `LiveSimulationAddress.serialize`, /repo/opendis/dis7.py:1197-1200. -/
def LiveSimulationAddress.serialize (self : LiveSimulationAddress) : W Unit := do
  write_unsigned_byte self.liveSiteNumber
  write_unsigned_byte self.liveApplicationNumber

/-- `LiveSimulationAddress.parse`, /repo/opendis/dis7.py:1202-1205; returns the updated object. -/
def LiveSimulationAddress.parse (self : LiveSimulationAddress) : R LiveSimulationAddress := do
  let liveSiteNumber ← read_unsigned_byte
  let liveApplicationNumber ← read_unsigned_byte
  return { self with
    liveSiteNumber := liveSiteNumber,
    liveApplicationNumber := liveApplicationNumber }

/-- Attributes of a `EntityMarking` object, /repo/opendis/dis7.py:1208-1245; default values are those of an
object made by `EntityMarking()`, /repo/opendis/dis7.py:1214-1220. -/
structure EntityMarking where
  characterSet : Int := 0
  characters : List Int := List.replicate 11 0
  deriving DecidableEq

/-- Constructor `EntityMarking(...)`, /repo/opendis/dis7.py:1214-1220. `x or T()` and `x or []` keep a given
value and replace `None` (absent) by a fresh one. -/
def EntityMarking.init (characterSet : Int := 0) (characters : List Int := []) : EntityMarking :=
  { characterSet := characterSet,
    characters := if characters.isEmpty then List.replicate 11 0 else characters }

/-- `EntityMarking.serialize`, /repo/opendis/dis7.py:1233-1237. -/
def EntityMarking.serialize (self : EntityMarking) : W Unit := do
  write_unsigned_byte self.characterSet
  W.forRange 0 11 fun idx => W.using (index self.characters idx) write_byte

/-- `EntityMarking.parse`, /repo/opendis/dis7.py:1239-1245; returns the updated object. -/
def EntityMarking.parse (self : EntityMarking) : R EntityMarking := do
  let characterSet ← read_unsigned_byte
  let characters ← R.times 11 read_byte
  return { self with characterSet := characterSet, characters := characters }

/-- Attributes of a `UAFundamentalParameter` object, /repo/opendis/dis7.py:1248-1291; default values are those of an
object made by `UAFundamentalParameter()`, /repo/opendis/dis7.py:1255-1273. -/
structure UAFundamentalParameter where
  activeEmissionParameterIndex : Int := 0
  scanPattern : Int := 0
  beamCenterAzimuthHorizontal : F64 := 0x0000000000000000
  azimuthalBeamwidthHorizontal : F64 := 0x0000000000000000
  beamCenterDepressionElevation : F64 := 0x0000000000000000
  beamwidthDownElevation : F64 := 0x0000000000000000
  deriving DecidableEq

/-- Constructor `UAFundamentalParameter(...)`, /repo/opendis/dis7.py:1255-1273. `x or T()` and `x or []` keep a given
value and replace `None` (absent) by a fresh one. -/
def UAFundamentalParameter.init (activeEmissionParameterIndex : Int := 0)
    (scanPattern : Int := 0) (beamCenterAzimuthHorizontal : F64 := 0x0000000000000000)
    (azimuthBeamwidthHorizontal : F64 := 0x0000000000000000)
    (beamCenterDepressionElevation : F64 := 0x0000000000000000)
    (beamwidthDownElevation : F64 := 0x0000000000000000) : UAFundamentalParameter :=
  { activeEmissionParameterIndex := activeEmissionParameterIndex,
    scanPattern := scanPattern,
    beamCenterAzimuthHorizontal := beamCenterAzimuthHorizontal,
    azimuthalBeamwidthHorizontal := azimuthBeamwidthHorizontal,
    beamCenterDepressionElevation := beamCenterDepressionElevation,
    beamwidthDownElevation := beamwidthDownElevation }

/-- `UAFundamentalParameter.serialize`, /repo/opendis/dis7.py:1275-1282. -/
def UAFundamentalParameter.serialize (self : UAFundamentalParameter) : W Unit := do
  write_unsigned_short self.activeEmissionParameterIndex
  write_unsigned_short self.scanPattern
  write_float self.beamCenterAzimuthHorizontal
  write_float self.azimuthalBeamwidthHorizontal
  write_float self.beamCenterDepressionElevation
  write_float self.beamwidthDownElevation

/-- `UAFundamentalParameter.parse`, /repo/opendis/dis7.py:1284-1291; returns the updated object. -/
def UAFundamentalParameter.parse (self : UAFundamentalParameter) : R UAFundamentalParameter := do
  let activeEmissionParameterIndex ← read_unsigned_short
  let scanPattern ← read_unsigned_short
  let beamCenterAzimuthHorizontal ← read_float
  let azimuthalBeamwidthHorizontal ← read_float
  let beamCenterDepressionElevation ← read_float
  let beamwidthDownElevation ← read_float
  return { self with
    activeEmissionParameterIndex := activeEmissionParameterIndex,
    scanPattern := scanPattern,
    beamCenterAzimuthHorizontal := beamCenterAzimuthHorizontal,
    azimuthalBeamwidthHorizontal := azimuthalBeamwidthHorizontal,
    beamCenterDepressionElevation := beamCenterDepressionElevation,
    beamwidthDownElevation := beamwidthDownElevation }

/-- Attributes of a `ExplosionDescriptor` object, /repo/opendis/dis7.py:1294-1324; default values are those of an
object made by `ExplosionDescriptor()`, /repo/opendis/dis7.py:1300-1310. -/
structure ExplosionDescriptor where
  explodingObject : EntityType := EntityType.init
  explosiveMaterial : Int := 0
  padding : Int := 0
  explosiveForce : F64 := 0x0000000000000000
  deriving DecidableEq

/-- Constructor `ExplosionDescriptor(...)`, /repo/opendis/dis7.py:1300-1310. `x or T()` and `x or []` keep a given
value and replace `None` (absent) by a fresh one. -/
def ExplosionDescriptor.init (explodingObject : Option EntityType := none)
    (explosiveMaterial : Int := 0) (explosiveForce : F64 := 0x0000000000000000) : ExplosionDescriptor :=
  { explodingObject := explodingObject.getD EntityType.init,
    explosiveMaterial := explosiveMaterial,
    padding := 0,
    explosiveForce := explosiveForce }

/-- `ExplosionDescriptor.serialize`, /repo/opendis/dis7.py:1312-1317. -/
def ExplosionDescriptor.serialize (self : ExplosionDescriptor) : W Unit := do
  EntityType.serialize self.explodingObject
  write_unsigned_short self.explosiveMaterial
  write_unsigned_short self.padding
  write_float self.explosiveForce

/-- `ExplosionDescriptor.parse`, /repo/opendis/dis7.py:1319-1324; returns the updated object. -/
def ExplosionDescriptor.parse (self : ExplosionDescriptor) : R ExplosionDescriptor := do
  let explodingObject ← EntityType.parse self.explodingObject
  let explosiveMaterial ← read_unsigned_short
  let padding ← read_unsigned_short
  let explosiveForce ← read_float
  return { self with
    explodingObject := explodingObject,
    explosiveMaterial := explosiveMaterial,
    padding := padding,
    explosiveForce := explosiveForce }

/-- Attributes of a `ClockTime` object, /repo/opendis/dis7.py:1327-1352; default values are those of an
object made by `ClockTime()`, /repo/opendis/dis7.py:1336-1342. -/
structure ClockTime where
  hour : Int := 0
  timePastHour : Int := 0
  deriving DecidableEq

/-- Constructor `ClockTime(...)`, /repo/opendis/dis7.py:1336-1342. `x or T()` and `x or []` keep a given
value and replace `None` (absent) by a fresh one. -/
def ClockTime.init (hour : Int := 0) (timePastHour : Int := 0) : ClockTime :=
  { hour := hour,
    timePastHour := timePastHour }

/-- `ClockTime.serialize`, /repo/opendis/dis7.py:1344-1347. -/
def ClockTime.serialize (self : ClockTime) : W Unit := do
  write_unsigned_int self.hour
  write_unsigned_int self.timePastHour

/-- `ClockTime.parse`, /repo/opendis/dis7.py:1349-1352; returns the updated object. -/
def ClockTime.parse (self : ClockTime) : R ClockTime := do
  let hour ← read_unsigned_int
  let timePastHour ← read_unsigned_int
  return { self with hour := hour, timePastHour := timePastHour }

/-- Attributes of a `SecondaryOperationalData` object, /repo/opendis/dis7.py:1355-1386; default values are those of an
object made by `SecondaryOperationalData()`, /repo/opendis/dis7.py:1363-1372. -/
structure SecondaryOperationalData where
  operationalData1 : Int := 0
  operationalData2 : Int := 0
  numberOfIFFFundamentalParameterRecords : Int := 0
  deriving DecidableEq

/-- Constructor `SecondaryOperationalData(...)`, /repo/opendis/dis7.py:1363-1372. `x or T()` and `x or []` keep a given
value and replace `None` (absent) by a fresh one. -/
def SecondaryOperationalData.init (operationalData1 : Int := 0) (operationalData2 : Int := 0)
    (numberOfIFFFundamentalParameterRecords : Int := 0) : SecondaryOperationalData :=
  { operationalData1 := operationalData1,
    operationalData2 := operationalData2,
    numberOfIFFFundamentalParameterRecords := numberOfIFFFundamentalParameterRecords }

/-- `SecondaryOperationalData.serialize`, /repo/opendis/dis7.py:1374-1380. -/
def SecondaryOperationalData.serialize (self : SecondaryOperationalData) : W Unit := do
  write_unsigned_byte self.operationalData1
  write_unsigned_byte self.operationalData2
  write_unsigned_short self.numberOfIFFFundamentalParameterRecords

/-- `SecondaryOperationalData.parse`, /repo/opendis/dis7.py:1382-1386; returns the updated object. -/
def SecondaryOperationalData.parse (self : SecondaryOperationalData) : R SecondaryOperationalData := do
  let operationalData1 ← read_unsigned_byte
  let operationalData2 ← read_unsigned_byte
  let numberOfIFFFundamentalParameterRecords ← read_unsigned_short
  return { self with
    operationalData1 := operationalData1,
    operationalData2 := operationalData2,
    numberOfIFFFundamentalParameterRecords := numberOfIFFFundamentalParameterRecords }

/-- Attributes of a `EnvironmentType` object, /repo/opendis/dis7.py:1389-1433; default values are those of an
object made by `EnvironmentType()`, /repo/opendis/dis7.py:1392-1412. -/
structure EnvironmentType where
  entityKind : Int := 0
  domain : Int := 0
  entityClass : Int := 0
  category : Int := 0
  subcategory : Int := 0
  specific : Int := 0
  extra : Int := 0
  deriving DecidableEq

/-- Constructor `EnvironmentType(...)`, /repo/opendis/dis7.py:1392-1412. `x or T()` and `x or []` keep a given
value and replace `None` (absent) by a fresh one. -/
def EnvironmentType.init (entityKind : Int := 0) (domain : Int := 0) (entityClass : Int := 0)
    (category : Int := 0) (subcategory : Int := 0) (specific : Int := 0) (extra : Int := 0) : EnvironmentType :=
  { entityKind := entityKind,
    domain := domain,
    entityClass := entityClass,
    category := category,
    subcategory := subcategory,
    specific := specific,
    extra := extra }

/-- `EnvironmentType.serialize`, /repo/opendis/dis7.py:1414-1422. -/
def EnvironmentType.serialize (self : EnvironmentType) : W Unit := do
  write_unsigned_byte self.entityKind
  write_unsigned_byte self.domain
  write_unsigned_short self.entityClass
  write_unsigned_byte self.category
  write_unsigned_byte self.subcategory
  write_unsigned_byte self.specific
  write_unsigned_byte self.extra

/-- `EnvironmentType.parse`, /repo/opendis/dis7.py:1424-1433; returns the updated object. -/
def EnvironmentType.parse (self : EnvironmentType) : R EnvironmentType := do
  let entityKind ← read_unsigned_byte
  let domain ← read_unsigned_byte
  let entityClass ← read_unsigned_short
  let category ← read_unsigned_byte
  let subcategory ← read_unsigned_byte
  let specific ← read_unsigned_byte
  let extra ← read_unsigned_byte
  return { self with
    entityKind := entityKind,
    domain := domain,
    entityClass := entityClass,
    category := category,
    subcategory := subcategory,
    specific := specific,
    extra := extra }

/-- Attributes of a `TotalRecordSets` object, /repo/opendis/dis7.py:1436-1453; default values are those of an
object made by `TotalRecordSets()`, /repo/opendis/dis7.py:1439-1442. -/
structure TotalRecordSets where
  totalRecordSets : Int := 0
  padding : Int := 0
  deriving DecidableEq

/-- Constructor `TotalRecordSets(...)`, /repo/opendis/dis7.py:1439-1442. `x or T()` and `x or []` keep a given
value and replace `None` (absent) by a fresh one. -/
def TotalRecordSets.init (totalRecordSets : Int := 0) : TotalRecordSets :=
  { totalRecordSets := totalRecordSets,
    padding := 0 }

/-- `TotalRecordSets.serialize`, /repo/opendis/dis7.py:1444-1447. -/
def TotalRecordSets.serialize (self : TotalRecordSets) : W Unit := do
  write_unsigned_short self.totalRecordSets
  write_unsigned_short self.padding

/-- `TotalRecordSets.parse`, /repo/opendis/dis7.py:1449-1453; returns the updated object. -/
def TotalRecordSets.parse (self : TotalRecordSets) : R TotalRecordSets := do
  let totalRecordSets ← read_unsigned_short
  let padding ← read_unsigned_short
  return { self with totalRecordSets := totalRecordSets, padding := padding }

/-- Attributes of a `MineEntityIdentifier` object, /repo/opendis/dis7.py:1456-1477; default values are those of an
object made by `MineEntityIdentifier()`, /repo/opendis/dis7.py:1463-1467. -/
structure MineEntityIdentifier where
  simulationAddress : SimulationAddress := SimulationAddress.init
  mineEntityNumber : Int := 0
  deriving DecidableEq

/-- Constructor `MineEntityIdentifier(...)`, /repo/opendis/dis7.py:1463-1467. `x or T()` and `x or []` keep a given
value and replace `None` (absent) by a fresh one. -/
def MineEntityIdentifier.init (simulationAddress : Option SimulationAddress := none)
    (mineEntityNumber : Int := 0) : MineEntityIdentifier :=
  { simulationAddress := simulationAddress.getD SimulationAddress.init,
    mineEntityNumber := mineEntityNumber }

/-- `MineEntityIdentifier.serialize`, /repo/opendis/dis7.py:1469-1472. -/
def MineEntityIdentifier.serialize (self : MineEntityIdentifier) : W Unit := do
  SimulationAddress.serialize self.simulationAddress
  write_unsigned_short self.mineEntityNumber

/-- `MineEntityIdentifier.parse`, /repo/opendis/dis7.py:1474-1477; returns the updated object. -/
def MineEntityIdentifier.parse (self : MineEntityIdentifier) : R MineEntityIdentifier := do
  let simulationAddress ← SimulationAddress.parse self.simulationAddress
  let mineEntityNumber ← read_unsigned_short
  return { self with
    simulationAddress := simulationAddress,
    mineEntityNumber := mineEntityNumber }

/-- Attributes of a `Relationship` object, /repo/opendis/dis7.py:1480-1502; default values are those of an
object made by `Relationship()`, /repo/opendis/dis7.py:1486-1492. -/
structure Relationship where
  nature : Int := 0
  position : Int := 0
  deriving DecidableEq

/-- Constructor `Relationship(...)`, /repo/opendis/dis7.py:1486-1492. `x or T()` and `x or []` keep a given
value and replace `None` (absent) by a fresh one. -/
def Relationship.init (nature : Int := 0) (position : Int := 0) : Relationship :=
  { nature := nature,
    position := position }

/-- `Relationship.serialize`, /repo/opendis/dis7.py:1494-1497. -/
def Relationship.serialize (self : Relationship) : W Unit := do
  write_unsigned_short self.nature
  write_unsigned_short self.position

/-- `Relationship.parse`, /repo/opendis/dis7.py:1499-1502; returns the updated object. -/
def Relationship.parse (self : Relationship) : R Relationship := do
  let nature ← read_unsigned_short
  let position ← read_unsigned_short
  return { self with nature := nature, position := position }

end Dis
