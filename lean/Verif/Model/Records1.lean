import Verif.Model.Common

/-!
# Records of `opendis/dis7.py`, part 1

Generated by `tools/gen.py` from the Python source; each definition cites the lines it transliterates.
-/

set_option linter.unusedVariables false

namespace Dis

/-- Attributes of a `DataQueryDatumSpecification` object, /repo/opendis/dis7.py:71-112; default values are those of an
object made by `DataQueryDatumSpecification()`, /repo/opendis/dis7.py:77-83. -/
structure DataQueryDatumSpecification where
  fixedDatumIDs : List Int := []
  variableDatumIDs : List Int := []
  deriving DecidableEq

/-- Constructor `DataQueryDatumSpecification(...)`, /repo/opendis/dis7.py:77-83. `x or T()` and `x or []` keep a given
value and replace `None` (absent) by a fresh one. -/
def DataQueryDatumSpecification.init (fixedDatumIDs : List Int := [])
    (variableDatumIDs : List Int := []) : DataQueryDatumSpecification :=
  { fixedDatumIDs := fixedDatumIDs,
    variableDatumIDs := variableDatumIDs }

/-- `DataQueryDatumSpecification.serialize`, /repo/opendis/dis7.py:93-101. -/
def DataQueryDatumSpecification.serialize (self : DataQueryDatumSpecification) : W Unit := do
  write_unsigned_int (self.fixedDatumIDs.length : Int)
  write_unsigned_int (self.variableDatumIDs.length : Int)
  W.forEach self.fixedDatumIDs write_unsigned_int
  W.forEach self.variableDatumIDs write_unsigned_int

/-- `DataQueryDatumSpecification.parse`, /repo/opendis/dis7.py:103-112; returns the updated object. -/
def DataQueryDatumSpecification.parse (self : DataQueryDatumSpecification) : R DataQueryDatumSpecification := do
  let numberOfFixedDatumIDs ← read_unsigned_int
  let numberOfVariableDatumIDs ← read_unsigned_int
  let fixedDatumIDs ← R.times numberOfFixedDatumIDs.toNat read_unsigned_int
  let variableDatumIDs ← R.times numberOfVariableDatumIDs.toNat read_unsigned_int
  return { self with
    fixedDatumIDs := self.fixedDatumIDs ++ fixedDatumIDs,
    variableDatumIDs := self.variableDatumIDs ++ variableDatumIDs }

/-- Attributes of a `RadioIdentifier` object, /repo/opendis/dis7.py:115-144; default values are those of an
object made by `RadioIdentifier()`, /repo/opendis/dis7.py:122-130. -/
structure RadioIdentifier where
  siteNumber : Int := 0
  applicationNumber : Int := 0
  referenceNumber : Int := 0
  radioNumber : Int := 0
  deriving DecidableEq

/-- Constructor `RadioIdentifier(...)`, /repo/opendis/dis7.py:122-130. `x or T()` and `x or []` keep a given
value and replace `None` (absent) by a fresh one. -/
def RadioIdentifier.init (siteNumber : Int := 0) (applicationNumber : Int := 0)
    (referenceNumber : Int := 0) (radioNumber : Int := 0) : RadioIdentifier :=
  { siteNumber := siteNumber,
    applicationNumber := applicationNumber,
    referenceNumber := referenceNumber,
    radioNumber := radioNumber }

/-- `RadioIdentifier.serialize`, /repo/opendis/dis7.py:132-137. -/
def RadioIdentifier.serialize (self : RadioIdentifier) : W Unit := do
  write_unsigned_short self.siteNumber
  write_unsigned_short self.applicationNumber
  write_unsigned_short self.referenceNumber
  write_unsigned_short self.radioNumber

/-- `RadioIdentifier.parse`, /repo/opendis/dis7.py:139-144; returns the updated object. -/
def RadioIdentifier.parse (self : RadioIdentifier) : R RadioIdentifier := do
  let siteNumber ← read_unsigned_short
  let applicationNumber ← read_unsigned_short
  let referenceNumber ← read_unsigned_short
  let radioNumber ← read_unsigned_short
  return { self with
    siteNumber := siteNumber,
    applicationNumber := applicationNumber,
    referenceNumber := referenceNumber,
    radioNumber := radioNumber }

/-- Attributes of a `RequestID` object, /repo/opendis/dis7.py:147-164; default values are those of an
object made by `RequestID()`, /repo/opendis/dis7.py:154-156. -/
structure RequestID where
  requestID : Int := 0
  deriving DecidableEq

/-- Constructor `RequestID(...)`, /repo/opendis/dis7.py:154-156. `x or T()` and `x or []` keep a given
value and replace `None` (absent) by a fresh one. -/
def RequestID.init (requestID : Int := 0) : RequestID :=
  { requestID := requestID }

/-- `RequestID.serialize`, /repo/opendis/dis7.py:158-160. -/
def RequestID.serialize (self : RequestID) : W Unit := do
  write_unsigned_int self.requestID

/-- `RequestID.parse`, /repo/opendis/dis7.py:162-164; returns the updated object. -/
def RequestID.parse (self : RequestID) : R RequestID := do
  let requestID ← read_unsigned_int
  return { self with requestID := requestID }

/-- Attributes of a `IFFData` object, /repo/opendis/dis7.py:167-201; default values are those of an
object made by `IFFData()`, /repo/opendis/dis7.py:173-182. -/
structure IFFData where
  recordType : Int := 0
  recordLength : Int := 0
  iffData : List Int := []
  deriving DecidableEq

/-- Constructor `IFFData(...)`, /repo/opendis/dis7.py:173-182. `x or T()` and `x or []` keep a given
value and replace `None` (absent) by a fresh one. -/
def IFFData.init (recordType : Int := 0) (recordLength : Int := 0) (iffData : List Int := []) : IFFData :=
  { recordType := recordType,
    recordLength := recordLength,
    iffData := iffData }

/-- `IFFData.serialize`, /repo/opendis/dis7.py:184-190. -/
def IFFData.serialize (self : IFFData) : W Unit := do
  write_unsigned_int self.recordType
  write_unsigned_short (self.iffData.length : Int)
  W.forEach self.iffData write_unsigned_byte

/-- `IFFData.parse`, /repo/opendis/dis7.py:192-201; returns the updated object. -/
def IFFData.parse (self : IFFData) : R IFFData := do
  let recordType ← read_unsigned_int
  let recordLength ← read_unsigned_short
  let iffData ← R.times (recordLength - 6).toNat read_unsigned_byte
  return { self with
    recordType := recordType,
    recordLength := recordLength,
    iffData := self.iffData ++ iffData }

/-- Attributes of a `EntityType` object, /repo/opendis/dis7.py:2497-2540; default values are those of an
object made by `EntityType()`, /repo/opendis/dis7.py:2503-2520. -/
structure EntityType where
  entityKind : Int := 0
  domain : Int := 0
  country : Int := 0
  category : Int := 0
  subcategory : Int := 0
  specific : Int := 0
  extra : Int := 0
  deriving DecidableEq

/-- Constructor `EntityType(...)`, /repo/opendis/dis7.py:2503-2520. `x or T()` and `x or []` keep a given
value and replace `None` (absent) by a fresh one. -/
def EntityType.init (entityKind : Int := 0) (domain : Int := 0) (country : Int := 0)
    (category : Int := 0) (subcategory : Int := 0) (specific : Int := 0) (extra : Int := 0) : EntityType :=
  { entityKind := entityKind,
    domain := domain,
    country := country,
    category := category,
    subcategory := subcategory,
    specific := specific,
    extra := extra }

/-- `EntityType.serialize`, /repo/opendis/dis7.py:2522-2530. -/
def EntityType.serialize (self : EntityType) : W Unit := do
  write_unsigned_byte self.entityKind
  write_unsigned_byte self.domain
  write_unsigned_short self.country
  write_unsigned_byte self.category
  write_unsigned_byte self.subcategory
  write_unsigned_byte self.specific
  write_unsigned_byte self.extra

/-- `EntityType.parse`, /repo/opendis/dis7.py:2532-2540; returns the updated object. -/
def EntityType.parse (self : EntityType) : R EntityType := do
  let entityKind ← read_unsigned_byte
  let domain ← read_unsigned_byte
  let country ← read_unsigned_short
  let category ← read_unsigned_byte
  let subcategory ← read_unsigned_byte
  let specific ← read_unsigned_byte
  let extra ← read_unsigned_byte
  return { self with
    entityKind := entityKind,
    domain := domain,
    country := country,
    category := category,
    subcategory := subcategory,
    specific := specific,
    extra := extra }

/-- Attributes of a `MunitionDescriptor` object, /repo/opendis/dis7.py:204-243; default values are those of an
object made by `MunitionDescriptor()`, /repo/opendis/dis7.py:210-227. -/
structure MunitionDescriptor where
  munitionType : EntityType := EntityType.init
  warhead : Int := 0
  fuse : Int := 0
  quantity : Int := 0
  rate : Int := 0
  deriving DecidableEq

/-- Constructor `MunitionDescriptor(...)`, /repo/opendis/dis7.py:210-227. `x or T()` and `x or []` keep a given
value and replace `None` (absent) by a fresh one. -/
def MunitionDescriptor.init (munitionType : Option EntityType := none) (warhead : Int := 0)
    (fuse : Int := 0) (quantity : Int := 0) (rate : Int := 0) : MunitionDescriptor :=
  { munitionType := munitionType.getD EntityType.init,
    warhead := warhead,
    fuse := fuse,
    quantity := quantity,
    rate := rate }

/-- `MunitionDescriptor.serialize`, /repo/opendis/dis7.py:229-235. -/
def MunitionDescriptor.serialize (self : MunitionDescriptor) : W Unit := do
  EntityType.serialize self.munitionType
  write_unsigned_short self.warhead
  write_unsigned_short self.fuse
  write_unsigned_short self.quantity
  write_unsigned_short self.rate

/-- `MunitionDescriptor.parse`, /repo/opendis/dis7.py:237-243; returns the updated object. -/
def MunitionDescriptor.parse (self : MunitionDescriptor) : R MunitionDescriptor := do
  let munitionType ← EntityType.parse self.munitionType
  let warhead ← read_unsigned_short
  let fuse ← read_unsigned_short
  let quantity ← read_unsigned_short
  let rate ← read_unsigned_short
  return { self with
    munitionType := munitionType,
    warhead := warhead,
    fuse := fuse,
    quantity := quantity,
    rate := rate }

/-- Attributes of a `MinefieldSensorType` object, /repo/opendis/dis7.py:246-263; default values are those of an
object made by `MinefieldSensorType()`, /repo/opendis/dis7.py:252-254. -/
structure MinefieldSensorType where
  sensorType : Int := 0
  deriving DecidableEq

/-- Constructor `MinefieldSensorType(...)`, /repo/opendis/dis7.py:252-254. `x or T()` and `x or []` keep a given
value and replace `None` (absent) by a fresh one. -/
def MinefieldSensorType.init (sensorType : Int := 0) : MinefieldSensorType :=
  { sensorType := sensorType }

/-- `MinefieldSensorType.serialize`, /repo/opendis/dis7.py:257-259. -/
def MinefieldSensorType.serialize (self : MinefieldSensorType) : W Unit := do
  write_unsigned_short self.sensorType

/-- `MinefieldSensorType.parse`, /repo/opendis/dis7.py:261-263; returns the updated object. -/
def MinefieldSensorType.parse (self : MinefieldSensorType) : R MinefieldSensorType := do
  let sensorType ← read_unsigned_short
  return { self with sensorType := sensorType }

/-- Attributes of a `GroupID` object, /repo/opendis/dis7.py:266-289; default values are those of an
object made by `GroupID()`, /repo/opendis/dis7.py:273-279. -/
structure GroupID where
  simulationAddress : SimulationAddress := SimulationAddress.init
  groupNumber : Int := 0
  deriving DecidableEq

/-- Constructor `GroupID(...)`, /repo/opendis/dis7.py:273-279. `x or T()` and `x or []` keep a given
value and replace `None` (absent) by a fresh one. -/
def GroupID.init (simulationAddress : Option SimulationAddress := none) (groupNumber : Int := 0) : GroupID :=
  { simulationAddress := simulationAddress.getD SimulationAddress.init,
    groupNumber := groupNumber }

/-- `GroupID.serialize`, /repo/opendis/dis7.py:281-284. -/
def GroupID.serialize (self : GroupID) : W Unit := do
  SimulationAddress.serialize self.simulationAddress
  write_unsigned_short self.groupNumber

/-- `GroupID.parse`, /repo/opendis/dis7.py:286-289; returns the updated object. -/
def GroupID.parse (self : GroupID) : R GroupID := do
  let simulationAddress ← SimulationAddress.parse self.simulationAddress
  let groupNumber ← read_unsigned_short
  return { self with simulationAddress := simulationAddress, groupNumber := groupNumber }

/-- Attributes of a `LayerHeader` object, /repo/opendis/dis7.py:292-319; default values are those of an
object made by `LayerHeader()`, /repo/opendis/dis7.py:299-307. -/
structure LayerHeader where
  layerNumber : Int := 0
  layerSpecificInformation : Int := 0
  length : Int := 0
  deriving DecidableEq

/-- Constructor `LayerHeader(...)`, /repo/opendis/dis7.py:299-307. `x or T()` and `x or []` keep a given
value and replace `None` (absent) by a fresh one. -/
def LayerHeader.init (layerNumber : Int := 0) (layerSpecificInformation : Int := 0)
    (length : Int := 0) : LayerHeader :=
  { layerNumber := layerNumber,
    layerSpecificInformation := layerSpecificInformation,
    length := length }

/-- `LayerHeader.serialize`, /repo/opendis/dis7.py:309-313. -/
def LayerHeader.serialize (self : LayerHeader) : W Unit := do
  write_unsigned_byte self.layerNumber
  write_unsigned_byte self.layerSpecificInformation
  write_unsigned_short (self.length : Int)

/-- `LayerHeader.parse`, /repo/opendis/dis7.py:315-319; returns the updated object. -/
def LayerHeader.parse (self : LayerHeader) : R LayerHeader := do
  let layerNumber ← read_unsigned_byte
  let layerSpecificInformation ← read_unsigned_byte
  let length ← read_unsigned_short
  return { self with
    layerNumber := layerNumber,
    layerSpecificInformation := layerSpecificInformation,
    length := length }

/-- Attributes of a `UnsignedDISInteger` object, /repo/opendis/dis7.py:322-335; default values are those of an
object made by `UnsignedDISInteger()`, /repo/opendis/dis7.py:325-327. -/
structure UnsignedDISInteger where
  val : Int := 0
  deriving DecidableEq

/-- Constructor `UnsignedDISInteger(...)`, /repo/opendis/dis7.py:325-327. `x or T()` and `x or []` keep a given
value and replace `None` (absent) by a fresh one. -/
def UnsignedDISInteger.init (val : Int := 0) : UnsignedDISInteger :=
  { val := val }

/-- `UnsignedDISInteger.serialize`, /repo/opendis/dis7.py:329-331. -/
def UnsignedDISInteger.serialize (self : UnsignedDISInteger) : W Unit := do
  write_unsigned_int self.val

/-- `UnsignedDISInteger.parse`, /repo/opendis/dis7.py:333-335; returns the updated object. -/
def UnsignedDISInteger.parse (self : UnsignedDISInteger) : R UnsignedDISInteger := do
  let val ← read_unsigned_int
  return { self with val := val }

/-- Attributes of a `DeadReckoningParameters` object, /repo/opendis/dis7.py:338-375; default values are those of an
object made by `DeadReckoningParameters()`, /repo/opendis/dis7.py:341-354. -/
structure DeadReckoningParameters where
  deadReckoningAlgorithm : Int := 0
  parameters : List Int := List.replicate 15 0
  entityLinearAcceleration : Vector3Float := Vector3Float.init
  entityAngularVelocity : Vector3Float := Vector3Float.init
  deriving DecidableEq

/-- Constructor `DeadReckoningParameters(...)`, /repo/opendis/dis7.py:341-354. `x or T()` and `x or []` keep a given
value and replace `None` (absent) by a fresh one. -/
def DeadReckoningParameters.init (deadReckoningAlgorithm : Int := 0)
    (parameters : List Int := []) (entityLinearAcceleration : Option Vector3Float := none)
    (entityAngularVelocity : Option Vector3Float := none) : DeadReckoningParameters :=
  { deadReckoningAlgorithm := deadReckoningAlgorithm,
    parameters := if parameters.isEmpty then List.replicate 15 0 else parameters,
    entityLinearAcceleration := entityLinearAcceleration.getD Vector3Float.init,
    entityAngularVelocity := entityAngularVelocity.getD Vector3Float.init }

/-- `DeadReckoningParameters.serialize`, /repo/opendis/dis7.py:356-363. -/
def DeadReckoningParameters.serialize (self : DeadReckoningParameters) : W Unit := do
  write_unsigned_byte self.deadReckoningAlgorithm
  W.forRange 0 15 fun idx => W.using (index self.parameters idx) write_unsigned_byte
  Vector3Float.serialize self.entityLinearAcceleration
  Vector3Float.serialize self.entityAngularVelocity

/-- `DeadReckoningParameters.parse`, /repo/opendis/dis7.py:365-375; returns the updated object. -/
def DeadReckoningParameters.parse (self : DeadReckoningParameters) : R DeadReckoningParameters := do
  let deadReckoningAlgorithm ← read_unsigned_byte
  let parameters ← R.times 15 read_unsigned_byte
  let entityLinearAcceleration ← Vector3Float.parse self.entityLinearAcceleration
  let entityAngularVelocity ← Vector3Float.parse self.entityAngularVelocity
  return { self with
    deadReckoningAlgorithm := deadReckoningAlgorithm,
    parameters := parameters,
    entityLinearAcceleration := entityLinearAcceleration,
    entityAngularVelocity := entityAngularVelocity }

/-- Attributes of a `ProtocolMode` object, /repo/opendis/dis7.py:378-394; default values are those of an
object made by `ProtocolMode()`, /repo/opendis/dis7.py:384-386. -/
structure ProtocolMode where
  protocolMode : Int := 0
  deriving DecidableEq

/-- Constructor `ProtocolMode(...)`, /repo/opendis/dis7.py:384-386. `x or T()` and `x or []` keep a given
value and replace `None` (absent) by a fresh one. -/
def ProtocolMode.init (protocolMode : Int := 0) : ProtocolMode :=
  { protocolMode := protocolMode }

/-- `ProtocolMode.serialize`, /repo/opendis/dis7.py:388-390. -/
def ProtocolMode.serialize (self : ProtocolMode) : W Unit := do
  write_unsigned_short self.protocolMode

/-- `ProtocolMode.parse`, /repo/opendis/dis7.py:392-394; returns the updated object. -/
def ProtocolMode.parse (self : ProtocolMode) : R ProtocolMode := do
  let protocolMode ← read_unsigned_short
  return { self with protocolMode := protocolMode }

/-- Attributes of a `AngleDeception` object, /repo/opendis/dis7.py:397-472; default values are those of an
object made by `AngleDeception()`, /repo/opendis/dis7.py:409-434. -/
structure AngleDeception where
  recordType : Int := 3501
  recordLength : Int := 48
  padding : Int := 0
  emitterNumber : Int := 0
  beamNumber : Int := 0
  stateIndicator : Int := 0
  padding2 : Int := 0
  azimuthOffset : F64 := 0x0000000000000000
  azimuthWidth : F64 := 0x0000000000000000
  azimuthPullRate : F64 := 0x0000000000000000
  azimuthPullAcceleration : F64 := 0x0000000000000000
  elevationOffset : F64 := 0x0000000000000000
  elevationWidth : F64 := 0x0000000000000000
  elevationPullRate : F64 := 0x0000000000000000
  elevationPullAcceleration : F64 := 0x0000000000000000
  padding3 : Int := 0
  deriving DecidableEq

/-- Constructor `AngleDeception(...)`, /repo/opendis/dis7.py:409-434. `x or T()` and `x or []` keep a given
value and replace `None` (absent) by a fresh one. -/
def AngleDeception.init (emitterNumber : Int := 0) (beamNumber : Int := 0)
    (stateIndicator : Int := 0) (azimuthOffset : F64 := 0x0000000000000000)
    (azimuthWidth : F64 := 0x0000000000000000) (azimuthPullRate : F64 := 0x0000000000000000)
    (azimuthPullAcceleration : F64 := 0x0000000000000000)
    (elevationOffset : F64 := 0x0000000000000000) (elevationWidth : F64 := 0x0000000000000000)
    (elevationPullRate : F64 := 0x0000000000000000)
    (elevationPullAcceleration : F64 := 0x0000000000000000) : AngleDeception :=
  { padding := 0,
    emitterNumber := emitterNumber,
    beamNumber := beamNumber,
    stateIndicator := stateIndicator,
    padding2 := 0,
    azimuthOffset := azimuthOffset,
    azimuthWidth := azimuthWidth,
    azimuthPullRate := azimuthPullRate,
    azimuthPullAcceleration := azimuthPullAcceleration,
    elevationOffset := elevationOffset,
    elevationWidth := elevationWidth,
    elevationPullRate := elevationPullRate,
    elevationPullAcceleration := elevationPullAcceleration,
    padding3 := 0 }

/-- `AngleDeception.serialize`, /repo/opendis/dis7.py:436-453. -/
def AngleDeception.serialize (self : AngleDeception) : W Unit := do
  write_unsigned_int self.recordType
  write_unsigned_short self.recordLength
  write_unsigned_short self.padding
  write_unsigned_byte self.emitterNumber
  write_unsigned_byte self.beamNumber
  write_unsigned_byte self.stateIndicator
  write_unsigned_byte self.padding2
  write_float self.azimuthOffset
  write_float self.azimuthWidth
  write_float self.azimuthPullRate
  write_float self.azimuthPullAcceleration
  write_float self.elevationOffset
  write_float self.elevationWidth
  write_float self.elevationPullRate
  write_float self.elevationPullAcceleration
  write_unsigned_int self.padding3

/-- `AngleDeception.parse`, /repo/opendis/dis7.py:455-472; returns the updated object. -/
def AngleDeception.parse (self : AngleDeception) : R AngleDeception := do
  let recordType ← read_unsigned_int
  let recordLength ← read_unsigned_short
  let padding ← read_unsigned_short
  let emitterNumber ← read_unsigned_byte
  let beamNumber ← read_unsigned_byte
  let stateIndicator ← read_unsigned_byte
  let padding2 ← read_unsigned_byte
  let azimuthOffset ← read_float
  let azimuthWidth ← read_float
  let azimuthPullRate ← read_float
  let azimuthPullAcceleration ← read_float
  let elevationOffset ← read_float
  let elevationWidth ← read_float
  let elevationPullRate ← read_float
  let elevationPullAcceleration ← read_float
  let padding3 ← read_unsigned_int
  return { self with
    recordType := recordType,
    recordLength := recordLength,
    padding := padding,
    emitterNumber := emitterNumber,
    beamNumber := beamNumber,
    stateIndicator := stateIndicator,
    padding2 := padding2,
    azimuthOffset := azimuthOffset,
    azimuthWidth := azimuthWidth,
    azimuthPullRate := azimuthPullRate,
    azimuthPullAcceleration := azimuthPullAcceleration,
    elevationOffset := elevationOffset,
    elevationWidth := elevationWidth,
    elevationPullRate := elevationPullRate,
    elevationPullAcceleration := elevationPullAcceleration,
    padding3 := padding3 }

/-- Attributes of a `EntityAssociation` object, /repo/opendis/dis7.py:475-530; default values are those of an
object made by `EntityAssociation()`, /repo/opendis/dis7.py:482-506. -/
structure EntityAssociation where
  recordType : Int := 4
  changeIndicator : Int := 0
  associationStatus : Int := 0
  associationType : Int := 0
  entityID : EntityIdentifier := EntityIdentifier.init
  ownStationLocation : Int := 0
  physicalConnectionType : Int := 0
  groupMemberType : Int := 0
  groupNumber : Int := 0
  deriving DecidableEq

/-- Constructor `EntityAssociation(...)`, /repo/opendis/dis7.py:482-506. `x or T()` and `x or []` keep a given
value and replace `None` (absent) by a fresh one. -/
def EntityAssociation.init (changeIndicator : Int := 0) (associationStatus : Int := 0)
    (associationType : Int := 0) (entityID : Option EntityIdentifier := none)
    (ownStationLocation : Int := 0) (physicalConnectionType : Int := 0)
    (groupMemberType : Int := 0) (groupNumber : Int := 0) : EntityAssociation :=
  { changeIndicator := changeIndicator,
    associationStatus := associationStatus,
    associationType := associationType,
    entityID := entityID.getD EntityIdentifier.init,
    ownStationLocation := ownStationLocation,
    physicalConnectionType := physicalConnectionType,
    groupMemberType := groupMemberType,
    groupNumber := groupNumber }

/-- `EntityAssociation.serialize`, /repo/opendis/dis7.py:508-518. -/
def EntityAssociation.serialize (self : EntityAssociation) : W Unit := do
  write_unsigned_byte self.recordType
  write_unsigned_byte self.changeIndicator
  write_unsigned_byte self.associationStatus
  write_unsigned_byte self.associationType
  EntityIdentifier.serialize self.entityID
  write_unsigned_short self.ownStationLocation
  write_unsigned_byte self.physicalConnectionType
  write_unsigned_byte self.groupMemberType
  write_unsigned_short self.groupNumber

/-- `EntityAssociation.parse`, /repo/opendis/dis7.py:520-530; returns the updated object. -/
def EntityAssociation.parse (self : EntityAssociation) : R EntityAssociation := do
  let recordType ← read_unsigned_byte
  let changeIndicator ← read_unsigned_byte
  let associationStatus ← read_unsigned_byte
  let associationType ← read_unsigned_byte
  let entityID ← EntityIdentifier.parse self.entityID
  let ownStationLocation ← read_unsigned_short
  let physicalConnectionType ← read_unsigned_byte
  let groupMemberType ← read_unsigned_byte
  let groupNumber ← read_unsigned_short
  return { self with
    recordType := recordType,
    changeIndicator := changeIndicator,
    associationStatus := associationStatus,
    associationType := associationType,
    entityID := entityID,
    ownStationLocation := ownStationLocation,
    physicalConnectionType := physicalConnectionType,
    groupMemberType := groupMemberType,
    groupNumber := groupNumber }

/-- Attributes of a `VectoringNozzleSystem` object, /repo/opendis/dis7.py:533-553; default values are those of an
object made by `VectoringNozzleSystem()`, /repo/opendis/dis7.py:539-543. -/
structure VectoringNozzleSystem where
  horizontalDeflectionAngle : F64 := 0x0000000000000000
  verticalDeflectionAngle : F64 := 0x0000000000000000
  deriving DecidableEq

/-- Constructor `VectoringNozzleSystem(...)`, /repo/opendis/dis7.py:539-543. `x or T()` and `x or []` keep a given
value and replace `None` (absent) by a fresh one. -/
def VectoringNozzleSystem.init (horizontalDeflectionAngle : F64 := 0x0000000000000000)
    (verticalDeflectionAngle : F64 := 0x0000000000000000) : VectoringNozzleSystem :=
  { horizontalDeflectionAngle := horizontalDeflectionAngle,
    verticalDeflectionAngle := verticalDeflectionAngle }

/-- `VectoringNozzleSystem.serialize`, /repo/opendis/dis7.py:545-548. -/
def VectoringNozzleSystem.serialize (self : VectoringNozzleSystem) : W Unit := do
  write_float self.horizontalDeflectionAngle
  write_float self.verticalDeflectionAngle

/-- `VectoringNozzleSystem.parse`, /repo/opendis/dis7.py:550-553; returns the updated object. -/
def VectoringNozzleSystem.parse (self : VectoringNozzleSystem) : R VectoringNozzleSystem := do
  let horizontalDeflectionAngle ← read_float
  let verticalDeflectionAngle ← read_float
  return { self with
    horizontalDeflectionAngle := horizontalDeflectionAngle,
    verticalDeflectionAngle := verticalDeflectionAngle }

/-- Attributes of a `FalseTargetsAttribute` object, /repo/opendis/dis7.py:556-621; default values are those of an
object made by `FalseTargetsAttribute()`, /repo/opendis/dis7.py:569-589. -/
structure FalseTargetsAttribute where
  recordType : Int := 3502
  recordLength : Int := 48
  padding : Int := 0
  emitterNumber : Int := 0
  beamNumber : Int := 0
  stateIndicator : Int := 0
  padding2 : Int := 0
  falseTargetCount : Int := 0
  walkSpeed : F64 := 0x0000000000000000
  walkAcceleration : F64 := 0x0000000000000000
  maximumWalkDistance : F64 := 0x0000000000000000
  keepTime : F64 := 0x0000000000000000
  echoSpacing : F64 := 0x0000000000000000
  deriving DecidableEq

/-- Constructor `FalseTargetsAttribute(...)`, /repo/opendis/dis7.py:569-589. `x or T()` and `x or []` keep a given
value and replace `None` (absent) by a fresh one. -/
def FalseTargetsAttribute.init (emitterNumber : Int := 0) (beamNumber : Int := 0)
    (stateIndicator : Int := 0) (falseTargetCount : Int := 0)
    (walkSpeed : F64 := 0x0000000000000000) (walkAcceleration : F64 := 0x0000000000000000)
    (maximumWalkDistance : F64 := 0x0000000000000000) (keepTime : F64 := 0x0000000000000000)
    (echoSpacing : F64 := 0x0000000000000000) : FalseTargetsAttribute :=
  { padding := 0,
    emitterNumber := emitterNumber,
    beamNumber := beamNumber,
    stateIndicator := stateIndicator,
    padding2 := 0,
    falseTargetCount := falseTargetCount,
    walkSpeed := walkSpeed,
    walkAcceleration := walkAcceleration,
    maximumWalkDistance := maximumWalkDistance,
    keepTime := keepTime,
    echoSpacing := echoSpacing }

/-- `FalseTargetsAttribute.serialize`, /repo/opendis/dis7.py:591-605. -/
def FalseTargetsAttribute.serialize (self : FalseTargetsAttribute) : W Unit := do
  write_unsigned_int self.recordType
  write_unsigned_short self.recordLength
  write_unsigned_short self.padding
  write_unsigned_byte self.emitterNumber
  write_unsigned_byte self.beamNumber
  write_unsigned_byte self.stateIndicator
  write_unsigned_byte self.padding2
  write_unsigned_short self.falseTargetCount
  write_float self.walkSpeed
  write_float self.walkAcceleration
  write_float self.maximumWalkDistance
  write_float self.keepTime
  write_float self.echoSpacing

/-- `FalseTargetsAttribute.parse`, /repo/opendis/dis7.py:607-621; returns the updated object. -/
def FalseTargetsAttribute.parse (self : FalseTargetsAttribute) : R FalseTargetsAttribute := do
  let recordType ← read_unsigned_int
  let recordLength ← read_unsigned_short
  let padding ← read_unsigned_short
  let emitterNumber ← read_unsigned_byte
  let beamNumber ← read_unsigned_byte
  let stateIndicator ← read_unsigned_byte
  let padding2 ← read_unsigned_byte
  let falseTargetCount ← read_unsigned_short
  let walkSpeed ← read_float
  let walkAcceleration ← read_float
  let maximumWalkDistance ← read_float
  let keepTime ← read_float
  let echoSpacing ← read_float
  return { self with
    recordType := recordType,
    recordLength := recordLength,
    padding := padding,
    emitterNumber := emitterNumber,
    beamNumber := beamNumber,
    stateIndicator := stateIndicator,
    padding2 := padding2,
    falseTargetCount := falseTargetCount,
    walkSpeed := walkSpeed,
    walkAcceleration := walkAcceleration,
    maximumWalkDistance := maximumWalkDistance,
    keepTime := keepTime,
    echoSpacing := echoSpacing }

/-- Attributes of a `MinefieldIdentifier` object, /repo/opendis/dis7.py:624-644; default values are those of an
object made by `MinefieldIdentifier()`, /repo/opendis/dis7.py:630-634. -/
structure MinefieldIdentifier where
  simulationAddress : SimulationAddress := SimulationAddress.init
  minefieldNumber : Int := 0
  deriving DecidableEq

/-- Constructor `MinefieldIdentifier(...)`, /repo/opendis/dis7.py:630-634. `x or T()` and `x or []` keep a given
value and replace `None` (absent) by a fresh one. -/
def MinefieldIdentifier.init (simulationAddress : Option SimulationAddress := none)
    (minefieldNumber : Int := 0) : MinefieldIdentifier :=
  { simulationAddress := simulationAddress.getD SimulationAddress.init,
    minefieldNumber := minefieldNumber }

/-- `MinefieldIdentifier.serialize`, /repo/opendis/dis7.py:636-639. -/
def MinefieldIdentifier.serialize (self : MinefieldIdentifier) : W Unit := do
  SimulationAddress.serialize self.simulationAddress
  write_unsigned_short self.minefieldNumber

/-- `MinefieldIdentifier.parse`, /repo/opendis/dis7.py:641-644; returns the updated object. -/
def MinefieldIdentifier.parse (self : MinefieldIdentifier) : R MinefieldIdentifier := do
  let simulationAddress ← SimulationAddress.parse self.simulationAddress
  let minefieldNumber ← read_unsigned_short
  return { self with simulationAddress := simulationAddress, minefieldNumber := minefieldNumber }

/-- Attributes of a `RadioType` object, /repo/opendis/dis7.py:647-690; default values are those of an
object made by `RadioType()`, /repo/opendis/dis7.py:654-670. -/
structure RadioType where
  entityKind : Int := 7
  domain : Int := 0
  country : Int := 0
  category : Int := 0
  subcategory : Int := 0
  specific : Int := 0
  extra : Int := 0
  deriving DecidableEq

/-- Constructor `RadioType(...)`, /repo/opendis/dis7.py:654-670. `x or T()` and `x or []` keep a given
value and replace `None` (absent) by a fresh one. -/
def RadioType.init (domain : Int := 0) (country : Int := 0) (category : Int := 0)
    (subcategory : Int := 0) (specific : Int := 0) (extra : Int := 0) : RadioType :=
  { domain := domain,
    country := country,
    category := category,
    subcategory := subcategory,
    specific := specific,
    extra := extra }

/-- `RadioType.serialize`, /repo/opendis/dis7.py:672-680. -/
def RadioType.serialize (self : RadioType) : W Unit := do
  write_unsigned_byte self.entityKind
  write_unsigned_byte self.domain
  write_unsigned_short self.country
  write_unsigned_byte self.category
  write_unsigned_byte self.subcategory
  write_unsigned_byte self.specific
  write_unsigned_byte self.extra

/-- `RadioType.parse`, /repo/opendis/dis7.py:682-690; returns the updated object. -/
def RadioType.parse (self : RadioType) : R RadioType := do
  let entityKind ← read_unsigned_byte
  let domain ← read_unsigned_byte
  let country ← read_unsigned_short
  let category ← read_unsigned_byte
  let subcategory ← read_unsigned_byte
  let specific ← read_unsigned_byte
  let extra ← read_unsigned_byte
  return { self with
    entityKind := entityKind,
    domain := domain,
    country := country,
    category := category,
    subcategory := subcategory,
    specific := specific,
    extra := extra }

/-- Attributes of a `NamedLocationIdentification` object, /repo/opendis/dis7.py:693-717; default values are those of an
object made by `NamedLocationIdentification()`, /repo/opendis/dis7.py:700-707. -/
structure NamedLocationIdentification where
  stationName : Int := 0
  stationNumber : Int := 0
  deriving DecidableEq

/-- Constructor `NamedLocationIdentification(...)`, /repo/opendis/dis7.py:700-707. `x or T()` and `x or []` keep a given
value and replace `None` (absent) by a fresh one. -/
def NamedLocationIdentification.init (stationName : Int := 0) (stationNumber : Int := 0) : NamedLocationIdentification :=
  { stationName := stationName,
    stationNumber := stationNumber }

/-- `NamedLocationIdentification.serialize`, /repo/opendis/dis7.py:709-712. -/
def NamedLocationIdentification.serialize (self : NamedLocationIdentification) : W Unit := do
  write_unsigned_short self.stationName
  write_unsigned_short self.stationNumber

/-- `NamedLocationIdentification.parse`, /repo/opendis/dis7.py:714-717; returns the updated object. -/
def NamedLocationIdentification.parse (self : NamedLocationIdentification) : R NamedLocationIdentification := do
  let stationName ← read_unsigned_short
  let stationNumber ← read_unsigned_short
  return { self with stationName := stationName, stationNumber := stationNumber }

/-- Attributes of a `IFFDataSpecification` object, /repo/opendis/dis7.py:720-745; default values are those of an
object made by `IFFDataSpecification()`, /repo/opendis/dis7.py:726-727. -/
structure IFFDataSpecification where
  iffDataRecords : List IFFData := []
  deriving DecidableEq

/-- Constructor `IFFDataSpecification(...)`, /repo/opendis/dis7.py:726-727. `x or T()` and `x or []` keep a given
value and replace `None` (absent) by a fresh one. -/
def IFFDataSpecification.init (iffDataRecords : List IFFData := []) : IFFDataSpecification :=
  { iffDataRecords := iffDataRecords }

/-- `IFFDataSpecification.serialize`, /repo/opendis/dis7.py:733-737. -/
def IFFDataSpecification.serialize (self : IFFDataSpecification) : W Unit := do
  write_unsigned_short (self.iffDataRecords.length : Int)
  W.forEach self.iffDataRecords IFFData.serialize

/-- `IFFDataSpecification.parse`, /repo/opendis/dis7.py:739-745; returns the updated object. -/
def IFFDataSpecification.parse (self : IFFDataSpecification) : R IFFDataSpecification := do
  let numberOfIFFDataRecords ← read_unsigned_short
  let iffDataRecords ← R.times numberOfIFFDataRecords.toNat (IFFData.parse IFFData.init)
  return { self with iffDataRecords := self.iffDataRecords ++ iffDataRecords }

/-- Attributes of a `OwnershipStatus` object, /repo/opendis/dis7.py:748-773; default values are those of an
object made by `OwnershipStatus()`, /repo/opendis/dis7.py:754-761. -/
structure OwnershipStatus where
  entityId : EntityIdentifier := EntityIdentifier.init
  ownershipStatus : Int := 0
  padding : Int := 0
  deriving DecidableEq

/-- Constructor `OwnershipStatus(...)`, /repo/opendis/dis7.py:754-761. `x or T()` and `x or []` keep a given
value and replace `None` (absent) by a fresh one. -/
def OwnershipStatus.init (entityId : Option EntityIdentifier := none)
    (ownershipStatus : Int := 0) : OwnershipStatus :=
  { entityId := entityId.getD EntityIdentifier.init,
    ownershipStatus := ownershipStatus,
    padding := 0 }

/-- `OwnershipStatus.serialize`, /repo/opendis/dis7.py:763-767. -/
def OwnershipStatus.serialize (self : OwnershipStatus) : W Unit := do
  EntityIdentifier.serialize self.entityId
  write_unsigned_byte self.ownershipStatus
  write_unsigned_byte self.padding

/-- `OwnershipStatus.parse`, /repo/opendis/dis7.py:769-773; returns the updated object. -/
def OwnershipStatus.parse (self : OwnershipStatus) : R OwnershipStatus := do
  let entityId ← EntityIdentifier.parse self.entityId
  let ownershipStatus ← read_unsigned_byte
  let padding ← read_unsigned_byte
  return { self with
    entityId := entityId,
    ownershipStatus := ownershipStatus,
    padding := padding }

/-- Attributes of a `AttachedParts` object, /repo/opendis/dis7.py:776-811; default values are those of an
object made by `AttachedParts()`, /repo/opendis/dis7.py:783-795. -/
structure AttachedParts where
  recordType : Int := 1
  detachedIndicator : Int := 0
  partAttachedTo : Int := 0
  parameterType : Int := 0
  attachedPartType : EntityType := EntityType.init
  parameterValue : Option Int := none
  deriving DecidableEq

/-- Constructor `AttachedParts(...)`, /repo/opendis/dis7.py:783-795. `x or T()` and `x or []` keep a given
value and replace `None` (absent) by a fresh one. -/
def AttachedParts.init (detachedIndicator : Int := 0) (partAttachedTo : Int := 0)
    (parameterType : Int := 0) (attachedPartType : Option EntityType := none) : AttachedParts :=
  { detachedIndicator := detachedIndicator,
    partAttachedTo := partAttachedTo,
    parameterType := parameterType,
    attachedPartType := attachedPartType.getD EntityType.init }

/-- `AttachedParts.serialize`, /repo/opendis/dis7.py:797-803. -/
def AttachedParts.serialize (self : AttachedParts) : W Unit := do
  write_unsigned_byte self.recordType
  write_unsigned_byte self.detachedIndicator
  write_unsigned_short self.partAttachedTo
  write_unsigned_int self.parameterType
  W.using (attr self.parameterValue) write_long

/-- `AttachedParts.parse`, /repo/opendis/dis7.py:805-811; returns the updated object. -/
def AttachedParts.parse (self : AttachedParts) : R AttachedParts := do
  let recordType ← read_unsigned_byte
  let detachedIndicator ← read_unsigned_byte
  let partAttachedTo ← read_unsigned_short
  let parameterType ← read_unsigned_int
  let parameterValue ← read_long
  return { self with
    recordType := recordType,
    detachedIndicator := detachedIndicator,
    partAttachedTo := partAttachedTo,
    parameterType := parameterType,
    parameterValue := some parameterValue }

end Dis
