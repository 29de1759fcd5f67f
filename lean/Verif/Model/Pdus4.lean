import Verif.Model.Pdus3

/-!
# PDUs of `opendis/dis7.py`, part 4

Generated by `tools/gen.py` from the Python source; each definition cites the lines it transliterates.
-/

set_option linter.unusedVariables false

namespace Dis

/-- Attributes of a `FastEntityStatePdu` object, /repo/opendis/dis7.py:5637-5868; default values are those of an
object made by `FastEntityStatePdu()`, /repo/opendis/dis7.py:5646-5762. -/
structure FastEntityStatePdu extends EntityInformationFamilyPdu where
  site : Int := 0
  application : Int := 0
  entity : Int := 0
  forceId : Int := 0
  numberOfVariableParameters : Int := 0
  entityKind : Int := 0
  domain : Int := 0
  country : Int := 0
  category : Int := 0
  subcategory : Int := 0
  specific : Int := 0
  extra : Int := 0
  altEntityKind : Int := 0
  altDomain : Int := 0
  altCountry : Int := 0
  altCategory : Int := 0
  altSubcategory : Int := 0
  altSpecific : Int := 0
  altExtra : Int := 0
  xVelocity : F64 := 0x0000000000000000
  yVelocity : F64 := 0x0000000000000000
  zVelocity : F64 := 0x0000000000000000
  xLocation : F64 := 0x0000000000000000
  yLocation : F64 := 0x0000000000000000
  zLocation : F64 := 0x0000000000000000
  psi : F64 := 0x0000000000000000
  theta : F64 := 0x0000000000000000
  phi : F64 := 0x0000000000000000
  entityAppearance : Int := 0
  deadReckoningAlgorithm : Int := 0
  otherParameters : List Int := List.replicate 15 0
  xAcceleration : F64 := 0x0000000000000000
  yAcceleration : F64 := 0x0000000000000000
  zAcceleration : F64 := 0x0000000000000000
  xAngularVelocity : F64 := 0x0000000000000000
  yAngularVelocity : F64 := 0x0000000000000000
  zAngularVelocity : F64 := 0x0000000000000000
  marking : List Int := List.replicate 12 0
  capabilities : Int := 0
  variableParameters : List VariableParameter := []
  pduType := 1
  deriving DecidableEq

/-- Constructor `FastEntityStatePdu(...)`, /repo/opendis/dis7.py:5646-5762. `x or T()` and `x or []` keep a given
value and replace `None` (absent) by a fresh one. -/
def FastEntityStatePdu.init (site : Int := 0) (application : Int := 0) (entity : Int := 0)
    (forceId : Int := 0) (numberOfVariableParameters : Int := 0) (entityKind : Int := 0)
    (domain : Int := 0) (country : Int := 0) (category : Int := 0) (subcategory : Int := 0)
    (specific : Int := 0) (extra : Int := 0) (altEntityKind : Int := 0) (altDomain : Int := 0)
    (altCountry : Int := 0) (altCategory : Int := 0) (altSubcategory : Int := 0)
    (altSpecific : Int := 0) (altExtra : Int := 0) (xVelocity : F64 := 0x0000000000000000)
    (yVelocity : F64 := 0x0000000000000000) (zVelocity : F64 := 0x0000000000000000)
    (xLocation : F64 := 0x0000000000000000) (yLocation : F64 := 0x0000000000000000)
    (zLocation : F64 := 0x0000000000000000) (psi : F64 := 0x0000000000000000)
    (theta : F64 := 0x0000000000000000) (phi : F64 := 0x0000000000000000)
    (entityAppearance : Int := 0) (deadReckoningAlgorithm : Int := 0)
    (otherParameters : List Int := []) (xAcceleration : F64 := 0x0000000000000000)
    (yAcceleration : F64 := 0x0000000000000000) (zAcceleration : F64 := 0x0000000000000000)
    (xAngularVelocity : F64 := 0x0000000000000000) (yAngularVelocity : F64 := 0x0000000000000000)
    (zAngularVelocity : F64 := 0x0000000000000000) (marking : List Int := [])
    (capabilities : Int := 0) (variableParameters : List VariableParameter := []) : FastEntityStatePdu :=
  { site := site,
    application := application,
    entity := entity,
    forceId := forceId,
    numberOfVariableParameters := numberOfVariableParameters,
    entityKind := entityKind,
    domain := domain,
    country := country,
    category := category,
    subcategory := subcategory,
    specific := specific,
    extra := extra,
    altEntityKind := altEntityKind,
    altDomain := altDomain,
    altCountry := altCountry,
    altCategory := altCategory,
    altSubcategory := altSubcategory,
    altSpecific := altSpecific,
    altExtra := altExtra,
    xVelocity := xVelocity,
    yVelocity := yVelocity,
    zVelocity := zVelocity,
    xLocation := xLocation,
    yLocation := yLocation,
    zLocation := zLocation,
    psi := psi,
    theta := theta,
    phi := phi,
    entityAppearance := entityAppearance,
    deadReckoningAlgorithm := deadReckoningAlgorithm,
    otherParameters := if otherParameters.isEmpty then List.replicate 15 0 else otherParameters,
    xAcceleration := xAcceleration,
    yAcceleration := yAcceleration,
    zAcceleration := zAcceleration,
    xAngularVelocity := xAngularVelocity,
    yAngularVelocity := yAngularVelocity,
    zAngularVelocity := zAngularVelocity,
    marking := if marking.isEmpty then List.replicate 12 0 else marking,
    capabilities := capabilities,
    variableParameters := variableParameters }

/-- `FastEntityStatePdu.serialize`, /repo/opendis/dis7.py:5764-5811. -/
def FastEntityStatePdu.serialize (self : FastEntityStatePdu) : W Unit := do
  EntityInformationFamilyPdu.serialize self.toEntityInformationFamilyPdu
  write_unsigned_short self.site
  write_unsigned_short self.application
  write_unsigned_short self.entity
  write_unsigned_byte self.forceId
  write_byte (self.variableParameters.length : Int)
  write_unsigned_byte self.entityKind
  write_unsigned_byte self.domain
  write_unsigned_short self.country
  write_unsigned_byte self.category
  write_unsigned_byte self.subcategory
  write_unsigned_byte self.specific
  write_unsigned_byte self.extra
  write_unsigned_byte self.altEntityKind
  write_unsigned_byte self.altDomain
  write_unsigned_short self.altCountry
  write_unsigned_byte self.altCategory
  write_unsigned_byte self.altSubcategory
  write_unsigned_byte self.altSpecific
  write_unsigned_byte self.altExtra
  write_float self.xVelocity
  write_float self.yVelocity
  write_float self.zVelocity
  write_double self.xLocation
  write_double self.yLocation
  write_double self.zLocation
  write_float self.psi
  write_float self.theta
  write_float self.phi
  write_int self.entityAppearance
  write_unsigned_byte self.deadReckoningAlgorithm
  W.forRange 0 15 fun idx => W.using (index self.otherParameters idx) write_byte
  write_float self.xAcceleration
  write_float self.yAcceleration
  write_float self.zAcceleration
  write_float self.xAngularVelocity
  write_float self.yAngularVelocity
  write_float self.zAngularVelocity
  W.forRange 0 12 fun idx => W.using (index self.marking idx) write_byte
  write_int self.capabilities
  W.forEach self.variableParameters VariableParameter.serialize

/-- `FastEntityStatePdu.parse`, /repo/opendis/dis7.py:5813-5868; returns the updated object. -/
def FastEntityStatePdu.parse (self : FastEntityStatePdu) : R FastEntityStatePdu := do
  let base ← EntityInformationFamilyPdu.parse self.toEntityInformationFamilyPdu
  let site ← read_unsigned_short
  let application ← read_unsigned_short
  let entity ← read_unsigned_short
  let forceId ← read_unsigned_byte
  let numberOfVariableParameters ← read_byte
  let entityKind ← read_unsigned_byte
  let domain ← read_unsigned_byte
  let country ← read_unsigned_short
  let category ← read_unsigned_byte
  let subcategory ← read_unsigned_byte
  let specific ← read_unsigned_byte
  let extra ← read_unsigned_byte
  let altEntityKind ← read_unsigned_byte
  let altDomain ← read_unsigned_byte
  let altCountry ← read_unsigned_short
  let altCategory ← read_unsigned_byte
  let altSubcategory ← read_unsigned_byte
  let altSpecific ← read_unsigned_byte
  let altExtra ← read_unsigned_byte
  let xVelocity ← read_float
  let yVelocity ← read_float
  let zVelocity ← read_float
  let xLocation ← read_double
  let yLocation ← read_double
  let zLocation ← read_double
  let psi ← read_float
  let theta ← read_float
  let phi ← read_float
  let entityAppearance ← read_int
  let deadReckoningAlgorithm ← read_unsigned_byte
  let otherParameters ← R.times 15 read_byte
  let xAcceleration ← read_float
  let yAcceleration ← read_float
  let zAcceleration ← read_float
  let xAngularVelocity ← read_float
  let yAngularVelocity ← read_float
  let zAngularVelocity ← read_float
  let marking ← R.times 12 read_byte
  let capabilities ← read_int
  let variableParameters ← R.times numberOfVariableParameters.toNat (VariableParameter.parse VariableParameter.init)
  return { self with
    toEntityInformationFamilyPdu := base,
    site := site,
    application := application,
    entity := entity,
    forceId := forceId,
    numberOfVariableParameters := numberOfVariableParameters,
    entityKind := entityKind,
    domain := domain,
    country := country,
    category := category,
    subcategory := subcategory,
    specific := specific,
    extra := extra,
    altEntityKind := altEntityKind,
    altDomain := altDomain,
    altCountry := altCountry,
    altCategory := altCategory,
    altSubcategory := altSubcategory,
    altSpecific := altSpecific,
    altExtra := altExtra,
    xVelocity := xVelocity,
    yVelocity := yVelocity,
    zVelocity := zVelocity,
    xLocation := xLocation,
    yLocation := yLocation,
    zLocation := zLocation,
    psi := psi,
    theta := theta,
    phi := phi,
    entityAppearance := entityAppearance,
    deadReckoningAlgorithm := deadReckoningAlgorithm,
    otherParameters := otherParameters,
    xAcceleration := xAcceleration,
    yAcceleration := yAcceleration,
    zAcceleration := zAcceleration,
    xAngularVelocity := xAngularVelocity,
    yAngularVelocity := yAngularVelocity,
    zAngularVelocity := zAngularVelocity,
    marking := marking,
    capabilities := capabilities,
    variableParameters := self.variableParameters ++ variableParameters }

/-- Attributes of a `AcknowledgeReliablePdu` object, /repo/opendis/dis7.py:5871-5902; default values are those of an
object made by `AcknowledgeReliablePdu()`, /repo/opendis/dis7.py:5879-5888. -/
structure AcknowledgeReliablePdu extends SimulationManagementWithReliabilityFamilyPdu where
  acknowledgeFlag : Int := 0
  responseFlag : Int := 0
  requestID : Int := 0
  pduType := 55
  deriving DecidableEq

/-- Constructor `AcknowledgeReliablePdu(...)`, /repo/opendis/dis7.py:5879-5888. `x or T()` and `x or []` keep a given
value and replace `None` (absent) by a fresh one. -/
def AcknowledgeReliablePdu.init (acknowledgeFlag : Int := 0) (responseFlag : Int := 0)
    (requestID : Int := 0) : AcknowledgeReliablePdu :=
  { acknowledgeFlag := acknowledgeFlag,
    responseFlag := responseFlag,
    requestID := requestID }

/-- `AcknowledgeReliablePdu.serialize`, /repo/opendis/dis7.py:5890-5895. -/
def AcknowledgeReliablePdu.serialize (self : AcknowledgeReliablePdu) : W Unit := do
  SimulationManagementWithReliabilityFamilyPdu.serialize self.toSimulationManagementWithReliabilityFamilyPdu
  write_unsigned_short self.acknowledgeFlag
  write_unsigned_short self.responseFlag
  write_unsigned_int self.requestID

/-- `AcknowledgeReliablePdu.parse`, /repo/opendis/dis7.py:5897-5902; returns the updated object. -/
def AcknowledgeReliablePdu.parse (self : AcknowledgeReliablePdu) : R AcknowledgeReliablePdu := do
  let base ← SimulationManagementWithReliabilityFamilyPdu.parse self.toSimulationManagementWithReliabilityFamilyPdu
  let acknowledgeFlag ← read_unsigned_short
  let responseFlag ← read_unsigned_short
  let requestID ← read_unsigned_int
  return { self with
    toSimulationManagementWithReliabilityFamilyPdu := base,
    acknowledgeFlag := acknowledgeFlag,
    responseFlag := responseFlag,
    requestID := requestID }

/-- Attributes of a `StartResumeReliablePdu` object, /repo/opendis/dis7.py:5905-5946; default values are those of an
object made by `StartResumeReliablePdu()`, /repo/opendis/dis7.py:5912-5926. -/
structure StartResumeReliablePdu extends SimulationManagementWithReliabilityFamilyPdu where
  realWorldTime : ClockTime := ClockTime.init
  simulationTime : ClockTime := ClockTime.init
  requiredReliabilityService : Int := 0
  pad1 : Int := 0
  pad2 : Int := 0
  requestID : Int := 0
  pduType := 53
  deriving DecidableEq

/-- Constructor `StartResumeReliablePdu(...)`, /repo/opendis/dis7.py:5912-5926. `x or T()` and `x or []` keep a given
value and replace `None` (absent) by a fresh one. -/
def StartResumeReliablePdu.init (realWorldTime : Option ClockTime := none)
    (simulationTime : Option ClockTime := none) (requiredReliabilityService : Int := 0)
    (requestID : Int := 0) : StartResumeReliablePdu :=
  { realWorldTime := realWorldTime.getD ClockTime.init,
    simulationTime := simulationTime.getD ClockTime.init,
    requiredReliabilityService := requiredReliabilityService,
    pad1 := 0,
    pad2 := 0,
    requestID := requestID }

/-- `StartResumeReliablePdu.serialize`, /repo/opendis/dis7.py:5928-5936. -/
def StartResumeReliablePdu.serialize (self : StartResumeReliablePdu) : W Unit := do
  SimulationManagementWithReliabilityFamilyPdu.serialize self.toSimulationManagementWithReliabilityFamilyPdu
  ClockTime.serialize self.realWorldTime
  ClockTime.serialize self.simulationTime
  write_unsigned_byte self.requiredReliabilityService
  write_unsigned_short self.pad1
  write_unsigned_byte self.pad2
  write_unsigned_int self.requestID

/-- `StartResumeReliablePdu.parse`, /repo/opendis/dis7.py:5938-5946; returns the updated object. -/
def StartResumeReliablePdu.parse (self : StartResumeReliablePdu) : R StartResumeReliablePdu := do
  let base ← SimulationManagementWithReliabilityFamilyPdu.parse self.toSimulationManagementWithReliabilityFamilyPdu
  let realWorldTime ← ClockTime.parse self.realWorldTime
  let simulationTime ← ClockTime.parse self.simulationTime
  let requiredReliabilityService ← read_unsigned_byte
  let pad1 ← read_unsigned_short
  let pad2 ← read_unsigned_byte
  let requestID ← read_unsigned_int
  return { self with
    toSimulationManagementWithReliabilityFamilyPdu := base,
    realWorldTime := realWorldTime,
    simulationTime := simulationTime,
    requiredReliabilityService := requiredReliabilityService,
    pad1 := pad1,
    pad2 := pad2,
    requestID := requestID }

/-- Attributes of a `ArealObjectStatePdu` object, /repo/opendis/dis7.py:5949-6025; default values are those of an
object made by `ArealObjectStatePdu()`, /repo/opendis/dis7.py:5958-5985. -/
structure ArealObjectStatePdu extends SyntheticEnvironmentFamilyPdu where
  objectID : EntityIdentifier := EntityIdentifier.init
  referencedObjectID : EntityIdentifier := EntityIdentifier.init
  updateNumber : Int := 0
  forceID : Int := 0
  modifications : Int := 0
  objectType : ObjectType := ObjectType.init
  specificObjectAppearance : Int := 0
  generalObjectAppearance : Int := 0
  requesterID : SimulationAddress := SimulationAddress.init
  receivingID : SimulationAddress := SimulationAddress.init
  objectLocation : List WorldCoordinates := []
  pduType := 45
  deriving DecidableEq

/-- Constructor `ArealObjectStatePdu(...)`, /repo/opendis/dis7.py:5958-5985. `x or T()` and `x or []` keep a given
value and replace `None` (absent) by a fresh one. -/
def ArealObjectStatePdu.init (objectID : Option EntityIdentifier := none)
    (referencedObjectID : Option EntityIdentifier := none) (updateNumber : Int := 0)
    (forceId : Int := 0) (modifications : Int := 0) (objectType : Option ObjectType := none)
    (specificObjectAppearance : Int := 0) (generalObjectAppearance : Int := 0)
    (requesterID : Option SimulationAddress := none)
    (receivingID : Option SimulationAddress := none)
    (objectLocation : List WorldCoordinates := []) : ArealObjectStatePdu :=
  { objectID := objectID.getD EntityIdentifier.init,
    referencedObjectID := referencedObjectID.getD EntityIdentifier.init,
    updateNumber := updateNumber,
    forceID := forceId,
    modifications := modifications,
    objectType := objectType.getD ObjectType.init,
    specificObjectAppearance := specificObjectAppearance,
    generalObjectAppearance := generalObjectAppearance,
    requesterID := requesterID.getD SimulationAddress.init,
    receivingID := receivingID.getD SimulationAddress.init,
    objectLocation := objectLocation }

/-- `ArealObjectStatePdu.serialize`, /repo/opendis/dis7.py:5991-6006. -/
def ArealObjectStatePdu.serialize (self : ArealObjectStatePdu) : W Unit := do
  SyntheticEnvironmentFamilyPdu.serialize self.toSyntheticEnvironmentFamilyPdu
  EntityIdentifier.serialize self.objectID
  EntityIdentifier.serialize self.referencedObjectID
  write_unsigned_short self.updateNumber
  write_unsigned_byte self.forceID
  write_unsigned_byte self.modifications
  ObjectType.serialize self.objectType
  write_unsigned_int self.specificObjectAppearance
  write_unsigned_short self.generalObjectAppearance
  write_unsigned_short (self.objectLocation.length : Int)
  SimulationAddress.serialize self.requesterID
  SimulationAddress.serialize self.receivingID
  W.forEach self.objectLocation WorldCoordinates.serialize

/-- `ArealObjectStatePdu.parse`, /repo/opendis/dis7.py:6008-6025; returns the updated object. -/
def ArealObjectStatePdu.parse (self : ArealObjectStatePdu) : R ArealObjectStatePdu := do
  let base ← SyntheticEnvironmentFamilyPdu.parse self.toSyntheticEnvironmentFamilyPdu
  let objectID ← EntityIdentifier.parse self.objectID
  let referencedObjectID ← EntityIdentifier.parse self.referencedObjectID
  let updateNumber ← read_unsigned_short
  let forceID ← read_unsigned_byte
  let modifications ← read_unsigned_byte
  let objectType ← ObjectType.parse self.objectType
  let specificObjectAppearance ← read_unsigned_int
  let generalObjectAppearance ← read_unsigned_short
  let numberOfPoints ← read_unsigned_short
  let requesterID ← SimulationAddress.parse self.requesterID
  let receivingID ← SimulationAddress.parse self.receivingID
  let objectLocation ← R.times numberOfPoints.toNat (WorldCoordinates.parse WorldCoordinates.init)
  return { self with
    toSyntheticEnvironmentFamilyPdu := base,
    objectID := objectID,
    referencedObjectID := referencedObjectID,
    updateNumber := updateNumber,
    forceID := forceID,
    modifications := modifications,
    objectType := objectType,
    specificObjectAppearance := specificObjectAppearance,
    generalObjectAppearance := generalObjectAppearance,
    requesterID := requesterID,
    receivingID := receivingID,
    objectLocation := self.objectLocation ++ objectLocation }

/-- Attributes of a `DataQueryReliablePdu` object, /repo/opendis/dis7.py:6028-6087; default values are those of an
object made by `DataQueryReliablePdu()`, /repo/opendis/dis7.py:6035-6051. -/
structure DataQueryReliablePdu extends SimulationManagementWithReliabilityFamilyPdu where
  requiredReliabilityService : Int := 0
  pad1 : Int := 0
  pad2 : Int := 0
  requestID : Int := 0
  timeInterval : Int := 0
  _dataQuery : DataQueryDatumSpecification := DataQueryDatumSpecification.init
  pduType := 58
  deriving DecidableEq

/-- Constructor `DataQueryReliablePdu(...)`, /repo/opendis/dis7.py:6035-6051. `x or T()` and `x or []` keep a given
value and replace `None` (absent) by a fresh one. -/
def DataQueryReliablePdu.init (requiredReliabilityService : Int := 0) (requestID : Int := 0)
    (timeInterval : Int := 0) (fixedDatumIDs : List Int := [])
    (variableDatumIDs : List Int := []) : DataQueryReliablePdu :=
  { requiredReliabilityService := requiredReliabilityService,
    pad1 := 0,
    pad2 := 0,
    requestID := requestID,
    timeInterval := timeInterval,
    _dataQuery := DataQueryDatumSpecification.init fixedDatumIDs variableDatumIDs }

/-- `DataQueryReliablePdu.serialize`, /repo/opendis/dis7.py:6069-6077. -/
def DataQueryReliablePdu.serialize (self : DataQueryReliablePdu) : W Unit := do
  SimulationManagementWithReliabilityFamilyPdu.serialize self.toSimulationManagementWithReliabilityFamilyPdu
  write_unsigned_byte self.requiredReliabilityService
  write_unsigned_short self.pad1
  write_unsigned_byte self.pad2
  write_unsigned_int self.requestID
  write_unsigned_int self.timeInterval
  DataQueryDatumSpecification.serialize self._dataQuery

/-- `DataQueryReliablePdu.parse`, /repo/opendis/dis7.py:6079-6087; returns the updated object. -/
def DataQueryReliablePdu.parse (self : DataQueryReliablePdu) : R DataQueryReliablePdu := do
  let base ← SimulationManagementWithReliabilityFamilyPdu.parse self.toSimulationManagementWithReliabilityFamilyPdu
  let requiredReliabilityService ← read_unsigned_byte
  let pad1 ← read_unsigned_short
  let pad2 ← read_unsigned_byte
  let requestID ← read_unsigned_int
  let timeInterval ← read_unsigned_int
  let _dataQuery ← DataQueryDatumSpecification.parse self._dataQuery
  return { self with
    toSimulationManagementWithReliabilityFamilyPdu := base,
    requiredReliabilityService := requiredReliabilityService,
    pad1 := pad1,
    pad2 := pad2,
    requestID := requestID,
    timeInterval := timeInterval,
    _dataQuery := _dataQuery }

/-- Attributes of a `MinefieldStatePdu` object, /repo/opendis/dis7.py:6090-6172; default values are those of an
object made by `MinefieldStatePdu()`, /repo/opendis/dis7.py:6098-6122. -/
structure MinefieldStatePdu extends MinefieldFamilyPdu where
  minefieldID : MinefieldIdentifier := MinefieldIdentifier.init
  minefieldSequence : Int := 0
  forceID : Int := 0
  minefieldType : EntityType := EntityType.init
  minefieldLocation : WorldCoordinates := WorldCoordinates.init
  minefieldOrientation : EulerAngles := EulerAngles.init
  appearance : Int := 0
  protocolMode : Int := 0
  perimeterPoints : List Vector2Float := []
  mineTypes : List EntityType := []
  pduType := 37
  deriving DecidableEq

/-- Constructor `MinefieldStatePdu(...)`, /repo/opendis/dis7.py:6098-6122. `x or T()` and `x or []` keep a given
value and replace `None` (absent) by a fresh one. -/
def MinefieldStatePdu.init (minefieldID : Option MinefieldIdentifier := none)
    (minefieldSequence : Int := 0) (forceID : Int := 0)
    (minefieldType : Option EntityType := none)
    (minefieldLocation : Option WorldCoordinates := none)
    (minefieldOrientation : Option EulerAngles := none) (appearance : Int := 0)
    (protocolMode : Int := 0) (perimeterPoints : List Vector2Float := [])
    (mineTypes : List EntityType := []) : MinefieldStatePdu :=
  { minefieldID := minefieldID.getD MinefieldIdentifier.init,
    minefieldSequence := minefieldSequence,
    forceID := forceID,
    minefieldType := minefieldType.getD EntityType.init,
    minefieldLocation := minefieldLocation.getD WorldCoordinates.init,
    minefieldOrientation := minefieldOrientation.getD EulerAngles.init,
    appearance := appearance,
    protocolMode := protocolMode,
    perimeterPoints := perimeterPoints,
    mineTypes := mineTypes }

/-- `MinefieldStatePdu.serialize`, /repo/opendis/dis7.py:6132-6149. -/
def MinefieldStatePdu.serialize (self : MinefieldStatePdu) : W Unit := do
  MinefieldFamilyPdu.serialize self.toMinefieldFamilyPdu
  MinefieldIdentifier.serialize self.minefieldID
  write_unsigned_short self.minefieldSequence
  write_unsigned_byte self.forceID
  write_unsigned_byte (self.perimeterPoints.length : Int)
  EntityType.serialize self.minefieldType
  write_unsigned_short (self.mineTypes.length : Int)
  WorldCoordinates.serialize self.minefieldLocation
  EulerAngles.serialize self.minefieldOrientation
  write_unsigned_short self.appearance
  write_unsigned_short self.protocolMode
  W.forEach self.perimeterPoints Vector2Float.serialize
  W.forEach self.mineTypes EntityType.serialize

/-- `MinefieldStatePdu.parse`, /repo/opendis/dis7.py:6151-6172; returns the updated object. -/
def MinefieldStatePdu.parse (self : MinefieldStatePdu) : R MinefieldStatePdu := do
  let base ← MinefieldFamilyPdu.parse self.toMinefieldFamilyPdu
  let minefieldID ← MinefieldIdentifier.parse self.minefieldID
  let minefieldSequence ← read_unsigned_short
  let forceID ← read_unsigned_byte
  let numberOfPerimeterPoints ← read_unsigned_byte
  let minefieldType ← EntityType.parse self.minefieldType
  let numberOfMineTypes ← read_unsigned_short
  let minefieldLocation ← WorldCoordinates.parse self.minefieldLocation
  let minefieldOrientation ← EulerAngles.parse self.minefieldOrientation
  let appearance ← read_unsigned_short
  let protocolMode ← read_unsigned_short
  let perimeterPoints ← R.times numberOfPerimeterPoints.toNat (Vector2Float.parse Vector2Float.init)
  let mineTypes ← R.times numberOfMineTypes.toNat (EntityType.parse EntityType.init)
  return { self with
    toMinefieldFamilyPdu := base,
    minefieldID := minefieldID,
    minefieldSequence := minefieldSequence,
    forceID := forceID,
    minefieldType := minefieldType,
    minefieldLocation := minefieldLocation,
    minefieldOrientation := minefieldOrientation,
    appearance := appearance,
    protocolMode := protocolMode,
    perimeterPoints := self.perimeterPoints ++ perimeterPoints,
    mineTypes := self.mineTypes ++ mineTypes }

/-- Attributes of a `DataReliablePdu` object, /repo/opendis/dis7.py:6175-6230; default values are those of an
object made by `DataReliablePdu()`, /repo/opendis/dis7.py:6183-6196. -/
structure DataReliablePdu extends SimulationManagementWithReliabilityFamilyPdu where
  requestID : Int := 0
  requiredReliabilityService : Int := 0
  pad1 : Int := 0
  pad2 : Int := 0
  _datums : DatumSpecification := DatumSpecification.init
  pduType := 60
  deriving DecidableEq

/-- Constructor `DataReliablePdu(...)`, /repo/opendis/dis7.py:6183-6196. `x or T()` and `x or []` keep a given
value and replace `None` (absent) by a fresh one. -/
def DataReliablePdu.init (requestID : Int := 0) (requiredReliabilityService : Int := 0)
    (fixedDatumRecords : List FixedDatum := []) (variableDatumRecords : List VariableDatum := []) : DataReliablePdu :=
  { requestID := requestID,
    requiredReliabilityService := requiredReliabilityService,
    pad1 := 0,
    pad2 := 0,
    _datums := DatumSpecification.init fixedDatumRecords variableDatumRecords }

/-- `DataReliablePdu.serialize`, /repo/opendis/dis7.py:6214-6221. -/
def DataReliablePdu.serialize (self : DataReliablePdu) : W Unit := do
  SimulationManagementWithReliabilityFamilyPdu.serialize self.toSimulationManagementWithReliabilityFamilyPdu
  write_unsigned_int self.requestID
  write_unsigned_byte self.requiredReliabilityService
  write_unsigned_short self.pad1
  write_unsigned_byte self.pad2
  DatumSpecification.serialize self._datums

/-- `DataReliablePdu.parse`, /repo/opendis/dis7.py:6223-6230; returns the updated object. -/
def DataReliablePdu.parse (self : DataReliablePdu) : R DataReliablePdu := do
  let base ← SimulationManagementWithReliabilityFamilyPdu.parse self.toSimulationManagementWithReliabilityFamilyPdu
  let requestID ← read_unsigned_int
  let requiredReliabilityService ← read_unsigned_byte
  let pad1 ← read_unsigned_short
  let pad2 ← read_unsigned_byte
  let _datums ← DatumSpecification.parse self._datums
  return { self with
    toSimulationManagementWithReliabilityFamilyPdu := base,
    requestID := requestID,
    requiredReliabilityService := requiredReliabilityService,
    pad1 := pad1,
    pad2 := pad2,
    _datums := _datums }

/-- Attributes of a `CommentPdu` object, /repo/opendis/dis7.py:6233-6272; default values are those of an
object made by `CommentPdu()`, /repo/opendis/dis7.py:6240-6246. -/
structure CommentPdu extends SimulationManagementFamilyPdu where
  _datums : DatumSpecification := DatumSpecification.init
  pduType := 22
  deriving DecidableEq

/-- Constructor `CommentPdu(...)`, /repo/opendis/dis7.py:6240-6246. `x or T()` and `x or []` keep a given
value and replace `None` (absent) by a fresh one. -/
def CommentPdu.init (fixedDatumRecords : List FixedDatum := [])
    (variableDatumRecords : List VariableDatum := []) : CommentPdu :=
  { _datums := DatumSpecification.init fixedDatumRecords variableDatumRecords }

/-- `CommentPdu.serialize`, /repo/opendis/dis7.py:6264-6267. -/
def CommentPdu.serialize (self : CommentPdu) : W Unit := do
  SimulationManagementFamilyPdu.serialize self.toSimulationManagementFamilyPdu
  DatumSpecification.serialize self._datums

/-- `CommentPdu.parse`, /repo/opendis/dis7.py:6269-6272; returns the updated object. -/
def CommentPdu.parse (self : CommentPdu) : R CommentPdu := do
  let base ← SimulationManagementFamilyPdu.parse self.toSimulationManagementFamilyPdu
  let _datums ← DatumSpecification.parse self._datums
  return { self with toSimulationManagementFamilyPdu := base, _datums := _datums }

/-- Attributes of a `CommentReliablePdu` object, /repo/opendis/dis7.py:6275-6315; default values are those of an
object made by `CommentReliablePdu()`, /repo/opendis/dis7.py:6283-6289. -/
structure CommentReliablePdu extends SimulationManagementWithReliabilityFamilyPdu where
  _datums : DatumSpecification := DatumSpecification.init
  pduType := 62
  deriving DecidableEq

/-- Constructor `CommentReliablePdu(...)`, /repo/opendis/dis7.py:6283-6289. `x or T()` and `x or []` keep a given
value and replace `None` (absent) by a fresh one. -/
def CommentReliablePdu.init (fixedDatumRecords : List FixedDatum := [])
    (variableDatumRecords : List VariableDatum := []) : CommentReliablePdu :=
  { _datums := DatumSpecification.init fixedDatumRecords variableDatumRecords }

/-- `CommentReliablePdu.serialize`, /repo/opendis/dis7.py:6307-6310. -/
def CommentReliablePdu.serialize (self : CommentReliablePdu) : W Unit := do
  SimulationManagementWithReliabilityFamilyPdu.serialize self.toSimulationManagementWithReliabilityFamilyPdu
  DatumSpecification.serialize self._datums

/-- `CommentReliablePdu.parse`, /repo/opendis/dis7.py:6312-6315; returns the updated object. -/
def CommentReliablePdu.parse (self : CommentReliablePdu) : R CommentReliablePdu := do
  let base ← SimulationManagementWithReliabilityFamilyPdu.parse self.toSimulationManagementWithReliabilityFamilyPdu
  let _datums ← DatumSpecification.parse self._datums
  return { self with toSimulationManagementWithReliabilityFamilyPdu := base, _datums := _datums }

/-- Attributes of a `DetonationPdu` object, /repo/opendis/dis7.py:6406-6475; default values are those of an
object made by `DetonationPdu()`, /repo/opendis/dis7.py:6415-6439. -/
structure DetonationPdu extends WarfareFamilyPdu where
  explodingEntityID : EntityIdentifier := EntityIdentifier.init
  eventID : EventIdentifier := EventIdentifier.init
  velocity : Vector3Float := Vector3Float.init
  location : WorldCoordinates := WorldCoordinates.init
  descriptor : MunitionDescriptor := MunitionDescriptor.init
  locationInEntityCoordinates : Vector3Float := Vector3Float.init
  detonationResult : Int := 0
  pad : Int := 0
  variableParameters : List VariableParameter := []
  pduType := 3
  deriving DecidableEq

/-- Constructor `DetonationPdu(...)`, /repo/opendis/dis7.py:6415-6439. `x or T()` and `x or []` keep a given
value and replace `None` (absent) by a fresh one. -/
def DetonationPdu.init (explodingEntityID : Option EntityIdentifier := none)
    (eventID : Option EventIdentifier := none) (velocity : Option Vector3Float := none)
    (location : Option WorldCoordinates := none) (descriptor : Option MunitionDescriptor := none)
    (locationInEntityCoordinates : Option Vector3Float := none) (detonationResult : Int := 0)
    (variableParameters : List VariableParameter := []) : DetonationPdu :=
  { explodingEntityID := explodingEntityID.getD EntityIdentifier.init,
    eventID := eventID.getD EventIdentifier.init,
    velocity := velocity.getD Vector3Float.init,
    location := location.getD WorldCoordinates.init,
    descriptor := descriptor.getD MunitionDescriptor.init,
    locationInEntityCoordinates := locationInEntityCoordinates.getD Vector3Float.init,
    detonationResult := detonationResult,
    pad := 0,
    variableParameters := variableParameters }

/-- `DetonationPdu.serialize`, /repo/opendis/dis7.py:6445-6458. -/
def DetonationPdu.serialize (self : DetonationPdu) : W Unit := do
  WarfareFamilyPdu.serialize self.toWarfareFamilyPdu
  EntityIdentifier.serialize self.explodingEntityID
  EventIdentifier.serialize self.eventID
  Vector3Float.serialize self.velocity
  WorldCoordinates.serialize self.location
  MunitionDescriptor.serialize self.descriptor
  Vector3Float.serialize self.locationInEntityCoordinates
  write_unsigned_byte self.detonationResult
  write_unsigned_byte (self.variableParameters.length : Int)
  write_unsigned_short self.pad
  W.forEach self.variableParameters VariableParameter.serialize

/-- `DetonationPdu.parse`, /repo/opendis/dis7.py:6460-6475; returns the updated object. -/
def DetonationPdu.parse (self : DetonationPdu) : R DetonationPdu := do
  let base ← WarfareFamilyPdu.parse self.toWarfareFamilyPdu
  let explodingEntityID ← EntityIdentifier.parse self.explodingEntityID
  let eventID ← EventIdentifier.parse self.eventID
  let velocity ← Vector3Float.parse self.velocity
  let location ← WorldCoordinates.parse self.location
  let descriptor ← MunitionDescriptor.parse self.descriptor
  let locationInEntityCoordinates ← Vector3Float.parse self.locationInEntityCoordinates
  let detonationResult ← read_unsigned_byte
  let numberOfVariableParameters ← read_unsigned_byte
  let pad ← read_unsigned_short
  let variableParameters ← R.times numberOfVariableParameters.toNat (VariableParameter.parse VariableParameter.init)
  return { self with
    toWarfareFamilyPdu := base,
    explodingEntityID := explodingEntityID,
    eventID := eventID,
    velocity := velocity,
    location := location,
    descriptor := descriptor,
    locationInEntityCoordinates := locationInEntityCoordinates,
    detonationResult := detonationResult,
    pad := pad,
    variableParameters := self.variableParameters ++ variableParameters }

/-- Attributes of a `SetDataPdu` object, /repo/opendis/dis7.py:6478-6524; default values are those of an
object made by `SetDataPdu()`, /repo/opendis/dis7.py:6485-6494. -/
structure SetDataPdu extends SimulationManagementFamilyPdu where
  requestID : Int := 0
  padding1 : Int := 0
  _datums : DatumSpecification := DatumSpecification.init
  pduType := 19
  deriving DecidableEq

/-- Constructor `SetDataPdu(...)`, /repo/opendis/dis7.py:6485-6494. `x or T()` and `x or []` keep a given
value and replace `None` (absent) by a fresh one. -/
def SetDataPdu.init (requestID : Int := 0) (fixedDatumRecords : List FixedDatum := [])
    (variableDatumRecords : List VariableDatum := []) : SetDataPdu :=
  { requestID := requestID,
    padding1 := 0,
    _datums := DatumSpecification.init fixedDatumRecords variableDatumRecords }

/-- `SetDataPdu.serialize`, /repo/opendis/dis7.py:6512-6517. -/
def SetDataPdu.serialize (self : SetDataPdu) : W Unit := do
  SimulationManagementFamilyPdu.serialize self.toSimulationManagementFamilyPdu
  write_unsigned_int self.requestID
  write_unsigned_int self.padding1
  DatumSpecification.serialize self._datums

/-- `SetDataPdu.parse`, /repo/opendis/dis7.py:6519-6524; returns the updated object. -/
def SetDataPdu.parse (self : SetDataPdu) : R SetDataPdu := do
  let base ← SimulationManagementFamilyPdu.parse self.toSimulationManagementFamilyPdu
  let requestID ← read_unsigned_int
  let padding1 ← read_unsigned_int
  let _datums ← DatumSpecification.parse self._datums
  return { self with
    toSimulationManagementFamilyPdu := base,
    requestID := requestID,
    padding1 := padding1,
    _datums := _datums }

/-- Attributes of a `RecordQueryReliablePdu` object, /repo/opendis/dis7.py:6527-6581; default values are those of an
object made by `RecordQueryReliablePdu()`, /repo/opendis/dis7.py:6534-6549. -/
structure RecordQueryReliablePdu extends SimulationManagementWithReliabilityFamilyPdu where
  requestID : Int := 0
  requiredReliabilityService : Int := 0
  pad1 : Int := 0
  pad2 : Int := 0
  eventType : Int := 0
  time : Int := 0
  recordIDs : List Int := []
  pduType := 63
  deriving DecidableEq

/-- Constructor `RecordQueryReliablePdu(...)`, /repo/opendis/dis7.py:6534-6549. `x or T()` and `x or []` keep a given
value and replace `None` (absent) by a fresh one. -/
def RecordQueryReliablePdu.init (requestID : Int := 0) (requiredReliabilityService : Int := 0)
    (eventType : Int := 0) (time : Int := 0) (recordIDs : List Int := []) : RecordQueryReliablePdu :=
  { requestID := requestID,
    requiredReliabilityService := requiredReliabilityService,
    pad1 := 0,
    pad2 := 0,
    eventType := eventType,
    time := time,
    recordIDs := recordIDs }

/-- `RecordQueryReliablePdu.serialize`, /repo/opendis/dis7.py:6555-6566. -/
def RecordQueryReliablePdu.serialize (self : RecordQueryReliablePdu) : W Unit := do
  SimulationManagementWithReliabilityFamilyPdu.serialize self.toSimulationManagementWithReliabilityFamilyPdu
  write_unsigned_int self.requestID
  write_unsigned_byte self.requiredReliabilityService
  write_unsigned_short self.pad1
  write_unsigned_byte self.pad2
  write_unsigned_short self.eventType
  write_unsigned_int self.time
  write_unsigned_int (self.recordIDs.length : Int)
  W.forEach self.recordIDs fun _ => W.throw .attributeError

/-- `RecordQueryReliablePdu.parse`, /repo/opendis/dis7.py:6568-6581; returns the updated object. -/
def RecordQueryReliablePdu.parse (self : RecordQueryReliablePdu) : R RecordQueryReliablePdu := do
  let base ← SimulationManagementWithReliabilityFamilyPdu.parse self.toSimulationManagementWithReliabilityFamilyPdu
  let requestID ← read_unsigned_int
  let requiredReliabilityService ← read_unsigned_byte
  let pad1 ← read_unsigned_short
  let pad2 ← read_unsigned_byte
  let eventType ← read_unsigned_short
  let time ← read_unsigned_int
  let numberOfRecords ← read_unsigned_int
  let recordIDs ← R.times numberOfRecords.toNat (R.throw .nameError : R Int)
  return { self with
    toSimulationManagementWithReliabilityFamilyPdu := base,
    requestID := requestID,
    requiredReliabilityService := requiredReliabilityService,
    pad1 := pad1,
    pad2 := pad2,
    eventType := eventType,
    time := time,
    recordIDs := self.recordIDs ++ recordIDs }

/-- Attributes of a `ActionResponsePdu` object, /repo/opendis/dis7.py:6584-6632; default values are those of an
object made by `ActionResponsePdu()`, /repo/opendis/dis7.py:6591-6602. -/
structure ActionResponsePdu extends SimulationManagementFamilyPdu where
  requestID : Int := 0
  requestStatus : Int := 0
  _datums : DatumSpecification := DatumSpecification.init
  pduType := 17
  deriving DecidableEq

/-- Constructor `ActionResponsePdu(...)`, /repo/opendis/dis7.py:6591-6602. `x or T()` and `x or []` keep a given
value and replace `None` (absent) by a fresh one. -/
def ActionResponsePdu.init (requestID : Int := 0) (requestStatus : Int := 0)
    (fixedDatumRecords : List FixedDatum := []) (variableDatumRecords : List VariableDatum := []) : ActionResponsePdu :=
  { requestID := requestID,
    requestStatus := requestStatus,
    _datums := DatumSpecification.init fixedDatumRecords variableDatumRecords }

/-- `ActionResponsePdu.serialize`, /repo/opendis/dis7.py:6620-6625. -/
def ActionResponsePdu.serialize (self : ActionResponsePdu) : W Unit := do
  SimulationManagementFamilyPdu.serialize self.toSimulationManagementFamilyPdu
  write_unsigned_int self.requestID
  write_unsigned_int self.requestStatus
  DatumSpecification.serialize self._datums

/-- `ActionResponsePdu.parse`, /repo/opendis/dis7.py:6627-6632; returns the updated object. -/
def ActionResponsePdu.parse (self : ActionResponsePdu) : R ActionResponsePdu := do
  let base ← SimulationManagementFamilyPdu.parse self.toSimulationManagementFamilyPdu
  let requestID ← read_unsigned_int
  let requestStatus ← read_unsigned_int
  let _datums ← DatumSpecification.parse self._datums
  return { self with
    toSimulationManagementFamilyPdu := base,
    requestID := requestID,
    requestStatus := requestStatus,
    _datums := _datums }

end Dis
