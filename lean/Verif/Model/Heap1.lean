import Verif.Model.Pdus5
import Verif.Py.Heap

/-!
# Methods as programs on a memory of objects, part 1

Generated by `tools/genheap.py` from the Python source; each definition cites the lines it transliterates.
-/

set_option linter.unusedVariables false
set_option linter.unusedSimpArgs false

namespace Dis

/-- Attributes of a `SimulationAddress` object before `__init__` (/repo/opendis/record/common.py:115-139): class attributes have
values. -/
def SimulationAddress.attrs : List (String × Scalar) :=
  [("site", .absent), ("application", .absent)]

/-- `SimulationAddress.__init__`, /repo/opendis/record/common.py:122-128, statement by statement. -/
def SimulationAddress.initHeap (self : Ref) (site : Val := .sc (.int 0))
    (application : Val := .sc (.int 0)) : H Unit := do
  H.setAttr self "site" site
  H.setAttr self "application" application

/-- `SimulationAddress(...)`, /repo/opendis/record/common.py:122-128. -/
def SimulationAddress.newHeap (site : Val := .sc (.int 0)) (application : Val := .sc (.int 0))
    : H Ref :=
  H.new SimulationAddress.attrs fun self => SimulationAddress.initHeap self site application

/-- `SimulationAddress.parse`, /repo/opendis/record/common.py:137-139, statement by statement. -/
def SimulationAddress.parseHeap (self : Ref) : H Unit := do
  let site ← H.read read_unsigned_short
  H.setAttr self "site" (.sc (.int site))
  let application ← H.read read_unsigned_short
  H.setAttr self "application" (.sc (.int application))
  return ()

/-- `SimulationAddress.serialize`, /repo/opendis/record/common.py:133-135, statement by statement. -/
def SimulationAddress.serializeHeap (self : Ref) : S Unit := do
  S.putInt self "site" write_unsigned_short
  S.putInt self "application" write_unsigned_short

/-- Attributes of a `EntityIdentifier` object before `__init__` (/repo/opendis/record/common.py:32-54): class attributes have
values. -/
def EntityIdentifier.attrs : List (String × Scalar) :=
  [("simulationAddress", .absent), ("entityNumber", .absent)]

/-- `EntityIdentifier.__init__`, /repo/opendis/record/common.py:39-43, statement by statement. -/
def EntityIdentifier.initHeap (self : Ref) (simulationAddress : Val := .sc .none)
    (entityNumber : Val := .sc (.int 0)) : H Unit := do
  H.setOr self "simulationAddress" simulationAddress SimulationAddress.newHeap
  H.setAttr self "entityNumber" entityNumber

/-- `EntityIdentifier(...)`, /repo/opendis/record/common.py:39-43. -/
def EntityIdentifier.newHeap (simulationAddress : Val := .sc .none)
    (entityNumber : Val := .sc (.int 0)) : H Ref :=
  H.new EntityIdentifier.attrs fun self => EntityIdentifier.initHeap self simulationAddress entityNumber

/-- `EntityIdentifier.parse`, /repo/opendis/record/common.py:52-54, statement by statement. -/
def EntityIdentifier.parseHeap (self : Ref) : H Unit := do
  H.call self "simulationAddress" SimulationAddress.parseHeap
  let entityNumber ← H.read read_uint16
  H.setAttr self "entityNumber" (.sc (.int entityNumber))
  return ()

/-- `EntityIdentifier.serialize`, /repo/opendis/record/common.py:48-50, statement by statement. -/
def EntityIdentifier.serializeHeap (self : Ref) : S Unit := do
  S.call self "simulationAddress" SimulationAddress.serializeHeap
  S.putInt self "entityNumber" write_uint16

/-- Attributes of a `EulerAngles` object before `__init__` (/repo/opendis/record/common.py:57-85): class attributes have
values. -/
def EulerAngles.attrs : List (String × Scalar) :=
  [("psi", .absent), ("theta", .absent), ("phi", .absent)]

/-- `EulerAngles.__init__`, /repo/opendis/record/common.py:66-72, statement by statement. -/
def EulerAngles.initHeap (self : Ref) (psi : Val := .sc (.float 0x0000000000000000))
    (theta : Val := .sc (.float 0x0000000000000000))
    (phi : Val := .sc (.float 0x0000000000000000)) : H Unit := do
  H.setAttr self "psi" psi
  H.setAttr self "theta" theta
  H.setAttr self "phi" phi

/-- `EulerAngles(...)`, /repo/opendis/record/common.py:66-72. -/
def EulerAngles.newHeap (psi : Val := .sc (.float 0x0000000000000000))
    (theta : Val := .sc (.float 0x0000000000000000))
    (phi : Val := .sc (.float 0x0000000000000000)) : H Ref :=
  H.new EulerAngles.attrs fun self => EulerAngles.initHeap self psi theta phi

/-- `EulerAngles.parse`, /repo/opendis/record/common.py:82-85, statement by statement. -/
def EulerAngles.parseHeap (self : Ref) : H Unit := do
  let psi ← H.read read_float32
  H.setAttr self "psi" (.sc (.float psi))
  let theta ← H.read read_float32
  H.setAttr self "theta" (.sc (.float theta))
  let phi ← H.read read_float32
  H.setAttr self "phi" (.sc (.float phi))
  return ()

/-- `EulerAngles.serialize`, /repo/opendis/record/common.py:77-80, statement by statement. -/
def EulerAngles.serializeHeap (self : Ref) : S Unit := do
  S.putFloat self "psi" write_float32
  S.putFloat self "theta" write_float32
  S.putFloat self "phi" write_float32

/-- Attributes of a `EventIdentifier` object before `__init__` (/repo/opendis/record/common.py:88-112): class attributes have
values. -/
def EventIdentifier.attrs : List (String × Scalar) :=
  [("simulationAddress", .absent), ("eventNumber", .absent)]

/-- `EventIdentifier.__init__`, /repo/opendis/record/common.py:96-101, statement by statement. -/
def EventIdentifier.initHeap (self : Ref) (simulationAddress : Val := .sc .none)
    (eventNumber : Val := .sc (.int 0)) : H Unit := do
  H.setOr self "simulationAddress" simulationAddress SimulationAddress.newHeap
  H.setAttr self "eventNumber" eventNumber

/-- `EventIdentifier(...)`, /repo/opendis/record/common.py:96-101. -/
def EventIdentifier.newHeap (simulationAddress : Val := .sc .none)
    (eventNumber : Val := .sc (.int 0)) : H Ref :=
  H.new EventIdentifier.attrs fun self => EventIdentifier.initHeap self simulationAddress eventNumber

/-- `EventIdentifier.parse`, /repo/opendis/record/common.py:110-112, statement by statement. -/
def EventIdentifier.parseHeap (self : Ref) : H Unit := do
  H.call self "simulationAddress" SimulationAddress.parseHeap
  let eventNumber ← H.read read_unsigned_short
  H.setAttr self "eventNumber" (.sc (.int eventNumber))
  return ()

/-- `EventIdentifier.serialize`, /repo/opendis/record/common.py:106-108, statement by statement. -/
def EventIdentifier.serializeHeap (self : Ref) : S Unit := do
  S.call self "simulationAddress" SimulationAddress.serializeHeap
  S.putInt self "eventNumber" write_unsigned_short

/-- Attributes of a `Vector3Float` object before `__init__` (/repo/opendis/record/common.py:142-168): class attributes have
values. -/
def Vector3Float.attrs : List (String × Scalar) :=
  [("x", .absent), ("y", .absent), ("z", .absent)]

/-- `Vector3Float.__init__`, /repo/opendis/record/common.py:152-155, statement by statement. -/
def Vector3Float.initHeap (self : Ref) (x : Val := .sc (.float 0x0000000000000000))
    (y : Val := .sc (.float 0x0000000000000000)) (z : Val := .sc (.float 0x0000000000000000))
    : H Unit := do
  H.setAttr self "x" x
  H.setAttr self "y" y
  H.setAttr self "z" z

/-- `Vector3Float(...)`, /repo/opendis/record/common.py:152-155. -/
def Vector3Float.newHeap (x : Val := .sc (.float 0x0000000000000000))
    (y : Val := .sc (.float 0x0000000000000000)) (z : Val := .sc (.float 0x0000000000000000))
    : H Ref :=
  H.new Vector3Float.attrs fun self => Vector3Float.initHeap self x y z

/-- `Vector3Float.parse`, /repo/opendis/record/common.py:165-168, statement by statement. -/
def Vector3Float.parseHeap (self : Ref) : H Unit := do
  let x ← H.read read_float
  H.setAttr self "x" (.sc (.float x))
  let y ← H.read read_float
  H.setAttr self "y" (.sc (.float y))
  let z ← H.read read_float
  H.setAttr self "z" (.sc (.float z))
  return ()

/-- `Vector3Float.serialize`, /repo/opendis/record/common.py:160-163, statement by statement. -/
def Vector3Float.serializeHeap (self : Ref) : S Unit := do
  S.putFloat self "x" write_float
  S.putFloat self "y" write_float
  S.putFloat self "z" write_float

/-- Attributes of a `WorldCoordinates` object before `__init__` (/repo/opendis/record/common.py:171-196): class attributes have
values. -/
def WorldCoordinates.attrs : List (String × Scalar) :=
  [("x", .absent), ("y", .absent), ("z", .absent)]

/-- `WorldCoordinates.__init__`, /repo/opendis/record/common.py:180-183, statement by statement. -/
def WorldCoordinates.initHeap (self : Ref) (x : Val := .sc (.float 0x0000000000000000))
    (y : Val := .sc (.float 0x0000000000000000)) (z : Val := .sc (.float 0x0000000000000000))
    : H Unit := do
  H.setAttr self "x" x
  H.setAttr self "y" y
  H.setAttr self "z" z

/-- `WorldCoordinates(...)`, /repo/opendis/record/common.py:180-183. -/
def WorldCoordinates.newHeap (x : Val := .sc (.float 0x0000000000000000))
    (y : Val := .sc (.float 0x0000000000000000)) (z : Val := .sc (.float 0x0000000000000000))
    : H Ref :=
  H.new WorldCoordinates.attrs fun self => WorldCoordinates.initHeap self x y z

/-- `WorldCoordinates.parse`, /repo/opendis/record/common.py:193-196, statement by statement. -/
def WorldCoordinates.parseHeap (self : Ref) : H Unit := do
  let x ← H.read read_float64
  H.setAttr self "x" (.sc (.float x))
  let y ← H.read read_float64
  H.setAttr self "y" (.sc (.float y))
  let z ← H.read read_float64
  H.setAttr self "z" (.sc (.float z))
  return ()

/-- `WorldCoordinates.serialize`, /repo/opendis/record/common.py:188-191, statement by statement. -/
def WorldCoordinates.serializeHeap (self : Ref) : S Unit := do
  S.putFloat self "x" write_float64
  S.putFloat self "y" write_float64
  S.putFloat self "z" write_float64

/-- Attributes of a `DataQueryDatumSpecification` object before `__init__` (/repo/opendis/dis7.py:71-112): class attributes have
values. -/
def DataQueryDatumSpecification.attrs : List (String × Scalar) :=
  [("fixedDatumIDs", .absent), ("variableDatumIDs", .absent)]

/-- `DataQueryDatumSpecification.__init__`, /repo/opendis/dis7.py:77-83, statement by statement. -/
def DataQueryDatumSpecification.initHeap (self : Ref) (fixedDatumIDs : Val := .sc .none)
    (variableDatumIDs : Val := .sc .none) : H Unit := do
  H.setOr self "fixedDatumIDs" fixedDatumIDs (H.alloc (.list []))
  H.setOr self "variableDatumIDs" variableDatumIDs (H.alloc (.list []))

/-- `DataQueryDatumSpecification(...)`, /repo/opendis/dis7.py:77-83. -/
def DataQueryDatumSpecification.newHeap (fixedDatumIDs : Val := .sc .none)
    (variableDatumIDs : Val := .sc .none) : H Ref :=
  H.new DataQueryDatumSpecification.attrs fun self => DataQueryDatumSpecification.initHeap self fixedDatumIDs variableDatumIDs

/-- `DataQueryDatumSpecification.parse`, /repo/opendis/dis7.py:103-112, statement by statement. -/
def DataQueryDatumSpecification.parseHeap (self : Ref) : H Unit := do
  let numberOfFixedDatumIDs ← H.read read_unsigned_int
  let numberOfVariableDatumIDs ← H.read read_unsigned_int
  H.appendReads numberOfFixedDatumIDs.toNat read_unsigned_int .int self "fixedDatumIDs"
  H.appendReads numberOfVariableDatumIDs.toNat read_unsigned_int .int self "variableDatumIDs"
  return ()

/-- `DataQueryDatumSpecification.serialize`, /repo/opendis/dis7.py:93-101, statement by statement. -/
def DataQueryDatumSpecification.serializeHeap (self : Ref) : S Unit := do
  S.putLen self "fixedDatumIDs" write_unsigned_int
  S.putLen self "variableDatumIDs" write_unsigned_int
  S.eachInt self "fixedDatumIDs" write_unsigned_int
  S.eachInt self "variableDatumIDs" write_unsigned_int

/-- Attributes of a `RadioIdentifier` object before `__init__` (/repo/opendis/dis7.py:115-144): class attributes have
values. -/
def RadioIdentifier.attrs : List (String × Scalar) :=
  [("siteNumber", .absent), ("applicationNumber", .absent), ("referenceNumber", .absent),
   ("radioNumber", .absent)]

/-- `RadioIdentifier.__init__`, /repo/opendis/dis7.py:122-130, statement by statement. -/
def RadioIdentifier.initHeap (self : Ref) (siteNumber : Val := .sc (.int 0))
    (applicationNumber : Val := .sc (.int 0)) (referenceNumber : Val := .sc (.int 0))
    (radioNumber : Val := .sc (.int 0)) : H Unit := do
  H.setAttr self "siteNumber" siteNumber
  H.setAttr self "applicationNumber" applicationNumber
  H.setAttr self "referenceNumber" referenceNumber
  H.setAttr self "radioNumber" radioNumber

/-- `RadioIdentifier(...)`, /repo/opendis/dis7.py:122-130. -/
def RadioIdentifier.newHeap (siteNumber : Val := .sc (.int 0))
    (applicationNumber : Val := .sc (.int 0)) (referenceNumber : Val := .sc (.int 0))
    (radioNumber : Val := .sc (.int 0)) : H Ref :=
  H.new RadioIdentifier.attrs fun self => RadioIdentifier.initHeap self siteNumber applicationNumber referenceNumber radioNumber

/-- `RadioIdentifier.parse`, /repo/opendis/dis7.py:139-144, statement by statement. -/
def RadioIdentifier.parseHeap (self : Ref) : H Unit := do
  let siteNumber ← H.read read_unsigned_short
  H.setAttr self "siteNumber" (.sc (.int siteNumber))
  let applicationNumber ← H.read read_unsigned_short
  H.setAttr self "applicationNumber" (.sc (.int applicationNumber))
  let referenceNumber ← H.read read_unsigned_short
  H.setAttr self "referenceNumber" (.sc (.int referenceNumber))
  let radioNumber ← H.read read_unsigned_short
  H.setAttr self "radioNumber" (.sc (.int radioNumber))
  return ()

/-- `RadioIdentifier.serialize`, /repo/opendis/dis7.py:132-137, statement by statement. -/
def RadioIdentifier.serializeHeap (self : Ref) : S Unit := do
  S.putInt self "siteNumber" write_unsigned_short
  S.putInt self "applicationNumber" write_unsigned_short
  S.putInt self "referenceNumber" write_unsigned_short
  S.putInt self "radioNumber" write_unsigned_short

/-- Attributes of a `RequestID` object before `__init__` (/repo/opendis/dis7.py:147-164): class attributes have
values. -/
def RequestID.attrs : List (String × Scalar) :=
  [("requestID", .absent)]

/-- `RequestID.__init__`, /repo/opendis/dis7.py:154-156, statement by statement. -/
def RequestID.initHeap (self : Ref) (requestID : Val := .sc (.int 0)) : H Unit := do
  H.setAttr self "requestID" requestID

/-- `RequestID(...)`, /repo/opendis/dis7.py:154-156. -/
def RequestID.newHeap (requestID : Val := .sc (.int 0)) : H Ref :=
  H.new RequestID.attrs fun self => RequestID.initHeap self requestID

/-- `RequestID.parse`, /repo/opendis/dis7.py:162-164, statement by statement. -/
def RequestID.parseHeap (self : Ref) : H Unit := do
  let requestID ← H.read read_unsigned_int
  H.setAttr self "requestID" (.sc (.int requestID))
  return ()

/-- `RequestID.serialize`, /repo/opendis/dis7.py:158-160, statement by statement. -/
def RequestID.serializeHeap (self : Ref) : S Unit := do
  S.putInt self "requestID" write_unsigned_int

/-- Attributes of a `IFFData` object before `__init__` (/repo/opendis/dis7.py:167-201): class attributes have
values. -/
def IFFData.attrs : List (String × Scalar) :=
  [("recordType", .absent), ("recordLength", .absent), ("iffData", .absent)]

/-- `IFFData.__init__`, /repo/opendis/dis7.py:173-182, statement by statement. -/
def IFFData.initHeap (self : Ref) (recordType : Val := .sc (.int 0))
    (recordLength : Val := .sc (.int 0)) (iffData : Val := .sc .none) : H Unit := do
  H.setAttr self "recordType" recordType
  H.setAttr self "recordLength" recordLength
  H.setOr self "iffData" iffData (H.alloc (.list []))

/-- `IFFData(...)`, /repo/opendis/dis7.py:173-182. -/
def IFFData.newHeap (recordType : Val := .sc (.int 0)) (recordLength : Val := .sc (.int 0))
    (iffData : Val := .sc .none) : H Ref :=
  H.new IFFData.attrs fun self => IFFData.initHeap self recordType recordLength iffData

/-- `IFFData.parse`, /repo/opendis/dis7.py:192-201, statement by statement. -/
def IFFData.parseHeap (self : Ref) : H Unit := do
  let recordType ← H.read read_unsigned_int
  H.setAttr self "recordType" (.sc (.int recordType))
  let recordLength ← H.read read_unsigned_short
  H.setAttr self "recordLength" (.sc (.int recordLength))
  H.appendReads (recordLength - 6).toNat read_unsigned_byte .int self "iffData"
  return ()

/-- `IFFData.serialize`, /repo/opendis/dis7.py:184-190, statement by statement. -/
def IFFData.serializeHeap (self : Ref) : S Unit := do
  S.putInt self "recordType" write_unsigned_int
  S.putLen self "iffData" write_unsigned_short
  S.eachInt self "iffData" write_unsigned_byte

/-- Attributes of a `EntityType` object before `__init__` (/repo/opendis/dis7.py:2497-2540): class attributes have
values. -/
def EntityType.attrs : List (String × Scalar) :=
  [("entityKind", .absent), ("domain", .absent), ("country", .absent), ("category", .absent),
   ("subcategory", .absent), ("specific", .absent), ("extra", .absent)]

/-- `EntityType.__init__`, /repo/opendis/dis7.py:2503-2520, statement by statement. -/
def EntityType.initHeap (self : Ref) (entityKind : Val := .sc (.int 0))
    (domain : Val := .sc (.int 0)) (country : Val := .sc (.int 0))
    (category : Val := .sc (.int 0)) (subcategory : Val := .sc (.int 0))
    (specific : Val := .sc (.int 0)) (extra : Val := .sc (.int 0)) : H Unit := do
  H.setAttr self "entityKind" entityKind
  H.setAttr self "domain" domain
  H.setAttr self "country" country
  H.setAttr self "category" category
  H.setAttr self "subcategory" subcategory
  H.setAttr self "specific" specific
  H.setAttr self "extra" extra

/-- `EntityType(...)`, /repo/opendis/dis7.py:2503-2520. -/
def EntityType.newHeap (entityKind : Val := .sc (.int 0)) (domain : Val := .sc (.int 0))
    (country : Val := .sc (.int 0)) (category : Val := .sc (.int 0))
    (subcategory : Val := .sc (.int 0)) (specific : Val := .sc (.int 0))
    (extra : Val := .sc (.int 0)) : H Ref :=
  H.new EntityType.attrs fun self => EntityType.initHeap self entityKind domain country category subcategory specific extra

/-- `EntityType.parse`, /repo/opendis/dis7.py:2532-2540, statement by statement. -/
def EntityType.parseHeap (self : Ref) : H Unit := do
  let entityKind ← H.read read_unsigned_byte
  H.setAttr self "entityKind" (.sc (.int entityKind))
  let domain ← H.read read_unsigned_byte
  H.setAttr self "domain" (.sc (.int domain))
  let country ← H.read read_unsigned_short
  H.setAttr self "country" (.sc (.int country))
  let category ← H.read read_unsigned_byte
  H.setAttr self "category" (.sc (.int category))
  let subcategory ← H.read read_unsigned_byte
  H.setAttr self "subcategory" (.sc (.int subcategory))
  let specific ← H.read read_unsigned_byte
  H.setAttr self "specific" (.sc (.int specific))
  let extra ← H.read read_unsigned_byte
  H.setAttr self "extra" (.sc (.int extra))
  return ()

/-- `EntityType.serialize`, /repo/opendis/dis7.py:2522-2530, statement by statement. -/
def EntityType.serializeHeap (self : Ref) : S Unit := do
  S.putInt self "entityKind" write_unsigned_byte
  S.putInt self "domain" write_unsigned_byte
  S.putInt self "country" write_unsigned_short
  S.putInt self "category" write_unsigned_byte
  S.putInt self "subcategory" write_unsigned_byte
  S.putInt self "specific" write_unsigned_byte
  S.putInt self "extra" write_unsigned_byte

/-- Attributes of a `MunitionDescriptor` object before `__init__` (/repo/opendis/dis7.py:204-243): class attributes have
values. -/
def MunitionDescriptor.attrs : List (String × Scalar) :=
  [("munitionType", .absent), ("warhead", .absent), ("fuse", .absent), ("quantity", .absent),
   ("rate", .absent)]

/-- `MunitionDescriptor.__init__`, /repo/opendis/dis7.py:210-227, statement by statement. -/
def MunitionDescriptor.initHeap (self : Ref) (munitionType : Val := .sc .none)
    (warhead : Val := .sc (.int 0)) (fuse : Val := .sc (.int 0))
    (quantity : Val := .sc (.int 0)) (rate : Val := .sc (.int 0)) : H Unit := do
  H.setOr self "munitionType" munitionType EntityType.newHeap
  H.setAttr self "warhead" warhead
  H.setAttr self "fuse" fuse
  H.setAttr self "quantity" quantity
  H.setAttr self "rate" rate

/-- `MunitionDescriptor(...)`, /repo/opendis/dis7.py:210-227. -/
def MunitionDescriptor.newHeap (munitionType : Val := .sc .none) (warhead : Val := .sc (.int 0))
    (fuse : Val := .sc (.int 0)) (quantity : Val := .sc (.int 0)) (rate : Val := .sc (.int 0))
    : H Ref :=
  H.new MunitionDescriptor.attrs fun self => MunitionDescriptor.initHeap self munitionType warhead fuse quantity rate

/-- `MunitionDescriptor.parse`, /repo/opendis/dis7.py:237-243, statement by statement. -/
def MunitionDescriptor.parseHeap (self : Ref) : H Unit := do
  H.call self "munitionType" EntityType.parseHeap
  let warhead ← H.read read_unsigned_short
  H.setAttr self "warhead" (.sc (.int warhead))
  let fuse ← H.read read_unsigned_short
  H.setAttr self "fuse" (.sc (.int fuse))
  let quantity ← H.read read_unsigned_short
  H.setAttr self "quantity" (.sc (.int quantity))
  let rate ← H.read read_unsigned_short
  H.setAttr self "rate" (.sc (.int rate))
  return ()

/-- `MunitionDescriptor.serialize`, /repo/opendis/dis7.py:229-235, statement by statement. -/
def MunitionDescriptor.serializeHeap (self : Ref) : S Unit := do
  S.call self "munitionType" EntityType.serializeHeap
  S.putInt self "warhead" write_unsigned_short
  S.putInt self "fuse" write_unsigned_short
  S.putInt self "quantity" write_unsigned_short
  S.putInt self "rate" write_unsigned_short

/-- Attributes of a `MinefieldSensorType` object before `__init__` (/repo/opendis/dis7.py:246-263): class attributes have
values. -/
def MinefieldSensorType.attrs : List (String × Scalar) :=
  [("sensorType", .absent)]

/-- `MinefieldSensorType.__init__`, /repo/opendis/dis7.py:252-254, statement by statement. -/
def MinefieldSensorType.initHeap (self : Ref) (sensorType : Val := .sc (.int 0)) : H Unit := do
  H.setAttr self "sensorType" sensorType

/-- `MinefieldSensorType(...)`, /repo/opendis/dis7.py:252-254. -/
def MinefieldSensorType.newHeap (sensorType : Val := .sc (.int 0)) : H Ref :=
  H.new MinefieldSensorType.attrs fun self => MinefieldSensorType.initHeap self sensorType

/-- `MinefieldSensorType.parse`, /repo/opendis/dis7.py:261-263, statement by statement. -/
def MinefieldSensorType.parseHeap (self : Ref) : H Unit := do
  let sensorType ← H.read read_unsigned_short
  H.setAttr self "sensorType" (.sc (.int sensorType))
  return ()

/-- `MinefieldSensorType.serialize`, /repo/opendis/dis7.py:257-259, statement by statement. -/
def MinefieldSensorType.serializeHeap (self : Ref) : S Unit := do
  S.putInt self "sensorType" write_unsigned_short

/-- Attributes of a `GroupID` object before `__init__` (/repo/opendis/dis7.py:266-289): class attributes have
values. -/
def GroupID.attrs : List (String × Scalar) :=
  [("simulationAddress", .absent), ("groupNumber", .absent)]

/-- `GroupID.__init__`, /repo/opendis/dis7.py:273-279, statement by statement. -/
def GroupID.initHeap (self : Ref) (simulationAddress : Val := .sc .none)
    (groupNumber : Val := .sc (.int 0)) : H Unit := do
  H.setOr self "simulationAddress" simulationAddress SimulationAddress.newHeap
  H.setAttr self "groupNumber" groupNumber

/-- `GroupID(...)`, /repo/opendis/dis7.py:273-279. -/
def GroupID.newHeap (simulationAddress : Val := .sc .none) (groupNumber : Val := .sc (.int 0))
    : H Ref :=
  H.new GroupID.attrs fun self => GroupID.initHeap self simulationAddress groupNumber

/-- `GroupID.parse`, /repo/opendis/dis7.py:286-289, statement by statement. -/
def GroupID.parseHeap (self : Ref) : H Unit := do
  H.call self "simulationAddress" SimulationAddress.parseHeap
  let groupNumber ← H.read read_unsigned_short
  H.setAttr self "groupNumber" (.sc (.int groupNumber))
  return ()

/-- `GroupID.serialize`, /repo/opendis/dis7.py:281-284, statement by statement. -/
def GroupID.serializeHeap (self : Ref) : S Unit := do
  S.call self "simulationAddress" SimulationAddress.serializeHeap
  S.putInt self "groupNumber" write_unsigned_short

/-- Attributes of a `LayerHeader` object before `__init__` (/repo/opendis/dis7.py:292-319): class attributes have
values. -/
def LayerHeader.attrs : List (String × Scalar) :=
  [("layerNumber", .absent), ("layerSpecificInformation", .absent), ("length", .absent)]

/-- `LayerHeader.__init__`, /repo/opendis/dis7.py:299-307, statement by statement. -/
def LayerHeader.initHeap (self : Ref) (layerNumber : Val := .sc (.int 0))
    (layerSpecificInformation : Val := .sc (.int 0)) (length : Val := .sc (.int 0)) : H Unit := do
  H.setAttr self "layerNumber" layerNumber
  H.setAttr self "layerSpecificInformation" layerSpecificInformation
  H.setAttr self "length" length

/-- `LayerHeader(...)`, /repo/opendis/dis7.py:299-307. -/
def LayerHeader.newHeap (layerNumber : Val := .sc (.int 0))
    (layerSpecificInformation : Val := .sc (.int 0)) (length : Val := .sc (.int 0)) : H Ref :=
  H.new LayerHeader.attrs fun self => LayerHeader.initHeap self layerNumber layerSpecificInformation length

/-- `LayerHeader.parse`, /repo/opendis/dis7.py:315-319, statement by statement. -/
def LayerHeader.parseHeap (self : Ref) : H Unit := do
  let layerNumber ← H.read read_unsigned_byte
  H.setAttr self "layerNumber" (.sc (.int layerNumber))
  let layerSpecificInformation ← H.read read_unsigned_byte
  H.setAttr self "layerSpecificInformation" (.sc (.int layerSpecificInformation))
  let length ← H.read read_unsigned_short
  H.setAttr self "length" (.sc (.int length))
  return ()

/-- `LayerHeader.serialize`, /repo/opendis/dis7.py:309-313, statement by statement. -/
def LayerHeader.serializeHeap (self : Ref) : S Unit := do
  S.putInt self "layerNumber" write_unsigned_byte
  S.putInt self "layerSpecificInformation" write_unsigned_byte
  S.putInt self "length" write_unsigned_short

/-- Attributes of a `UnsignedDISInteger` object before `__init__` (/repo/opendis/dis7.py:322-335): class attributes have
values. -/
def UnsignedDISInteger.attrs : List (String × Scalar) :=
  [("val", .absent)]

/-- `UnsignedDISInteger.__init__`, /repo/opendis/dis7.py:325-327, statement by statement. -/
def UnsignedDISInteger.initHeap (self : Ref) (val : Val := .sc (.int 0)) : H Unit := do
  H.setAttr self "val" val

/-- `UnsignedDISInteger(...)`, /repo/opendis/dis7.py:325-327. -/
def UnsignedDISInteger.newHeap (val : Val := .sc (.int 0)) : H Ref :=
  H.new UnsignedDISInteger.attrs fun self => UnsignedDISInteger.initHeap self val

/-- `UnsignedDISInteger.parse`, /repo/opendis/dis7.py:333-335, statement by statement. -/
def UnsignedDISInteger.parseHeap (self : Ref) : H Unit := do
  let val ← H.read read_unsigned_int
  H.setAttr self "val" (.sc (.int val))
  return ()

/-- `UnsignedDISInteger.serialize`, /repo/opendis/dis7.py:329-331, statement by statement. -/
def UnsignedDISInteger.serializeHeap (self : Ref) : S Unit := do
  S.putInt self "val" write_unsigned_int

/-- Attributes of a `DeadReckoningParameters` object before `__init__` (/repo/opendis/dis7.py:338-375): class attributes have
values. -/
def DeadReckoningParameters.attrs : List (String × Scalar) :=
  [("deadReckoningAlgorithm", .absent), ("parameters", .absent),
   ("entityLinearAcceleration", .absent), ("entityAngularVelocity", .absent)]

/-- `DeadReckoningParameters.__init__`, /repo/opendis/dis7.py:341-354, statement by statement. -/
def DeadReckoningParameters.initHeap (self : Ref) (deadReckoningAlgorithm : Val := .sc (.int 0))
    (parameters : Val := .sc .none) (entityLinearAcceleration : Val := .sc .none)
    (entityAngularVelocity : Val := .sc .none) : H Unit := do
  H.setAttr self "deadReckoningAlgorithm" deadReckoningAlgorithm
  H.setOr self "parameters" parameters (H.zeros 15)
  H.setOr self "entityLinearAcceleration" entityLinearAcceleration Vector3Float.newHeap
  H.setOr self "entityAngularVelocity" entityAngularVelocity Vector3Float.newHeap

/-- `DeadReckoningParameters(...)`, /repo/opendis/dis7.py:341-354. -/
def DeadReckoningParameters.newHeap (deadReckoningAlgorithm : Val := .sc (.int 0))
    (parameters : Val := .sc .none) (entityLinearAcceleration : Val := .sc .none)
    (entityAngularVelocity : Val := .sc .none) : H Ref :=
  H.new DeadReckoningParameters.attrs fun self => DeadReckoningParameters.initHeap self deadReckoningAlgorithm parameters entityLinearAcceleration entityAngularVelocity

/-- `DeadReckoningParameters.parse`, /repo/opendis/dis7.py:365-375, statement by statement. -/
def DeadReckoningParameters.parseHeap (self : Ref) : H Unit := do
  let deadReckoningAlgorithm ← H.read read_unsigned_byte
  H.setAttr self "deadReckoningAlgorithm" (.sc (.int deadReckoningAlgorithm))
  H.fillReads 15 read_unsigned_byte self "parameters"
  H.call self "entityLinearAcceleration" Vector3Float.parseHeap
  H.call self "entityAngularVelocity" Vector3Float.parseHeap
  return ()

/-- `DeadReckoningParameters.serialize`, /repo/opendis/dis7.py:356-363, statement by statement. -/
def DeadReckoningParameters.serializeHeap (self : Ref) : S Unit := do
  S.putInt self "deadReckoningAlgorithm" write_unsigned_byte
  S.forRange 0 15 fun idx => S.putItem self "parameters" idx write_unsigned_byte
  S.call self "entityLinearAcceleration" Vector3Float.serializeHeap
  S.call self "entityAngularVelocity" Vector3Float.serializeHeap

/-- Attributes of a `ProtocolMode` object before `__init__` (/repo/opendis/dis7.py:378-394): class attributes have
values. -/
def ProtocolMode.attrs : List (String × Scalar) :=
  [("protocolMode", .absent)]

/-- `ProtocolMode.__init__`, /repo/opendis/dis7.py:384-386, statement by statement. -/
def ProtocolMode.initHeap (self : Ref) (protocolMode : Val := .sc (.int 0)) : H Unit := do
  H.setAttr self "protocolMode" protocolMode

/-- `ProtocolMode(...)`, /repo/opendis/dis7.py:384-386. -/
def ProtocolMode.newHeap (protocolMode : Val := .sc (.int 0)) : H Ref :=
  H.new ProtocolMode.attrs fun self => ProtocolMode.initHeap self protocolMode

/-- `ProtocolMode.parse`, /repo/opendis/dis7.py:392-394, statement by statement. -/
def ProtocolMode.parseHeap (self : Ref) : H Unit := do
  let protocolMode ← H.read read_unsigned_short
  H.setAttr self "protocolMode" (.sc (.int protocolMode))
  return ()

/-- `ProtocolMode.serialize`, /repo/opendis/dis7.py:388-390, statement by statement. -/
def ProtocolMode.serializeHeap (self : Ref) : S Unit := do
  S.putInt self "protocolMode" write_unsigned_short

/-- Attributes of a `AngleDeception` object before `__init__` (/repo/opendis/dis7.py:397-472): class attributes have
values. -/
def AngleDeception.attrs : List (String × Scalar) :=
  [("recordType", .int 3501), ("recordLength", .int 48), ("padding", .absent),
   ("emitterNumber", .absent), ("beamNumber", .absent), ("stateIndicator", .absent),
   ("padding2", .absent), ("azimuthOffset", .absent), ("azimuthWidth", .absent),
   ("azimuthPullRate", .absent), ("azimuthPullAcceleration", .absent), ("elevationOffset", .absent),
   ("elevationWidth", .absent), ("elevationPullRate", .absent),
   ("elevationPullAcceleration", .absent), ("padding3", .absent)]

/-- `AngleDeception.__init__`, /repo/opendis/dis7.py:409-434, statement by statement. -/
def AngleDeception.initHeap (self : Ref) (emitterNumber : Val := .sc (.int 0))
    (beamNumber : Val := .sc (.int 0)) (stateIndicator : Val := .sc (.int 0))
    (azimuthOffset : Val := .sc (.float 0x0000000000000000))
    (azimuthWidth : Val := .sc (.float 0x0000000000000000))
    (azimuthPullRate : Val := .sc (.float 0x0000000000000000))
    (azimuthPullAcceleration : Val := .sc (.float 0x0000000000000000))
    (elevationOffset : Val := .sc (.float 0x0000000000000000))
    (elevationWidth : Val := .sc (.float 0x0000000000000000))
    (elevationPullRate : Val := .sc (.float 0x0000000000000000))
    (elevationPullAcceleration : Val := .sc (.float 0x0000000000000000)) : H Unit := do
  H.setAttr self "padding" (.sc (.int 0))
  H.setAttr self "emitterNumber" emitterNumber
  H.setAttr self "beamNumber" beamNumber
  H.setAttr self "stateIndicator" stateIndicator
  H.setAttr self "padding2" (.sc (.int 0))
  H.setAttr self "azimuthOffset" azimuthOffset
  H.setAttr self "azimuthWidth" azimuthWidth
  H.setAttr self "azimuthPullRate" azimuthPullRate
  H.setAttr self "azimuthPullAcceleration" azimuthPullAcceleration
  H.setAttr self "elevationOffset" elevationOffset
  H.setAttr self "elevationWidth" elevationWidth
  H.setAttr self "elevationPullRate" elevationPullRate
  H.setAttr self "elevationPullAcceleration" elevationPullAcceleration
  H.setAttr self "padding3" (.sc (.int 0))

/-- `AngleDeception(...)`, /repo/opendis/dis7.py:409-434. -/
def AngleDeception.newHeap (emitterNumber : Val := .sc (.int 0))
    (beamNumber : Val := .sc (.int 0)) (stateIndicator : Val := .sc (.int 0))
    (azimuthOffset : Val := .sc (.float 0x0000000000000000))
    (azimuthWidth : Val := .sc (.float 0x0000000000000000))
    (azimuthPullRate : Val := .sc (.float 0x0000000000000000))
    (azimuthPullAcceleration : Val := .sc (.float 0x0000000000000000))
    (elevationOffset : Val := .sc (.float 0x0000000000000000))
    (elevationWidth : Val := .sc (.float 0x0000000000000000))
    (elevationPullRate : Val := .sc (.float 0x0000000000000000))
    (elevationPullAcceleration : Val := .sc (.float 0x0000000000000000)) : H Ref :=
  H.new AngleDeception.attrs fun self => AngleDeception.initHeap self emitterNumber beamNumber stateIndicator azimuthOffset azimuthWidth azimuthPullRate azimuthPullAcceleration elevationOffset elevationWidth elevationPullRate elevationPullAcceleration

/-- `AngleDeception.parse`, /repo/opendis/dis7.py:455-472, statement by statement. -/
def AngleDeception.parseHeap (self : Ref) : H Unit := do
  let recordType ← H.read read_unsigned_int
  H.setAttr self "recordType" (.sc (.int recordType))
  let recordLength ← H.read read_unsigned_short
  H.setAttr self "recordLength" (.sc (.int recordLength))
  let padding ← H.read read_unsigned_short
  H.setAttr self "padding" (.sc (.int padding))
  let emitterNumber ← H.read read_unsigned_byte
  H.setAttr self "emitterNumber" (.sc (.int emitterNumber))
  let beamNumber ← H.read read_unsigned_byte
  H.setAttr self "beamNumber" (.sc (.int beamNumber))
  let stateIndicator ← H.read read_unsigned_byte
  H.setAttr self "stateIndicator" (.sc (.int stateIndicator))
  let padding2 ← H.read read_unsigned_byte
  H.setAttr self "padding2" (.sc (.int padding2))
  let azimuthOffset ← H.read read_float
  H.setAttr self "azimuthOffset" (.sc (.float azimuthOffset))
  let azimuthWidth ← H.read read_float
  H.setAttr self "azimuthWidth" (.sc (.float azimuthWidth))
  let azimuthPullRate ← H.read read_float
  H.setAttr self "azimuthPullRate" (.sc (.float azimuthPullRate))
  let azimuthPullAcceleration ← H.read read_float
  H.setAttr self "azimuthPullAcceleration" (.sc (.float azimuthPullAcceleration))
  let elevationOffset ← H.read read_float
  H.setAttr self "elevationOffset" (.sc (.float elevationOffset))
  let elevationWidth ← H.read read_float
  H.setAttr self "elevationWidth" (.sc (.float elevationWidth))
  let elevationPullRate ← H.read read_float
  H.setAttr self "elevationPullRate" (.sc (.float elevationPullRate))
  let elevationPullAcceleration ← H.read read_float
  H.setAttr self "elevationPullAcceleration" (.sc (.float elevationPullAcceleration))
  let padding3 ← H.read read_unsigned_int
  H.setAttr self "padding3" (.sc (.int padding3))
  return ()

/-- `AngleDeception.serialize`, /repo/opendis/dis7.py:436-453, statement by statement. -/
def AngleDeception.serializeHeap (self : Ref) : S Unit := do
  S.putInt self "recordType" write_unsigned_int
  S.putInt self "recordLength" write_unsigned_short
  S.putInt self "padding" write_unsigned_short
  S.putInt self "emitterNumber" write_unsigned_byte
  S.putInt self "beamNumber" write_unsigned_byte
  S.putInt self "stateIndicator" write_unsigned_byte
  S.putInt self "padding2" write_unsigned_byte
  S.putFloat self "azimuthOffset" write_float
  S.putFloat self "azimuthWidth" write_float
  S.putFloat self "azimuthPullRate" write_float
  S.putFloat self "azimuthPullAcceleration" write_float
  S.putFloat self "elevationOffset" write_float
  S.putFloat self "elevationWidth" write_float
  S.putFloat self "elevationPullRate" write_float
  S.putFloat self "elevationPullAcceleration" write_float
  S.putInt self "padding3" write_unsigned_int

/-- Attributes of a `EntityAssociation` object before `__init__` (/repo/opendis/dis7.py:475-530): class attributes have
values. -/
def EntityAssociation.attrs : List (String × Scalar) :=
  [("recordType", .int 4), ("changeIndicator", .absent), ("associationStatus", .absent),
   ("associationType", .absent), ("entityID", .absent), ("ownStationLocation", .absent),
   ("physicalConnectionType", .absent), ("groupMemberType", .absent), ("groupNumber", .absent)]

/-- `EntityAssociation.__init__`, /repo/opendis/dis7.py:482-506, statement by statement. -/
def EntityAssociation.initHeap (self : Ref) (changeIndicator : Val := .sc (.int 0))
    (associationStatus : Val := .sc (.int 0)) (associationType : Val := .sc (.int 0))
    (entityID : Val := .sc .none) (ownStationLocation : Val := .sc (.int 0))
    (physicalConnectionType : Val := .sc (.int 0)) (groupMemberType : Val := .sc (.int 0))
    (groupNumber : Val := .sc (.int 0)) : H Unit := do
  H.setAttr self "changeIndicator" changeIndicator
  H.setAttr self "associationStatus" associationStatus
  H.setAttr self "associationType" associationType
  H.setOr self "entityID" entityID EntityIdentifier.newHeap
  H.setAttr self "ownStationLocation" ownStationLocation
  H.setAttr self "physicalConnectionType" physicalConnectionType
  H.setAttr self "groupMemberType" groupMemberType
  H.setAttr self "groupNumber" groupNumber

/-- `EntityAssociation(...)`, /repo/opendis/dis7.py:482-506. -/
def EntityAssociation.newHeap (changeIndicator : Val := .sc (.int 0))
    (associationStatus : Val := .sc (.int 0)) (associationType : Val := .sc (.int 0))
    (entityID : Val := .sc .none) (ownStationLocation : Val := .sc (.int 0))
    (physicalConnectionType : Val := .sc (.int 0)) (groupMemberType : Val := .sc (.int 0))
    (groupNumber : Val := .sc (.int 0)) : H Ref :=
  H.new EntityAssociation.attrs fun self => EntityAssociation.initHeap self changeIndicator associationStatus associationType entityID ownStationLocation physicalConnectionType groupMemberType groupNumber

/-- `EntityAssociation.parse`, /repo/opendis/dis7.py:520-530, statement by statement. -/
def EntityAssociation.parseHeap (self : Ref) : H Unit := do
  let recordType ← H.read read_unsigned_byte
  H.setAttr self "recordType" (.sc (.int recordType))
  let changeIndicator ← H.read read_unsigned_byte
  H.setAttr self "changeIndicator" (.sc (.int changeIndicator))
  let associationStatus ← H.read read_unsigned_byte
  H.setAttr self "associationStatus" (.sc (.int associationStatus))
  let associationType ← H.read read_unsigned_byte
  H.setAttr self "associationType" (.sc (.int associationType))
  H.call self "entityID" EntityIdentifier.parseHeap
  let ownStationLocation ← H.read read_unsigned_short
  H.setAttr self "ownStationLocation" (.sc (.int ownStationLocation))
  let physicalConnectionType ← H.read read_unsigned_byte
  H.setAttr self "physicalConnectionType" (.sc (.int physicalConnectionType))
  let groupMemberType ← H.read read_unsigned_byte
  H.setAttr self "groupMemberType" (.sc (.int groupMemberType))
  let groupNumber ← H.read read_unsigned_short
  H.setAttr self "groupNumber" (.sc (.int groupNumber))
  return ()

/-- `EntityAssociation.serialize`, /repo/opendis/dis7.py:508-518, statement by statement. -/
def EntityAssociation.serializeHeap (self : Ref) : S Unit := do
  S.putInt self "recordType" write_unsigned_byte
  S.putInt self "changeIndicator" write_unsigned_byte
  S.putInt self "associationStatus" write_unsigned_byte
  S.putInt self "associationType" write_unsigned_byte
  S.call self "entityID" EntityIdentifier.serializeHeap
  S.putInt self "ownStationLocation" write_unsigned_short
  S.putInt self "physicalConnectionType" write_unsigned_byte
  S.putInt self "groupMemberType" write_unsigned_byte
  S.putInt self "groupNumber" write_unsigned_short

/-- Attributes of a `VectoringNozzleSystem` object before `__init__` (/repo/opendis/dis7.py:533-553): class attributes have
values. -/
def VectoringNozzleSystem.attrs : List (String × Scalar) :=
  [("horizontalDeflectionAngle", .absent), ("verticalDeflectionAngle", .absent)]

/-- `VectoringNozzleSystem.__init__`, /repo/opendis/dis7.py:539-543, statement by statement. -/
def VectoringNozzleSystem.initHeap (self : Ref)
    (horizontalDeflectionAngle : Val := .sc (.float 0x0000000000000000))
    (verticalDeflectionAngle : Val := .sc (.float 0x0000000000000000)) : H Unit := do
  H.setAttr self "horizontalDeflectionAngle" horizontalDeflectionAngle
  H.setAttr self "verticalDeflectionAngle" verticalDeflectionAngle

/-- `VectoringNozzleSystem(...)`, /repo/opendis/dis7.py:539-543. -/
def VectoringNozzleSystem.newHeap
    (horizontalDeflectionAngle : Val := .sc (.float 0x0000000000000000))
    (verticalDeflectionAngle : Val := .sc (.float 0x0000000000000000)) : H Ref :=
  H.new VectoringNozzleSystem.attrs fun self => VectoringNozzleSystem.initHeap self horizontalDeflectionAngle verticalDeflectionAngle

/-- `VectoringNozzleSystem.parse`, /repo/opendis/dis7.py:550-553, statement by statement. -/
def VectoringNozzleSystem.parseHeap (self : Ref) : H Unit := do
  let horizontalDeflectionAngle ← H.read read_float
  H.setAttr self "horizontalDeflectionAngle" (.sc (.float horizontalDeflectionAngle))
  let verticalDeflectionAngle ← H.read read_float
  H.setAttr self "verticalDeflectionAngle" (.sc (.float verticalDeflectionAngle))
  return ()

/-- `VectoringNozzleSystem.serialize`, /repo/opendis/dis7.py:545-548, statement by statement. -/
def VectoringNozzleSystem.serializeHeap (self : Ref) : S Unit := do
  S.putFloat self "horizontalDeflectionAngle" write_float
  S.putFloat self "verticalDeflectionAngle" write_float

/-- Attributes of a `FalseTargetsAttribute` object before `__init__` (/repo/opendis/dis7.py:556-621): class attributes have
values. -/
def FalseTargetsAttribute.attrs : List (String × Scalar) :=
  [("recordType", .int 3502), ("recordLength", .int 48), ("padding", .absent),
   ("emitterNumber", .absent), ("beamNumber", .absent), ("stateIndicator", .absent),
   ("padding2", .absent), ("falseTargetCount", .absent), ("walkSpeed", .absent),
   ("walkAcceleration", .absent), ("maximumWalkDistance", .absent), ("keepTime", .absent),
   ("echoSpacing", .absent)]

/-- `FalseTargetsAttribute.__init__`, /repo/opendis/dis7.py:569-589, statement by statement. -/
def FalseTargetsAttribute.initHeap (self : Ref) (emitterNumber : Val := .sc (.int 0))
    (beamNumber : Val := .sc (.int 0)) (stateIndicator : Val := .sc (.int 0))
    (falseTargetCount : Val := .sc (.int 0))
    (walkSpeed : Val := .sc (.float 0x0000000000000000))
    (walkAcceleration : Val := .sc (.float 0x0000000000000000))
    (maximumWalkDistance : Val := .sc (.float 0x0000000000000000))
    (keepTime : Val := .sc (.float 0x0000000000000000))
    (echoSpacing : Val := .sc (.float 0x0000000000000000)) : H Unit := do
  H.setAttr self "padding" (.sc (.int 0))
  H.setAttr self "emitterNumber" emitterNumber
  H.setAttr self "beamNumber" beamNumber
  H.setAttr self "stateIndicator" stateIndicator
  H.setAttr self "padding2" (.sc (.int 0))
  H.setAttr self "falseTargetCount" falseTargetCount
  H.setAttr self "walkSpeed" walkSpeed
  H.setAttr self "walkAcceleration" walkAcceleration
  H.setAttr self "maximumWalkDistance" maximumWalkDistance
  H.setAttr self "keepTime" keepTime
  H.setAttr self "echoSpacing" echoSpacing

/-- `FalseTargetsAttribute(...)`, /repo/opendis/dis7.py:569-589. -/
def FalseTargetsAttribute.newHeap (emitterNumber : Val := .sc (.int 0))
    (beamNumber : Val := .sc (.int 0)) (stateIndicator : Val := .sc (.int 0))
    (falseTargetCount : Val := .sc (.int 0))
    (walkSpeed : Val := .sc (.float 0x0000000000000000))
    (walkAcceleration : Val := .sc (.float 0x0000000000000000))
    (maximumWalkDistance : Val := .sc (.float 0x0000000000000000))
    (keepTime : Val := .sc (.float 0x0000000000000000))
    (echoSpacing : Val := .sc (.float 0x0000000000000000)) : H Ref :=
  H.new FalseTargetsAttribute.attrs fun self => FalseTargetsAttribute.initHeap self emitterNumber beamNumber stateIndicator falseTargetCount walkSpeed walkAcceleration maximumWalkDistance keepTime echoSpacing

/-- `FalseTargetsAttribute.parse`, /repo/opendis/dis7.py:607-621, statement by statement. -/
def FalseTargetsAttribute.parseHeap (self : Ref) : H Unit := do
  let recordType ← H.read read_unsigned_int
  H.setAttr self "recordType" (.sc (.int recordType))
  let recordLength ← H.read read_unsigned_short
  H.setAttr self "recordLength" (.sc (.int recordLength))
  let padding ← H.read read_unsigned_short
  H.setAttr self "padding" (.sc (.int padding))
  let emitterNumber ← H.read read_unsigned_byte
  H.setAttr self "emitterNumber" (.sc (.int emitterNumber))
  let beamNumber ← H.read read_unsigned_byte
  H.setAttr self "beamNumber" (.sc (.int beamNumber))
  let stateIndicator ← H.read read_unsigned_byte
  H.setAttr self "stateIndicator" (.sc (.int stateIndicator))
  let padding2 ← H.read read_unsigned_byte
  H.setAttr self "padding2" (.sc (.int padding2))
  let falseTargetCount ← H.read read_unsigned_short
  H.setAttr self "falseTargetCount" (.sc (.int falseTargetCount))
  let walkSpeed ← H.read read_float
  H.setAttr self "walkSpeed" (.sc (.float walkSpeed))
  let walkAcceleration ← H.read read_float
  H.setAttr self "walkAcceleration" (.sc (.float walkAcceleration))
  let maximumWalkDistance ← H.read read_float
  H.setAttr self "maximumWalkDistance" (.sc (.float maximumWalkDistance))
  let keepTime ← H.read read_float
  H.setAttr self "keepTime" (.sc (.float keepTime))
  let echoSpacing ← H.read read_float
  H.setAttr self "echoSpacing" (.sc (.float echoSpacing))
  return ()

/-- `FalseTargetsAttribute.serialize`, /repo/opendis/dis7.py:591-605, statement by statement. -/
def FalseTargetsAttribute.serializeHeap (self : Ref) : S Unit := do
  S.putInt self "recordType" write_unsigned_int
  S.putInt self "recordLength" write_unsigned_short
  S.putInt self "padding" write_unsigned_short
  S.putInt self "emitterNumber" write_unsigned_byte
  S.putInt self "beamNumber" write_unsigned_byte
  S.putInt self "stateIndicator" write_unsigned_byte
  S.putInt self "padding2" write_unsigned_byte
  S.putInt self "falseTargetCount" write_unsigned_short
  S.putFloat self "walkSpeed" write_float
  S.putFloat self "walkAcceleration" write_float
  S.putFloat self "maximumWalkDistance" write_float
  S.putFloat self "keepTime" write_float
  S.putFloat self "echoSpacing" write_float

/-- Attributes of a `MinefieldIdentifier` object before `__init__` (/repo/opendis/dis7.py:624-644): class attributes have
values. -/
def MinefieldIdentifier.attrs : List (String × Scalar) :=
  [("simulationAddress", .absent), ("minefieldNumber", .absent)]

/-- `MinefieldIdentifier.__init__`, /repo/opendis/dis7.py:630-634, statement by statement. -/
def MinefieldIdentifier.initHeap (self : Ref) (simulationAddress : Val := .sc .none)
    (minefieldNumber : Val := .sc (.int 0)) : H Unit := do
  H.setOr self "simulationAddress" simulationAddress SimulationAddress.newHeap
  H.setAttr self "minefieldNumber" minefieldNumber

/-- `MinefieldIdentifier(...)`, /repo/opendis/dis7.py:630-634. -/
def MinefieldIdentifier.newHeap (simulationAddress : Val := .sc .none)
    (minefieldNumber : Val := .sc (.int 0)) : H Ref :=
  H.new MinefieldIdentifier.attrs fun self => MinefieldIdentifier.initHeap self simulationAddress minefieldNumber

/-- `MinefieldIdentifier.parse`, /repo/opendis/dis7.py:641-644, statement by statement. -/
def MinefieldIdentifier.parseHeap (self : Ref) : H Unit := do
  H.call self "simulationAddress" SimulationAddress.parseHeap
  let minefieldNumber ← H.read read_unsigned_short
  H.setAttr self "minefieldNumber" (.sc (.int minefieldNumber))
  return ()

/-- `MinefieldIdentifier.serialize`, /repo/opendis/dis7.py:636-639, statement by statement. -/
def MinefieldIdentifier.serializeHeap (self : Ref) : S Unit := do
  S.call self "simulationAddress" SimulationAddress.serializeHeap
  S.putInt self "minefieldNumber" write_unsigned_short

/-- Attributes of a `RadioType` object before `__init__` (/repo/opendis/dis7.py:647-690): class attributes have
values. -/
def RadioType.attrs : List (String × Scalar) :=
  [("entityKind", .int 7), ("domain", .absent), ("country", .absent), ("category", .absent),
   ("subcategory", .absent), ("specific", .absent), ("extra", .absent)]

/-- `RadioType.__init__`, /repo/opendis/dis7.py:654-670, statement by statement. -/
def RadioType.initHeap (self : Ref) (domain : Val := .sc (.int 0))
    (country : Val := .sc (.int 0)) (category : Val := .sc (.int 0))
    (subcategory : Val := .sc (.int 0)) (specific : Val := .sc (.int 0))
    (extra : Val := .sc (.int 0)) : H Unit := do
  H.setAttr self "domain" domain
  H.setAttr self "country" country
  H.setAttr self "category" category
  H.setAttr self "subcategory" subcategory
  H.setAttr self "specific" specific
  H.setAttr self "extra" extra

/-- `RadioType(...)`, /repo/opendis/dis7.py:654-670. -/
def RadioType.newHeap (domain : Val := .sc (.int 0)) (country : Val := .sc (.int 0))
    (category : Val := .sc (.int 0)) (subcategory : Val := .sc (.int 0))
    (specific : Val := .sc (.int 0)) (extra : Val := .sc (.int 0)) : H Ref :=
  H.new RadioType.attrs fun self => RadioType.initHeap self domain country category subcategory specific extra

/-- `RadioType.parse`, /repo/opendis/dis7.py:682-690, statement by statement. -/
def RadioType.parseHeap (self : Ref) : H Unit := do
  let entityKind ← H.read read_unsigned_byte
  H.setAttr self "entityKind" (.sc (.int entityKind))
  let domain ← H.read read_unsigned_byte
  H.setAttr self "domain" (.sc (.int domain))
  let country ← H.read read_unsigned_short
  H.setAttr self "country" (.sc (.int country))
  let category ← H.read read_unsigned_byte
  H.setAttr self "category" (.sc (.int category))
  let subcategory ← H.read read_unsigned_byte
  H.setAttr self "subcategory" (.sc (.int subcategory))
  let specific ← H.read read_unsigned_byte
  H.setAttr self "specific" (.sc (.int specific))
  let extra ← H.read read_unsigned_byte
  H.setAttr self "extra" (.sc (.int extra))
  return ()

/-- `RadioType.serialize`, /repo/opendis/dis7.py:672-680, statement by statement. -/
def RadioType.serializeHeap (self : Ref) : S Unit := do
  S.putInt self "entityKind" write_unsigned_byte
  S.putInt self "domain" write_unsigned_byte
  S.putInt self "country" write_unsigned_short
  S.putInt self "category" write_unsigned_byte
  S.putInt self "subcategory" write_unsigned_byte
  S.putInt self "specific" write_unsigned_byte
  S.putInt self "extra" write_unsigned_byte

/-- Attributes of a `NamedLocationIdentification` object before `__init__` (/repo/opendis/dis7.py:693-717): class attributes have
values. -/
def NamedLocationIdentification.attrs : List (String × Scalar) :=
  [("stationName", .absent), ("stationNumber", .absent)]

/-- `NamedLocationIdentification.__init__`, /repo/opendis/dis7.py:700-707, statement by statement. -/
def NamedLocationIdentification.initHeap (self : Ref) (stationName : Val := .sc (.int 0))
    (stationNumber : Val := .sc (.int 0)) : H Unit := do
  H.setAttr self "stationName" stationName
  H.setAttr self "stationNumber" stationNumber

/-- `NamedLocationIdentification(...)`, /repo/opendis/dis7.py:700-707. -/
def NamedLocationIdentification.newHeap (stationName : Val := .sc (.int 0))
    (stationNumber : Val := .sc (.int 0)) : H Ref :=
  H.new NamedLocationIdentification.attrs fun self => NamedLocationIdentification.initHeap self stationName stationNumber

/-- `NamedLocationIdentification.parse`, /repo/opendis/dis7.py:714-717, statement by statement. -/
def NamedLocationIdentification.parseHeap (self : Ref) : H Unit := do
  let stationName ← H.read read_unsigned_short
  H.setAttr self "stationName" (.sc (.int stationName))
  let stationNumber ← H.read read_unsigned_short
  H.setAttr self "stationNumber" (.sc (.int stationNumber))
  return ()

/-- `NamedLocationIdentification.serialize`, /repo/opendis/dis7.py:709-712, statement by statement. -/
def NamedLocationIdentification.serializeHeap (self : Ref) : S Unit := do
  S.putInt self "stationName" write_unsigned_short
  S.putInt self "stationNumber" write_unsigned_short

/-- Attributes of a `IFFDataSpecification` object before `__init__` (/repo/opendis/dis7.py:720-745): class attributes have
values. -/
def IFFDataSpecification.attrs : List (String × Scalar) :=
  [("iffDataRecords", .absent)]

/-- `IFFDataSpecification.__init__`, /repo/opendis/dis7.py:726-727, statement by statement. -/
def IFFDataSpecification.initHeap (self : Ref) (iffDataRecords : Val := .sc .none) : H Unit := do
  H.setOr self "iffDataRecords" iffDataRecords (H.alloc (.list []))

/-- `IFFDataSpecification(...)`, /repo/opendis/dis7.py:726-727. -/
def IFFDataSpecification.newHeap (iffDataRecords : Val := .sc .none) : H Ref :=
  H.new IFFDataSpecification.attrs fun self => IFFDataSpecification.initHeap self iffDataRecords

/-- `IFFDataSpecification.parse`, /repo/opendis/dis7.py:739-745, statement by statement. -/
def IFFDataSpecification.parseHeap (self : Ref) : H Unit := do
  let numberOfIFFDataRecords ← H.read read_unsigned_short
  H.appendObjs numberOfIFFDataRecords.toNat IFFData.newHeap IFFData.parseHeap self "iffDataRecords"
  return ()

/-- `IFFDataSpecification.serialize`, /repo/opendis/dis7.py:733-737, statement by statement. -/
def IFFDataSpecification.serializeHeap (self : Ref) : S Unit := do
  S.putLen self "iffDataRecords" write_unsigned_short
  S.each self "iffDataRecords" IFFData.serializeHeap

/-- Attributes of a `OwnershipStatus` object before `__init__` (/repo/opendis/dis7.py:748-773): class attributes have
values. -/
def OwnershipStatus.attrs : List (String × Scalar) :=
  [("entityId", .absent), ("ownershipStatus", .absent), ("padding", .absent)]

/-- `OwnershipStatus.__init__`, /repo/opendis/dis7.py:754-761, statement by statement. -/
def OwnershipStatus.initHeap (self : Ref) (entityId : Val := .sc .none)
    (ownershipStatus : Val := .sc (.int 0)) : H Unit := do
  H.setOr self "entityId" entityId EntityIdentifier.newHeap
  H.setAttr self "ownershipStatus" ownershipStatus
  H.setAttr self "padding" (.sc (.int 0))

/-- `OwnershipStatus(...)`, /repo/opendis/dis7.py:754-761. -/
def OwnershipStatus.newHeap (entityId : Val := .sc .none)
    (ownershipStatus : Val := .sc (.int 0)) : H Ref :=
  H.new OwnershipStatus.attrs fun self => OwnershipStatus.initHeap self entityId ownershipStatus

/-- `OwnershipStatus.parse`, /repo/opendis/dis7.py:769-773, statement by statement. -/
def OwnershipStatus.parseHeap (self : Ref) : H Unit := do
  H.call self "entityId" EntityIdentifier.parseHeap
  let ownershipStatus ← H.read read_unsigned_byte
  H.setAttr self "ownershipStatus" (.sc (.int ownershipStatus))
  let padding ← H.read read_unsigned_byte
  H.setAttr self "padding" (.sc (.int padding))
  return ()

/-- `OwnershipStatus.serialize`, /repo/opendis/dis7.py:763-767, statement by statement. -/
def OwnershipStatus.serializeHeap (self : Ref) : S Unit := do
  S.call self "entityId" EntityIdentifier.serializeHeap
  S.putInt self "ownershipStatus" write_unsigned_byte
  S.putInt self "padding" write_unsigned_byte

/-- Attributes of a `AttachedParts` object before `__init__` (/repo/opendis/dis7.py:776-811): class attributes have
values. -/
def AttachedParts.attrs : List (String × Scalar) :=
  [("recordType", .int 1), ("detachedIndicator", .absent), ("partAttachedTo", .absent),
   ("parameterType", .absent), ("attachedPartType", .absent), ("parameterValue", .absent)]

/-- `AttachedParts.__init__`, /repo/opendis/dis7.py:783-795, statement by statement. -/
def AttachedParts.initHeap (self : Ref) (detachedIndicator : Val := .sc (.int 0))
    (partAttachedTo : Val := .sc (.int 0)) (parameterType : Val := .sc (.int 0))
    (attachedPartType : Val := .sc .none) : H Unit := do
  H.setAttr self "detachedIndicator" detachedIndicator
  H.setAttr self "partAttachedTo" partAttachedTo
  H.setAttr self "parameterType" parameterType
  H.setOr self "attachedPartType" attachedPartType EntityType.newHeap

/-- `AttachedParts(...)`, /repo/opendis/dis7.py:783-795. -/
def AttachedParts.newHeap (detachedIndicator : Val := .sc (.int 0))
    (partAttachedTo : Val := .sc (.int 0)) (parameterType : Val := .sc (.int 0))
    (attachedPartType : Val := .sc .none) : H Ref :=
  H.new AttachedParts.attrs fun self => AttachedParts.initHeap self detachedIndicator partAttachedTo parameterType attachedPartType

/-- `AttachedParts.parse`, /repo/opendis/dis7.py:805-811, statement by statement. -/
def AttachedParts.parseHeap (self : Ref) : H Unit := do
  let recordType ← H.read read_unsigned_byte
  H.setAttr self "recordType" (.sc (.int recordType))
  let detachedIndicator ← H.read read_unsigned_byte
  H.setAttr self "detachedIndicator" (.sc (.int detachedIndicator))
  let partAttachedTo ← H.read read_unsigned_short
  H.setAttr self "partAttachedTo" (.sc (.int partAttachedTo))
  let parameterType ← H.read read_unsigned_int
  H.setAttr self "parameterType" (.sc (.int parameterType))
  let parameterValue ← H.read read_long
  H.setAttr self "parameterValue" (.sc (.int parameterValue))
  return ()

/-- `AttachedParts.serialize`, /repo/opendis/dis7.py:797-803, statement by statement. -/
def AttachedParts.serializeHeap (self : Ref) : S Unit := do
  S.putInt self "recordType" write_unsigned_byte
  S.putInt self "detachedIndicator" write_unsigned_byte
  S.putInt self "partAttachedTo" write_unsigned_short
  S.putInt self "parameterType" write_unsigned_int
  S.putInt self "parameterValue" write_long

/-- Attributes of a `Attribute` object before `__init__` (/repo/opendis/dis7.py:814-839): class attributes have
values. -/
def Attribute.attrs : List (String × Scalar) :=
  [("recordType", .absent), ("recordLength", .absent), ("recordSpecificFields", .absent)]

/-- `Attribute.__init__`, /repo/opendis/dis7.py:821-827, statement by statement. -/
def Attribute.initHeap (self : Ref) (recordType : Val := .sc (.int 0))
    (recordLength : Val := .sc (.int 0)) (recordSpecificFields : Val := .sc (.int 0)) : H Unit := do
  H.setAttr self "recordType" recordType
  H.setAttr self "recordLength" recordLength
  H.setAttr self "recordSpecificFields" recordSpecificFields

/-- `Attribute(...)`, /repo/opendis/dis7.py:821-827. -/
def Attribute.newHeap (recordType : Val := .sc (.int 0)) (recordLength : Val := .sc (.int 0))
    (recordSpecificFields : Val := .sc (.int 0)) : H Ref :=
  H.new Attribute.attrs fun self => Attribute.initHeap self recordType recordLength recordSpecificFields

/-- `Attribute.parse`, /repo/opendis/dis7.py:835-839, statement by statement. -/
def Attribute.parseHeap (self : Ref) : H Unit := do
  let recordType ← H.read read_unsigned_int
  H.setAttr self "recordType" (.sc (.int recordType))
  let recordLength ← H.read read_unsigned_short
  H.setAttr self "recordLength" (.sc (.int recordLength))
  let recordSpecificFields ← H.read read_long
  H.setAttr self "recordSpecificFields" (.sc (.int recordSpecificFields))
  return ()

/-- `Attribute.serialize`, /repo/opendis/dis7.py:829-833, statement by statement. -/
def Attribute.serializeHeap (self : Ref) : S Unit := do
  S.putInt self "recordType" write_unsigned_int
  S.putInt self "recordLength" write_unsigned_short
  S.putInt self "recordSpecificFields" write_long

/-- Attributes of a `RecordQuerySpecification` object before `__init__` (/repo/opendis/dis7.py:842-868): class attributes have
values. -/
def RecordQuerySpecification.attrs : List (String × Scalar) :=
  [("recordIDs", .absent)]

/-- `RecordQuerySpecification.__init__`, /repo/opendis/dis7.py:848-851, statement by statement. -/
def RecordQuerySpecification.initHeap (self : Ref) (recordIDs : Val := .sc .none) : H Unit := do
  H.setOr self "recordIDs" recordIDs (H.alloc (.list []))

/-- `RecordQuerySpecification(...)`, /repo/opendis/dis7.py:848-851. -/
def RecordQuerySpecification.newHeap (recordIDs : Val := .sc .none) : H Ref :=
  H.new RecordQuerySpecification.attrs fun self => RecordQuerySpecification.initHeap self recordIDs

/-- `RecordQuerySpecification.parse`, /repo/opendis/dis7.py:863-868, statement by statement. -/
def RecordQuerySpecification.parseHeap (self : Ref) : H Unit := do
  let numberOfRecords ← H.read read_unsigned_int
  H.appendReads numberOfRecords.toNat read_unsigned_int .int self "recordIDs"
  return ()

/-- `RecordQuerySpecification.serialize`, /repo/opendis/dis7.py:857-861, statement by statement. -/
def RecordQuerySpecification.serializeHeap (self : Ref) : S Unit := do
  S.putLen self "recordIDs" write_unsigned_int
  S.eachInt self "recordIDs" write_unsigned_int

/-- Attributes of a `ArticulatedParts` object before `__init__` (/repo/opendis/dis7.py:871-907): class attributes have
values. -/
def ArticulatedParts.attrs : List (String × Scalar) :=
  [("recordType", .int 0), ("changeIndicator", .absent), ("partAttachedTo", .absent),
   ("parameterType", .absent), ("parameterValue", .absent)]

/-- `ArticulatedParts.__init__`, /repo/opendis/dis7.py:879-891, statement by statement. -/
def ArticulatedParts.initHeap (self : Ref) (changeIndicator : Val := .sc (.int 0))
    (partAttachedTo : Val := .sc (.int 0)) (parameterType : Val := .sc (.int 0))
    (parameterValue : Val := .sc (.int 0)) : H Unit := do
  H.setAttr self "changeIndicator" changeIndicator
  H.setAttr self "partAttachedTo" partAttachedTo
  H.setAttr self "parameterType" parameterType
  H.setAttr self "parameterValue" parameterValue

/-- `ArticulatedParts(...)`, /repo/opendis/dis7.py:879-891. -/
def ArticulatedParts.newHeap (changeIndicator : Val := .sc (.int 0))
    (partAttachedTo : Val := .sc (.int 0)) (parameterType : Val := .sc (.int 0))
    (parameterValue : Val := .sc (.int 0)) : H Ref :=
  H.new ArticulatedParts.attrs fun self => ArticulatedParts.initHeap self changeIndicator partAttachedTo parameterType parameterValue

/-- `ArticulatedParts.parse`, /repo/opendis/dis7.py:901-907, statement by statement. -/
def ArticulatedParts.parseHeap (self : Ref) : H Unit := do
  let recordType ← H.read read_unsigned_byte
  H.setAttr self "recordType" (.sc (.int recordType))
  let changeIndicator ← H.read read_unsigned_byte
  H.setAttr self "changeIndicator" (.sc (.int changeIndicator))
  let partAttachedTo ← H.read read_unsigned_short
  H.setAttr self "partAttachedTo" (.sc (.int partAttachedTo))
  let parameterType ← H.read read_unsigned_int
  H.setAttr self "parameterType" (.sc (.int parameterType))
  let parameterValue ← H.read read_long
  H.setAttr self "parameterValue" (.sc (.int parameterValue))
  return ()

/-- `ArticulatedParts.serialize`, /repo/opendis/dis7.py:893-899, statement by statement. -/
def ArticulatedParts.serializeHeap (self : Ref) : S Unit := do
  S.putInt self "recordType" write_unsigned_byte
  S.putInt self "changeIndicator" write_unsigned_byte
  S.putInt self "partAttachedTo" write_unsigned_short
  S.putInt self "parameterType" write_unsigned_int
  S.putInt self "parameterValue" write_long

/-- Attributes of a `ObjectType` object before `__init__` (/repo/opendis/dis7.py:910-942): class attributes have
values. -/
def ObjectType.attrs : List (String × Scalar) :=
  [("domain", .absent), ("objectKind", .absent), ("category", .absent), ("subcategory", .absent)]

/-- `ObjectType.__init__`, /repo/opendis/dis7.py:916-928, statement by statement. -/
def ObjectType.initHeap (self : Ref) (domain : Val := .sc (.int 0))
    (objectKind : Val := .sc (.int 0)) (category : Val := .sc (.int 0))
    (subcategory : Val := .sc (.int 0)) : H Unit := do
  H.setAttr self "domain" domain
  H.setAttr self "objectKind" objectKind
  H.setAttr self "category" category
  H.setAttr self "subcategory" subcategory

/-- `ObjectType(...)`, /repo/opendis/dis7.py:916-928. -/
def ObjectType.newHeap (domain : Val := .sc (.int 0)) (objectKind : Val := .sc (.int 0))
    (category : Val := .sc (.int 0)) (subcategory : Val := .sc (.int 0)) : H Ref :=
  H.new ObjectType.attrs fun self => ObjectType.initHeap self domain objectKind category subcategory

/-- `ObjectType.parse`, /repo/opendis/dis7.py:937-942, statement by statement. -/
def ObjectType.parseHeap (self : Ref) : H Unit := do
  let domain ← H.read read_unsigned_byte
  H.setAttr self "domain" (.sc (.int domain))
  let objectKind ← H.read read_unsigned_byte
  H.setAttr self "objectKind" (.sc (.int objectKind))
  let category ← H.read read_unsigned_byte
  H.setAttr self "category" (.sc (.int category))
  let subcategory ← H.read read_unsigned_byte
  H.setAttr self "subcategory" (.sc (.int subcategory))
  return ()

/-- `ObjectType.serialize`, /repo/opendis/dis7.py:930-935, statement by statement. -/
def ObjectType.serializeHeap (self : Ref) : S Unit := do
  S.putInt self "domain" write_unsigned_byte
  S.putInt self "objectKind" write_unsigned_byte
  S.putInt self "category" write_unsigned_byte
  S.putInt self "subcategory" write_unsigned_byte

/-- Attributes of a `Association` object before `__init__` (/repo/opendis/dis7.py:945-979): class attributes have
values. -/
def Association.attrs : List (String × Scalar) :=
  [("associationType", .absent), ("padding4", .absent), ("associatedEntityID", .absent),
   ("associatedLocation", .absent)]

/-- `Association.__init__`, /repo/opendis/dis7.py:956-965, statement by statement. -/
def Association.initHeap (self : Ref) (associationType : Val := .sc (.int 0))
    (associatedEntityID : Val := .sc .none) (associatedLocation : Val := .sc .none) : H Unit := do
  H.setAttr self "associationType" associationType
  H.setAttr self "padding4" (.sc (.int 0))
  H.setOr self "associatedEntityID" associatedEntityID EntityIdentifier.newHeap
  H.setOr self "associatedLocation" associatedLocation WorldCoordinates.newHeap

/-- `Association(...)`, /repo/opendis/dis7.py:956-965. -/
def Association.newHeap (associationType : Val := .sc (.int 0))
    (associatedEntityID : Val := .sc .none) (associatedLocation : Val := .sc .none) : H Ref :=
  H.new Association.attrs fun self => Association.initHeap self associationType associatedEntityID associatedLocation

/-- `Association.parse`, /repo/opendis/dis7.py:974-979, statement by statement. -/
def Association.parseHeap (self : Ref) : H Unit := do
  let associationType ← H.read read_unsigned_byte
  H.setAttr self "associationType" (.sc (.int associationType))
  let padding4 ← H.read read_unsigned_byte
  H.setAttr self "padding4" (.sc (.int padding4))
  H.call self "associatedEntityID" EntityIdentifier.parseHeap
  H.call self "associatedLocation" WorldCoordinates.parseHeap
  return ()

/-- `Association.serialize`, /repo/opendis/dis7.py:967-972, statement by statement. -/
def Association.serializeHeap (self : Ref) : S Unit := do
  S.putInt self "associationType" write_unsigned_byte
  S.putInt self "padding4" write_unsigned_byte
  S.call self "associatedEntityID" EntityIdentifier.serializeHeap
  S.call self "associatedLocation" WorldCoordinates.serializeHeap

/-- Attributes of a `RecordSpecificationElement` object before `__init__` (/repo/opendis/dis7.py:982-1022): class attributes have
values. -/
def RecordSpecificationElement.attrs : List (String × Scalar) :=
  [("recordID", .absent), ("recordSetSerialNumber", .absent), ("recordLength", .absent),
   ("recordCount", .absent), ("recordValues", .absent), ("pad4", .absent)]

/-- `RecordSpecificationElement.__init__`, /repo/opendis/dis7.py:987-1004, statement by statement. -/
def RecordSpecificationElement.initHeap (self : Ref) (recordID : Val := .sc (.int 0))
    (recordSetSerialNumber : Val := .sc (.int 0)) (recordLength : Val := .sc (.int 0))
    (recordCount : Val := .sc (.int 0)) (recordValues : Val := .sc (.int 0)) : H Unit := do
  H.setAttr self "recordID" recordID
  H.setAttr self "recordSetSerialNumber" recordSetSerialNumber
  H.setAttr self "recordLength" recordLength
  H.setAttr self "recordCount" recordCount
  H.setAttr self "recordValues" recordValues
  H.setAttr self "pad4" (.sc (.int 0))

/-- `RecordSpecificationElement(...)`, /repo/opendis/dis7.py:987-1004. -/
def RecordSpecificationElement.newHeap (recordID : Val := .sc (.int 0))
    (recordSetSerialNumber : Val := .sc (.int 0)) (recordLength : Val := .sc (.int 0))
    (recordCount : Val := .sc (.int 0)) (recordValues : Val := .sc (.int 0)) : H Ref :=
  H.new RecordSpecificationElement.attrs fun self => RecordSpecificationElement.initHeap self recordID recordSetSerialNumber recordLength recordCount recordValues

/-- `RecordSpecificationElement.parse`, /repo/opendis/dis7.py:1015-1022, statement by statement. -/
def RecordSpecificationElement.parseHeap (self : Ref) : H Unit := do
  let recordID ← H.read read_unsigned_int
  H.setAttr self "recordID" (.sc (.int recordID))
  let recordSetSerialNumber ← H.read read_unsigned_int
  H.setAttr self "recordSetSerialNumber" (.sc (.int recordSetSerialNumber))
  let recordLength ← H.read read_unsigned_short
  H.setAttr self "recordLength" (.sc (.int recordLength))
  let recordCount ← H.read read_unsigned_short
  H.setAttr self "recordCount" (.sc (.int recordCount))
  let recordValues ← H.read read_unsigned_short
  H.setAttr self "recordValues" (.sc (.int recordValues))
  let pad4 ← H.read read_unsigned_byte
  H.setAttr self "pad4" (.sc (.int pad4))
  return ()

/-- `RecordSpecificationElement.serialize`, /repo/opendis/dis7.py:1006-1013, statement by statement. -/
def RecordSpecificationElement.serializeHeap (self : Ref) : S Unit := do
  S.putInt self "recordID" write_unsigned_int
  S.putInt self "recordSetSerialNumber" write_unsigned_int
  S.putInt self "recordLength" write_unsigned_short
  S.putInt self "recordCount" write_unsigned_short
  S.putInt self "recordValues" write_unsigned_short
  S.putInt self "pad4" write_unsigned_byte

/-- Attributes of a `AntennaLocation` object before `__init__` (/repo/opendis/dis7.py:1025-1048): class attributes have
values. -/
def AntennaLocation.attrs : List (String × Scalar) :=
  [("antennaLocation", .absent), ("relativeAntennaLocation", .absent)]

/-- `AntennaLocation.__init__`, /repo/opendis/dis7.py:1031-1038, statement by statement. -/
def AntennaLocation.initHeap (self : Ref) (antennaLocation : Val := .sc .none)
    (relativeAntennaLocation : Val := .sc .none) : H Unit := do
  H.setOr self "antennaLocation" antennaLocation WorldCoordinates.newHeap
  H.setOr self "relativeAntennaLocation" relativeAntennaLocation Vector3Float.newHeap

/-- `AntennaLocation(...)`, /repo/opendis/dis7.py:1031-1038. -/
def AntennaLocation.newHeap (antennaLocation : Val := .sc .none)
    (relativeAntennaLocation : Val := .sc .none) : H Ref :=
  H.new AntennaLocation.attrs fun self => AntennaLocation.initHeap self antennaLocation relativeAntennaLocation

/-- `AntennaLocation.parse`, /repo/opendis/dis7.py:1045-1048, statement by statement. -/
def AntennaLocation.parseHeap (self : Ref) : H Unit := do
  H.call self "antennaLocation" WorldCoordinates.parseHeap
  H.call self "relativeAntennaLocation" Vector3Float.parseHeap
  return ()

/-- `AntennaLocation.serialize`, /repo/opendis/dis7.py:1040-1043, statement by statement. -/
def AntennaLocation.serializeHeap (self : Ref) : S Unit := do
  S.call self "antennaLocation" WorldCoordinates.serializeHeap
  S.call self "relativeAntennaLocation" Vector3Float.serializeHeap

/-- Attributes of a `ObjectIdentifier` object before `__init__` (/repo/opendis/dis7.py:1051-1073): class attributes have
values. -/
def ObjectIdentifier.attrs : List (String × Scalar) :=
  [("simulationAddress", .absent), ("objectNumber", .absent)]

/-- `ObjectIdentifier.__init__`, /repo/opendis/dis7.py:1057-1063, statement by statement. -/
def ObjectIdentifier.initHeap (self : Ref) (simulationAddress : Val := .sc .none)
    (objectNumber : Val := .sc (.int 0)) : H Unit := do
  H.setOr self "simulationAddress" simulationAddress SimulationAddress.newHeap
  H.setAttr self "objectNumber" objectNumber

/-- `ObjectIdentifier(...)`, /repo/opendis/dis7.py:1057-1063. -/
def ObjectIdentifier.newHeap (simulationAddress : Val := .sc .none)
    (objectNumber : Val := .sc (.int 0)) : H Ref :=
  H.new ObjectIdentifier.attrs fun self => ObjectIdentifier.initHeap self simulationAddress objectNumber

/-- `ObjectIdentifier.parse`, /repo/opendis/dis7.py:1070-1073, statement by statement. -/
def ObjectIdentifier.parseHeap (self : Ref) : H Unit := do
  H.call self "simulationAddress" SimulationAddress.parseHeap
  let objectNumber ← H.read read_unsigned_short
  H.setAttr self "objectNumber" (.sc (.int objectNumber))
  return ()

/-- `ObjectIdentifier.serialize`, /repo/opendis/dis7.py:1065-1068, statement by statement. -/
def ObjectIdentifier.serializeHeap (self : Ref) : S Unit := do
  S.call self "simulationAddress" SimulationAddress.serializeHeap
  S.putInt self "objectNumber" write_unsigned_short

/-- Attributes of a `AggregateIdentifier` object before `__init__` (/repo/opendis/dis7.py:1076-1097): class attributes have
values. -/
def AggregateIdentifier.attrs : List (String × Scalar) :=
  [("simulationAddress", .absent), ("aggregateID", .absent)]

/-- `AggregateIdentifier.__init__`, /repo/opendis/dis7.py:1082-1087, statement by statement. -/
def AggregateIdentifier.initHeap (self : Ref) (simulationAddress : Val := .sc .none)
    (aggregateID : Val := .sc (.int 0)) : H Unit := do
  H.setOr self "simulationAddress" simulationAddress SimulationAddress.newHeap
  H.setAttr self "aggregateID" aggregateID

/-- `AggregateIdentifier(...)`, /repo/opendis/dis7.py:1082-1087. -/
def AggregateIdentifier.newHeap (simulationAddress : Val := .sc .none)
    (aggregateID : Val := .sc (.int 0)) : H Ref :=
  H.new AggregateIdentifier.attrs fun self => AggregateIdentifier.initHeap self simulationAddress aggregateID

/-- `AggregateIdentifier.parse`, /repo/opendis/dis7.py:1094-1097, statement by statement. -/
def AggregateIdentifier.parseHeap (self : Ref) : H Unit := do
  H.call self "simulationAddress" SimulationAddress.parseHeap
  let aggregateID ← H.read read_unsigned_short
  H.setAttr self "aggregateID" (.sc (.int aggregateID))
  return ()

/-- `AggregateIdentifier.serialize`, /repo/opendis/dis7.py:1089-1092, statement by statement. -/
def AggregateIdentifier.serializeHeap (self : Ref) : S Unit := do
  S.call self "simulationAddress" SimulationAddress.serializeHeap
  S.putInt self "aggregateID" write_unsigned_short

/-- Attributes of a `FixedDatum` object before `__init__` (/repo/opendis/dis7.py:1100-1122): class attributes have
values. -/
def FixedDatum.attrs : List (String × Scalar) :=
  [("fixedDatumID", .absent), ("fixedDatumValue", .absent)]

/-- `FixedDatum.__init__`, /repo/opendis/dis7.py:1106-1112, statement by statement. -/
def FixedDatum.initHeap (self : Ref) (fixedDatumID : Val := .sc (.int 0))
    (fixedDatumValue : Val := .sc (.int 0)) : H Unit := do
  H.setAttr self "fixedDatumID" fixedDatumID
  H.setAttr self "fixedDatumValue" fixedDatumValue

/-- `FixedDatum(...)`, /repo/opendis/dis7.py:1106-1112. -/
def FixedDatum.newHeap (fixedDatumID : Val := .sc (.int 0))
    (fixedDatumValue : Val := .sc (.int 0)) : H Ref :=
  H.new FixedDatum.attrs fun self => FixedDatum.initHeap self fixedDatumID fixedDatumValue

/-- `FixedDatum.parse`, /repo/opendis/dis7.py:1119-1122, statement by statement. -/
def FixedDatum.parseHeap (self : Ref) : H Unit := do
  let fixedDatumID ← H.read read_unsigned_int
  H.setAttr self "fixedDatumID" (.sc (.int fixedDatumID))
  let fixedDatumValue ← H.read read_unsigned_int
  H.setAttr self "fixedDatumValue" (.sc (.int fixedDatumValue))
  return ()

/-- `FixedDatum.serialize`, /repo/opendis/dis7.py:1114-1117, statement by statement. -/
def FixedDatum.serializeHeap (self : Ref) : S Unit := do
  S.putInt self "fixedDatumID" write_unsigned_int
  S.putInt self "fixedDatumValue" write_unsigned_int

/-- Attributes of a `VariableParameter` object before `__init__` (/repo/opendis/dis7.py:1125-1163): class attributes have
values. -/
def VariableParameter.attrs : List (String × Scalar) :=
  [("recordType", .absent), ("variableParameterFields1", .absent),
   ("variableParameterFields2", .absent), ("variableParameterFields3", .absent),
   ("variableParameterFields4", .absent)]

/-- `VariableParameter.__init__`, /repo/opendis/dis7.py:1132-1147, statement by statement. -/
def VariableParameter.initHeap (self : Ref) (recordType : Val := .sc (.int 0))
    (variableParameterFields1 : Val := .sc (.float 0x0000000000000000))
    (variableParameterFields2 : Val := .sc (.int 0))
    (variableParameterFields3 : Val := .sc (.int 0))
    (variableParameterFields4 : Val := .sc (.int 0)) : H Unit := do
  H.setAttr self "recordType" recordType
  H.setAttr self "variableParameterFields1" variableParameterFields1
  H.setAttr self "variableParameterFields2" variableParameterFields2
  H.setAttr self "variableParameterFields3" variableParameterFields3
  H.setAttr self "variableParameterFields4" variableParameterFields4

/-- `VariableParameter(...)`, /repo/opendis/dis7.py:1132-1147. -/
def VariableParameter.newHeap (recordType : Val := .sc (.int 0))
    (variableParameterFields1 : Val := .sc (.float 0x0000000000000000))
    (variableParameterFields2 : Val := .sc (.int 0))
    (variableParameterFields3 : Val := .sc (.int 0))
    (variableParameterFields4 : Val := .sc (.int 0)) : H Ref :=
  H.new VariableParameter.attrs fun self => VariableParameter.initHeap self recordType variableParameterFields1 variableParameterFields2 variableParameterFields3 variableParameterFields4

/-- `VariableParameter.parse`, /repo/opendis/dis7.py:1157-1163, statement by statement. -/
def VariableParameter.parseHeap (self : Ref) : H Unit := do
  let recordType ← H.read read_unsigned_byte
  H.setAttr self "recordType" (.sc (.int recordType))
  let variableParameterFields1 ← H.read read_double
  H.setAttr self "variableParameterFields1" (.sc (.float variableParameterFields1))
  let variableParameterFields2 ← H.read read_unsigned_int
  H.setAttr self "variableParameterFields2" (.sc (.int variableParameterFields2))
  let variableParameterFields3 ← H.read read_unsigned_short
  H.setAttr self "variableParameterFields3" (.sc (.int variableParameterFields3))
  let variableParameterFields4 ← H.read read_unsigned_byte
  H.setAttr self "variableParameterFields4" (.sc (.int variableParameterFields4))
  return ()

/-- `VariableParameter.serialize`, /repo/opendis/dis7.py:1149-1155, statement by statement. -/
def VariableParameter.serializeHeap (self : Ref) : S Unit := do
  S.putInt self "recordType" write_unsigned_byte
  S.putFloat self "variableParameterFields1" write_double
  S.putInt self "variableParameterFields2" write_unsigned_int
  S.putInt self "variableParameterFields3" write_unsigned_short
  S.putInt self "variableParameterFields4" write_unsigned_byte

/-- Attributes of a `ChangeOptions` object before `__init__` (/repo/opendis/dis7.py:1166-1179): class attributes have
values. -/
def ChangeOptions.attrs : List (String × Scalar) :=
  []

/-- `ChangeOptions.__init__`, /repo/opendis/dis7.py:1169-1171, statement by statement. -/
def ChangeOptions.initHeap (self : Ref) : H Unit := do
  pure ()

/-- `ChangeOptions(...)`, /repo/opendis/dis7.py:1169-1171. -/
def ChangeOptions.newHeap : H Ref :=
  H.new ChangeOptions.attrs fun self => ChangeOptions.initHeap self

/-- `ChangeOptions.parse`, /repo/opendis/dis7.py:1177-1179, statement by statement. -/
def ChangeOptions.parseHeap (self : Ref) : H Unit := do
  return ()

/-- `ChangeOptions.serialize`, /repo/opendis/dis7.py:1173-1175, statement by statement. -/
def ChangeOptions.serializeHeap (self : Ref) : S Unit := do
  pure ()

end Dis
