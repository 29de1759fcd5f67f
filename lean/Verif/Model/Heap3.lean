import Verif.Model.Heap2

/-!
# Methods as programs on a memory of objects, part 3

Generated by `tools/genheap.py` from the Python source; each definition cites the lines it transliterates.
-/

set_option linter.unusedVariables false
set_option linter.unusedSimpArgs false

namespace Dis

/-- Attributes of a `AcousticEmitter` object before `__init__` (/repo/opendis/dis7.py:2671-2698): class attributes have
values. -/
def AcousticEmitter.attrs : List (String × Scalar) :=
  [("acousticSystemName", .absent), ("acousticFunction", .absent), ("acousticIDNumber", .absent)]

/-- `AcousticEmitter.__init__`, /repo/opendis/dis7.py:2677-2686, statement by statement. -/
def AcousticEmitter.initHeap (self : Ref) (acousticSystemName : Val := .sc (.int 0))
    (acousticFunction : Val := .sc (.int 0)) (acousticIDNumber : Val := .sc (.int 0)) : H Unit := do
  H.setAttr self "acousticSystemName" acousticSystemName
  H.setAttr self "acousticFunction" acousticFunction
  H.setAttr self "acousticIDNumber" acousticIDNumber

/-- `AcousticEmitter(...)`, /repo/opendis/dis7.py:2677-2686. -/
def AcousticEmitter.newHeap (acousticSystemName : Val := .sc (.int 0))
    (acousticFunction : Val := .sc (.int 0)) (acousticIDNumber : Val := .sc (.int 0)) : H Ref :=
  H.new AcousticEmitter.attrs fun self => AcousticEmitter.initHeap self acousticSystemName acousticFunction acousticIDNumber

/-- `AcousticEmitter.parse`, /repo/opendis/dis7.py:2694-2698, statement by statement. -/
def AcousticEmitter.parseHeap (self : Ref) : H Unit := do
  let acousticSystemName ← H.read read_unsigned_short
  H.setAttr self "acousticSystemName" (.sc (.int acousticSystemName))
  let acousticFunction ← H.read read_unsigned_byte
  H.setAttr self "acousticFunction" (.sc (.int acousticFunction))
  let acousticIDNumber ← H.read read_unsigned_byte
  H.setAttr self "acousticIDNumber" (.sc (.int acousticIDNumber))
  return ()

/-- `AcousticEmitter.serialize`, /repo/opendis/dis7.py:2688-2692, statement by statement. -/
def AcousticEmitter.serializeHeap (self : Ref) : S Unit := do
  S.putInt self "acousticSystemName" write_unsigned_short
  S.putInt self "acousticFunction" write_unsigned_byte
  S.putInt self "acousticIDNumber" write_unsigned_byte

/-- Attributes of a `AngularVelocityVector` object before `__init__` (/repo/opendis/dis7.py:2701-2728): class attributes have
values. -/
def AngularVelocityVector.attrs : List (String × Scalar) :=
  [("x", .absent), ("y", .absent), ("z", .absent)]

/-- `AngularVelocityVector.__init__`, /repo/opendis/dis7.py:2710-2716, statement by statement. -/
def AngularVelocityVector.initHeap (self : Ref) (x : Val := .sc (.float 0x0000000000000000))
    (y : Val := .sc (.float 0x0000000000000000)) (z : Val := .sc (.float 0x0000000000000000))
    : H Unit := do
  H.setAttr self "x" (.sc (.float 0x0000000000000000))
  H.setAttr self "y" (.sc (.float 0x0000000000000000))
  H.setAttr self "z" (.sc (.float 0x0000000000000000))

/-- `AngularVelocityVector(...)`, /repo/opendis/dis7.py:2710-2716. -/
def AngularVelocityVector.newHeap (x : Val := .sc (.float 0x0000000000000000))
    (y : Val := .sc (.float 0x0000000000000000)) (z : Val := .sc (.float 0x0000000000000000))
    : H Ref :=
  H.new AngularVelocityVector.attrs fun self => AngularVelocityVector.initHeap self x y z

/-- `AngularVelocityVector.parse`, /repo/opendis/dis7.py:2724-2728, statement by statement. -/
def AngularVelocityVector.parseHeap (self : Ref) : H Unit := do
  let x ← H.read read_float
  H.setAttr self "x" (.sc (.float x))
  let y ← H.read read_float
  H.setAttr self "y" (.sc (.float y))
  let z ← H.read read_float
  H.setAttr self "z" (.sc (.float z))
  return ()

/-- `AngularVelocityVector.serialize`, /repo/opendis/dis7.py:2718-2722, statement by statement. -/
def AngularVelocityVector.serializeHeap (self : Ref) : S Unit := do
  S.putFloat self "x" write_float
  S.putFloat self "y" write_float
  S.putFloat self "z" write_float

/-- Attributes of a `AggregateMarking` object before `__init__` (/repo/opendis/dis7.py:2731-2759): class attributes have
values. -/
def AggregateMarking.attrs : List (String × Scalar) :=
  [("characterSet", .absent), ("characters", .absent)]

/-- `AggregateMarking.__init__`, /repo/opendis/dis7.py:2738-2744, statement by statement. -/
def AggregateMarking.initHeap (self : Ref) (characterSet : Val := .sc (.int 0))
    (characters : Val := .sc .none) : H Unit := do
  H.setAttr self "characterSet" characterSet
  H.setNew self "characters" (H.zeros 31)

/-- `AggregateMarking(...)`, /repo/opendis/dis7.py:2738-2744. -/
def AggregateMarking.newHeap (characterSet : Val := .sc (.int 0))
    (characters : Val := .sc .none) : H Ref :=
  H.new AggregateMarking.attrs fun self => AggregateMarking.initHeap self characterSet characters

/-- `AggregateMarking.parse`, /repo/opendis/dis7.py:2752-2759, statement by statement. -/
def AggregateMarking.parseHeap (self : Ref) : H Unit := do
  let characterSet ← H.read read_unsigned_byte
  H.setAttr self "characterSet" (.sc (.int characterSet))
  H.fillReads 31 read_unsigned_byte self "characters"
  return ()

/-- `AggregateMarking.serialize`, /repo/opendis/dis7.py:2746-2750, statement by statement. -/
def AggregateMarking.serializeHeap (self : Ref) : S Unit := do
  S.putInt self "characterSet" write_unsigned_byte
  S.forRange 0 31 fun idx => S.putItem self "characters" idx write_unsigned_byte

/-- Attributes of a `DataFilterRecord` object before `__init__` (/repo/opendis/dis7.py:2762-2781): class attributes have
values. -/
def DataFilterRecord.attrs : List (String × Scalar) :=
  [("bitFlags", .absent)]

/-- `DataFilterRecord.__init__`, /repo/opendis/dis7.py:2771-2773, statement by statement. -/
def DataFilterRecord.initHeap (self : Ref) (bitFlags : Val := .sc (.int 0)) : H Unit := do
  H.setAttr self "bitFlags" bitFlags

/-- `DataFilterRecord(...)`, /repo/opendis/dis7.py:2771-2773. -/
def DataFilterRecord.newHeap (bitFlags : Val := .sc (.int 0)) : H Ref :=
  H.new DataFilterRecord.attrs fun self => DataFilterRecord.initHeap self bitFlags

/-- `DataFilterRecord.parse`, /repo/opendis/dis7.py:2779-2781, statement by statement. -/
def DataFilterRecord.parseHeap (self : Ref) : H Unit := do
  let bitFlags ← H.read read_unsigned_int
  H.setAttr self "bitFlags" (.sc (.int bitFlags))
  return ()

/-- `DataFilterRecord.serialize`, /repo/opendis/dis7.py:2775-2777, statement by statement. -/
def DataFilterRecord.serializeHeap (self : Ref) : S Unit := do
  S.putInt self "bitFlags" write_unsigned_int

/-- Attributes of a `IntercomIdentifier` object before `__init__` (/repo/opendis/dis7.py:2784-2812): class attributes have
values. -/
def IntercomIdentifier.attrs : List (String × Scalar) :=
  [("siteNumber", .absent), ("applicationNumber", .absent), ("referenceNumber", .absent),
   ("intercomNumber", .absent)]

/-- `IntercomIdentifier.__init__`, /repo/opendis/dis7.py:2790-2798, statement by statement. -/
def IntercomIdentifier.initHeap (self : Ref) (siteNumber : Val := .sc (.int 0))
    (applicationNumber : Val := .sc (.int 0)) (referenceNumber : Val := .sc (.int 0))
    (intercomNumber : Val := .sc (.int 0)) : H Unit := do
  H.setAttr self "siteNumber" siteNumber
  H.setAttr self "applicationNumber" applicationNumber
  H.setAttr self "referenceNumber" referenceNumber
  H.setAttr self "intercomNumber" intercomNumber

/-- `IntercomIdentifier(...)`, /repo/opendis/dis7.py:2790-2798. -/
def IntercomIdentifier.newHeap (siteNumber : Val := .sc (.int 0))
    (applicationNumber : Val := .sc (.int 0)) (referenceNumber : Val := .sc (.int 0))
    (intercomNumber : Val := .sc (.int 0)) : H Ref :=
  H.new IntercomIdentifier.attrs fun self => IntercomIdentifier.initHeap self siteNumber applicationNumber referenceNumber intercomNumber

/-- `IntercomIdentifier.parse`, /repo/opendis/dis7.py:2807-2812, statement by statement. -/
def IntercomIdentifier.parseHeap (self : Ref) : H Unit := do
  let siteNumber ← H.read read_unsigned_short
  H.setAttr self "siteNumber" (.sc (.int siteNumber))
  let applicationNumber ← H.read read_unsigned_short
  H.setAttr self "applicationNumber" (.sc (.int applicationNumber))
  let referenceNumber ← H.read read_unsigned_short
  H.setAttr self "referenceNumber" (.sc (.int referenceNumber))
  let intercomNumber ← H.read read_unsigned_short
  H.setAttr self "intercomNumber" (.sc (.int intercomNumber))
  return ()

/-- `IntercomIdentifier.serialize`, /repo/opendis/dis7.py:2800-2805, statement by statement. -/
def IntercomIdentifier.serializeHeap (self : Ref) : S Unit := do
  S.putInt self "siteNumber" write_unsigned_short
  S.putInt self "applicationNumber" write_unsigned_short
  S.putInt self "referenceNumber" write_unsigned_short
  S.putInt self "intercomNumber" write_unsigned_short

/-- Attributes of a `StorageFuel` object before `__init__` (/repo/opendis/dis7.py:2815-2850): class attributes have
values. -/
def StorageFuel.attrs : List (String × Scalar) :=
  [("fuelQuantity", .absent), ("fuelMeasurementUnits", .absent), ("fuelType", .absent),
   ("fuelLocation", .absent), ("padding", .absent)]

/-- `StorageFuel.__init__`, /repo/opendis/dis7.py:2821-2834, statement by statement. -/
def StorageFuel.initHeap (self : Ref) (fuelQuantity : Val := .sc (.int 0))
    (fuelMeasurementUnits : Val := .sc (.int 0)) (fuelType : Val := .sc (.int 0))
    (fuelLocation : Val := .sc (.int 0)) : H Unit := do
  H.setAttr self "fuelQuantity" fuelQuantity
  H.setAttr self "fuelMeasurementUnits" fuelMeasurementUnits
  H.setAttr self "fuelType" fuelType
  H.setAttr self "fuelLocation" fuelLocation
  H.setAttr self "padding" (.sc (.int 0))

/-- `StorageFuel(...)`, /repo/opendis/dis7.py:2821-2834. -/
def StorageFuel.newHeap (fuelQuantity : Val := .sc (.int 0))
    (fuelMeasurementUnits : Val := .sc (.int 0)) (fuelType : Val := .sc (.int 0))
    (fuelLocation : Val := .sc (.int 0)) : H Ref :=
  H.new StorageFuel.attrs fun self => StorageFuel.initHeap self fuelQuantity fuelMeasurementUnits fuelType fuelLocation

/-- `StorageFuel.parse`, /repo/opendis/dis7.py:2844-2850, statement by statement. -/
def StorageFuel.parseHeap (self : Ref) : H Unit := do
  let fuelQuantity ← H.read read_unsigned_int
  H.setAttr self "fuelQuantity" (.sc (.int fuelQuantity))
  let fuelMeasurementUnits ← H.read read_unsigned_byte
  H.setAttr self "fuelMeasurementUnits" (.sc (.int fuelMeasurementUnits))
  let fuelType ← H.read read_unsigned_byte
  H.setAttr self "fuelType" (.sc (.int fuelType))
  let fuelLocation ← H.read read_unsigned_byte
  H.setAttr self "fuelLocation" (.sc (.int fuelLocation))
  let padding ← H.read read_unsigned_byte
  H.setAttr self "padding" (.sc (.int padding))
  return ()

/-- `StorageFuel.serialize`, /repo/opendis/dis7.py:2836-2842, statement by statement. -/
def StorageFuel.serializeHeap (self : Ref) : S Unit := do
  S.putInt self "fuelQuantity" write_unsigned_int
  S.putInt self "fuelMeasurementUnits" write_unsigned_byte
  S.putInt self "fuelType" write_unsigned_byte
  S.putInt self "fuelLocation" write_unsigned_byte
  S.putInt self "padding" write_unsigned_byte

/-- Attributes of a `Sensor` object before `__init__` (/repo/opendis/dis7.py:2853-2893): class attributes have
values. -/
def Sensor.attrs : List (String × Scalar) :=
  [("sensorTypeSource", .absent), ("sensorOnOffStatus", .absent), ("sensorType", .absent),
   ("station", .absent), ("quantity", .absent), ("padding", .absent)]

/-- `Sensor.__init__`, /repo/opendis/dis7.py:2859-2875, statement by statement. -/
def Sensor.initHeap (self : Ref) (sensorTypeSource : Val := .sc (.int 0))
    (sensorOnOffStatus : Val := .sc (.int 0)) (sensorType : Val := .sc (.int 0))
    (station : Val := .sc (.int 0)) (quantity : Val := .sc (.int 0)) : H Unit := do
  H.setAttr self "sensorTypeSource" sensorTypeSource
  H.setAttr self "sensorOnOffStatus" sensorOnOffStatus
  H.setAttr self "sensorType" sensorType
  H.setAttr self "station" station
  H.setAttr self "quantity" quantity
  H.setAttr self "padding" (.sc (.int 0))

/-- `Sensor(...)`, /repo/opendis/dis7.py:2859-2875. -/
def Sensor.newHeap (sensorTypeSource : Val := .sc (.int 0))
    (sensorOnOffStatus : Val := .sc (.int 0)) (sensorType : Val := .sc (.int 0))
    (station : Val := .sc (.int 0)) (quantity : Val := .sc (.int 0)) : H Ref :=
  H.new Sensor.attrs fun self => Sensor.initHeap self sensorTypeSource sensorOnOffStatus sensorType station quantity

/-- `Sensor.parse`, /repo/opendis/dis7.py:2886-2893, statement by statement. -/
def Sensor.parseHeap (self : Ref) : H Unit := do
  let sensorTypeSource ← H.read read_unsigned_byte
  H.setAttr self "sensorTypeSource" (.sc (.int sensorTypeSource))
  let sensorOnOffStatus ← H.read read_unsigned_byte
  H.setAttr self "sensorOnOffStatus" (.sc (.int sensorOnOffStatus))
  let sensorType ← H.read read_unsigned_short
  H.setAttr self "sensorType" (.sc (.int sensorType))
  let station ← H.read read_unsigned_int
  H.setAttr self "station" (.sc (.int station))
  let quantity ← H.read read_unsigned_short
  H.setAttr self "quantity" (.sc (.int quantity))
  let padding ← H.read read_unsigned_short
  H.setAttr self "padding" (.sc (.int padding))
  return ()

/-- `Sensor.serialize`, /repo/opendis/dis7.py:2877-2884, statement by statement. -/
def Sensor.serializeHeap (self : Ref) : S Unit := do
  S.putInt self "sensorTypeSource" write_unsigned_byte
  S.putInt self "sensorOnOffStatus" write_unsigned_byte
  S.putInt self "sensorType" write_unsigned_short
  S.putInt self "station" write_unsigned_int
  S.putInt self "quantity" write_unsigned_short
  S.putInt self "padding" write_unsigned_short

/-- Attributes of a `MunitionReload` object before `__init__` (/repo/opendis/dis7.py:2896-2940): class attributes have
values. -/
def MunitionReload.attrs : List (String × Scalar) :=
  [("munitionType", .absent), ("station", .absent), ("standardQuantity", .absent),
   ("maximumQuantity", .absent), ("standardQuantityReloadTime", .absent),
   ("maximumQuantityReloadTime", .absent)]

/-- `MunitionReload.__init__`, /repo/opendis/dis7.py:2903-2922, statement by statement. -/
def MunitionReload.initHeap (self : Ref) (munitionType : Val := .sc .none)
    (station : Val := .sc (.int 0)) (standardQuantity : Val := .sc (.int 0))
    (maximumQuantity : Val := .sc (.int 0)) (standardQuantityReloadTime : Val := .sc (.int 0))
    (maximumQuantityReloadTime : Val := .sc (.int 0)) : H Unit := do
  H.setOr self "munitionType" munitionType EntityType.newHeap
  H.setAttr self "station" station
  H.setAttr self "standardQuantity" standardQuantity
  H.setAttr self "maximumQuantity" maximumQuantity
  H.setAttr self "standardQuantityReloadTime" standardQuantityReloadTime
  H.setAttr self "maximumQuantityReloadTime" maximumQuantityReloadTime

/-- `MunitionReload(...)`, /repo/opendis/dis7.py:2903-2922. -/
def MunitionReload.newHeap (munitionType : Val := .sc .none) (station : Val := .sc (.int 0))
    (standardQuantity : Val := .sc (.int 0)) (maximumQuantity : Val := .sc (.int 0))
    (standardQuantityReloadTime : Val := .sc (.int 0))
    (maximumQuantityReloadTime : Val := .sc (.int 0)) : H Ref :=
  H.new MunitionReload.attrs fun self => MunitionReload.initHeap self munitionType station standardQuantity maximumQuantity standardQuantityReloadTime maximumQuantityReloadTime

/-- `MunitionReload.parse`, /repo/opendis/dis7.py:2933-2940, statement by statement. -/
def MunitionReload.parseHeap (self : Ref) : H Unit := do
  H.call self "munitionType" EntityType.parseHeap
  let station ← H.read read_unsigned_int
  H.setAttr self "station" (.sc (.int station))
  let standardQuantity ← H.read read_unsigned_short
  H.setAttr self "standardQuantity" (.sc (.int standardQuantity))
  let maximumQuantity ← H.read read_unsigned_short
  H.setAttr self "maximumQuantity" (.sc (.int maximumQuantity))
  let standardQuantityReloadTime ← H.read read_unsigned_int
  H.setAttr self "standardQuantityReloadTime" (.sc (.int standardQuantityReloadTime))
  let maximumQuantityReloadTime ← H.read read_unsigned_int
  H.setAttr self "maximumQuantityReloadTime" (.sc (.int maximumQuantityReloadTime))
  return ()

/-- `MunitionReload.serialize`, /repo/opendis/dis7.py:2924-2931, statement by statement. -/
def MunitionReload.serializeHeap (self : Ref) : S Unit := do
  S.call self "munitionType" EntityType.serializeHeap
  S.putInt self "station" write_unsigned_int
  S.putInt self "standardQuantity" write_unsigned_short
  S.putInt self "maximumQuantity" write_unsigned_short
  S.putInt self "standardQuantityReloadTime" write_unsigned_int
  S.putInt self "maximumQuantityReloadTime" write_unsigned_int

/-- Attributes of a `StorageFuelReload` object before `__init__` (/repo/opendis/dis7.py:2943-2996): class attributes have
values. -/
def StorageFuelReload.attrs : List (String × Scalar) :=
  [("standardQuantity", .absent), ("maximumQuantity", .absent),
   ("standardQuantityReloadTime", .absent), ("maximumQuantityReloadTime", .absent),
   ("fuelMeasurementUnits", .absent), ("fuelType", .absent), ("fuelLocation", .absent),
   ("padding", .absent)]

/-- `StorageFuelReload.__init__`, /repo/opendis/dis7.py:2952-2974, statement by statement. -/
def StorageFuelReload.initHeap (self : Ref) (standardQuantity : Val := .sc (.int 0))
    (maximumQuantity : Val := .sc (.int 0)) (standardQuantityReloadTime : Val := .sc (.int 0))
    (maximumQuantityReloadTime : Val := .sc (.int 0))
    (fuelMeasurementUnits : Val := .sc (.int 0)) (fuelType : Val := .sc (.int 0))
    (fuelLocation : Val := .sc (.int 0)) : H Unit := do
  H.setAttr self "standardQuantity" standardQuantity
  H.setAttr self "maximumQuantity" maximumQuantity
  H.setAttr self "standardQuantityReloadTime" standardQuantityReloadTime
  H.setAttr self "maximumQuantityReloadTime" maximumQuantityReloadTime
  H.setAttr self "fuelMeasurementUnits" fuelMeasurementUnits
  H.setAttr self "fuelType" fuelType
  H.setAttr self "fuelLocation" fuelLocation
  H.setAttr self "padding" (.sc (.int 0))

/-- `StorageFuelReload(...)`, /repo/opendis/dis7.py:2952-2974. -/
def StorageFuelReload.newHeap (standardQuantity : Val := .sc (.int 0))
    (maximumQuantity : Val := .sc (.int 0)) (standardQuantityReloadTime : Val := .sc (.int 0))
    (maximumQuantityReloadTime : Val := .sc (.int 0))
    (fuelMeasurementUnits : Val := .sc (.int 0)) (fuelType : Val := .sc (.int 0))
    (fuelLocation : Val := .sc (.int 0)) : H Ref :=
  H.new StorageFuelReload.attrs fun self => StorageFuelReload.initHeap self standardQuantity maximumQuantity standardQuantityReloadTime maximumQuantityReloadTime fuelMeasurementUnits fuelType fuelLocation

/-- `StorageFuelReload.parse`, /repo/opendis/dis7.py:2987-2996, statement by statement. -/
def StorageFuelReload.parseHeap (self : Ref) : H Unit := do
  let standardQuantity ← H.read read_unsigned_int
  H.setAttr self "standardQuantity" (.sc (.int standardQuantity))
  let maximumQuantity ← H.read read_unsigned_int
  H.setAttr self "maximumQuantity" (.sc (.int maximumQuantity))
  let standardQuantityReloadTime ← H.read read_unsigned_byte
  H.setAttr self "standardQuantityReloadTime" (.sc (.int standardQuantityReloadTime))
  let maximumQuantityReloadTime ← H.read read_unsigned_byte
  H.setAttr self "maximumQuantityReloadTime" (.sc (.int maximumQuantityReloadTime))
  let fuelMeasurementUnits ← H.read read_unsigned_byte
  H.setAttr self "fuelMeasurementUnits" (.sc (.int fuelMeasurementUnits))
  let fuelType ← H.read read_unsigned_byte
  H.setAttr self "fuelType" (.sc (.int fuelType))
  let fuelLocation ← H.read read_unsigned_byte
  H.setAttr self "fuelLocation" (.sc (.int fuelLocation))
  let padding ← H.read read_unsigned_byte
  H.setAttr self "padding" (.sc (.int padding))
  return ()

/-- `StorageFuelReload.serialize`, /repo/opendis/dis7.py:2976-2985, statement by statement. -/
def StorageFuelReload.serializeHeap (self : Ref) : S Unit := do
  S.putInt self "standardQuantity" write_unsigned_int
  S.putInt self "maximumQuantity" write_unsigned_int
  S.putInt self "standardQuantityReloadTime" write_unsigned_byte
  S.putInt self "maximumQuantityReloadTime" write_unsigned_byte
  S.putInt self "fuelMeasurementUnits" write_unsigned_byte
  S.putInt self "fuelType" write_unsigned_byte
  S.putInt self "fuelLocation" write_unsigned_byte
  S.putInt self "padding" write_unsigned_byte

/-- Attributes of a `ExpendableReload` object before `__init__` (/repo/opendis/dis7.py:2999-3037): class attributes have
values. -/
def ExpendableReload.attrs : List (String × Scalar) :=
  [("expendable", .absent), ("station", .absent), ("standardQuantity", .absent),
   ("maximumQuantity", .absent), ("standardQuantityReloadTime", .absent),
   ("maximumQuantityReloadTime", .absent)]

/-- `ExpendableReload.__init__`, /repo/opendis/dis7.py:3005-3019, statement by statement. -/
def ExpendableReload.initHeap (self : Ref) (expendable : Val := .sc .none)
    (station : Val := .sc (.int 0)) (standardQuantity : Val := .sc (.int 0))
    (maximumQuantity : Val := .sc (.int 0)) (standardQuantityReloadTime : Val := .sc (.int 0))
    (maximumQuantityReloadTime : Val := .sc (.int 0)) : H Unit := do
  H.setOr self "expendable" expendable EntityType.newHeap
  H.setAttr self "station" station
  H.setAttr self "standardQuantity" standardQuantity
  H.setAttr self "maximumQuantity" maximumQuantity
  H.setAttr self "standardQuantityReloadTime" standardQuantityReloadTime
  H.setAttr self "maximumQuantityReloadTime" maximumQuantityReloadTime

/-- `ExpendableReload(...)`, /repo/opendis/dis7.py:3005-3019. -/
def ExpendableReload.newHeap (expendable : Val := .sc .none) (station : Val := .sc (.int 0))
    (standardQuantity : Val := .sc (.int 0)) (maximumQuantity : Val := .sc (.int 0))
    (standardQuantityReloadTime : Val := .sc (.int 0))
    (maximumQuantityReloadTime : Val := .sc (.int 0)) : H Ref :=
  H.new ExpendableReload.attrs fun self => ExpendableReload.initHeap self expendable station standardQuantity maximumQuantity standardQuantityReloadTime maximumQuantityReloadTime

/-- `ExpendableReload.parse`, /repo/opendis/dis7.py:3030-3037, statement by statement. -/
def ExpendableReload.parseHeap (self : Ref) : H Unit := do
  H.call self "expendable" EntityType.parseHeap
  let station ← H.read read_unsigned_int
  H.setAttr self "station" (.sc (.int station))
  let standardQuantity ← H.read read_unsigned_short
  H.setAttr self "standardQuantity" (.sc (.int standardQuantity))
  let maximumQuantity ← H.read read_unsigned_short
  H.setAttr self "maximumQuantity" (.sc (.int maximumQuantity))
  let standardQuantityReloadTime ← H.read read_unsigned_int
  H.setAttr self "standardQuantityReloadTime" (.sc (.int standardQuantityReloadTime))
  let maximumQuantityReloadTime ← H.read read_unsigned_int
  H.setAttr self "maximumQuantityReloadTime" (.sc (.int maximumQuantityReloadTime))
  return ()

/-- `ExpendableReload.serialize`, /repo/opendis/dis7.py:3021-3028, statement by statement. -/
def ExpendableReload.serializeHeap (self : Ref) : S Unit := do
  S.call self "expendable" EntityType.serializeHeap
  S.putInt self "station" write_unsigned_int
  S.putInt self "standardQuantity" write_unsigned_short
  S.putInt self "maximumQuantity" write_unsigned_short
  S.putInt self "standardQuantityReloadTime" write_unsigned_int
  S.putInt self "maximumQuantityReloadTime" write_unsigned_int

/-- Attributes of a `EngineFuelReload` object before `__init__` (/repo/opendis/dis7.py:3040-3083): class attributes have
values. -/
def EngineFuelReload.attrs : List (String × Scalar) :=
  [("standardQuantity", .absent), ("maximumQuantity", .absent),
   ("standardQuantityReloadTime", .absent), ("maximumQuantityReloadTime", .absent),
   ("fuelMeasurmentUnits", .absent), ("fuelLocation", .absent), ("padding", .absent)]

/-- `EngineFuelReload.__init__`, /repo/opendis/dis7.py:3043-3062, statement by statement. -/
def EngineFuelReload.initHeap (self : Ref) (standardQuantity : Val := .sc (.int 0))
    (maximumQuantity : Val := .sc (.int 0)) (standardQuantityReloadTime : Val := .sc (.int 0))
    (maximumQuantityReloadTime : Val := .sc (.int 0))
    (fuelMeasurementUnits : Val := .sc (.int 0)) (fuelLocation : Val := .sc (.int 0)) : H Unit := do
  H.setAttr self "standardQuantity" standardQuantity
  H.setAttr self "maximumQuantity" maximumQuantity
  H.setAttr self "standardQuantityReloadTime" standardQuantityReloadTime
  H.setAttr self "maximumQuantityReloadTime" maximumQuantityReloadTime
  H.setAttr self "fuelMeasurmentUnits" fuelMeasurementUnits
  H.setAttr self "fuelLocation" fuelLocation
  H.setAttr self "padding" (.sc (.int 0))

/-- `EngineFuelReload(...)`, /repo/opendis/dis7.py:3043-3062. -/
def EngineFuelReload.newHeap (standardQuantity : Val := .sc (.int 0))
    (maximumQuantity : Val := .sc (.int 0)) (standardQuantityReloadTime : Val := .sc (.int 0))
    (maximumQuantityReloadTime : Val := .sc (.int 0))
    (fuelMeasurementUnits : Val := .sc (.int 0)) (fuelLocation : Val := .sc (.int 0)) : H Ref :=
  H.new EngineFuelReload.attrs fun self => EngineFuelReload.initHeap self standardQuantity maximumQuantity standardQuantityReloadTime maximumQuantityReloadTime fuelMeasurementUnits fuelLocation

/-- `EngineFuelReload.parse`, /repo/opendis/dis7.py:3074-3083, statement by statement. -/
def EngineFuelReload.parseHeap (self : Ref) : H Unit := do
  let standardQuantity ← H.read read_unsigned_int
  H.setAttr self "standardQuantity" (.sc (.int standardQuantity))
  let maximumQuantity ← H.read read_unsigned_int
  H.setAttr self "maximumQuantity" (.sc (.int maximumQuantity))
  let standardQuantityReloadTime ← H.read read_unsigned_int
  H.setAttr self "standardQuantityReloadTime" (.sc (.int standardQuantityReloadTime))
  let maximumQuantityReloadTime ← H.read read_unsigned_int
  H.setAttr self "maximumQuantityReloadTime" (.sc (.int maximumQuantityReloadTime))
  let fuelMeasurmentUnits ← H.read read_unsigned_byte
  H.setAttr self "fuelMeasurmentUnits" (.sc (.int fuelMeasurmentUnits))
  let fuelLocation ← H.read read_unsigned_byte
  H.setAttr self "fuelLocation" (.sc (.int fuelLocation))
  let padding ← H.read read_unsigned_byte
  H.setAttr self "padding" (.sc (.int padding))
  return ()

/-- `EngineFuelReload.serialize`, /repo/opendis/dis7.py:3064-3072, statement by statement. -/
def EngineFuelReload.serializeHeap (self : Ref) : S Unit := do
  S.putInt self "standardQuantity" write_unsigned_int
  S.putInt self "maximumQuantity" write_unsigned_int
  S.putInt self "standardQuantityReloadTime" write_unsigned_int
  S.putInt self "maximumQuantityReloadTime" write_unsigned_int
  S.putInt self "fuelMeasurmentUnits" write_unsigned_byte
  S.putInt self "fuelLocation" write_unsigned_byte
  S.putInt self "padding" write_unsigned_byte

/-- Attributes of a `UnattachedIdentifier` object before `__init__` (/repo/opendis/dis7.py:3086-3109): class attributes have
values. -/
def UnattachedIdentifier.attrs : List (String × Scalar) :=
  [("simulationAddress", .absent), ("referenceNumber", .absent)]

/-- `UnattachedIdentifier.__init__`, /repo/opendis/dis7.py:3093-3099, statement by statement. -/
def UnattachedIdentifier.initHeap (self : Ref) (simulationAddress : Val := .sc .none)
    (referenceNumber : Val := .sc (.int 0)) : H Unit := do
  H.setOr self "simulationAddress" simulationAddress SimulationAddress.newHeap
  H.setAttr self "referenceNumber" referenceNumber

/-- `UnattachedIdentifier(...)`, /repo/opendis/dis7.py:3093-3099. -/
def UnattachedIdentifier.newHeap (simulationAddress : Val := .sc .none)
    (referenceNumber : Val := .sc (.int 0)) : H Ref :=
  H.new UnattachedIdentifier.attrs fun self => UnattachedIdentifier.initHeap self simulationAddress referenceNumber

/-- `UnattachedIdentifier.parse`, /repo/opendis/dis7.py:3106-3109, statement by statement. -/
def UnattachedIdentifier.parseHeap (self : Ref) : H Unit := do
  H.call self "simulationAddress" SimulationAddress.parseHeap
  let referenceNumber ← H.read read_unsigned_short
  H.setAttr self "referenceNumber" (.sc (.int referenceNumber))
  return ()

/-- `UnattachedIdentifier.serialize`, /repo/opendis/dis7.py:3101-3104, statement by statement. -/
def UnattachedIdentifier.serializeHeap (self : Ref) : S Unit := do
  S.call self "simulationAddress" SimulationAddress.serializeHeap
  S.putInt self "referenceNumber" write_unsigned_short

/-- Attributes of a `EntityTypeVP` object before `__init__` (/repo/opendis/dis7.py:3112-3143): class attributes have
values. -/
def EntityTypeVP.attrs : List (String × Scalar) :=
  [("recordType", .int 3), ("changeIndicator", .absent), ("entityType", .absent),
   ("padding", .absent), ("padding1", .absent)]

/-- `EntityTypeVP.__init__`, /repo/opendis/dis7.py:3119-3127, statement by statement. -/
def EntityTypeVP.initHeap (self : Ref) (changeIndicator : Val := .sc (.int 0))
    (entityType : Val := .sc .none) : H Unit := do
  H.setAttr self "changeIndicator" changeIndicator
  H.setOr self "entityType" entityType EntityType.newHeap
  H.setAttr self "padding" (.sc (.int 0))
  H.setAttr self "padding1" (.sc (.int 0))

/-- `EntityTypeVP(...)`, /repo/opendis/dis7.py:3119-3127. -/
def EntityTypeVP.newHeap (changeIndicator : Val := .sc (.int 0)) (entityType : Val := .sc .none)
    : H Ref :=
  H.new EntityTypeVP.attrs fun self => EntityTypeVP.initHeap self changeIndicator entityType

/-- `EntityTypeVP.parse`, /repo/opendis/dis7.py:3137-3143, statement by statement. -/
def EntityTypeVP.parseHeap (self : Ref) : H Unit := do
  let recordType ← H.read read_unsigned_byte
  H.setAttr self "recordType" (.sc (.int recordType))
  let changeIndicator ← H.read read_unsigned_byte
  H.setAttr self "changeIndicator" (.sc (.int changeIndicator))
  H.call self "entityType" EntityType.parseHeap
  let padding ← H.read read_unsigned_short
  H.setAttr self "padding" (.sc (.int padding))
  let padding1 ← H.read read_unsigned_int
  H.setAttr self "padding1" (.sc (.int padding1))
  return ()

/-- `EntityTypeVP.serialize`, /repo/opendis/dis7.py:3129-3135, statement by statement. -/
def EntityTypeVP.serializeHeap (self : Ref) : S Unit := do
  S.putInt self "recordType" write_unsigned_byte
  S.putInt self "changeIndicator" write_unsigned_byte
  S.call self "entityType" EntityType.serializeHeap
  S.putInt self "padding" write_unsigned_short
  S.putInt self "padding1" write_unsigned_int

/-- Attributes of a `BeamStatus` object before `__init__` (/repo/opendis/dis7.py:3146-3165): class attributes have
values. -/
def BeamStatus.attrs : List (String × Scalar) :=
  [("beamState", .absent)]

/-- `BeamStatus.__init__`, /repo/opendis/dis7.py:3154-3156, statement by statement. -/
def BeamStatus.initHeap (self : Ref) (beamState : Int := 0) : H Unit := do
  H.setAttr self "beamState" (.sc (.int (beamState % 2)))

/-- `BeamStatus(...)`, /repo/opendis/dis7.py:3154-3156. -/
def BeamStatus.newHeap (beamState : Int := 0) : H Ref :=
  H.new BeamStatus.attrs fun self => BeamStatus.initHeap self beamState

/-- `BeamStatus.parse`, /repo/opendis/dis7.py:3162-3165, statement by statement. -/
def BeamStatus.parseHeap (self : Ref) : H Unit := do
  let value ← H.read read_unsigned_byte
  H.setAttr self "beamState" (.sc (.int (value % 2)))
  return ()

/-- `BeamStatus.serialize`, /repo/opendis/dis7.py:3158-3160, statement by statement. -/
def BeamStatus.serializeHeap (self : Ref) : S Unit := do
  S.putInt self "beamState" fun v => write_unsigned_byte (v % 2)

/-- Attributes of a `EnvironmentGeneral` object before `__init__` (/repo/opendis/dis7.py:3168-3209): class attributes have
values. -/
def EnvironmentGeneral.attrs : List (String × Scalar) :=
  [("environmentType", .absent), ("length", .absent), ("index", .absent), ("padding", .absent),
   ("geometry", .absent), ("padding2", .absent), ("padding1", .absent)]

/-- `EnvironmentGeneral.__init__`, /repo/opendis/dis7.py:3176-3191, statement by statement. -/
def EnvironmentGeneral.initHeap (self : Ref) (environmentType : Val := .sc (.int 0))
    (length : Val := .sc (.int 0)) (index : Val := .sc (.int 0)) (geometry : Val := .sc .none)
    : H Unit := do
  H.setAttr self "environmentType" environmentType
  H.setAttr self "length" length
  H.setAttr self "index" index
  H.setAttr self "padding" (.sc (.int 0))
  H.setAttr self "geometry" geometry
  H.setAttr self "padding2" (.sc (.int 0))

/-- `EnvironmentGeneral(...)`, /repo/opendis/dis7.py:3176-3191. -/
def EnvironmentGeneral.newHeap (environmentType : Val := .sc (.int 0))
    (length : Val := .sc (.int 0)) (index : Val := .sc (.int 0)) (geometry : Val := .sc .none)
    : H Ref :=
  H.new EnvironmentGeneral.attrs fun self => EnvironmentGeneral.initHeap self environmentType length index geometry

/-- `EnvironmentGeneral.parse`, /repo/opendis/dis7.py:3202-3209, statement by statement. -/
def EnvironmentGeneral.parseHeap (self : Ref) : H Unit := do
  let environmentType ← H.read read_unsigned_int
  H.setAttr self "environmentType" (.sc (.int environmentType))
  let length ← H.read read_unsigned_byte
  H.setAttr self "length" (.sc (.int length))
  let index ← H.read read_unsigned_byte
  H.setAttr self "index" (.sc (.int index))
  let padding1 ← H.read read_unsigned_byte
  H.setAttr self "padding1" (.sc (.int padding1))
  let geometry ← H.read read_unsigned_byte
  H.setAttr self "geometry" (.sc (.int geometry))
  let padding2 ← H.read read_unsigned_byte
  H.setAttr self "padding2" (.sc (.int padding2))
  return ()

/-- `EnvironmentGeneral.serialize`, /repo/opendis/dis7.py:3193-3200, statement by statement. -/
def EnvironmentGeneral.serializeHeap (self : Ref) : S Unit := do
  S.putInt self "environmentType" write_unsigned_int
  S.putInt self "length" write_unsigned_byte
  S.putInt self "index" write_unsigned_byte
  S.putInt self "padding1" write_unsigned_byte
  S.putInt self "geometry" write_unsigned_byte
  S.putInt self "padding2" write_unsigned_byte

/-- Attributes of a `GridAxis` object before `__init__` (/repo/opendis/dis7.py:3212-3259): class attributes have
values. -/
def GridAxis.attrs : List (String × Scalar) :=
  [("domainInitialXi", .absent), ("domainFinalXi", .absent), ("domainPointsXi", .absent),
   ("interleafFactor", .absent), ("axisType", .absent), ("numberOfPointsOnXiAxis", .absent),
   ("initialIndex", .absent)]

/-- `GridAxis.__init__`, /repo/opendis/dis7.py:3218-3239, statement by statement. -/
def GridAxis.initHeap (self : Ref) (domainInitialXi : Val := .sc (.float 0x0000000000000000))
    (domainFinalXi : Val := .sc (.float 0x0000000000000000))
    (domainPointsXi : Val := .sc (.int 0)) (interleafFactor : Val := .sc (.int 0))
    (axisType : Val := .sc (.int 0)) (numberOfPointsOnXiAxis : Val := .sc (.int 0))
    (initialIndex : Val := .sc (.int 0)) : H Unit := do
  H.setAttr self "domainInitialXi" domainInitialXi
  H.setAttr self "domainFinalXi" domainFinalXi
  H.setAttr self "domainPointsXi" domainPointsXi
  H.setAttr self "interleafFactor" interleafFactor
  H.setAttr self "axisType" axisType
  H.setAttr self "numberOfPointsOnXiAxis" numberOfPointsOnXiAxis
  H.setAttr self "initialIndex" initialIndex

/-- `GridAxis(...)`, /repo/opendis/dis7.py:3218-3239. -/
def GridAxis.newHeap (domainInitialXi : Val := .sc (.float 0x0000000000000000))
    (domainFinalXi : Val := .sc (.float 0x0000000000000000))
    (domainPointsXi : Val := .sc (.int 0)) (interleafFactor : Val := .sc (.int 0))
    (axisType : Val := .sc (.int 0)) (numberOfPointsOnXiAxis : Val := .sc (.int 0))
    (initialIndex : Val := .sc (.int 0)) : H Ref :=
  H.new GridAxis.attrs fun self => GridAxis.initHeap self domainInitialXi domainFinalXi domainPointsXi interleafFactor axisType numberOfPointsOnXiAxis initialIndex

/-- `GridAxis.parse`, /repo/opendis/dis7.py:3251-3259, statement by statement. -/
def GridAxis.parseHeap (self : Ref) : H Unit := do
  let domainInitialXi ← H.read read_double
  H.setAttr self "domainInitialXi" (.sc (.float domainInitialXi))
  let domainFinalXi ← H.read read_double
  H.setAttr self "domainFinalXi" (.sc (.float domainFinalXi))
  let domainPointsXi ← H.read read_unsigned_short
  H.setAttr self "domainPointsXi" (.sc (.int domainPointsXi))
  let interleafFactor ← H.read read_unsigned_byte
  H.setAttr self "interleafFactor" (.sc (.int interleafFactor))
  let axisType ← H.read read_unsigned_byte
  H.setAttr self "axisType" (.sc (.int axisType))
  let numberOfPointsOnXiAxis ← H.read read_unsigned_short
  H.setAttr self "numberOfPointsOnXiAxis" (.sc (.int numberOfPointsOnXiAxis))
  let initialIndex ← H.read read_unsigned_short
  H.setAttr self "initialIndex" (.sc (.int initialIndex))
  return ()

/-- `GridAxis.serialize`, /repo/opendis/dis7.py:3241-3249, statement by statement. -/
def GridAxis.serializeHeap (self : Ref) : S Unit := do
  S.putFloat self "domainInitialXi" write_double
  S.putFloat self "domainFinalXi" write_double
  S.putInt self "domainPointsXi" write_unsigned_short
  S.putInt self "interleafFactor" write_unsigned_byte
  S.putInt self "axisType" write_unsigned_byte
  S.putInt self "numberOfPointsOnXiAxis" write_unsigned_short
  S.putInt self "initialIndex" write_unsigned_short

/-- Attributes of a `RecordSpecification` object before `__init__` (/repo/opendis/dis7.py:3262-3290): class attributes have
values. -/
def RecordSpecification.attrs : List (String × Scalar) :=
  [("recordSets", .absent)]

/-- `RecordSpecification.__init__`, /repo/opendis/dis7.py:3269-3272, statement by statement. -/
def RecordSpecification.initHeap (self : Ref) (recordSets : Val := .sc .none) : H Unit := do
  H.setOr self "recordSets" recordSets (H.alloc (.list []))

/-- `RecordSpecification(...)`, /repo/opendis/dis7.py:3269-3272. -/
def RecordSpecification.newHeap (recordSets : Val := .sc .none) : H Ref :=
  H.new RecordSpecification.attrs fun self => RecordSpecification.initHeap self recordSets

/-- `RecordSpecification.parse`, /repo/opendis/dis7.py:3284-3290, statement by statement. -/
def RecordSpecification.parseHeap (self : Ref) : H Unit := do
  let numberOfRecordSets ← H.read read_unsigned_int
  H.appendReads numberOfRecordSets.toNat (R.throw .nameError : R Int) .int self "recordSets"
  return ()

/-- `RecordSpecification.serialize`, /repo/opendis/dis7.py:3278-3282, statement by statement. -/
def RecordSpecification.serializeHeap (self : Ref) : S Unit := do
  S.putLen self "recordSets" write_unsigned_int
  S.each self "recordSets" RecordSpecificationElement.serializeHeap

/-- Attributes of a `EventIdentifierLiveEntity` object before `__init__` (/repo/opendis/dis7.py:3342-3367): class attributes have
values. -/
def EventIdentifierLiveEntity.attrs : List (String × Scalar) :=
  [("siteNumber", .absent), ("applicationNumber", .absent), ("eventNumber", .absent)]

/-- `EventIdentifierLiveEntity.__init__`, /repo/opendis/dis7.py:3349-3355, statement by statement. -/
def EventIdentifierLiveEntity.initHeap (self : Ref) (siteNumber : Val := .sc (.int 0))
    (applicationNumber : Val := .sc (.int 0)) (eventNumber : Val := .sc (.int 0)) : H Unit := do
  H.setAttr self "siteNumber" siteNumber
  H.setAttr self "applicationNumber" applicationNumber
  H.setAttr self "eventNumber" eventNumber

/-- `EventIdentifierLiveEntity(...)`, /repo/opendis/dis7.py:3349-3355. -/
def EventIdentifierLiveEntity.newHeap (siteNumber : Val := .sc (.int 0))
    (applicationNumber : Val := .sc (.int 0)) (eventNumber : Val := .sc (.int 0)) : H Ref :=
  H.new EventIdentifierLiveEntity.attrs fun self => EventIdentifierLiveEntity.initHeap self siteNumber applicationNumber eventNumber

/-- `EventIdentifierLiveEntity.parse`, /repo/opendis/dis7.py:3363-3367, statement by statement. -/
def EventIdentifierLiveEntity.parseHeap (self : Ref) : H Unit := do
  let siteNumber ← H.read read_unsigned_byte
  H.setAttr self "siteNumber" (.sc (.int siteNumber))
  let applicationNumber ← H.read read_unsigned_byte
  H.setAttr self "applicationNumber" (.sc (.int applicationNumber))
  let eventNumber ← H.read read_unsigned_short
  H.setAttr self "eventNumber" (.sc (.int eventNumber))
  return ()

/-- `EventIdentifierLiveEntity.serialize`, /repo/opendis/dis7.py:3357-3361, statement by statement. -/
def EventIdentifierLiveEntity.serializeHeap (self : Ref) : S Unit := do
  S.putInt self "siteNumber" write_unsigned_byte
  S.putInt self "applicationNumber" write_unsigned_byte
  S.putInt self "eventNumber" write_unsigned_short

/-- Attributes of a `ExpendableDescriptor` object before `__init__` (/repo/opendis/dis7.py:3504-3523): class attributes have
values. -/
def ExpendableDescriptor.attrs : List (String × Scalar) :=
  [("expendableType", .absent), ("padding", .absent)]

/-- `ExpendableDescriptor.__init__`, /repo/opendis/dis7.py:3510-3513, statement by statement. -/
def ExpendableDescriptor.initHeap (self : Ref) (expendableType : Val := .sc .none) : H Unit := do
  H.setOr self "expendableType" expendableType EntityType.newHeap
  H.setAttr self "padding" (.sc (.int 0))

/-- `ExpendableDescriptor(...)`, /repo/opendis/dis7.py:3510-3513. -/
def ExpendableDescriptor.newHeap (expendableType : Val := .sc .none) : H Ref :=
  H.new ExpendableDescriptor.attrs fun self => ExpendableDescriptor.initHeap self expendableType

/-- `ExpendableDescriptor.parse`, /repo/opendis/dis7.py:3520-3523, statement by statement. -/
def ExpendableDescriptor.parseHeap (self : Ref) : H Unit := do
  H.call self "expendableType" EntityType.parseHeap
  let padding ← H.read read_long
  H.setAttr self "padding" (.sc (.int padding))
  return ()

/-- `ExpendableDescriptor.serialize`, /repo/opendis/dis7.py:3515-3518, statement by statement. -/
def ExpendableDescriptor.serializeHeap (self : Ref) : S Unit := do
  S.call self "expendableType" EntityType.serializeHeap
  S.putInt self "padding" write_long

/-- Attributes of a `PropulsionSystemData` object before `__init__` (/repo/opendis/dis7.py:3526-3550): class attributes have
values. -/
def PropulsionSystemData.attrs : List (String × Scalar) :=
  [("powerSetting", .absent), ("engineRpm", .absent)]

/-- `PropulsionSystemData.__init__`, /repo/opendis/dis7.py:3534-3540, statement by statement. -/
def PropulsionSystemData.initHeap (self : Ref)
    (powerSetting : Val := .sc (.float 0x0000000000000000))
    (engineRpm : Val := .sc (.float 0x0000000000000000)) : H Unit := do
  H.setAttr self "powerSetting" powerSetting
  H.setAttr self "engineRpm" engineRpm

/-- `PropulsionSystemData(...)`, /repo/opendis/dis7.py:3534-3540. -/
def PropulsionSystemData.newHeap (powerSetting : Val := .sc (.float 0x0000000000000000))
    (engineRpm : Val := .sc (.float 0x0000000000000000)) : H Ref :=
  H.new PropulsionSystemData.attrs fun self => PropulsionSystemData.initHeap self powerSetting engineRpm

/-- `PropulsionSystemData.parse`, /repo/opendis/dis7.py:3547-3550, statement by statement. -/
def PropulsionSystemData.parseHeap (self : Ref) : H Unit := do
  let powerSetting ← H.read read_float
  H.setAttr self "powerSetting" (.sc (.float powerSetting))
  let engineRpm ← H.read read_float
  H.setAttr self "engineRpm" (.sc (.float engineRpm))
  return ()

/-- `PropulsionSystemData.serialize`, /repo/opendis/dis7.py:3542-3545, statement by statement. -/
def PropulsionSystemData.serializeHeap (self : Ref) : S Unit := do
  S.putFloat self "powerSetting" write_float
  S.putFloat self "engineRpm" write_float

/-- Attributes of a `LiveEntityIdentifier` object before `__init__` (/repo/opendis/dis7.py:3553-3577): class attributes have
values. -/
def LiveEntityIdentifier.attrs : List (String × Scalar) :=
  [("liveSimulationAddress", .absent), ("entityNumber", .absent)]

/-- `LiveEntityIdentifier.__init__`, /repo/opendis/dis7.py:3560-3567, statement by statement. -/
def LiveEntityIdentifier.initHeap (self : Ref) (liveSimulationAddress : Val := .sc .none)
    (entityNumber : Val := .sc (.int 0)) : H Unit := do
  H.setOr self "liveSimulationAddress" liveSimulationAddress LiveSimulationAddress.newHeap
  H.setAttr self "entityNumber" entityNumber

/-- `LiveEntityIdentifier(...)`, /repo/opendis/dis7.py:3560-3567. -/
def LiveEntityIdentifier.newHeap (liveSimulationAddress : Val := .sc .none)
    (entityNumber : Val := .sc (.int 0)) : H Ref :=
  H.new LiveEntityIdentifier.attrs fun self => LiveEntityIdentifier.initHeap self liveSimulationAddress entityNumber

/-- `LiveEntityIdentifier.parse`, /repo/opendis/dis7.py:3574-3577, statement by statement. -/
def LiveEntityIdentifier.parseHeap (self : Ref) : H Unit := do
  H.call self "liveSimulationAddress" LiveSimulationAddress.parseHeap
  let entityNumber ← H.read read_unsigned_short
  H.setAttr self "entityNumber" (.sc (.int entityNumber))
  return ()

/-- `LiveEntityIdentifier.serialize`, /repo/opendis/dis7.py:3569-3572, statement by statement. -/
def LiveEntityIdentifier.serializeHeap (self : Ref) : S Unit := do
  S.call self "liveSimulationAddress" LiveSimulationAddress.serializeHeap
  S.putInt self "entityNumber" write_unsigned_short

/-- Attributes of a `SeparationVP` object before `__init__` (/repo/opendis/dis7.py:3580-3621): class attributes have
values. -/
def SeparationVP.attrs : List (String × Scalar) :=
  [("recordType", .int 2), ("reasonForSeparation", .absent), ("preEntityIndicator", .absent),
   ("padding1", .absent), ("parentEntityID", .absent), ("padding2", .absent),
   ("stationLocation", .absent)]

/-- `SeparationVP.__init__`, /repo/opendis/dis7.py:3587-3601, statement by statement. -/
def SeparationVP.initHeap (self : Ref) (reasonForSeparation : Val := .sc (.int 0))
    (preEntityIndicator : Val := .sc (.int 0)) (parentEntityID : Val := .sc .none)
    (stationLocation : Val := .sc .none) : H Unit := do
  H.setAttr self "reasonForSeparation" reasonForSeparation
  H.setAttr self "preEntityIndicator" preEntityIndicator
  H.setAttr self "padding1" (.sc (.int 0))
  H.setOr self "parentEntityID" parentEntityID EntityIdentifier.newHeap
  H.setAttr self "padding2" (.sc (.int 0))
  H.setOr self "stationLocation" stationLocation NamedLocationIdentification.newHeap

/-- `SeparationVP(...)`, /repo/opendis/dis7.py:3587-3601. -/
def SeparationVP.newHeap (reasonForSeparation : Val := .sc (.int 0))
    (preEntityIndicator : Val := .sc (.int 0)) (parentEntityID : Val := .sc .none)
    (stationLocation : Val := .sc .none) : H Ref :=
  H.new SeparationVP.attrs fun self => SeparationVP.initHeap self reasonForSeparation preEntityIndicator parentEntityID stationLocation

/-- `SeparationVP.parse`, /repo/opendis/dis7.py:3613-3621, statement by statement. -/
def SeparationVP.parseHeap (self : Ref) : H Unit := do
  let recordType ← H.read read_unsigned_byte
  H.setAttr self "recordType" (.sc (.int recordType))
  let reasonForSeparation ← H.read read_unsigned_byte
  H.setAttr self "reasonForSeparation" (.sc (.int reasonForSeparation))
  let preEntityIndicator ← H.read read_unsigned_byte
  H.setAttr self "preEntityIndicator" (.sc (.int preEntityIndicator))
  let padding1 ← H.read read_unsigned_byte
  H.setAttr self "padding1" (.sc (.int padding1))
  H.call self "parentEntityID" EntityIdentifier.parseHeap
  let padding2 ← H.read read_unsigned_short
  H.setAttr self "padding2" (.sc (.int padding2))
  let stationLocation ← H.read read_unsigned_int
  H.setAttr self "stationLocation" (.sc (.int stationLocation))
  return ()

/-- `SeparationVP.serialize`, /repo/opendis/dis7.py:3603-3611, statement by statement. -/
def SeparationVP.serializeHeap (self : Ref) : S Unit := do
  S.putInt self "recordType" write_unsigned_byte
  S.putInt self "reasonForSeparation" write_unsigned_byte
  S.putInt self "preEntityIndicator" write_unsigned_byte
  S.putInt self "padding1" write_unsigned_byte
  S.call self "parentEntityID" EntityIdentifier.serializeHeap
  S.putInt self "padding2" write_unsigned_short
  S.putInt self "stationLocation" write_unsigned_int

/-- Attributes of a `EmitterSystem` object before `__init__` (/repo/opendis/dis7.py:3624-3648): class attributes have
values. -/
def EmitterSystem.attrs : List (String × Scalar) :=
  [("emitterName", .absent), ("emitterFunction", .absent), ("emitterIDNumber", .absent)]

/-- `EmitterSystem.__init__`, /repo/opendis/dis7.py:3630-3636, statement by statement. -/
def EmitterSystem.initHeap (self : Ref) (emitterName : Val := .sc (.int 0))
    (emitterFunction : Val := .sc (.int 0)) (emitterIDNumber : Val := .sc (.int 0)) : H Unit := do
  H.setAttr self "emitterName" emitterName
  H.setAttr self "emitterFunction" emitterFunction
  H.setAttr self "emitterIDNumber" emitterIDNumber

/-- `EmitterSystem(...)`, /repo/opendis/dis7.py:3630-3636. -/
def EmitterSystem.newHeap (emitterName : Val := .sc (.int 0))
    (emitterFunction : Val := .sc (.int 0)) (emitterIDNumber : Val := .sc (.int 0)) : H Ref :=
  H.new EmitterSystem.attrs fun self => EmitterSystem.initHeap self emitterName emitterFunction emitterIDNumber

/-- `EmitterSystem.parse`, /repo/opendis/dis7.py:3644-3648, statement by statement. -/
def EmitterSystem.parseHeap (self : Ref) : H Unit := do
  let emitterName ← H.read read_unsigned_short
  H.setAttr self "emitterName" (.sc (.int emitterName))
  let emitterFunction ← H.read read_unsigned_byte
  H.setAttr self "emitterFunction" (.sc (.int emitterFunction))
  let emitterIDNumber ← H.read read_unsigned_byte
  H.setAttr self "emitterIDNumber" (.sc (.int emitterIDNumber))
  return ()

/-- `EmitterSystem.serialize`, /repo/opendis/dis7.py:3638-3642, statement by statement. -/
def EmitterSystem.serializeHeap (self : Ref) : S Unit := do
  S.putInt self "emitterName" write_unsigned_short
  S.putInt self "emitterFunction" write_unsigned_byte
  S.putInt self "emitterIDNumber" write_unsigned_byte

/-- Attributes of a `PduStatus` object before `__init__` (/repo/opendis/dis7.py:3651-3668): class attributes have
values. -/
def PduStatus.attrs : List (String × Scalar) :=
  [("pduStatus", .absent)]

/-- `PduStatus.__init__`, /repo/opendis/dis7.py:3658-3660, statement by statement. -/
def PduStatus.initHeap (self : Ref) (pduStatus : Val := .sc (.int 0)) : H Unit := do
  H.setAttr self "pduStatus" pduStatus

/-- `PduStatus(...)`, /repo/opendis/dis7.py:3658-3660. -/
def PduStatus.newHeap (pduStatus : Val := .sc (.int 0)) : H Ref :=
  H.new PduStatus.attrs fun self => PduStatus.initHeap self pduStatus

/-- `PduStatus.parse`, /repo/opendis/dis7.py:3666-3668, statement by statement. -/
def PduStatus.parseHeap (self : Ref) : H Unit := do
  let pduStatus ← H.read read_unsigned_byte
  H.setAttr self "pduStatus" (.sc (.int pduStatus))
  return ()

/-- `PduStatus.serialize`, /repo/opendis/dis7.py:3662-3664, statement by statement. -/
def PduStatus.serializeHeap (self : Ref) : S Unit := do
  S.putInt self "pduStatus" write_unsigned_byte

/-- Attributes of a `EmissionSystemBeamRecord` object before `__init__` (/repo/opendis/dis7.py:5172-5231): class attributes have
values. -/
def EmissionSystemBeamRecord.attrs : List (String × Scalar) :=
  [("beamDataLength", .absent), ("beamIDNumber", .absent), ("beamParameterIndex", .absent),
   ("fundamentalParameterData", .absent), ("beamFunction", .absent),
   ("highDensityTrackJam", .absent), ("beamStatus", .absent), ("jammingModeSequence", .absent),
   ("trackJamRecords", .absent)]

/-- `EmissionSystemBeamRecord.__init__`, /repo/opendis/dis7.py:5178-5197, statement by statement. -/
def EmissionSystemBeamRecord.initHeap (self : Ref) (beamDataLength : Val := .sc (.int 0))
    (beamIDNumber : Val := .sc (.int 0)) (beamParameterIndex : Val := .sc (.int 0))
    (fundamentalParameterData : Val := .sc .none) (beamFunction : Val := .sc (.int 0))
    (highDensityTrackJam : Val := .sc (.int 0)) (beamStatus : Val := .sc .none)
    (jammingModeSequence : Val := .sc (.int 0)) (trackJamRecords : Val := .sc .none) : H Unit := do
  H.setAttr self "beamDataLength" beamDataLength
  H.setAttr self "beamIDNumber" beamIDNumber
  H.setAttr self "beamParameterIndex" beamParameterIndex
  H.setOr self "fundamentalParameterData" fundamentalParameterData EEFundamentalParameterData.newHeap
  H.setAttr self "beamFunction" beamFunction
  H.setAttr self "highDensityTrackJam" highDensityTrackJam
  H.setOr self "beamStatus" beamStatus BeamStatus.newHeap
  H.setAttr self "jammingModeSequence" jammingModeSequence
  H.setOr self "trackJamRecords" trackJamRecords (H.alloc (.list []))

/-- `EmissionSystemBeamRecord(...)`, /repo/opendis/dis7.py:5178-5197. -/
def EmissionSystemBeamRecord.newHeap (beamDataLength : Val := .sc (.int 0))
    (beamIDNumber : Val := .sc (.int 0)) (beamParameterIndex : Val := .sc (.int 0))
    (fundamentalParameterData : Val := .sc .none) (beamFunction : Val := .sc (.int 0))
    (highDensityTrackJam : Val := .sc (.int 0)) (beamStatus : Val := .sc .none)
    (jammingModeSequence : Val := .sc (.int 0)) (trackJamRecords : Val := .sc .none) : H Ref :=
  H.new EmissionSystemBeamRecord.attrs fun self => EmissionSystemBeamRecord.initHeap self beamDataLength beamIDNumber beamParameterIndex fundamentalParameterData beamFunction highDensityTrackJam beamStatus jammingModeSequence trackJamRecords

/-- `EmissionSystemBeamRecord.parse`, /repo/opendis/dis7.py:5217-5231, statement by statement. -/
def EmissionSystemBeamRecord.parseHeap (self : Ref) : H Unit := do
  let beamDataLength ← H.read read_unsigned_byte
  H.setAttr self "beamDataLength" (.sc (.int beamDataLength))
  let beamIDNumber ← H.read read_unsigned_byte
  H.setAttr self "beamIDNumber" (.sc (.int beamIDNumber))
  let beamParameterIndex ← H.read read_unsigned_short
  H.setAttr self "beamParameterIndex" (.sc (.int beamParameterIndex))
  H.call self "fundamentalParameterData" EEFundamentalParameterData.parseHeap
  let beamFunction ← H.read read_unsigned_byte
  H.setAttr self "beamFunction" (.sc (.int beamFunction))
  let numberOfTargetsInTrackJam ← H.read read_unsigned_byte
  let highDensityTrackJam ← H.read read_unsigned_byte
  H.setAttr self "highDensityTrackJam" (.sc (.int highDensityTrackJam))
  H.call self "beamStatus" BeamStatus.parseHeap
  let jammingModeSequence ← H.read read_unsigned_int
  H.setAttr self "jammingModeSequence" (.sc (.int jammingModeSequence))
  H.appendObjs numberOfTargetsInTrackJam.toNat TrackJamData.newHeap TrackJamData.parseHeap self "trackJamRecords"
  return ()

/-- `EmissionSystemBeamRecord.serialize`, /repo/opendis/dis7.py:5203-5215, statement by statement. -/
def EmissionSystemBeamRecord.serializeHeap (self : Ref) : S Unit := do
  S.putInt self "beamDataLength" write_unsigned_byte
  S.putInt self "beamIDNumber" write_unsigned_byte
  S.putInt self "beamParameterIndex" write_unsigned_short
  S.call self "fundamentalParameterData" EEFundamentalParameterData.serializeHeap
  S.putInt self "beamFunction" write_unsigned_byte
  S.putLen self "trackJamRecords" write_unsigned_byte
  S.putInt self "highDensityTrackJam" write_unsigned_byte
  S.call self "beamStatus" BeamStatus.serializeHeap
  S.putInt self "jammingModeSequence" write_unsigned_int
  S.each self "trackJamRecords" TrackJamData.serializeHeap

/-- Attributes of a `EmissionSystemRecord` object before `__init__` (/repo/opendis/dis7.py:5234-5276): class attributes have
values. -/
def EmissionSystemRecord.attrs : List (String × Scalar) :=
  [("systemDataLength", .absent), ("paddingForEmissionsPdu", .absent), ("emitterSystem", .absent),
   ("location", .absent), ("beamRecords", .absent)]

/-- `EmissionSystemRecord.__init__`, /repo/opendis/dis7.py:5240-5252, statement by statement. -/
def EmissionSystemRecord.initHeap (self : Ref) (systemDataLength : Val := .sc (.int 0))
    (emitterSystem : Val := .sc .none) (location : Val := .sc .none)
    (beamRecords : Val := .sc .none) : H Unit := do
  H.setAttr self "systemDataLength" systemDataLength
  H.setAttr self "paddingForEmissionsPdu" (.sc (.int 0))
  H.setOr self "emitterSystem" emitterSystem EmitterSystem.newHeap
  H.setOr self "location" location Vector3Float.newHeap
  H.setOr self "beamRecords" beamRecords (H.alloc (.list []))

/-- `EmissionSystemRecord(...)`, /repo/opendis/dis7.py:5240-5252. -/
def EmissionSystemRecord.newHeap (systemDataLength : Val := .sc (.int 0))
    (emitterSystem : Val := .sc .none) (location : Val := .sc .none)
    (beamRecords : Val := .sc .none) : H Ref :=
  H.new EmissionSystemRecord.attrs fun self => EmissionSystemRecord.initHeap self systemDataLength emitterSystem location beamRecords

/-- `EmissionSystemRecord.parse`, /repo/opendis/dis7.py:5267-5276, statement by statement. -/
def EmissionSystemRecord.parseHeap (self : Ref) : H Unit := do
  let systemDataLength ← H.read read_unsigned_byte
  H.setAttr self "systemDataLength" (.sc (.int systemDataLength))
  let numberOfBeams ← H.read read_unsigned_byte
  let _ ← H.read read_unsigned_short
  H.call self "emitterSystem" EmitterSystem.parseHeap
  H.call self "location" Vector3Float.parseHeap
  H.appendObjs numberOfBeams.toNat EmissionSystemBeamRecord.newHeap EmissionSystemBeamRecord.parseHeap self "beamRecords"
  return ()

/-- `EmissionSystemRecord.serialize`, /repo/opendis/dis7.py:5258-5265, statement by statement. -/
def EmissionSystemRecord.serializeHeap (self : Ref) : S Unit := do
  S.putInt self "systemDataLength" write_unsigned_byte
  S.putLen self "beamRecords" write_unsigned_byte
  S.write (write_unsigned_short 0)
  S.call self "emitterSystem" EmitterSystem.serializeHeap
  S.call self "location" Vector3Float.serializeHeap
  S.each self "beamRecords" EmissionSystemBeamRecord.serializeHeap

/-- `PduSuperclass.__init__`, /repo/opendis/dis7.py:3431-3460, as called by the subclasses: without
arguments. -/
def PduSuperclass.initHeap (self : Ref) (protocolVersion : Val := .sc (.int 7)) (exerciseID : Val := .sc (.int 0))
    (pduType : Val := .sc .none) (protocolFamily : Val := .sc .none) (timestamp : Val := .sc (.int 0))
    (pduLength : Val := .sc (.int 0)) : H Unit := do
  H.setAttr self "protocolVersion" protocolVersion
  H.setAttr self "exerciseID" exerciseID
  let typed ← H.hasAttr self "pduType"
  if pduType = .sc .none ∧ typed = false then H.throw .valueError
  else if pduType ≠ .sc .none then H.setAttr self "pduType" pduType
  let typed ← H.hasAttr self "pduType"
  if protocolFamily = .sc .none ∧ typed = false then H.throw .valueError
  else if pduType ≠ .sc .none then H.setAttr self "protocolFamily" protocolFamily
  H.setAttr self "timestamp" timestamp
  H.setAttr self "length" pduLength

/-- `PduSuperclass.parse`, /repo/opendis/dis7.py:3471-3478, statement by statement. -/
def PduSuperclass.parseHeap (self : Ref) : H Unit := do
  let protocolVersion ← H.read read_unsigned_byte
  H.setAttr self "protocolVersion" (.sc (.int protocolVersion))
  let exerciseID ← H.read read_unsigned_byte
  H.setAttr self "exerciseID" (.sc (.int exerciseID))
  let pduType ← H.read read_unsigned_byte
  H.setAttr self "pduType" (.sc (.int pduType))
  let protocolFamily ← H.read read_unsigned_byte
  H.setAttr self "protocolFamily" (.sc (.int protocolFamily))
  let timestamp ← H.read read_unsigned_int
  H.setAttr self "timestamp" (.sc (.int timestamp))
  let length ← H.read read_unsigned_short
  H.setAttr self "length" (.sc (.int length))
  return ()

/-- `PduSuperclass.serialize`, /repo/opendis/dis7.py:3462-3469, statement by statement. -/
def PduSuperclass.serializeHeap (self : Ref) : S Unit := do
  S.putInt self "protocolVersion" write_unsigned_byte
  S.putInt self "exerciseID" write_unsigned_byte
  S.putInt self "pduType" write_unsigned_byte
  S.putInt self "protocolFamily" write_unsigned_byte
  S.putInt self "timestamp" write_unsigned_int
  S.putInt self "length" write_unsigned_short

/-- `LiveEntityPdu.__init__`, /repo/opendis/dis7.py:3678-3683, statement by statement. -/
def LiveEntityPdu.initHeap (self : Ref) (subprotocolNumber : Val := .sc (.int 0)) : H Unit := do
  PduSuperclass.initHeap self
  H.setAttr self "subprotocolNumber" subprotocolNumber
  H.setAttr self "padding" (.sc (.int 0))

/-- `LiveEntityPdu.parse`, /repo/opendis/dis7.py:3691-3695, statement by statement. -/
def LiveEntityPdu.parseHeap (self : Ref) : H Unit := do
  PduSuperclass.parseHeap self
  let subprotocolNumber ← H.read read_unsigned_short
  H.setAttr self "subprotocolNumber" (.sc (.int subprotocolNumber))
  let padding ← H.read read_unsigned_byte
  H.setAttr self "padding" (.sc (.int padding))
  return ()

/-- `LiveEntityPdu.serialize`, /repo/opendis/dis7.py:3685-3689, statement by statement. -/
def LiveEntityPdu.serializeHeap (self : Ref) : S Unit := do
  PduSuperclass.serializeHeap self
  S.putInt self "subprotocolNumber" write_unsigned_short
  S.putInt self "padding" write_unsigned_byte

/-- `Pdu.__init__`, /repo/opendis/dis7.py:3701-3706, statement by statement. -/
def Pdu.initHeap (self : Ref) (pduStatus : Val := .sc (.int 0)) : H Unit := do
  PduSuperclass.initHeap self
  H.setAttr self "pduStatus" pduStatus
  H.setAttr self "padding" (.sc (.int 0))

/-- `Pdu.parse`, /repo/opendis/dis7.py:3714-3718, statement by statement. -/
def Pdu.parseHeap (self : Ref) : H Unit := do
  PduSuperclass.parseHeap self
  let pduStatus ← H.read read_unsigned_byte
  H.setAttr self "pduStatus" (.sc (.int pduStatus))
  let padding ← H.read read_unsigned_byte
  H.setAttr self "padding" (.sc (.int padding))
  return ()

/-- `Pdu.serialize`, /repo/opendis/dis7.py:3708-3712, statement by statement. -/
def Pdu.serializeHeap (self : Ref) : S Unit := do
  PduSuperclass.serializeHeap self
  S.putInt self "pduStatus" write_unsigned_byte
  S.putInt self "padding" write_unsigned_byte

/-- `EntityInformationFamilyPdu.__init__`, /repo/opendis/dis7.py:3729-3730, statement by statement. -/
def EntityInformationFamilyPdu.initHeap (self : Ref) : H Unit := do
  Pdu.initHeap self

/-- `EntityInformationFamilyPdu.parse`, /repo/opendis/dis7.py:3736-3738, statement by statement. -/
def EntityInformationFamilyPdu.parseHeap (self : Ref) : H Unit := do
  Pdu.parseHeap self
  return ()

/-- `EntityInformationFamilyPdu.serialize`, /repo/opendis/dis7.py:3732-3734, statement by statement. -/
def EntityInformationFamilyPdu.serializeHeap (self : Ref) : S Unit := do
  Pdu.serializeHeap self

/-- `LogisticsFamilyPdu.__init__`, /repo/opendis/dis7.py:3748-3749, statement by statement. -/
def LogisticsFamilyPdu.initHeap (self : Ref) : H Unit := do
  Pdu.initHeap self

/-- `LogisticsFamilyPdu.parse`, /repo/opendis/dis7.py:3755-3757, statement by statement. -/
def LogisticsFamilyPdu.parseHeap (self : Ref) : H Unit := do
  Pdu.parseHeap self
  return ()

/-- `LogisticsFamilyPdu.serialize`, /repo/opendis/dis7.py:3751-3753, statement by statement. -/
def LogisticsFamilyPdu.serializeHeap (self : Ref) : S Unit := do
  Pdu.serializeHeap self

/-- Attributes of a `EntityStateUpdatePdu` object before `__init__` (/repo/opendis/dis7.py:3760-3820): class attributes have
values. -/
def EntityStateUpdatePdu.attrs : List (String × Scalar) :=
  [("protocolVersion", .absent), ("exerciseID", .absent), ("pduType", .int 67),
   ("protocolFamily", .int 1), ("timestamp", .absent), ("length", .absent), ("pduStatus", .absent),
   ("padding", .absent), ("entityID", .absent), ("padding1", .absent),
   ("entityLinearVelocity", .absent), ("entityLocation", .absent), ("entityOrientation", .absent),
   ("entityAppearance", .absent), ("variableParameters", .absent)]

/-- `EntityStateUpdatePdu.__init__`, /repo/opendis/dis7.py:3768-3788, statement by statement. -/
def EntityStateUpdatePdu.initHeap (self : Ref) (entityID : Val := .sc .none)
    (entityLinearVelocity : Val := .sc .none) (entityLocation : Val := .sc .none)
    (entityOrientation : Val := .sc .none) (entityAppearance : Val := .sc (.int 0))
    (variableParameters : Val := .sc .none) : H Unit := do
  EntityInformationFamilyPdu.initHeap self
  H.setOr self "entityID" entityID EntityIdentifier.newHeap
  H.setAttr self "padding1" (.sc (.int 0))
  H.setOr self "entityLinearVelocity" entityLinearVelocity Vector3Float.newHeap
  H.setOr self "entityLocation" entityLocation WorldCoordinates.newHeap
  H.setOr self "entityOrientation" entityOrientation EulerAngles.newHeap
  H.setAttr self "entityAppearance" entityAppearance
  H.setOr self "variableParameters" variableParameters (H.alloc (.list []))

/-- `EntityStateUpdatePdu(...)`, /repo/opendis/dis7.py:3768-3788. -/
def EntityStateUpdatePdu.newHeap (entityID : Val := .sc .none)
    (entityLinearVelocity : Val := .sc .none) (entityLocation : Val := .sc .none)
    (entityOrientation : Val := .sc .none) (entityAppearance : Val := .sc (.int 0))
    (variableParameters : Val := .sc .none) : H Ref :=
  H.new EntityStateUpdatePdu.attrs fun self => EntityStateUpdatePdu.initHeap self entityID entityLinearVelocity entityLocation entityOrientation entityAppearance variableParameters

/-- `EntityStateUpdatePdu.parse`, /repo/opendis/dis7.py:3807-3820, statement by statement. -/
def EntityStateUpdatePdu.parseHeap (self : Ref) : H Unit := do
  EntityInformationFamilyPdu.parseHeap self
  H.call self "entityID" EntityIdentifier.parseHeap
  let padding1 ← H.read read_byte
  H.setAttr self "padding1" (.sc (.int padding1))
  let numberOfVariableParameters ← H.read read_unsigned_byte
  H.call self "entityLinearVelocity" Vector3Float.parseHeap
  H.call self "entityLocation" WorldCoordinates.parseHeap
  H.call self "entityOrientation" EulerAngles.parseHeap
  let entityAppearance ← H.read read_unsigned_int
  H.setAttr self "entityAppearance" (.sc (.int entityAppearance))
  H.appendObjs numberOfVariableParameters.toNat VariableParameter.newHeap VariableParameter.parseHeap self "variableParameters"
  return ()

/-- `EntityStateUpdatePdu.serialize`, /repo/opendis/dis7.py:3794-3805, statement by statement. -/
def EntityStateUpdatePdu.serializeHeap (self : Ref) : S Unit := do
  EntityInformationFamilyPdu.serializeHeap self
  S.call self "entityID" EntityIdentifier.serializeHeap
  S.putInt self "padding1" write_byte
  S.putLen self "variableParameters" write_unsigned_byte
  S.call self "entityLinearVelocity" Vector3Float.serializeHeap
  S.call self "entityLocation" WorldCoordinates.serializeHeap
  S.call self "entityOrientation" EulerAngles.serializeHeap
  S.putInt self "entityAppearance" write_unsigned_int
  S.each self "variableParameters" VariableParameter.serializeHeap

/-- Attributes of a `ServiceRequestPdu` object before `__init__` (/repo/opendis/dis7.py:3823-3872): class attributes have
values. -/
def ServiceRequestPdu.attrs : List (String × Scalar) :=
  [("protocolVersion", .absent), ("exerciseID", .absent), ("pduType", .int 5),
   ("protocolFamily", .int 3), ("timestamp", .absent), ("length", .absent), ("pduStatus", .absent),
   ("padding", .absent), ("requestingEntityID", .absent), ("servicingEntityID", .absent),
   ("serviceTypeRequested", .absent), ("serviceRequestPadding", .absent), ("supplies", .absent)]

/-- `ServiceRequestPdu.__init__`, /repo/opendis/dis7.py:3831-3844, statement by statement. -/
def ServiceRequestPdu.initHeap (self : Ref) (requestingEntityID : Val := .sc .none)
    (servicingEntityID : Val := .sc .none) (serviceTypeRequested : Val := .sc (.int 0))
    (supplies : Val := .sc .none) : H Unit := do
  LogisticsFamilyPdu.initHeap self
  H.setOr self "requestingEntityID" requestingEntityID EntityIdentifier.newHeap
  H.setOr self "servicingEntityID" servicingEntityID EntityIdentifier.newHeap
  H.setAttr self "serviceTypeRequested" serviceTypeRequested
  H.setAttr self "serviceRequestPadding" (.sc (.int 0))
  H.setOr self "supplies" supplies (H.alloc (.list []))

/-- `ServiceRequestPdu(...)`, /repo/opendis/dis7.py:3831-3844. -/
def ServiceRequestPdu.newHeap (requestingEntityID : Val := .sc .none)
    (servicingEntityID : Val := .sc .none) (serviceTypeRequested : Val := .sc (.int 0))
    (supplies : Val := .sc .none) : H Ref :=
  H.new ServiceRequestPdu.attrs fun self => ServiceRequestPdu.initHeap self requestingEntityID servicingEntityID serviceTypeRequested supplies

/-- `ServiceRequestPdu.parse`, /repo/opendis/dis7.py:3861-3872, statement by statement. -/
def ServiceRequestPdu.parseHeap (self : Ref) : H Unit := do
  LogisticsFamilyPdu.parseHeap self
  H.call self "requestingEntityID" EntityIdentifier.parseHeap
  H.call self "servicingEntityID" EntityIdentifier.parseHeap
  let serviceTypeRequested ← H.read read_unsigned_byte
  H.setAttr self "serviceTypeRequested" (.sc (.int serviceTypeRequested))
  let numberOfSupplyTypes ← H.read read_unsigned_byte
  let serviceRequestPadding ← H.read read_short
  H.setAttr self "serviceRequestPadding" (.sc (.int serviceRequestPadding))
  H.appendObjs numberOfSupplyTypes.toNat SupplyQuantity.newHeap SupplyQuantity.parseHeap self "supplies"
  return ()

/-- `ServiceRequestPdu.serialize`, /repo/opendis/dis7.py:3850-3859, statement by statement. -/
def ServiceRequestPdu.serializeHeap (self : Ref) : S Unit := do
  LogisticsFamilyPdu.serializeHeap self
  S.call self "requestingEntityID" EntityIdentifier.serializeHeap
  S.call self "servicingEntityID" EntityIdentifier.serializeHeap
  S.putInt self "serviceTypeRequested" write_unsigned_byte
  S.putLen self "supplies" write_unsigned_byte
  S.putInt self "serviceRequestPadding" write_short
  S.each self "supplies" SupplyQuantity.serializeHeap

/-- Attributes of a `RepairCompletePdu` object before `__init__` (/repo/opendis/dis7.py:3875-3910): class attributes have
values. -/
def RepairCompletePdu.attrs : List (String × Scalar) :=
  [("protocolVersion", .absent), ("exerciseID", .absent), ("pduType", .int 9),
   ("protocolFamily", .int 3), ("timestamp", .absent), ("length", .absent), ("pduStatus", .absent),
   ("padding", .absent), ("receivingEntityID", .absent), ("repairingEntityID", .absent),
   ("repair", .absent), ("padding4", .absent)]

/-- `RepairCompletePdu.__init__`, /repo/opendis/dis7.py:3882-3894, statement by statement. -/
def RepairCompletePdu.initHeap (self : Ref) (receivingEntityID : Val := .sc .none)
    (repairingEntityID : Val := .sc .none) (repair : Val := .sc (.int 0)) : H Unit := do
  LogisticsFamilyPdu.initHeap self
  H.setOr self "receivingEntityID" receivingEntityID EntityIdentifier.newHeap
  H.setOr self "repairingEntityID" repairingEntityID EntityIdentifier.newHeap
  H.setAttr self "repair" repair
  H.setAttr self "padding4" (.sc (.int 0))

/-- `RepairCompletePdu(...)`, /repo/opendis/dis7.py:3882-3894. -/
def RepairCompletePdu.newHeap (receivingEntityID : Val := .sc .none)
    (repairingEntityID : Val := .sc .none) (repair : Val := .sc (.int 0)) : H Ref :=
  H.new RepairCompletePdu.attrs fun self => RepairCompletePdu.initHeap self receivingEntityID repairingEntityID repair

/-- `RepairCompletePdu.parse`, /repo/opendis/dis7.py:3904-3910, statement by statement. -/
def RepairCompletePdu.parseHeap (self : Ref) : H Unit := do
  LogisticsFamilyPdu.parseHeap self
  H.call self "receivingEntityID" EntityIdentifier.parseHeap
  H.call self "repairingEntityID" EntityIdentifier.parseHeap
  let repair ← H.read read_unsigned_short
  H.setAttr self "repair" (.sc (.int repair))
  let padding4 ← H.read read_short
  H.setAttr self "padding4" (.sc (.int padding4))
  return ()

/-- `RepairCompletePdu.serialize`, /repo/opendis/dis7.py:3896-3902, statement by statement. -/
def RepairCompletePdu.serializeHeap (self : Ref) : S Unit := do
  LogisticsFamilyPdu.serializeHeap self
  S.call self "receivingEntityID" EntityIdentifier.serializeHeap
  S.call self "repairingEntityID" EntityIdentifier.serializeHeap
  S.putInt self "repair" write_unsigned_short
  S.putInt self "padding4" write_short

/-- `SyntheticEnvironmentFamilyPdu.__init__`, /repo/opendis/dis7.py:3920-3921, statement by statement. -/
def SyntheticEnvironmentFamilyPdu.initHeap (self : Ref) : H Unit := do
  Pdu.initHeap self

/-- `SyntheticEnvironmentFamilyPdu.parse`, /repo/opendis/dis7.py:3927-3929, statement by statement. -/
def SyntheticEnvironmentFamilyPdu.parseHeap (self : Ref) : H Unit := do
  Pdu.parseHeap self
  return ()

/-- `SyntheticEnvironmentFamilyPdu.serialize`, /repo/opendis/dis7.py:3923-3925, statement by statement. -/
def SyntheticEnvironmentFamilyPdu.serializeHeap (self : Ref) : S Unit := do
  Pdu.serializeHeap self

/-- Attributes of a `CollisionPdu` object before `__init__` (/repo/opendis/dis7.py:3932-3987): class attributes have
values. -/
def CollisionPdu.attrs : List (String × Scalar) :=
  [("protocolVersion", .absent), ("exerciseID", .absent), ("pduType", .int 4),
   ("protocolFamily", .int 1), ("timestamp", .absent), ("length", .absent), ("pduStatus", .absent),
   ("padding", .absent), ("issuingEntityID", .absent), ("collidingEntityID", .absent),
   ("eventID", .absent), ("collisionType", .absent), ("pad", .absent), ("velocity", .absent),
   ("mass", .absent), ("location", .absent)]

/-- `CollisionPdu.__init__`, /repo/opendis/dis7.py:3940-3963, statement by statement. -/
def CollisionPdu.initHeap (self : Ref) (issuingEntityID : Val := .sc .none)
    (collidingEntityID : Val := .sc .none) (eventID : Val := .sc .none)
    (collisionType : Val := .sc (.int 0)) (velocity : Val := .sc .none)
    (mass : Val := .sc (.float 0x0000000000000000)) (location : Val := .sc .none) : H Unit := do
  EntityInformationFamilyPdu.initHeap self
  H.setOr self "issuingEntityID" issuingEntityID EntityIdentifier.newHeap
  H.setOr self "collidingEntityID" collidingEntityID EntityIdentifier.newHeap
  H.setOr self "eventID" eventID EventIdentifier.newHeap
  H.setAttr self "collisionType" collisionType
  H.setAttr self "pad" (.sc (.int 0))
  H.setOr self "velocity" velocity Vector3Float.newHeap
  H.setAttr self "mass" mass
  H.setOr self "location" location Vector3Float.newHeap

/-- `CollisionPdu(...)`, /repo/opendis/dis7.py:3940-3963. -/
def CollisionPdu.newHeap (issuingEntityID : Val := .sc .none)
    (collidingEntityID : Val := .sc .none) (eventID : Val := .sc .none)
    (collisionType : Val := .sc (.int 0)) (velocity : Val := .sc .none)
    (mass : Val := .sc (.float 0x0000000000000000)) (location : Val := .sc .none) : H Ref :=
  H.new CollisionPdu.attrs fun self => CollisionPdu.initHeap self issuingEntityID collidingEntityID eventID collisionType velocity mass location

/-- `CollisionPdu.parse`, /repo/opendis/dis7.py:3977-3987, statement by statement. -/
def CollisionPdu.parseHeap (self : Ref) : H Unit := do
  EntityInformationFamilyPdu.parseHeap self
  H.call self "issuingEntityID" EntityIdentifier.parseHeap
  H.call self "collidingEntityID" EntityIdentifier.parseHeap
  H.call self "eventID" EventIdentifier.parseHeap
  let collisionType ← H.read read_unsigned_byte
  H.setAttr self "collisionType" (.sc (.int collisionType))
  let pad ← H.read read_byte
  H.setAttr self "pad" (.sc (.int pad))
  H.call self "velocity" Vector3Float.parseHeap
  let mass ← H.read read_float
  H.setAttr self "mass" (.sc (.float mass))
  H.call self "location" Vector3Float.parseHeap
  return ()

/-- `CollisionPdu.serialize`, /repo/opendis/dis7.py:3965-3975, statement by statement. -/
def CollisionPdu.serializeHeap (self : Ref) : S Unit := do
  EntityInformationFamilyPdu.serializeHeap self
  S.call self "issuingEntityID" EntityIdentifier.serializeHeap
  S.call self "collidingEntityID" EntityIdentifier.serializeHeap
  S.call self "eventID" EventIdentifier.serializeHeap
  S.putInt self "collisionType" write_unsigned_byte
  S.putInt self "pad" write_byte
  S.call self "velocity" Vector3Float.serializeHeap
  S.putFloat self "mass" write_float
  S.call self "location" Vector3Float.serializeHeap

/-- Attributes of a `RepairResponsePdu` object before `__init__` (/repo/opendis/dis7.py:3990-4027): class attributes have
values. -/
def RepairResponsePdu.attrs : List (String × Scalar) :=
  [("protocolVersion", .absent), ("exerciseID", .absent), ("pduType", .int 10),
   ("protocolFamily", .int 3), ("timestamp", .absent), ("length", .absent), ("pduStatus", .absent),
   ("padding", .absent), ("receivingEntityID", .absent), ("repairingEntityID", .absent),
   ("repairResult", .absent), ("padding1", .absent), ("padding2", .absent)]

/-- `RepairResponsePdu.__init__`, /repo/opendis/dis7.py:3997-4009, statement by statement. -/
def RepairResponsePdu.initHeap (self : Ref) (receivingEntityID : Val := .sc .none)
    (repairingEntityID : Val := .sc .none) (repairResult : Val := .sc (.int 0)) : H Unit := do
  LogisticsFamilyPdu.initHeap self
  H.setOr self "receivingEntityID" receivingEntityID EntityIdentifier.newHeap
  H.setOr self "repairingEntityID" repairingEntityID EntityIdentifier.newHeap
  H.setAttr self "repairResult" repairResult
  H.setAttr self "padding1" (.sc (.int 0))
  H.setAttr self "padding2" (.sc (.int 0))

/-- `RepairResponsePdu(...)`, /repo/opendis/dis7.py:3997-4009. -/
def RepairResponsePdu.newHeap (receivingEntityID : Val := .sc .none)
    (repairingEntityID : Val := .sc .none) (repairResult : Val := .sc (.int 0)) : H Ref :=
  H.new RepairResponsePdu.attrs fun self => RepairResponsePdu.initHeap self receivingEntityID repairingEntityID repairResult

/-- `RepairResponsePdu.parse`, /repo/opendis/dis7.py:4020-4027, statement by statement. -/
def RepairResponsePdu.parseHeap (self : Ref) : H Unit := do
  LogisticsFamilyPdu.parseHeap self
  H.call self "receivingEntityID" EntityIdentifier.parseHeap
  H.call self "repairingEntityID" EntityIdentifier.parseHeap
  let repairResult ← H.read read_unsigned_byte
  H.setAttr self "repairResult" (.sc (.int repairResult))
  let padding1 ← H.read read_short
  H.setAttr self "padding1" (.sc (.int padding1))
  let padding2 ← H.read read_byte
  H.setAttr self "padding2" (.sc (.int padding2))
  return ()

/-- `RepairResponsePdu.serialize`, /repo/opendis/dis7.py:4011-4018, statement by statement. -/
def RepairResponsePdu.serializeHeap (self : Ref) : S Unit := do
  LogisticsFamilyPdu.serializeHeap self
  S.call self "receivingEntityID" EntityIdentifier.serializeHeap
  S.call self "repairingEntityID" EntityIdentifier.serializeHeap
  S.putInt self "repairResult" write_unsigned_byte
  S.putInt self "padding1" write_short
  S.putInt self "padding2" write_byte

/-- `SimulationManagementFamilyPdu.__init__`, /repo/opendis/dis7.py:4037-4044, statement by statement. -/
def SimulationManagementFamilyPdu.initHeap (self : Ref) (originatingEntityID : Val := .sc .none)
    (receivingEntityID : Val := .sc .none) : H Unit := do
  Pdu.initHeap self
  H.setOr self "originatingEntityID" originatingEntityID EntityIdentifier.newHeap
  H.setOr self "receivingEntityID" receivingEntityID EntityIdentifier.newHeap

/-- `SimulationManagementFamilyPdu.parse`, /repo/opendis/dis7.py:4052-4056, statement by statement. -/
def SimulationManagementFamilyPdu.parseHeap (self : Ref) : H Unit := do
  Pdu.parseHeap self
  H.call self "originatingEntityID" EntityIdentifier.parseHeap
  H.call self "receivingEntityID" EntityIdentifier.parseHeap
  return ()

/-- `SimulationManagementFamilyPdu.serialize`, /repo/opendis/dis7.py:4046-4050, statement by statement. -/
def SimulationManagementFamilyPdu.serializeHeap (self : Ref) : S Unit := do
  Pdu.serializeHeap self
  S.call self "originatingEntityID" EntityIdentifier.serializeHeap
  S.call self "receivingEntityID" EntityIdentifier.serializeHeap

/-- Attributes of a `DataQueryPdu` object before `__init__` (/repo/opendis/dis7.py:4059-4107): class attributes have
values. -/
def DataQueryPdu.attrs : List (String × Scalar) :=
  [("protocolVersion", .absent), ("exerciseID", .absent), ("pduType", .int 18),
   ("protocolFamily", .int 5), ("timestamp", .absent), ("length", .absent), ("pduStatus", .absent),
   ("padding", .absent), ("originatingEntityID", .absent), ("receivingEntityID", .absent),
   ("requestID", .absent), ("timeInterval", .absent), ("_dataQuery", .absent)]

/-- `DataQueryPdu.__init__`, /repo/opendis/dis7.py:4066-4077, statement by statement. -/
def DataQueryPdu.initHeap (self : Ref) (requestID : Val := .sc (.int 0))
    (timeInterval : Val := .sc (.int 0)) (fixedDatumIDs : Val := .sc .none)
    (variableDatumIDs : Val := .sc .none) : H Unit := do
  SimulationManagementFamilyPdu.initHeap self
  H.setAttr self "requestID" (.sc (.int 0))
  H.setAttr self "timeInterval" (.sc (.int 0))
  H.setNew self "_dataQuery" (do
      let fixedDatumIDs ← H.orNew fixedDatumIDs (H.alloc (.list []))
      let variableDatumIDs ← H.orNew variableDatumIDs (H.alloc (.list []))
      DataQueryDatumSpecification.newHeap fixedDatumIDs variableDatumIDs)

/-- `DataQueryPdu(...)`, /repo/opendis/dis7.py:4066-4077. -/
def DataQueryPdu.newHeap (requestID : Val := .sc (.int 0)) (timeInterval : Val := .sc (.int 0))
    (fixedDatumIDs : Val := .sc .none) (variableDatumIDs : Val := .sc .none) : H Ref :=
  H.new DataQueryPdu.attrs fun self => DataQueryPdu.initHeap self requestID timeInterval fixedDatumIDs variableDatumIDs

/-- `DataQueryPdu.parse`, /repo/opendis/dis7.py:4102-4107, statement by statement. -/
def DataQueryPdu.parseHeap (self : Ref) : H Unit := do
  SimulationManagementFamilyPdu.parseHeap self
  let requestID ← H.read read_unsigned_int
  H.setAttr self "requestID" (.sc (.int requestID))
  let timeInterval ← H.read read_unsigned_int
  H.setAttr self "timeInterval" (.sc (.int timeInterval))
  H.call self "_dataQuery" DataQueryDatumSpecification.parseHeap
  return ()

/-- `DataQueryPdu.serialize`, /repo/opendis/dis7.py:4095-4100, statement by statement. -/
def DataQueryPdu.serializeHeap (self : Ref) : S Unit := do
  SimulationManagementFamilyPdu.serializeHeap self
  S.putInt self "requestID" write_unsigned_int
  S.putInt self "timeInterval" write_unsigned_int
  S.call self "_dataQuery" DataQueryDatumSpecification.serializeHeap

/-- Attributes of a `LinearObjectStatePdu` object before `__init__` (/repo/opendis/dis7.py:4110-4175): class attributes have
values. -/
def LinearObjectStatePdu.attrs : List (String × Scalar) :=
  [("protocolVersion", .absent), ("exerciseID", .absent), ("pduType", .int 44),
   ("protocolFamily", .int 9), ("timestamp", .absent), ("length", .absent), ("pduStatus", .absent),
   ("padding", .absent), ("objectID", .absent), ("referencedObjectID", .absent),
   ("updateNumber", .absent), ("forceID", .absent), ("requesterID", .absent),
   ("receivingID", .absent), ("objectType", .absent), ("linearSegmentParameters", .absent)]

/-- `LinearObjectStatePdu.parse`, /repo/opendis/dis7.py:4161-4175, statement by statement. -/
def LinearObjectStatePdu.parseHeap (self : Ref) : H Unit := do
  SyntheticEnvironmentFamilyPdu.parseHeap self
  H.call self "objectID" EntityIdentifier.parseHeap
  H.call self "referencedObjectID" EntityIdentifier.parseHeap
  let updateNumber ← H.read read_unsigned_short
  H.setAttr self "updateNumber" (.sc (.int updateNumber))
  let forceID ← H.read read_unsigned_byte
  H.setAttr self "forceID" (.sc (.int forceID))
  let numberOfSegments ← H.read read_unsigned_byte
  H.call self "requesterID" SimulationAddress.parseHeap
  H.call self "receivingID" SimulationAddress.parseHeap
  H.call self "objectType" ObjectType.parseHeap
  H.appendObjs numberOfSegments.toNat LinearSegmentParameter.newHeap LinearSegmentParameter.parseHeap self "linearSegmentParameters"
  return ()

/-- `LinearObjectStatePdu.serialize`, /repo/opendis/dis7.py:4147-4159, statement by statement. -/
def LinearObjectStatePdu.serializeHeap (self : Ref) : S Unit := do
  SyntheticEnvironmentFamilyPdu.serializeHeap self
  S.call self "objectID" EntityIdentifier.serializeHeap
  S.call self "referencedObjectID" EntityIdentifier.serializeHeap
  S.putInt self "updateNumber" write_unsigned_short
  S.putInt self "forceID" write_unsigned_byte
  S.putLen self "linearSegmentParameters" write_unsigned_byte
  S.call self "requesterID" SimulationAddress.serializeHeap
  S.call self "receivingID" SimulationAddress.serializeHeap
  S.call self "objectType" ObjectType.serializeHeap
  S.each self "linearSegmentParameters" LinearSegmentParameter.serializeHeap

end Dis
