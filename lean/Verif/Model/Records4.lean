import Verif.Model.Records3

/-!
# Records of `opendis/dis7.py`, part 4

Generated by `tools/gen.py` from the Python source; each definition cites the lines it transliterates.
-/

set_option linter.unusedVariables false

namespace Dis

/-- Attributes of a `LaunchedMunitionRecord` object, /repo/opendis/dis7.py:2313-2350; default values are those of an
object made by `LaunchedMunitionRecord()`, /repo/opendis/dis7.py:2319-2330. -/
structure LaunchedMunitionRecord where
  fireEventID : EventIdentifier := EventIdentifier.init
  padding : Int := 0
  firingEntityID : EventIdentifier := EventIdentifier.init
  padding2 : Int := 0
  targetEntityID : EventIdentifier := EventIdentifier.init
  padding3 : Int := 0
  targetLocation : WorldCoordinates := WorldCoordinates.init
  deriving DecidableEq

/-- Constructor `LaunchedMunitionRecord(...)`, /repo/opendis/dis7.py:2319-2330. `x or T()` and `x or []` keep a given
value and replace `None` (absent) by a fresh one. -/
def LaunchedMunitionRecord.init (fireEventID : Option EventIdentifier := none)
    (firingEntityID : Option EventIdentifier := none)
    (targetEntityID : Option EventIdentifier := none)
    (targetLocation : Option WorldCoordinates := none) : LaunchedMunitionRecord :=
  { fireEventID := fireEventID.getD EventIdentifier.init,
    padding := 0,
    firingEntityID := firingEntityID.getD EventIdentifier.init,
    padding2 := 0,
    targetEntityID := targetEntityID.getD EventIdentifier.init,
    padding3 := 0,
    targetLocation := targetLocation.getD WorldCoordinates.init }

/-- `LaunchedMunitionRecord.serialize`, /repo/opendis/dis7.py:2332-2340. -/
def LaunchedMunitionRecord.serialize (self : LaunchedMunitionRecord) : W Unit := do
  EventIdentifier.serialize self.fireEventID
  write_unsigned_short self.padding
  EventIdentifier.serialize self.firingEntityID
  write_unsigned_short self.padding2
  EventIdentifier.serialize self.targetEntityID
  write_unsigned_short self.padding3
  WorldCoordinates.serialize self.targetLocation

/-- `LaunchedMunitionRecord.parse`, /repo/opendis/dis7.py:2342-2350; returns the updated object. -/
def LaunchedMunitionRecord.parse (self : LaunchedMunitionRecord) : R LaunchedMunitionRecord := do
  let fireEventID ← EventIdentifier.parse self.fireEventID
  let padding ← read_unsigned_short
  let firingEntityID ← EventIdentifier.parse self.firingEntityID
  let padding2 ← read_unsigned_short
  let targetEntityID ← EventIdentifier.parse self.targetEntityID
  let padding3 ← read_unsigned_short
  let targetLocation ← WorldCoordinates.parse self.targetLocation
  return { self with
    fireEventID := fireEventID,
    padding := padding,
    firingEntityID := firingEntityID,
    padding2 := padding2,
    targetEntityID := targetEntityID,
    padding3 := padding3,
    targetLocation := targetLocation }

/-- Attributes of a `IFFFundamentalParameterData` object, /repo/opendis/dis7.py:2353-2398; default values are those of an
object made by `IFFFundamentalParameterData()`, /repo/opendis/dis7.py:2359-2373. -/
structure IFFFundamentalParameterData where
  erp : F64 := 0x0000000000000000
  frequency : F64 := 0x0000000000000000
  pgrf : F64 := 0x0000000000000000
  pulseWidth : F64 := 0x0000000000000000
  burstLength : Int := 0
  applicableModes : Int := 0
  systemSpecificData : List Int := List.replicate 3 0
  deriving DecidableEq

/-- Constructor `IFFFundamentalParameterData(...)`, /repo/opendis/dis7.py:2359-2373. `x or T()` and `x or []` keep a given
value and replace `None` (absent) by a fresh one. -/
def IFFFundamentalParameterData.init (erp : F64 := 0x0000000000000000)
    (frequency : F64 := 0x0000000000000000) (pgrf : F64 := 0x0000000000000000)
    (pulseWidth : F64 := 0x0000000000000000) (burstLength : Int := 0)
    (applicableModes : Int := 0) (systemSpecificData : List Int := []) : IFFFundamentalParameterData :=
  { erp := erp,
    frequency := frequency,
    pgrf := pgrf,
    pulseWidth := pulseWidth,
    burstLength := burstLength,
    applicableModes := applicableModes,
    systemSpecificData := if systemSpecificData.isEmpty then List.replicate 3 0 else systemSpecificData }

/-- `IFFFundamentalParameterData.serialize`, /repo/opendis/dis7.py:2375-2384. -/
def IFFFundamentalParameterData.serialize (self : IFFFundamentalParameterData) : W Unit := do
  write_float self.erp
  write_float self.frequency
  write_float self.pgrf
  write_float self.pulseWidth
  write_unsigned_int self.burstLength
  write_unsigned_byte self.applicableModes
  W.forRange 0 3 fun idx => W.using (index self.systemSpecificData idx) write_unsigned_byte

/-- `IFFFundamentalParameterData.parse`, /repo/opendis/dis7.py:2386-2398; returns the updated object. -/
def IFFFundamentalParameterData.parse (self : IFFFundamentalParameterData) : R IFFFundamentalParameterData := do
  let erp ← read_float
  let frequency ← read_float
  let pgrf ← read_float
  let pulseWidth ← read_float
  let burstLength ← read_unsigned_int
  let applicableModes ← read_unsigned_byte
  let systemSpecificData ← R.times 3 read_unsigned_byte
  return { self with
    erp := erp,
    frequency := frequency,
    pgrf := pgrf,
    pulseWidth := pulseWidth,
    burstLength := burstLength,
    applicableModes := applicableModes,
    systemSpecificData := systemSpecificData }

/-- Attributes of a `FundamentalOperationalData` object, /repo/opendis/dis7.py:2401-2463; default values are those of an
object made by `FundamentalOperationalData()`, /repo/opendis/dis7.py:2407-2437. -/
structure FundamentalOperationalData where
  systemStatus : Int := 0
  dataField1 : Int := 0
  informationLayers : Int := 0
  dataField2 : Int := 0
  parameter1 : Int := 0
  parameter2 : Int := 0
  parameter3 : Int := 0
  parameter4 : Int := 0
  parameter5 : Int := 0
  parameter6 : Int := 0
  deriving DecidableEq

/-- Constructor `FundamentalOperationalData(...)`, /repo/opendis/dis7.py:2407-2437. `x or T()` and `x or []` keep a given
value and replace `None` (absent) by a fresh one. -/
def FundamentalOperationalData.init (systemStatus : Int := 0) (dataField1 : Int := 0)
    (informationLayers : Int := 0) (dataField2 : Int := 0) (parameter1 : Int := 0)
    (parameter2 : Int := 0) (parameter3 : Int := 0) (parameter4 : Int := 0)
    (parameter5 : Int := 0) (parameter6 : Int := 0) : FundamentalOperationalData :=
  { systemStatus := systemStatus,
    dataField1 := dataField1,
    informationLayers := informationLayers,
    dataField2 := dataField2,
    parameter1 := parameter1,
    parameter2 := parameter2,
    parameter3 := parameter3,
    parameter4 := parameter4,
    parameter5 := parameter5,
    parameter6 := parameter6 }

/-- `FundamentalOperationalData.serialize`, /repo/opendis/dis7.py:2439-2450. -/
def FundamentalOperationalData.serialize (self : FundamentalOperationalData) : W Unit := do
  write_unsigned_byte self.systemStatus
  write_unsigned_byte self.dataField1
  write_unsigned_byte self.informationLayers
  write_unsigned_byte self.dataField2
  write_unsigned_short self.parameter1
  write_unsigned_short self.parameter2
  write_unsigned_short self.parameter3
  write_unsigned_short self.parameter4
  write_unsigned_short self.parameter5
  write_unsigned_short self.parameter6

/-- `FundamentalOperationalData.parse`, /repo/opendis/dis7.py:2452-2463; returns the updated object. -/
def FundamentalOperationalData.parse (self : FundamentalOperationalData) : R FundamentalOperationalData := do
  let systemStatus ← read_unsigned_byte
  let dataField1 ← read_unsigned_byte
  let informationLayers ← read_unsigned_byte
  let dataField2 ← read_unsigned_byte
  let parameter1 ← read_unsigned_short
  let parameter2 ← read_unsigned_short
  let parameter3 ← read_unsigned_short
  let parameter4 ← read_unsigned_short
  let parameter5 ← read_unsigned_short
  let parameter6 ← read_unsigned_short
  return { self with
    systemStatus := systemStatus,
    dataField1 := dataField1,
    informationLayers := informationLayers,
    dataField2 := dataField2,
    parameter1 := parameter1,
    parameter2 := parameter2,
    parameter3 := parameter3,
    parameter4 := parameter4,
    parameter5 := parameter5,
    parameter6 := parameter6 }

/-- Attributes of a `IntercomCommunicationsParameters` object, /repo/opendis/dis7.py:2466-2494; default values are those of an
object made by `IntercomCommunicationsParameters()`, /repo/opendis/dis7.py:2472-2481. -/
structure IntercomCommunicationsParameters where
  recordType : Int := 0
  recordLength : Int := 0
  recordSpecificField : Int := 0
  deriving DecidableEq

/-- Constructor `IntercomCommunicationsParameters(...)`, /repo/opendis/dis7.py:2472-2481. `x or T()` and `x or []` keep a given
value and replace `None` (absent) by a fresh one. -/
def IntercomCommunicationsParameters.init (recordType : Int := 0) (recordLength : Int := 0)
    (recordSpecificField : Int := 0) : IntercomCommunicationsParameters :=
  { recordType := recordType,
    recordLength := recordLength,
    recordSpecificField := recordSpecificField }

/-- `IntercomCommunicationsParameters.serialize`, /repo/opendis/dis7.py:2484-2488. -/
def IntercomCommunicationsParameters.serialize (self : IntercomCommunicationsParameters) : W Unit := do
  write_unsigned_short self.recordType
  write_unsigned_short self.recordLength
  write_unsigned_int self.recordSpecificField

/-- `IntercomCommunicationsParameters.parse`, /repo/opendis/dis7.py:2490-2494; returns the updated object. -/
def IntercomCommunicationsParameters.parse (self : IntercomCommunicationsParameters) : R IntercomCommunicationsParameters := do
  let recordType ← read_unsigned_short
  let recordLength ← read_unsigned_short
  let recordSpecificField ← read_unsigned_int
  return { self with
    recordType := recordType,
    recordLength := recordLength,
    recordSpecificField := recordSpecificField }

/-- Attributes of a `Munition` object, /repo/opendis/dis7.py:2543-2582; default values are those of an
object made by `Munition()`, /repo/opendis/dis7.py:2552-2566. -/
structure Munition where
  munitionType : EntityType := EntityType.init
  station : Int := 0
  quantity : Int := 0
  munitionStatus : Int := 0
  padding : Int := 0
  deriving DecidableEq

/-- Constructor `Munition(...)`, /repo/opendis/dis7.py:2552-2566. `x or T()` and `x or []` keep a given
value and replace `None` (absent) by a fresh one. -/
def Munition.init (munitionType : Option EntityType := none) (station : Int := 0)
    (quantity : Int := 0) (munitionStatus : Int := 0) : Munition :=
  { munitionType := munitionType.getD EntityType.init,
    station := station,
    quantity := quantity,
    munitionStatus := munitionStatus,
    padding := 0 }

/-- `Munition.serialize`, /repo/opendis/dis7.py:2568-2574. -/
def Munition.serialize (self : Munition) : W Unit := do
  EntityType.serialize self.munitionType
  write_unsigned_int self.station
  write_unsigned_short self.quantity
  write_unsigned_byte self.munitionStatus
  write_unsigned_byte self.padding

/-- `Munition.parse`, /repo/opendis/dis7.py:2576-2582; returns the updated object. -/
def Munition.parse (self : Munition) : R Munition := do
  let munitionType ← EntityType.parse self.munitionType
  let station ← read_unsigned_int
  let quantity ← read_unsigned_short
  let munitionStatus ← read_unsigned_byte
  let padding ← read_unsigned_byte
  return { self with
    munitionType := munitionType,
    station := station,
    quantity := quantity,
    munitionStatus := munitionStatus,
    padding := padding }

/-- Attributes of a `StandardVariableSpecification` object, /repo/opendis/dis7.py:2585-2615; default values are those of an
object made by `StandardVariableSpecification()`, /repo/opendis/dis7.py:2591-2596. -/
structure StandardVariableSpecification where
  standardVariables : List Int := []
  deriving DecidableEq

/-- Constructor `StandardVariableSpecification(...)`, /repo/opendis/dis7.py:2591-2596. `x or T()` and `x or []` keep a given
value and replace `None` (absent) by a fresh one. -/
def StandardVariableSpecification.init (standardVariables : List Int := []) : StandardVariableSpecification :=
  { standardVariables := standardVariables }

/-- `StandardVariableSpecification.serialize`, /repo/opendis/dis7.py:2602-2606. -/
def StandardVariableSpecification.serialize (self : StandardVariableSpecification) : W Unit := do
  write_unsigned_short (self.standardVariables.length : Int)
  W.forEach self.standardVariables fun _ => W.throw .attributeError

/-- `StandardVariableSpecification.parse`, /repo/opendis/dis7.py:2608-2615; returns the updated object. -/
def StandardVariableSpecification.parse (self : StandardVariableSpecification) : R StandardVariableSpecification := do
  let numberOfStandardVariableRecords ← read_unsigned_short
  let standardVariables ← R.times numberOfStandardVariableRecords.toNat (R.throw .nameError : R Int)
  return { self with standardVariables := self.standardVariables ++ standardVariables }

/-- Attributes of a `Vector2Float` object, /repo/opendis/dis7.py:2618-2633; default values are those of an
object made by `Vector2Float()`, /repo/opendis/dis7.py:2621-2623. -/
structure Vector2Float where
  x : F64 := 0x0000000000000000
  y : F64 := 0x0000000000000000
  deriving DecidableEq

/-- Constructor `Vector2Float(...)`, /repo/opendis/dis7.py:2621-2623. `x or T()` and `x or []` keep a given
value and replace `None` (absent) by a fresh one. -/
def Vector2Float.init (x : F64 := 0x0000000000000000) (y : F64 := 0x0000000000000000) : Vector2Float :=
  { x := x,
    y := y }

/-- `Vector2Float.serialize`, /repo/opendis/dis7.py:2625-2628. -/
def Vector2Float.serialize (self : Vector2Float) : W Unit := do
  write_float self.x
  write_float self.y

/-- `Vector2Float.parse`, /repo/opendis/dis7.py:2630-2633; returns the updated object. -/
def Vector2Float.parse (self : Vector2Float) : R Vector2Float := do
  let x ← read_float
  let y ← read_float
  return { self with x := x, y := y }

/-- Attributes of a `Environment` object, /repo/opendis/dis7.py:2636-2668; default values are those of an
object made by `Environment()`, /repo/opendis/dis7.py:2642-2654. -/
structure Environment where
  environmentType : Int := 0
  length : Int := 0
  index : Int := 0
  padding0 : Int := 0
  padding1 : Int := 0
  padding : Option Int := none
  deriving DecidableEq

/-- Constructor `Environment(...)`, /repo/opendis/dis7.py:2642-2654. `x or T()` and `x or []` keep a given
value and replace `None` (absent) by a fresh one. -/
def Environment.init (environmentType : Int := 0) (length : Int := 0) (index : Int := 0) : Environment :=
  { environmentType := environmentType,
    length := length,
    index := index,
    padding0 := 0,
    padding1 := 0 }

/-- `Environment.serialize`, /repo/opendis/dis7.py:2656-2661. -/
def Environment.serialize (self : Environment) : W Unit := do
  write_unsigned_int self.environmentType
  write_unsigned_short (self.length : Int)
  write_unsigned_byte self.index
  W.using (attr self.padding) write_unsigned_byte

/-- `Environment.parse`, /repo/opendis/dis7.py:2663-2668; returns the updated object. -/
def Environment.parse (self : Environment) : R Environment := do
  let environmentType ← read_unsigned_int
  let length ← read_unsigned_short
  let index ← read_unsigned_byte
  let padding ← read_unsigned_byte
  return { self with
    environmentType := environmentType,
    length := length,
    index := index,
    padding := some padding }

/-- Attributes of a `AcousticEmitter` object, /repo/opendis/dis7.py:2671-2698; default values are those of an
object made by `AcousticEmitter()`, /repo/opendis/dis7.py:2677-2686. -/
structure AcousticEmitter where
  acousticSystemName : Int := 0
  acousticFunction : Int := 0
  acousticIDNumber : Int := 0
  deriving DecidableEq

/-- Constructor `AcousticEmitter(...)`, /repo/opendis/dis7.py:2677-2686. `x or T()` and `x or []` keep a given
value and replace `None` (absent) by a fresh one. -/
def AcousticEmitter.init (acousticSystemName : Int := 0) (acousticFunction : Int := 0)
    (acousticIDNumber : Int := 0) : AcousticEmitter :=
  { acousticSystemName := acousticSystemName,
    acousticFunction := acousticFunction,
    acousticIDNumber := acousticIDNumber }

/-- `AcousticEmitter.serialize`, /repo/opendis/dis7.py:2688-2692. -/
def AcousticEmitter.serialize (self : AcousticEmitter) : W Unit := do
  write_unsigned_short self.acousticSystemName
  write_unsigned_byte self.acousticFunction
  write_unsigned_byte self.acousticIDNumber

/-- `AcousticEmitter.parse`, /repo/opendis/dis7.py:2694-2698; returns the updated object. -/
def AcousticEmitter.parse (self : AcousticEmitter) : R AcousticEmitter := do
  let acousticSystemName ← read_unsigned_short
  let acousticFunction ← read_unsigned_byte
  let acousticIDNumber ← read_unsigned_byte
  return { self with
    acousticSystemName := acousticSystemName,
    acousticFunction := acousticFunction,
    acousticIDNumber := acousticIDNumber }

/-- Attributes of a `AngularVelocityVector` object, /repo/opendis/dis7.py:2701-2728; default values are those of an
object made by `AngularVelocityVector()`, /repo/opendis/dis7.py:2710-2716. -/
structure AngularVelocityVector where
  x : F64 := 0x0000000000000000
  y : F64 := 0x0000000000000000
  z : F64 := 0x0000000000000000
  deriving DecidableEq

/-- Constructor `AngularVelocityVector(...)`, /repo/opendis/dis7.py:2710-2716. `x or T()` and `x or []` keep a given
value and replace `None` (absent) by a fresh one. -/
def AngularVelocityVector.init (_x : F64 := 0x0000000000000000) (_y : F64 := 0x0000000000000000)
    (_z : F64 := 0x0000000000000000) : AngularVelocityVector :=
  { x := 0x0000000000000000,
    y := 0x0000000000000000,
    z := 0x0000000000000000 }

/-- `AngularVelocityVector.serialize`, /repo/opendis/dis7.py:2718-2722. -/
def AngularVelocityVector.serialize (self : AngularVelocityVector) : W Unit := do
  write_float self.x
  write_float self.y
  write_float self.z

/-- `AngularVelocityVector.parse`, /repo/opendis/dis7.py:2724-2728; returns the updated object. -/
def AngularVelocityVector.parse (self : AngularVelocityVector) : R AngularVelocityVector := do
  let x ← read_float
  let y ← read_float
  let z ← read_float
  return { self with x := x, y := y, z := z }

/-- Attributes of a `AggregateMarking` object, /repo/opendis/dis7.py:2731-2759; default values are those of an
object made by `AggregateMarking()`, /repo/opendis/dis7.py:2738-2744. -/
structure AggregateMarking where
  characterSet : Int := 0
  characters : List Int := List.replicate 31 0
  deriving DecidableEq

/-- Constructor `AggregateMarking(...)`, /repo/opendis/dis7.py:2738-2744. `x or T()` and `x or []` keep a given
value and replace `None` (absent) by a fresh one. -/
def AggregateMarking.init (characterSet : Int := 0) (_characters : List Int := []) : AggregateMarking :=
  { characterSet := characterSet,
    characters := List.replicate 31 0 }

/-- `AggregateMarking.serialize`, /repo/opendis/dis7.py:2746-2750. -/
def AggregateMarking.serialize (self : AggregateMarking) : W Unit := do
  write_unsigned_byte self.characterSet
  W.forRange 0 31 fun idx => W.using (index self.characters idx) write_unsigned_byte

/-- `AggregateMarking.parse`, /repo/opendis/dis7.py:2752-2759; returns the updated object. -/
def AggregateMarking.parse (self : AggregateMarking) : R AggregateMarking := do
  let characterSet ← read_unsigned_byte
  let characters ← R.times 31 read_unsigned_byte
  return { self with characterSet := characterSet, characters := characters }

/-- Attributes of a `DataFilterRecord` object, /repo/opendis/dis7.py:2762-2781; default values are those of an
object made by `DataFilterRecord()`, /repo/opendis/dis7.py:2771-2773. -/
structure DataFilterRecord where
  bitFlags : Int := 0
  deriving DecidableEq

/-- Constructor `DataFilterRecord(...)`, /repo/opendis/dis7.py:2771-2773. `x or T()` and `x or []` keep a given
value and replace `None` (absent) by a fresh one. -/
def DataFilterRecord.init (bitFlags : Int := 0) : DataFilterRecord :=
  { bitFlags := bitFlags }

/-- `DataFilterRecord.serialize`, /repo/opendis/dis7.py:2775-2777. -/
def DataFilterRecord.serialize (self : DataFilterRecord) : W Unit := do
  write_unsigned_int self.bitFlags

/-- `DataFilterRecord.parse`, /repo/opendis/dis7.py:2779-2781; returns the updated object. -/
def DataFilterRecord.parse (self : DataFilterRecord) : R DataFilterRecord := do
  let bitFlags ← read_unsigned_int
  return { self with bitFlags := bitFlags }

/-- Attributes of a `IntercomIdentifier` object, /repo/opendis/dis7.py:2784-2812; default values are those of an
object made by `IntercomIdentifier()`, /repo/opendis/dis7.py:2790-2798. -/
structure IntercomIdentifier where
  siteNumber : Int := 0
  applicationNumber : Int := 0
  referenceNumber : Int := 0
  intercomNumber : Int := 0
  deriving DecidableEq

/-- Constructor `IntercomIdentifier(...)`, /repo/opendis/dis7.py:2790-2798. `x or T()` and `x or []` keep a given
value and replace `None` (absent) by a fresh one. -/
def IntercomIdentifier.init (siteNumber : Int := 0) (applicationNumber : Int := 0)
    (referenceNumber : Int := 0) (intercomNumber : Int := 0) : IntercomIdentifier :=
  { siteNumber := siteNumber,
    applicationNumber := applicationNumber,
    referenceNumber := referenceNumber,
    intercomNumber := intercomNumber }

/-- `IntercomIdentifier.serialize`, /repo/opendis/dis7.py:2800-2805. -/
def IntercomIdentifier.serialize (self : IntercomIdentifier) : W Unit := do
  write_unsigned_short self.siteNumber
  write_unsigned_short self.applicationNumber
  write_unsigned_short self.referenceNumber
  write_unsigned_short self.intercomNumber

/-- `IntercomIdentifier.parse`, /repo/opendis/dis7.py:2807-2812; returns the updated object. -/
def IntercomIdentifier.parse (self : IntercomIdentifier) : R IntercomIdentifier := do
  let siteNumber ← read_unsigned_short
  let applicationNumber ← read_unsigned_short
  let referenceNumber ← read_unsigned_short
  let intercomNumber ← read_unsigned_short
  return { self with
    siteNumber := siteNumber,
    applicationNumber := applicationNumber,
    referenceNumber := referenceNumber,
    intercomNumber := intercomNumber }

/-- Attributes of a `StorageFuel` object, /repo/opendis/dis7.py:2815-2850; default values are those of an
object made by `StorageFuel()`, /repo/opendis/dis7.py:2821-2834. -/
structure StorageFuel where
  fuelQuantity : Int := 0
  fuelMeasurementUnits : Int := 0
  fuelType : Int := 0
  fuelLocation : Int := 0
  padding : Int := 0
  deriving DecidableEq

/-- Constructor `StorageFuel(...)`, /repo/opendis/dis7.py:2821-2834. `x or T()` and `x or []` keep a given
value and replace `None` (absent) by a fresh one. -/
def StorageFuel.init (fuelQuantity : Int := 0) (fuelMeasurementUnits : Int := 0)
    (fuelType : Int := 0) (fuelLocation : Int := 0) : StorageFuel :=
  { fuelQuantity := fuelQuantity,
    fuelMeasurementUnits := fuelMeasurementUnits,
    fuelType := fuelType,
    fuelLocation := fuelLocation,
    padding := 0 }

/-- `StorageFuel.serialize`, /repo/opendis/dis7.py:2836-2842. -/
def StorageFuel.serialize (self : StorageFuel) : W Unit := do
  write_unsigned_int self.fuelQuantity
  write_unsigned_byte self.fuelMeasurementUnits
  write_unsigned_byte self.fuelType
  write_unsigned_byte self.fuelLocation
  write_unsigned_byte self.padding

/-- `StorageFuel.parse`, /repo/opendis/dis7.py:2844-2850; returns the updated object. -/
def StorageFuel.parse (self : StorageFuel) : R StorageFuel := do
  let fuelQuantity ← read_unsigned_int
  let fuelMeasurementUnits ← read_unsigned_byte
  let fuelType ← read_unsigned_byte
  let fuelLocation ← read_unsigned_byte
  let padding ← read_unsigned_byte
  return { self with
    fuelQuantity := fuelQuantity,
    fuelMeasurementUnits := fuelMeasurementUnits,
    fuelType := fuelType,
    fuelLocation := fuelLocation,
    padding := padding }

/-- Attributes of a `Sensor` object, /repo/opendis/dis7.py:2853-2893; default values are those of an
object made by `Sensor()`, /repo/opendis/dis7.py:2859-2875. -/
structure Sensor where
  sensorTypeSource : Int := 0
  sensorOnOffStatus : Int := 0
  sensorType : Int := 0
  station : Int := 0
  quantity : Int := 0
  padding : Int := 0
  deriving DecidableEq

/-- Constructor `Sensor(...)`, /repo/opendis/dis7.py:2859-2875. `x or T()` and `x or []` keep a given
value and replace `None` (absent) by a fresh one. -/
def Sensor.init (sensorTypeSource : Int := 0) (sensorOnOffStatus : Int := 0)
    (sensorType : Int := 0) (station : Int := 0) (quantity : Int := 0) : Sensor :=
  { sensorTypeSource := sensorTypeSource,
    sensorOnOffStatus := sensorOnOffStatus,
    sensorType := sensorType,
    station := station,
    quantity := quantity,
    padding := 0 }

/-- `Sensor.serialize`, /repo/opendis/dis7.py:2877-2884. -/
def Sensor.serialize (self : Sensor) : W Unit := do
  write_unsigned_byte self.sensorTypeSource
  write_unsigned_byte self.sensorOnOffStatus
  write_unsigned_short self.sensorType
  write_unsigned_int self.station
  write_unsigned_short self.quantity
  write_unsigned_short self.padding

/-- `Sensor.parse`, /repo/opendis/dis7.py:2886-2893; returns the updated object. -/
def Sensor.parse (self : Sensor) : R Sensor := do
  let sensorTypeSource ← read_unsigned_byte
  let sensorOnOffStatus ← read_unsigned_byte
  let sensorType ← read_unsigned_short
  let station ← read_unsigned_int
  let quantity ← read_unsigned_short
  let padding ← read_unsigned_short
  return { self with
    sensorTypeSource := sensorTypeSource,
    sensorOnOffStatus := sensorOnOffStatus,
    sensorType := sensorType,
    station := station,
    quantity := quantity,
    padding := padding }

/-- Attributes of a `MunitionReload` object, /repo/opendis/dis7.py:2896-2940; default values are those of an
object made by `MunitionReload()`, /repo/opendis/dis7.py:2903-2922. -/
structure MunitionReload where
  munitionType : EntityType := EntityType.init
  station : Int := 0
  standardQuantity : Int := 0
  maximumQuantity : Int := 0
  standardQuantityReloadTime : Int := 0
  maximumQuantityReloadTime : Int := 0
  deriving DecidableEq

/-- Constructor `MunitionReload(...)`, /repo/opendis/dis7.py:2903-2922. `x or T()` and `x or []` keep a given
value and replace `None` (absent) by a fresh one. -/
def MunitionReload.init (munitionType : Option EntityType := none) (station : Int := 0)
    (standardQuantity : Int := 0) (maximumQuantity : Int := 0)
    (standardQuantityReloadTime : Int := 0) (maximumQuantityReloadTime : Int := 0) : MunitionReload :=
  { munitionType := munitionType.getD EntityType.init,
    station := station,
    standardQuantity := standardQuantity,
    maximumQuantity := maximumQuantity,
    standardQuantityReloadTime := standardQuantityReloadTime,
    maximumQuantityReloadTime := maximumQuantityReloadTime }

/-- `MunitionReload.serialize`, /repo/opendis/dis7.py:2924-2931. -/
def MunitionReload.serialize (self : MunitionReload) : W Unit := do
  EntityType.serialize self.munitionType
  write_unsigned_int self.station
  write_unsigned_short self.standardQuantity
  write_unsigned_short self.maximumQuantity
  write_unsigned_int self.standardQuantityReloadTime
  write_unsigned_int self.maximumQuantityReloadTime

/-- `MunitionReload.parse`, /repo/opendis/dis7.py:2933-2940; returns the updated object. -/
def MunitionReload.parse (self : MunitionReload) : R MunitionReload := do
  let munitionType ← EntityType.parse self.munitionType
  let station ← read_unsigned_int
  let standardQuantity ← read_unsigned_short
  let maximumQuantity ← read_unsigned_short
  let standardQuantityReloadTime ← read_unsigned_int
  let maximumQuantityReloadTime ← read_unsigned_int
  return { self with
    munitionType := munitionType,
    station := station,
    standardQuantity := standardQuantity,
    maximumQuantity := maximumQuantity,
    standardQuantityReloadTime := standardQuantityReloadTime,
    maximumQuantityReloadTime := maximumQuantityReloadTime }

/-- Attributes of a `StorageFuelReload` object, /repo/opendis/dis7.py:2943-2996; default values are those of an
object made by `StorageFuelReload()`, /repo/opendis/dis7.py:2952-2974. -/
structure StorageFuelReload where
  standardQuantity : Int := 0
  maximumQuantity : Int := 0
  standardQuantityReloadTime : Int := 0
  maximumQuantityReloadTime : Int := 0
  fuelMeasurementUnits : Int := 0
  fuelType : Int := 0
  fuelLocation : Int := 0
  padding : Int := 0
  deriving DecidableEq

/-- Constructor `StorageFuelReload(...)`, /repo/opendis/dis7.py:2952-2974. `x or T()` and `x or []` keep a given
value and replace `None` (absent) by a fresh one. -/
def StorageFuelReload.init (standardQuantity : Int := 0) (maximumQuantity : Int := 0)
    (standardQuantityReloadTime : Int := 0) (maximumQuantityReloadTime : Int := 0)
    (fuelMeasurementUnits : Int := 0) (fuelType : Int := 0) (fuelLocation : Int := 0) : StorageFuelReload :=
  { standardQuantity := standardQuantity,
    maximumQuantity := maximumQuantity,
    standardQuantityReloadTime := standardQuantityReloadTime,
    maximumQuantityReloadTime := maximumQuantityReloadTime,
    fuelMeasurementUnits := fuelMeasurementUnits,
    fuelType := fuelType,
    fuelLocation := fuelLocation,
    padding := 0 }

/-- `StorageFuelReload.serialize`, /repo/opendis/dis7.py:2976-2985. -/
def StorageFuelReload.serialize (self : StorageFuelReload) : W Unit := do
  write_unsigned_int self.standardQuantity
  write_unsigned_int self.maximumQuantity
  write_unsigned_byte self.standardQuantityReloadTime
  write_unsigned_byte self.maximumQuantityReloadTime
  write_unsigned_byte self.fuelMeasurementUnits
  write_unsigned_byte self.fuelType
  write_unsigned_byte self.fuelLocation
  write_unsigned_byte self.padding

/-- `StorageFuelReload.parse`, /repo/opendis/dis7.py:2987-2996; returns the updated object. -/
def StorageFuelReload.parse (self : StorageFuelReload) : R StorageFuelReload := do
  let standardQuantity ← read_unsigned_int
  let maximumQuantity ← read_unsigned_int
  let standardQuantityReloadTime ← read_unsigned_byte
  let maximumQuantityReloadTime ← read_unsigned_byte
  let fuelMeasurementUnits ← read_unsigned_byte
  let fuelType ← read_unsigned_byte
  let fuelLocation ← read_unsigned_byte
  let padding ← read_unsigned_byte
  return { self with
    standardQuantity := standardQuantity,
    maximumQuantity := maximumQuantity,
    standardQuantityReloadTime := standardQuantityReloadTime,
    maximumQuantityReloadTime := maximumQuantityReloadTime,
    fuelMeasurementUnits := fuelMeasurementUnits,
    fuelType := fuelType,
    fuelLocation := fuelLocation,
    padding := padding }

/-- Attributes of a `ExpendableReload` object, /repo/opendis/dis7.py:2999-3037; default values are those of an
object made by `ExpendableReload()`, /repo/opendis/dis7.py:3005-3019. -/
structure ExpendableReload where
  expendable : EntityType := EntityType.init
  station : Int := 0
  standardQuantity : Int := 0
  maximumQuantity : Int := 0
  standardQuantityReloadTime : Int := 0
  maximumQuantityReloadTime : Int := 0
  deriving DecidableEq

/-- Constructor `ExpendableReload(...)`, /repo/opendis/dis7.py:3005-3019. `x or T()` and `x or []` keep a given
value and replace `None` (absent) by a fresh one. -/
def ExpendableReload.init (expendable : Option EntityType := none) (station : Int := 0)
    (standardQuantity : Int := 0) (maximumQuantity : Int := 0)
    (standardQuantityReloadTime : Int := 0) (maximumQuantityReloadTime : Int := 0) : ExpendableReload :=
  { expendable := expendable.getD EntityType.init,
    station := station,
    standardQuantity := standardQuantity,
    maximumQuantity := maximumQuantity,
    standardQuantityReloadTime := standardQuantityReloadTime,
    maximumQuantityReloadTime := maximumQuantityReloadTime }

/-- `ExpendableReload.serialize`, /repo/opendis/dis7.py:3021-3028. -/
def ExpendableReload.serialize (self : ExpendableReload) : W Unit := do
  EntityType.serialize self.expendable
  write_unsigned_int self.station
  write_unsigned_short self.standardQuantity
  write_unsigned_short self.maximumQuantity
  write_unsigned_int self.standardQuantityReloadTime
  write_unsigned_int self.maximumQuantityReloadTime

/-- `ExpendableReload.parse`, /repo/opendis/dis7.py:3030-3037; returns the updated object. -/
def ExpendableReload.parse (self : ExpendableReload) : R ExpendableReload := do
  let expendable ← EntityType.parse self.expendable
  let station ← read_unsigned_int
  let standardQuantity ← read_unsigned_short
  let maximumQuantity ← read_unsigned_short
  let standardQuantityReloadTime ← read_unsigned_int
  let maximumQuantityReloadTime ← read_unsigned_int
  return { self with
    expendable := expendable,
    station := station,
    standardQuantity := standardQuantity,
    maximumQuantity := maximumQuantity,
    standardQuantityReloadTime := standardQuantityReloadTime,
    maximumQuantityReloadTime := maximumQuantityReloadTime }

/-- Attributes of a `EngineFuelReload` object, /repo/opendis/dis7.py:3040-3083; default values are those of an
object made by `EngineFuelReload()`, /repo/opendis/dis7.py:3043-3062. -/
structure EngineFuelReload where
  standardQuantity : Int := 0
  maximumQuantity : Int := 0
  standardQuantityReloadTime : Int := 0
  maximumQuantityReloadTime : Int := 0
  fuelMeasurmentUnits : Int := 0
  fuelLocation : Int := 0
  padding : Int := 0
  deriving DecidableEq

/-- Constructor `EngineFuelReload(...)`, /repo/opendis/dis7.py:3043-3062. `x or T()` and `x or []` keep a given
value and replace `None` (absent) by a fresh one. -/
def EngineFuelReload.init (standardQuantity : Int := 0) (maximumQuantity : Int := 0)
    (standardQuantityReloadTime : Int := 0) (maximumQuantityReloadTime : Int := 0)
    (fuelMeasurementUnits : Int := 0) (fuelLocation : Int := 0) : EngineFuelReload :=
  { standardQuantity := standardQuantity,
    maximumQuantity := maximumQuantity,
    standardQuantityReloadTime := standardQuantityReloadTime,
    maximumQuantityReloadTime := maximumQuantityReloadTime,
    fuelMeasurmentUnits := fuelMeasurementUnits,
    fuelLocation := fuelLocation,
    padding := 0 }

/-- `EngineFuelReload.serialize`, /repo/opendis/dis7.py:3064-3072. -/
def EngineFuelReload.serialize (self : EngineFuelReload) : W Unit := do
  write_unsigned_int self.standardQuantity
  write_unsigned_int self.maximumQuantity
  write_unsigned_int self.standardQuantityReloadTime
  write_unsigned_int self.maximumQuantityReloadTime
  write_unsigned_byte self.fuelMeasurmentUnits
  write_unsigned_byte self.fuelLocation
  write_unsigned_byte self.padding

/-- `EngineFuelReload.parse`, /repo/opendis/dis7.py:3074-3083; returns the updated object. -/
def EngineFuelReload.parse (self : EngineFuelReload) : R EngineFuelReload := do
  let standardQuantity ← read_unsigned_int
  let maximumQuantity ← read_unsigned_int
  let standardQuantityReloadTime ← read_unsigned_int
  let maximumQuantityReloadTime ← read_unsigned_int
  let fuelMeasurmentUnits ← read_unsigned_byte
  let fuelLocation ← read_unsigned_byte
  let padding ← read_unsigned_byte
  return { self with
    standardQuantity := standardQuantity,
    maximumQuantity := maximumQuantity,
    standardQuantityReloadTime := standardQuantityReloadTime,
    maximumQuantityReloadTime := maximumQuantityReloadTime,
    fuelMeasurmentUnits := fuelMeasurmentUnits,
    fuelLocation := fuelLocation,
    padding := padding }

/-- Attributes of a `UnattachedIdentifier` object, /repo/opendis/dis7.py:3086-3109; default values are those of an
object made by `UnattachedIdentifier()`, /repo/opendis/dis7.py:3093-3099. -/
structure UnattachedIdentifier where
  simulationAddress : SimulationAddress := SimulationAddress.init
  referenceNumber : Int := 0
  deriving DecidableEq

/-- Constructor `UnattachedIdentifier(...)`, /repo/opendis/dis7.py:3093-3099. `x or T()` and `x or []` keep a given
value and replace `None` (absent) by a fresh one. -/
def UnattachedIdentifier.init (simulationAddress : Option SimulationAddress := none)
    (referenceNumber : Int := 0) : UnattachedIdentifier :=
  { simulationAddress := simulationAddress.getD SimulationAddress.init,
    referenceNumber := referenceNumber }

/-- `UnattachedIdentifier.serialize`, /repo/opendis/dis7.py:3101-3104. -/
def UnattachedIdentifier.serialize (self : UnattachedIdentifier) : W Unit := do
  SimulationAddress.serialize self.simulationAddress
  write_unsigned_short self.referenceNumber

/-- `UnattachedIdentifier.parse`, /repo/opendis/dis7.py:3106-3109; returns the updated object. -/
def UnattachedIdentifier.parse (self : UnattachedIdentifier) : R UnattachedIdentifier := do
  let simulationAddress ← SimulationAddress.parse self.simulationAddress
  let referenceNumber ← read_unsigned_short
  return { self with simulationAddress := simulationAddress, referenceNumber := referenceNumber }

/-- Attributes of a `EntityTypeVP` object, /repo/opendis/dis7.py:3112-3143; default values are those of an
object made by `EntityTypeVP()`, /repo/opendis/dis7.py:3119-3127. -/
structure EntityTypeVP where
  recordType : Int := 3
  changeIndicator : Int := 0
  entityType : EntityType := EntityType.init
  padding : Int := 0
  padding1 : Int := 0
  deriving DecidableEq

/-- Constructor `EntityTypeVP(...)`, /repo/opendis/dis7.py:3119-3127. `x or T()` and `x or []` keep a given
value and replace `None` (absent) by a fresh one. -/
def EntityTypeVP.init (changeIndicator : Int := 0) (entityType : Option EntityType := none) : EntityTypeVP :=
  { changeIndicator := changeIndicator,
    entityType := entityType.getD EntityType.init,
    padding := 0,
    padding1 := 0 }

/-- `EntityTypeVP.serialize`, /repo/opendis/dis7.py:3129-3135. -/
def EntityTypeVP.serialize (self : EntityTypeVP) : W Unit := do
  write_unsigned_byte self.recordType
  write_unsigned_byte self.changeIndicator
  EntityType.serialize self.entityType
  write_unsigned_short self.padding
  write_unsigned_int self.padding1

/-- `EntityTypeVP.parse`, /repo/opendis/dis7.py:3137-3143; returns the updated object. -/
def EntityTypeVP.parse (self : EntityTypeVP) : R EntityTypeVP := do
  let recordType ← read_unsigned_byte
  let changeIndicator ← read_unsigned_byte
  let entityType ← EntityType.parse self.entityType
  let padding ← read_unsigned_short
  let padding1 ← read_unsigned_int
  return { self with
    recordType := recordType,
    changeIndicator := changeIndicator,
    entityType := entityType,
    padding := padding,
    padding1 := padding1 }

/-- Attributes of a `BeamStatus` object, /repo/opendis/dis7.py:3146-3165; default values are those of an
object made by `BeamStatus()`, /repo/opendis/dis7.py:3154-3156. -/
structure BeamStatus where
  beamState : Int := 0
  deriving DecidableEq

/-- Constructor `BeamStatus(...)`, /repo/opendis/dis7.py:3154-3156. `x or T()` and `x or []` keep a given
value and replace `None` (absent) by a fresh one. -/
def BeamStatus.init (beamState : Int := 0) : BeamStatus :=
  { beamState := beamState % 2 }

/-- `BeamStatus.serialize`, /repo/opendis/dis7.py:3158-3160. -/
def BeamStatus.serialize (self : BeamStatus) : W Unit := do
  write_unsigned_byte (self.beamState % 2)

/-- `BeamStatus.parse`, /repo/opendis/dis7.py:3162-3165; returns the updated object. -/
def BeamStatus.parse (self : BeamStatus) : R BeamStatus := do
  let value ← read_unsigned_byte
  return { self with beamState := value % 2 }

end Dis
