import Verif.Model.Records4
import Verif.Spec.Records3

/-!
# Specification of: Records of `opendis/dis7.py`, part 4

Generated by `tools/genproof.py`.
-/

set_option linter.unusedVariables false
set_option linter.unusedSimpArgs false

namespace Dis

/-- The object `s` after it parsed what `o` serialized: fields of `o`, singles rounded, list elements
appended (/repo/opendis/dis7.py:2332-2340,2342-2350). -/
def LaunchedMunitionRecord.after (s o : LaunchedMunitionRecord) : LaunchedMunitionRecord :=
  { s with
    fireEventID := EventIdentifier.after s.fireEventID o.fireEventID,
    padding := o.padding,
    firingEntityID := EventIdentifier.after s.firingEntityID o.firingEntityID,
    padding2 := o.padding2,
    targetEntityID := EventIdentifier.after s.targetEntityID o.targetEntityID,
    padding3 := o.padding3,
    targetLocation := WorldCoordinates.after s.targetLocation o.targetLocation }

/-- Every field of `o` fits its wire type (/repo/opendis/dis7.py:2332-2340,2342-2350). -/
def LaunchedMunitionRecord.WireOk (o : LaunchedMunitionRecord) : Prop :=
  EventIdentifier.WireOk o.fireEventID ∧
  U16 o.padding ∧
  EventIdentifier.WireOk o.firingEntityID ∧
  U16 o.padding2 ∧
  EventIdentifier.WireOk o.targetEntityID ∧
  U16 o.padding3

/-- `o` is in the form a fresh `LaunchedMunitionRecord` takes after parsing: singles exact, arrays of the fixed length,
attributes that are not on the wire at their initial value (/repo/opendis/dis7.py:2332-2340,2342-2350). -/
def LaunchedMunitionRecord.Canon (o : LaunchedMunitionRecord) : Prop :=
  True

/-- No single-precision field of `o` is a NaN (/repo/opendis/dis7.py:2332-2340,2342-2350). -/
def LaunchedMunitionRecord.NoNaN (o : LaunchedMunitionRecord) : Prop :=
  True

/-- Number of bytes `serialize` writes (/repo/opendis/dis7.py:2332-2340,2342-2350). -/
def LaunchedMunitionRecord.wireSize (o : LaunchedMunitionRecord) : Nat := 48

/-- The object `s` after it parsed what `o` serialized: fields of `o`, singles rounded, list elements
appended (/repo/opendis/dis7.py:2375-2384,2386-2398). -/
def IFFFundamentalParameterData.after (s o : IFFFundamentalParameterData) : IFFFundamentalParameterData :=
  { s with
    erp := quant o.erp,
    frequency := quant o.frequency,
    pgrf := quant o.pgrf,
    pulseWidth := quant o.pulseWidth,
    burstLength := o.burstLength,
    applicableModes := o.applicableModes,
    systemSpecificData := o.systemSpecificData.take 3 }

/-- Every field of `o` fits its wire type (/repo/opendis/dis7.py:2375-2384,2386-2398). -/
def IFFFundamentalParameterData.WireOk (o : IFFFundamentalParameterData) : Prop :=
  F32Fits o.erp ∧
  F32Fits o.frequency ∧
  F32Fits o.pgrf ∧
  F32Fits o.pulseWidth ∧
  U32 o.burstLength ∧
  U8 o.applicableModes ∧
  (3 ≤ o.systemSpecificData.length ∧ ∀ x ∈ o.systemSpecificData.take 3, U8 x)

/-- `o` is in the form a fresh `IFFFundamentalParameterData` takes after parsing: singles exact, arrays of the fixed length,
attributes that are not on the wire at their initial value (/repo/opendis/dis7.py:2375-2384,2386-2398). -/
def IFFFundamentalParameterData.Canon (o : IFFFundamentalParameterData) : Prop :=
  quant o.erp = o.erp ∧
  quant o.frequency = o.frequency ∧
  quant o.pgrf = o.pgrf ∧
  quant o.pulseWidth = o.pulseWidth ∧
  o.systemSpecificData.length = 3

/-- No single-precision field of `o` is a NaN (/repo/opendis/dis7.py:2375-2384,2386-2398). -/
def IFFFundamentalParameterData.NoNaN (o : IFFFundamentalParameterData) : Prop :=
  ¬ o.erp.isNaN ∧
  ¬ o.frequency.isNaN ∧
  ¬ o.pgrf.isNaN ∧
  ¬ o.pulseWidth.isNaN

/-- Number of bytes `serialize` writes (/repo/opendis/dis7.py:2375-2384,2386-2398). -/
def IFFFundamentalParameterData.wireSize (o : IFFFundamentalParameterData) : Nat := 24

/-- The object `s` after it parsed what `o` serialized: fields of `o`, singles rounded, list elements
appended (/repo/opendis/dis7.py:2439-2450,2452-2463). -/
def FundamentalOperationalData.after (s o : FundamentalOperationalData) : FundamentalOperationalData :=
  { s with
    systemStatus := o.systemStatus,
    dataField1 := o.dataField1,
    informationLayers := o.informationLayers,
    dataField2 := o.dataField2,
    parameter1 := o.parameter1,
    parameter2 := o.parameter2,
    parameter3 := o.parameter3,
    parameter4 := o.parameter4,
    parameter5 := o.parameter5,
    parameter6 := o.parameter6 }

/-- Every field of `o` fits its wire type (/repo/opendis/dis7.py:2439-2450,2452-2463). -/
def FundamentalOperationalData.WireOk (o : FundamentalOperationalData) : Prop :=
  U8 o.systemStatus ∧
  U8 o.dataField1 ∧
  U8 o.informationLayers ∧
  U8 o.dataField2 ∧
  U16 o.parameter1 ∧
  U16 o.parameter2 ∧
  U16 o.parameter3 ∧
  U16 o.parameter4 ∧
  U16 o.parameter5 ∧
  U16 o.parameter6

/-- `o` is in the form a fresh `FundamentalOperationalData` takes after parsing: singles exact, arrays of the fixed length,
attributes that are not on the wire at their initial value (/repo/opendis/dis7.py:2439-2450,2452-2463). -/
def FundamentalOperationalData.Canon (o : FundamentalOperationalData) : Prop :=
  True

/-- No single-precision field of `o` is a NaN (/repo/opendis/dis7.py:2439-2450,2452-2463). -/
def FundamentalOperationalData.NoNaN (o : FundamentalOperationalData) : Prop :=
  True

/-- Number of bytes `serialize` writes (/repo/opendis/dis7.py:2439-2450,2452-2463). -/
def FundamentalOperationalData.wireSize (o : FundamentalOperationalData) : Nat := 16

/-- The object `s` after it parsed what `o` serialized: fields of `o`, singles rounded, list elements
appended (/repo/opendis/dis7.py:2484-2488,2490-2494). -/
def IntercomCommunicationsParameters.after (s o : IntercomCommunicationsParameters) : IntercomCommunicationsParameters :=
  { s with
    recordType := o.recordType,
    recordLength := o.recordLength,
    recordSpecificField := o.recordSpecificField }

/-- Every field of `o` fits its wire type (/repo/opendis/dis7.py:2484-2488,2490-2494). -/
def IntercomCommunicationsParameters.WireOk (o : IntercomCommunicationsParameters) : Prop :=
  U16 o.recordType ∧
  U16 o.recordLength ∧
  U32 o.recordSpecificField

/-- `o` is in the form a fresh `IntercomCommunicationsParameters` takes after parsing: singles exact, arrays of the fixed length,
attributes that are not on the wire at their initial value (/repo/opendis/dis7.py:2484-2488,2490-2494). -/
def IntercomCommunicationsParameters.Canon (o : IntercomCommunicationsParameters) : Prop :=
  True

/-- No single-precision field of `o` is a NaN (/repo/opendis/dis7.py:2484-2488,2490-2494). -/
def IntercomCommunicationsParameters.NoNaN (o : IntercomCommunicationsParameters) : Prop :=
  True

/-- Number of bytes `serialize` writes (/repo/opendis/dis7.py:2484-2488,2490-2494). -/
def IntercomCommunicationsParameters.wireSize (o : IntercomCommunicationsParameters) : Nat := 8

/-- The object `s` after it parsed what `o` serialized: fields of `o`, singles rounded, list elements
appended (/repo/opendis/dis7.py:2568-2574,2576-2582). -/
def Munition.after (s o : Munition) : Munition :=
  { s with
    munitionType := EntityType.after s.munitionType o.munitionType,
    station := o.station,
    quantity := o.quantity,
    munitionStatus := o.munitionStatus,
    padding := o.padding }

/-- Every field of `o` fits its wire type (/repo/opendis/dis7.py:2568-2574,2576-2582). -/
def Munition.WireOk (o : Munition) : Prop :=
  EntityType.WireOk o.munitionType ∧
  U32 o.station ∧
  U16 o.quantity ∧
  U8 o.munitionStatus ∧
  U8 o.padding

/-- `o` is in the form a fresh `Munition` takes after parsing: singles exact, arrays of the fixed length,
attributes that are not on the wire at their initial value (/repo/opendis/dis7.py:2568-2574,2576-2582). -/
def Munition.Canon (o : Munition) : Prop :=
  True

/-- No single-precision field of `o` is a NaN (/repo/opendis/dis7.py:2568-2574,2576-2582). -/
def Munition.NoNaN (o : Munition) : Prop :=
  True

/-- Number of bytes `serialize` writes (/repo/opendis/dis7.py:2568-2574,2576-2582). -/
def Munition.wireSize (o : Munition) : Nat := 16

/-- The object `s` after it parsed what `o` serialized: fields of `o`, singles rounded, list elements
appended (/repo/opendis/dis7.py:2602-2606,2608-2615). -/
def StandardVariableSpecification.after (s o : StandardVariableSpecification) : StandardVariableSpecification :=
  { s with
    standardVariables := s.standardVariables ++ [] }

/-- Every field of `o` fits its wire type (/repo/opendis/dis7.py:2602-2606,2608-2615). -/
def StandardVariableSpecification.WireOk (o : StandardVariableSpecification) : Prop :=
  U16 ((o.standardVariables.length : Int)) ∧
  o.standardVariables = []

/-- `o` is in the form a fresh `StandardVariableSpecification` takes after parsing: singles exact, arrays of the fixed length,
attributes that are not on the wire at their initial value (/repo/opendis/dis7.py:2602-2606,2608-2615). -/
def StandardVariableSpecification.Canon (o : StandardVariableSpecification) : Prop :=
  o.standardVariables = []

/-- No single-precision field of `o` is a NaN (/repo/opendis/dis7.py:2602-2606,2608-2615). -/
def StandardVariableSpecification.NoNaN (o : StandardVariableSpecification) : Prop :=
  True

/-- Number of bytes `serialize` writes (/repo/opendis/dis7.py:2602-2606,2608-2615). -/
def StandardVariableSpecification.wireSize (o : StandardVariableSpecification) : Nat := 2

/-- The object `s` after it parsed what `o` serialized: fields of `o`, singles rounded, list elements
appended (/repo/opendis/dis7.py:2625-2628,2630-2633). -/
def Vector2Float.after (s o : Vector2Float) : Vector2Float :=
  { s with
    x := quant o.x,
    y := quant o.y }

/-- Every field of `o` fits its wire type (/repo/opendis/dis7.py:2625-2628,2630-2633). -/
def Vector2Float.WireOk (o : Vector2Float) : Prop :=
  F32Fits o.x ∧
  F32Fits o.y

/-- `o` is in the form a fresh `Vector2Float` takes after parsing: singles exact, arrays of the fixed length,
attributes that are not on the wire at their initial value (/repo/opendis/dis7.py:2625-2628,2630-2633). -/
def Vector2Float.Canon (o : Vector2Float) : Prop :=
  quant o.x = o.x ∧
  quant o.y = o.y

/-- No single-precision field of `o` is a NaN (/repo/opendis/dis7.py:2625-2628,2630-2633). -/
def Vector2Float.NoNaN (o : Vector2Float) : Prop :=
  ¬ o.x.isNaN ∧
  ¬ o.y.isNaN

/-- Number of bytes `serialize` writes (/repo/opendis/dis7.py:2625-2628,2630-2633). -/
def Vector2Float.wireSize (o : Vector2Float) : Nat := 8

/-- The object `s` after it parsed what `o` serialized: fields of `o`, singles rounded, list elements
appended (/repo/opendis/dis7.py:2656-2661,2663-2668). -/
def Environment.after (s o : Environment) : Environment :=
  { s with
    environmentType := o.environmentType,
    length := o.length,
    index := o.index,
    padding := some (o.padding.getD 0) }

/-- Every field of `o` fits its wire type (/repo/opendis/dis7.py:2656-2661,2663-2668). -/
def Environment.WireOk (o : Environment) : Prop :=
  U32 o.environmentType ∧
  U16 o.length ∧
  U8 o.index ∧
  (∃ v, o.padding = some v ∧ U8 v)

/-- `o` is in the form a fresh `Environment` takes after parsing: singles exact, arrays of the fixed length,
attributes that are not on the wire at their initial value (/repo/opendis/dis7.py:2656-2661,2663-2668). -/
def Environment.Canon (o : Environment) : Prop :=
  (∃ v, o.padding = some v) ∧
  o.padding0 = 0 ∧
  o.padding1 = 0

/-- No single-precision field of `o` is a NaN (/repo/opendis/dis7.py:2656-2661,2663-2668). -/
def Environment.NoNaN (o : Environment) : Prop :=
  True

/-- Number of bytes `serialize` writes (/repo/opendis/dis7.py:2656-2661,2663-2668). -/
def Environment.wireSize (o : Environment) : Nat := 8

/-- The object `s` after it parsed what `o` serialized: fields of `o`, singles rounded, list elements
appended (/repo/opendis/dis7.py:2688-2692,2694-2698). -/
def AcousticEmitter.after (s o : AcousticEmitter) : AcousticEmitter :=
  { s with
    acousticSystemName := o.acousticSystemName,
    acousticFunction := o.acousticFunction,
    acousticIDNumber := o.acousticIDNumber }

/-- Every field of `o` fits its wire type (/repo/opendis/dis7.py:2688-2692,2694-2698). -/
def AcousticEmitter.WireOk (o : AcousticEmitter) : Prop :=
  U16 o.acousticSystemName ∧
  U8 o.acousticFunction ∧
  U8 o.acousticIDNumber

/-- `o` is in the form a fresh `AcousticEmitter` takes after parsing: singles exact, arrays of the fixed length,
attributes that are not on the wire at their initial value (/repo/opendis/dis7.py:2688-2692,2694-2698). -/
def AcousticEmitter.Canon (o : AcousticEmitter) : Prop :=
  True

/-- No single-precision field of `o` is a NaN (/repo/opendis/dis7.py:2688-2692,2694-2698). -/
def AcousticEmitter.NoNaN (o : AcousticEmitter) : Prop :=
  True

/-- Number of bytes `serialize` writes (/repo/opendis/dis7.py:2688-2692,2694-2698). -/
def AcousticEmitter.wireSize (o : AcousticEmitter) : Nat := 4

/-- The object `s` after it parsed what `o` serialized: fields of `o`, singles rounded, list elements
appended (/repo/opendis/dis7.py:2718-2722,2724-2728). -/
def AngularVelocityVector.after (s o : AngularVelocityVector) : AngularVelocityVector :=
  { s with
    x := quant o.x,
    y := quant o.y,
    z := quant o.z }

/-- Every field of `o` fits its wire type (/repo/opendis/dis7.py:2718-2722,2724-2728). -/
def AngularVelocityVector.WireOk (o : AngularVelocityVector) : Prop :=
  F32Fits o.x ∧
  F32Fits o.y ∧
  F32Fits o.z

/-- `o` is in the form a fresh `AngularVelocityVector` takes after parsing: singles exact, arrays of the fixed length,
attributes that are not on the wire at their initial value (/repo/opendis/dis7.py:2718-2722,2724-2728). -/
def AngularVelocityVector.Canon (o : AngularVelocityVector) : Prop :=
  quant o.x = o.x ∧
  quant o.y = o.y ∧
  quant o.z = o.z

/-- No single-precision field of `o` is a NaN (/repo/opendis/dis7.py:2718-2722,2724-2728). -/
def AngularVelocityVector.NoNaN (o : AngularVelocityVector) : Prop :=
  ¬ o.x.isNaN ∧
  ¬ o.y.isNaN ∧
  ¬ o.z.isNaN

/-- Number of bytes `serialize` writes (/repo/opendis/dis7.py:2718-2722,2724-2728). -/
def AngularVelocityVector.wireSize (o : AngularVelocityVector) : Nat := 12

/-- The object `s` after it parsed what `o` serialized: fields of `o`, singles rounded, list elements
appended (/repo/opendis/dis7.py:2746-2750,2752-2759). -/
def AggregateMarking.after (s o : AggregateMarking) : AggregateMarking :=
  { s with
    characterSet := o.characterSet,
    characters := o.characters.take 31 }

/-- Every field of `o` fits its wire type (/repo/opendis/dis7.py:2746-2750,2752-2759). -/
def AggregateMarking.WireOk (o : AggregateMarking) : Prop :=
  U8 o.characterSet ∧
  (31 ≤ o.characters.length ∧ ∀ x ∈ o.characters.take 31, U8 x)

/-- `o` is in the form a fresh `AggregateMarking` takes after parsing: singles exact, arrays of the fixed length,
attributes that are not on the wire at their initial value (/repo/opendis/dis7.py:2746-2750,2752-2759). -/
def AggregateMarking.Canon (o : AggregateMarking) : Prop :=
  o.characters.length = 31

/-- No single-precision field of `o` is a NaN (/repo/opendis/dis7.py:2746-2750,2752-2759). -/
def AggregateMarking.NoNaN (o : AggregateMarking) : Prop :=
  True

/-- Number of bytes `serialize` writes (/repo/opendis/dis7.py:2746-2750,2752-2759). -/
def AggregateMarking.wireSize (o : AggregateMarking) : Nat := 32

/-- The object `s` after it parsed what `o` serialized: fields of `o`, singles rounded, list elements
appended (/repo/opendis/dis7.py:2775-2777,2779-2781). -/
def DataFilterRecord.after (s o : DataFilterRecord) : DataFilterRecord :=
  { s with
    bitFlags := o.bitFlags }

/-- Every field of `o` fits its wire type (/repo/opendis/dis7.py:2775-2777,2779-2781). -/
def DataFilterRecord.WireOk (o : DataFilterRecord) : Prop :=
  U32 o.bitFlags

/-- `o` is in the form a fresh `DataFilterRecord` takes after parsing: singles exact, arrays of the fixed length,
attributes that are not on the wire at their initial value (/repo/opendis/dis7.py:2775-2777,2779-2781). -/
def DataFilterRecord.Canon (o : DataFilterRecord) : Prop :=
  True

/-- No single-precision field of `o` is a NaN (/repo/opendis/dis7.py:2775-2777,2779-2781). -/
def DataFilterRecord.NoNaN (o : DataFilterRecord) : Prop :=
  True

/-- Number of bytes `serialize` writes (/repo/opendis/dis7.py:2775-2777,2779-2781). -/
def DataFilterRecord.wireSize (o : DataFilterRecord) : Nat := 4

/-- The object `s` after it parsed what `o` serialized: fields of `o`, singles rounded, list elements
appended (/repo/opendis/dis7.py:2800-2805,2807-2812). -/
def IntercomIdentifier.after (s o : IntercomIdentifier) : IntercomIdentifier :=
  { s with
    siteNumber := o.siteNumber,
    applicationNumber := o.applicationNumber,
    referenceNumber := o.referenceNumber,
    intercomNumber := o.intercomNumber }

/-- Every field of `o` fits its wire type (/repo/opendis/dis7.py:2800-2805,2807-2812). -/
def IntercomIdentifier.WireOk (o : IntercomIdentifier) : Prop :=
  U16 o.siteNumber ∧
  U16 o.applicationNumber ∧
  U16 o.referenceNumber ∧
  U16 o.intercomNumber

/-- `o` is in the form a fresh `IntercomIdentifier` takes after parsing: singles exact, arrays of the fixed length,
attributes that are not on the wire at their initial value (/repo/opendis/dis7.py:2800-2805,2807-2812). -/
def IntercomIdentifier.Canon (o : IntercomIdentifier) : Prop :=
  True

/-- No single-precision field of `o` is a NaN (/repo/opendis/dis7.py:2800-2805,2807-2812). -/
def IntercomIdentifier.NoNaN (o : IntercomIdentifier) : Prop :=
  True

/-- Number of bytes `serialize` writes (/repo/opendis/dis7.py:2800-2805,2807-2812). -/
def IntercomIdentifier.wireSize (o : IntercomIdentifier) : Nat := 8

/-- The object `s` after it parsed what `o` serialized: fields of `o`, singles rounded, list elements
appended (/repo/opendis/dis7.py:2836-2842,2844-2850). -/
def StorageFuel.after (s o : StorageFuel) : StorageFuel :=
  { s with
    fuelQuantity := o.fuelQuantity,
    fuelMeasurementUnits := o.fuelMeasurementUnits,
    fuelType := o.fuelType,
    fuelLocation := o.fuelLocation,
    padding := o.padding }

/-- Every field of `o` fits its wire type (/repo/opendis/dis7.py:2836-2842,2844-2850). -/
def StorageFuel.WireOk (o : StorageFuel) : Prop :=
  U32 o.fuelQuantity ∧
  U8 o.fuelMeasurementUnits ∧
  U8 o.fuelType ∧
  U8 o.fuelLocation ∧
  U8 o.padding

/-- `o` is in the form a fresh `StorageFuel` takes after parsing: singles exact, arrays of the fixed length,
attributes that are not on the wire at their initial value (/repo/opendis/dis7.py:2836-2842,2844-2850). -/
def StorageFuel.Canon (o : StorageFuel) : Prop :=
  True

/-- No single-precision field of `o` is a NaN (/repo/opendis/dis7.py:2836-2842,2844-2850). -/
def StorageFuel.NoNaN (o : StorageFuel) : Prop :=
  True

/-- Number of bytes `serialize` writes (/repo/opendis/dis7.py:2836-2842,2844-2850). -/
def StorageFuel.wireSize (o : StorageFuel) : Nat := 8

/-- The object `s` after it parsed what `o` serialized: fields of `o`, singles rounded, list elements
appended (/repo/opendis/dis7.py:2877-2884,2886-2893). -/
def Sensor.after (s o : Sensor) : Sensor :=
  { s with
    sensorTypeSource := o.sensorTypeSource,
    sensorOnOffStatus := o.sensorOnOffStatus,
    sensorType := o.sensorType,
    station := o.station,
    quantity := o.quantity,
    padding := o.padding }

/-- Every field of `o` fits its wire type (/repo/opendis/dis7.py:2877-2884,2886-2893). -/
def Sensor.WireOk (o : Sensor) : Prop :=
  U8 o.sensorTypeSource ∧
  U8 o.sensorOnOffStatus ∧
  U16 o.sensorType ∧
  U32 o.station ∧
  U16 o.quantity ∧
  U16 o.padding

/-- `o` is in the form a fresh `Sensor` takes after parsing: singles exact, arrays of the fixed length,
attributes that are not on the wire at their initial value (/repo/opendis/dis7.py:2877-2884,2886-2893). -/
def Sensor.Canon (o : Sensor) : Prop :=
  True

/-- No single-precision field of `o` is a NaN (/repo/opendis/dis7.py:2877-2884,2886-2893). -/
def Sensor.NoNaN (o : Sensor) : Prop :=
  True

/-- Number of bytes `serialize` writes (/repo/opendis/dis7.py:2877-2884,2886-2893). -/
def Sensor.wireSize (o : Sensor) : Nat := 12

/-- The object `s` after it parsed what `o` serialized: fields of `o`, singles rounded, list elements
appended (/repo/opendis/dis7.py:2924-2931,2933-2940). -/
def MunitionReload.after (s o : MunitionReload) : MunitionReload :=
  { s with
    munitionType := EntityType.after s.munitionType o.munitionType,
    station := o.station,
    standardQuantity := o.standardQuantity,
    maximumQuantity := o.maximumQuantity,
    standardQuantityReloadTime := o.standardQuantityReloadTime,
    maximumQuantityReloadTime := o.maximumQuantityReloadTime }

/-- Every field of `o` fits its wire type (/repo/opendis/dis7.py:2924-2931,2933-2940). -/
def MunitionReload.WireOk (o : MunitionReload) : Prop :=
  EntityType.WireOk o.munitionType ∧
  U32 o.station ∧
  U16 o.standardQuantity ∧
  U16 o.maximumQuantity ∧
  U32 o.standardQuantityReloadTime ∧
  U32 o.maximumQuantityReloadTime

/-- `o` is in the form a fresh `MunitionReload` takes after parsing: singles exact, arrays of the fixed length,
attributes that are not on the wire at their initial value (/repo/opendis/dis7.py:2924-2931,2933-2940). -/
def MunitionReload.Canon (o : MunitionReload) : Prop :=
  True

/-- No single-precision field of `o` is a NaN (/repo/opendis/dis7.py:2924-2931,2933-2940). -/
def MunitionReload.NoNaN (o : MunitionReload) : Prop :=
  True

/-- Number of bytes `serialize` writes (/repo/opendis/dis7.py:2924-2931,2933-2940). -/
def MunitionReload.wireSize (o : MunitionReload) : Nat := 24

/-- The object `s` after it parsed what `o` serialized: fields of `o`, singles rounded, list elements
appended (/repo/opendis/dis7.py:2976-2985,2987-2996). -/
def StorageFuelReload.after (s o : StorageFuelReload) : StorageFuelReload :=
  { s with
    standardQuantity := o.standardQuantity,
    maximumQuantity := o.maximumQuantity,
    standardQuantityReloadTime := o.standardQuantityReloadTime,
    maximumQuantityReloadTime := o.maximumQuantityReloadTime,
    fuelMeasurementUnits := o.fuelMeasurementUnits,
    fuelType := o.fuelType,
    fuelLocation := o.fuelLocation,
    padding := o.padding }

/-- Every field of `o` fits its wire type (/repo/opendis/dis7.py:2976-2985,2987-2996). -/
def StorageFuelReload.WireOk (o : StorageFuelReload) : Prop :=
  U32 o.standardQuantity ∧
  U32 o.maximumQuantity ∧
  U8 o.standardQuantityReloadTime ∧
  U8 o.maximumQuantityReloadTime ∧
  U8 o.fuelMeasurementUnits ∧
  U8 o.fuelType ∧
  U8 o.fuelLocation ∧
  U8 o.padding

/-- `o` is in the form a fresh `StorageFuelReload` takes after parsing: singles exact, arrays of the fixed length,
attributes that are not on the wire at their initial value (/repo/opendis/dis7.py:2976-2985,2987-2996). -/
def StorageFuelReload.Canon (o : StorageFuelReload) : Prop :=
  True

/-- No single-precision field of `o` is a NaN (/repo/opendis/dis7.py:2976-2985,2987-2996). -/
def StorageFuelReload.NoNaN (o : StorageFuelReload) : Prop :=
  True

/-- Number of bytes `serialize` writes (/repo/opendis/dis7.py:2976-2985,2987-2996). -/
def StorageFuelReload.wireSize (o : StorageFuelReload) : Nat := 14

/-- The object `s` after it parsed what `o` serialized: fields of `o`, singles rounded, list elements
appended (/repo/opendis/dis7.py:3021-3028,3030-3037). -/
def ExpendableReload.after (s o : ExpendableReload) : ExpendableReload :=
  { s with
    expendable := EntityType.after s.expendable o.expendable,
    station := o.station,
    standardQuantity := o.standardQuantity,
    maximumQuantity := o.maximumQuantity,
    standardQuantityReloadTime := o.standardQuantityReloadTime,
    maximumQuantityReloadTime := o.maximumQuantityReloadTime }

/-- Every field of `o` fits its wire type (/repo/opendis/dis7.py:3021-3028,3030-3037). -/
def ExpendableReload.WireOk (o : ExpendableReload) : Prop :=
  EntityType.WireOk o.expendable ∧
  U32 o.station ∧
  U16 o.standardQuantity ∧
  U16 o.maximumQuantity ∧
  U32 o.standardQuantityReloadTime ∧
  U32 o.maximumQuantityReloadTime

/-- `o` is in the form a fresh `ExpendableReload` takes after parsing: singles exact, arrays of the fixed length,
attributes that are not on the wire at their initial value (/repo/opendis/dis7.py:3021-3028,3030-3037). -/
def ExpendableReload.Canon (o : ExpendableReload) : Prop :=
  True

/-- No single-precision field of `o` is a NaN (/repo/opendis/dis7.py:3021-3028,3030-3037). -/
def ExpendableReload.NoNaN (o : ExpendableReload) : Prop :=
  True

/-- Number of bytes `serialize` writes (/repo/opendis/dis7.py:3021-3028,3030-3037). -/
def ExpendableReload.wireSize (o : ExpendableReload) : Nat := 24

/-- The object `s` after it parsed what `o` serialized: fields of `o`, singles rounded, list elements
appended (/repo/opendis/dis7.py:3064-3072,3074-3083). -/
def EngineFuelReload.after (s o : EngineFuelReload) : EngineFuelReload :=
  { s with
    standardQuantity := o.standardQuantity,
    maximumQuantity := o.maximumQuantity,
    standardQuantityReloadTime := o.standardQuantityReloadTime,
    maximumQuantityReloadTime := o.maximumQuantityReloadTime,
    fuelMeasurmentUnits := o.fuelMeasurmentUnits,
    fuelLocation := o.fuelLocation,
    padding := o.padding }

/-- Every field of `o` fits its wire type (/repo/opendis/dis7.py:3064-3072,3074-3083). -/
def EngineFuelReload.WireOk (o : EngineFuelReload) : Prop :=
  U32 o.standardQuantity ∧
  U32 o.maximumQuantity ∧
  U32 o.standardQuantityReloadTime ∧
  U32 o.maximumQuantityReloadTime ∧
  U8 o.fuelMeasurmentUnits ∧
  U8 o.fuelLocation ∧
  U8 o.padding

/-- `o` is in the form a fresh `EngineFuelReload` takes after parsing: singles exact, arrays of the fixed length,
attributes that are not on the wire at their initial value (/repo/opendis/dis7.py:3064-3072,3074-3083). -/
def EngineFuelReload.Canon (o : EngineFuelReload) : Prop :=
  True

/-- No single-precision field of `o` is a NaN (/repo/opendis/dis7.py:3064-3072,3074-3083). -/
def EngineFuelReload.NoNaN (o : EngineFuelReload) : Prop :=
  True

/-- Number of bytes `serialize` writes (/repo/opendis/dis7.py:3064-3072,3074-3083). -/
def EngineFuelReload.wireSize (o : EngineFuelReload) : Nat := 19

/-- The object `s` after it parsed what `o` serialized: fields of `o`, singles rounded, list elements
appended (/repo/opendis/dis7.py:3101-3104,3106-3109). -/
def UnattachedIdentifier.after (s o : UnattachedIdentifier) : UnattachedIdentifier :=
  { s with
    simulationAddress := SimulationAddress.after s.simulationAddress o.simulationAddress,
    referenceNumber := o.referenceNumber }

/-- Every field of `o` fits its wire type (/repo/opendis/dis7.py:3101-3104,3106-3109). -/
def UnattachedIdentifier.WireOk (o : UnattachedIdentifier) : Prop :=
  SimulationAddress.WireOk o.simulationAddress ∧
  U16 o.referenceNumber

/-- `o` is in the form a fresh `UnattachedIdentifier` takes after parsing: singles exact, arrays of the fixed length,
attributes that are not on the wire at their initial value (/repo/opendis/dis7.py:3101-3104,3106-3109). -/
def UnattachedIdentifier.Canon (o : UnattachedIdentifier) : Prop :=
  True

/-- No single-precision field of `o` is a NaN (/repo/opendis/dis7.py:3101-3104,3106-3109). -/
def UnattachedIdentifier.NoNaN (o : UnattachedIdentifier) : Prop :=
  True

/-- Number of bytes `serialize` writes (/repo/opendis/dis7.py:3101-3104,3106-3109). -/
def UnattachedIdentifier.wireSize (o : UnattachedIdentifier) : Nat := 6

/-- The object `s` after it parsed what `o` serialized: fields of `o`, singles rounded, list elements
appended (/repo/opendis/dis7.py:3129-3135,3137-3143). -/
def EntityTypeVP.after (s o : EntityTypeVP) : EntityTypeVP :=
  { s with
    recordType := o.recordType,
    changeIndicator := o.changeIndicator,
    entityType := EntityType.after s.entityType o.entityType,
    padding := o.padding,
    padding1 := o.padding1 }

/-- Every field of `o` fits its wire type (/repo/opendis/dis7.py:3129-3135,3137-3143). -/
def EntityTypeVP.WireOk (o : EntityTypeVP) : Prop :=
  U8 o.recordType ∧
  U8 o.changeIndicator ∧
  EntityType.WireOk o.entityType ∧
  U16 o.padding ∧
  U32 o.padding1

/-- `o` is in the form a fresh `EntityTypeVP` takes after parsing: singles exact, arrays of the fixed length,
attributes that are not on the wire at their initial value (/repo/opendis/dis7.py:3129-3135,3137-3143). -/
def EntityTypeVP.Canon (o : EntityTypeVP) : Prop :=
  True

/-- No single-precision field of `o` is a NaN (/repo/opendis/dis7.py:3129-3135,3137-3143). -/
def EntityTypeVP.NoNaN (o : EntityTypeVP) : Prop :=
  True

/-- Number of bytes `serialize` writes (/repo/opendis/dis7.py:3129-3135,3137-3143). -/
def EntityTypeVP.wireSize (o : EntityTypeVP) : Nat := 16

/-- The object `s` after it parsed what `o` serialized: only the lowest bit travels
(/repo/opendis/dis7.py:3158-3160,3162-3165). -/
def BeamStatus.after (s o : BeamStatus) : BeamStatus := { s with beamState := o.beamState % 2 }

/-- `serialize` masks the field, so it always fits (/repo/opendis/dis7.py:3158-3160). -/
def BeamStatus.WireOk (_o : BeamStatus) : Prop := True

/-- The state is a single bit (/repo/opendis/dis7.py:3162-3165). -/
def BeamStatus.Canon (o : BeamStatus) : Prop := o.beamState = 0 ∨ o.beamState = 1

/-- No single-precision fields (/repo/opendis/dis7.py:3158-3160). -/
def BeamStatus.NoNaN (_o : BeamStatus) : Prop := True

/-- Number of bytes `serialize` writes (/repo/opendis/dis7.py:3158-3160). -/
def BeamStatus.wireSize (_o : BeamStatus) : Nat := 1

end Dis
