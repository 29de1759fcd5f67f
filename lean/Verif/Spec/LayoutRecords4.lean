import Verif.Model.Records4
import Verif.Spec.LayoutRecords3

/-!
# Wire layouts of the classes of `Verif.Model.Records4`

Generated by `tools/genlayout.py`.
-/

set_option linter.unusedVariables false

namespace Dis

/-- Layout of `LaunchedMunitionRecord` on the wire (/repo/opendis/dis7.py:2332-2340). -/
def LaunchedMunitionRecord.wire (o : LaunchedMunitionRecord) : List Slot :=
  [EventIdentifier.wire o.fireEventID,
   [.u16 o.padding],
   EventIdentifier.wire o.firingEntityID,
   [.u16 o.padding2],
   EventIdentifier.wire o.targetEntityID,
   [.u16 o.padding3],
   WorldCoordinates.wire o.targetLocation].flatten

/-- Layout of `IFFFundamentalParameterData` on the wire (/repo/opendis/dis7.py:2375-2384). -/
def IFFFundamentalParameterData.wire (o : IFFFundamentalParameterData) : List Slot :=
  [[.f32 o.erp],
   [.f32 o.frequency],
   [.f32 o.pgrf],
   [.f32 o.pulseWidth],
   [.u32 o.burstLength],
   [.u8 o.applicableModes],
   (List.range 3).map fun i => Slot.orFail .indexError Slot.u8 o.systemSpecificData[i]?].flatten

/-- Layout of `FundamentalOperationalData` on the wire (/repo/opendis/dis7.py:2439-2450). -/
def FundamentalOperationalData.wire (o : FundamentalOperationalData) : List Slot :=
  [[.u8 o.systemStatus],
   [.u8 o.dataField1],
   [.u8 o.informationLayers],
   [.u8 o.dataField2],
   [.u16 o.parameter1],
   [.u16 o.parameter2],
   [.u16 o.parameter3],
   [.u16 o.parameter4],
   [.u16 o.parameter5],
   [.u16 o.parameter6]].flatten

/-- Layout of `IntercomCommunicationsParameters` on the wire (/repo/opendis/dis7.py:2484-2488). -/
def IntercomCommunicationsParameters.wire (o : IntercomCommunicationsParameters) : List Slot :=
  [[.u16 o.recordType],
   [.u16 o.recordLength],
   [.u32 o.recordSpecificField]].flatten

/-- Layout of `Munition` on the wire (/repo/opendis/dis7.py:2568-2574). -/
def Munition.wire (o : Munition) : List Slot :=
  [EntityType.wire o.munitionType,
   [.u32 o.station],
   [.u16 o.quantity],
   [.u8 o.munitionStatus],
   [.u8 o.padding]].flatten

/-- Layout of `StandardVariableSpecification` on the wire (/repo/opendis/dis7.py:2602-2606). -/
def StandardVariableSpecification.wire (o : StandardVariableSpecification) : List Slot :=
  [[.u16 (o.standardVariables.length : Int)],
   o.standardVariables.map fun _ => .fail .attributeError].flatten

/-- Layout of `Vector2Float` on the wire (/repo/opendis/dis7.py:2625-2628). -/
def Vector2Float.wire (o : Vector2Float) : List Slot :=
  [[.f32 o.x],
   [.f32 o.y]].flatten

/-- Layout of `Environment` on the wire (/repo/opendis/dis7.py:2656-2661). -/
def Environment.wire (o : Environment) : List Slot :=
  [[.u32 o.environmentType],
   [.u16 (o.length : Int)],
   [.u8 o.index],
   [Slot.orFail .attributeError Slot.u8 o.padding]].flatten

/-- Layout of `AcousticEmitter` on the wire (/repo/opendis/dis7.py:2688-2692). -/
def AcousticEmitter.wire (o : AcousticEmitter) : List Slot :=
  [[.u16 o.acousticSystemName],
   [.u8 o.acousticFunction],
   [.u8 o.acousticIDNumber]].flatten

/-- Layout of `AngularVelocityVector` on the wire (/repo/opendis/dis7.py:2718-2722). -/
def AngularVelocityVector.wire (o : AngularVelocityVector) : List Slot :=
  [[.f32 o.x],
   [.f32 o.y],
   [.f32 o.z]].flatten

/-- Layout of `AggregateMarking` on the wire (/repo/opendis/dis7.py:2746-2750). -/
def AggregateMarking.wire (o : AggregateMarking) : List Slot :=
  [[.u8 o.characterSet],
   (List.range 31).map fun i => Slot.orFail .indexError Slot.u8 o.characters[i]?].flatten

/-- Layout of `DataFilterRecord` on the wire (/repo/opendis/dis7.py:2775-2777). -/
def DataFilterRecord.wire (o : DataFilterRecord) : List Slot :=
  [.u32 o.bitFlags]

/-- Layout of `IntercomIdentifier` on the wire (/repo/opendis/dis7.py:2800-2805). -/
def IntercomIdentifier.wire (o : IntercomIdentifier) : List Slot :=
  [[.u16 o.siteNumber],
   [.u16 o.applicationNumber],
   [.u16 o.referenceNumber],
   [.u16 o.intercomNumber]].flatten

/-- Layout of `StorageFuel` on the wire (/repo/opendis/dis7.py:2836-2842). -/
def StorageFuel.wire (o : StorageFuel) : List Slot :=
  [[.u32 o.fuelQuantity],
   [.u8 o.fuelMeasurementUnits],
   [.u8 o.fuelType],
   [.u8 o.fuelLocation],
   [.u8 o.padding]].flatten

/-- Layout of `Sensor` on the wire (/repo/opendis/dis7.py:2877-2884). -/
def Sensor.wire (o : Sensor) : List Slot :=
  [[.u8 o.sensorTypeSource],
   [.u8 o.sensorOnOffStatus],
   [.u16 o.sensorType],
   [.u32 o.station],
   [.u16 o.quantity],
   [.u16 o.padding]].flatten

/-- Layout of `MunitionReload` on the wire (/repo/opendis/dis7.py:2924-2931). -/
def MunitionReload.wire (o : MunitionReload) : List Slot :=
  [EntityType.wire o.munitionType,
   [.u32 o.station],
   [.u16 o.standardQuantity],
   [.u16 o.maximumQuantity],
   [.u32 o.standardQuantityReloadTime],
   [.u32 o.maximumQuantityReloadTime]].flatten

/-- Layout of `StorageFuelReload` on the wire (/repo/opendis/dis7.py:2976-2985). -/
def StorageFuelReload.wire (o : StorageFuelReload) : List Slot :=
  [[.u32 o.standardQuantity],
   [.u32 o.maximumQuantity],
   [.u8 o.standardQuantityReloadTime],
   [.u8 o.maximumQuantityReloadTime],
   [.u8 o.fuelMeasurementUnits],
   [.u8 o.fuelType],
   [.u8 o.fuelLocation],
   [.u8 o.padding]].flatten

/-- Layout of `ExpendableReload` on the wire (/repo/opendis/dis7.py:3021-3028). -/
def ExpendableReload.wire (o : ExpendableReload) : List Slot :=
  [EntityType.wire o.expendable,
   [.u32 o.station],
   [.u16 o.standardQuantity],
   [.u16 o.maximumQuantity],
   [.u32 o.standardQuantityReloadTime],
   [.u32 o.maximumQuantityReloadTime]].flatten

/-- Layout of `EngineFuelReload` on the wire (/repo/opendis/dis7.py:3064-3072). -/
def EngineFuelReload.wire (o : EngineFuelReload) : List Slot :=
  [[.u32 o.standardQuantity],
   [.u32 o.maximumQuantity],
   [.u32 o.standardQuantityReloadTime],
   [.u32 o.maximumQuantityReloadTime],
   [.u8 o.fuelMeasurmentUnits],
   [.u8 o.fuelLocation],
   [.u8 o.padding]].flatten

/-- Layout of `UnattachedIdentifier` on the wire (/repo/opendis/dis7.py:3101-3104). -/
def UnattachedIdentifier.wire (o : UnattachedIdentifier) : List Slot :=
  [SimulationAddress.wire o.simulationAddress,
   [.u16 o.referenceNumber]].flatten

/-- Layout of `EntityTypeVP` on the wire (/repo/opendis/dis7.py:3129-3135). -/
def EntityTypeVP.wire (o : EntityTypeVP) : List Slot :=
  [[.u8 o.recordType],
   [.u8 o.changeIndicator],
   EntityType.wire o.entityType,
   [.u16 o.padding],
   [.u32 o.padding1]].flatten

/-- Layout of `BeamStatus` on the wire (/repo/opendis/dis7.py:3158-3160). -/
def BeamStatus.wire (o : BeamStatus) : List Slot :=
  [.u8 (o.beamState % 2)]

end Dis
