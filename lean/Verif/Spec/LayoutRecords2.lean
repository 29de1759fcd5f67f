import Verif.Model.Records2
import Verif.Spec.LayoutRecords1

/-!
# Wire layouts of the classes of `Verif.Model.Records2`

Generated by `tools/genlayout.py`.
-/

set_option linter.unusedVariables false

namespace Dis

/-- Layout of `Attribute` on the wire (/repo/opendis/dis7.py:829-833). -/
def Attribute.wire (o : Attribute) : List Slot :=
  [[.u32 o.recordType],
   [.u16 o.recordLength],
   [.s64 o.recordSpecificFields]].flatten

/-- Layout of `RecordQuerySpecification` on the wire (/repo/opendis/dis7.py:857-861). -/
def RecordQuerySpecification.wire (o : RecordQuerySpecification) : List Slot :=
  [[.u32 (o.recordIDs.length : Int)],
   o.recordIDs.map Slot.u32].flatten

/-- Layout of `ArticulatedParts` on the wire (/repo/opendis/dis7.py:893-899). -/
def ArticulatedParts.wire (o : ArticulatedParts) : List Slot :=
  [[.u8 o.recordType],
   [.u8 o.changeIndicator],
   [.u16 o.partAttachedTo],
   [.u32 o.parameterType],
   [.s64 o.parameterValue]].flatten

/-- Layout of `ObjectType` on the wire (/repo/opendis/dis7.py:930-935). -/
def ObjectType.wire (o : ObjectType) : List Slot :=
  [[.u8 o.domain],
   [.u8 o.objectKind],
   [.u8 o.category],
   [.u8 o.subcategory]].flatten

/-- Layout of `Association` on the wire (/repo/opendis/dis7.py:967-972). -/
def Association.wire (o : Association) : List Slot :=
  [[.u8 o.associationType],
   [.u8 o.padding4],
   EntityIdentifier.wire o.associatedEntityID,
   WorldCoordinates.wire o.associatedLocation].flatten

/-- Layout of `RecordSpecificationElement` on the wire (/repo/opendis/dis7.py:1006-1013). -/
def RecordSpecificationElement.wire (o : RecordSpecificationElement) : List Slot :=
  [[.u32 o.recordID],
   [.u32 o.recordSetSerialNumber],
   [.u16 o.recordLength],
   [.u16 o.recordCount],
   [.u16 o.recordValues],
   [.u8 o.pad4]].flatten

/-- Layout of `AntennaLocation` on the wire (/repo/opendis/dis7.py:1040-1043). -/
def AntennaLocation.wire (o : AntennaLocation) : List Slot :=
  [WorldCoordinates.wire o.antennaLocation,
   Vector3Float.wire o.relativeAntennaLocation].flatten

/-- Layout of `ObjectIdentifier` on the wire (/repo/opendis/dis7.py:1065-1068). -/
def ObjectIdentifier.wire (o : ObjectIdentifier) : List Slot :=
  [SimulationAddress.wire o.simulationAddress,
   [.u16 o.objectNumber]].flatten

/-- Layout of `AggregateIdentifier` on the wire (/repo/opendis/dis7.py:1089-1092). -/
def AggregateIdentifier.wire (o : AggregateIdentifier) : List Slot :=
  [SimulationAddress.wire o.simulationAddress,
   [.u16 o.aggregateID]].flatten

/-- Layout of `FixedDatum` on the wire (/repo/opendis/dis7.py:1114-1117). -/
def FixedDatum.wire (o : FixedDatum) : List Slot :=
  [[.u32 o.fixedDatumID],
   [.u32 o.fixedDatumValue]].flatten

/-- Layout of `VariableParameter` on the wire (/repo/opendis/dis7.py:1149-1155). -/
def VariableParameter.wire (o : VariableParameter) : List Slot :=
  [[.u8 o.recordType],
   [.f64 o.variableParameterFields1],
   [.u32 o.variableParameterFields2],
   [.u16 o.variableParameterFields3],
   [.u8 o.variableParameterFields4]].flatten

/-- Layout of `ChangeOptions` on the wire (/repo/opendis/dis7.py:1173-1175). -/
def ChangeOptions.wire (o : ChangeOptions) : List Slot :=
  []

/-- Layout of `LiveSimulationAddress` on the wire (/repo/opendis/dis7.py:1197-1200). -/
def LiveSimulationAddress.wire (o : LiveSimulationAddress) : List Slot :=
  [[.u8 o.liveSiteNumber],
   [.u8 o.liveApplicationNumber]].flatten

/-- Layout of `EntityMarking` on the wire (/repo/opendis/dis7.py:1233-1237). -/
def EntityMarking.wire (o : EntityMarking) : List Slot :=
  [[.u8 o.characterSet],
   (List.range 11).map fun i => Slot.orFail .indexError Slot.s8 o.characters[i]?].flatten

/-- Layout of `UAFundamentalParameter` on the wire (/repo/opendis/dis7.py:1275-1282). -/
def UAFundamentalParameter.wire (o : UAFundamentalParameter) : List Slot :=
  [[.u16 o.activeEmissionParameterIndex],
   [.u16 o.scanPattern],
   [.f32 o.beamCenterAzimuthHorizontal],
   [.f32 o.azimuthalBeamwidthHorizontal],
   [.f32 o.beamCenterDepressionElevation],
   [.f32 o.beamwidthDownElevation]].flatten

/-- Layout of `ExplosionDescriptor` on the wire (/repo/opendis/dis7.py:1312-1317). -/
def ExplosionDescriptor.wire (o : ExplosionDescriptor) : List Slot :=
  [EntityType.wire o.explodingObject,
   [.u16 o.explosiveMaterial],
   [.u16 o.padding],
   [.f32 o.explosiveForce]].flatten

/-- Layout of `ClockTime` on the wire (/repo/opendis/dis7.py:1344-1347). -/
def ClockTime.wire (o : ClockTime) : List Slot :=
  [[.u32 o.hour],
   [.u32 o.timePastHour]].flatten

/-- Layout of `SecondaryOperationalData` on the wire (/repo/opendis/dis7.py:1374-1380). -/
def SecondaryOperationalData.wire (o : SecondaryOperationalData) : List Slot :=
  [[.u8 o.operationalData1],
   [.u8 o.operationalData2],
   [.u16 o.numberOfIFFFundamentalParameterRecords]].flatten

/-- Layout of `EnvironmentType` on the wire (/repo/opendis/dis7.py:1414-1422). -/
def EnvironmentType.wire (o : EnvironmentType) : List Slot :=
  [[.u8 o.entityKind],
   [.u8 o.domain],
   [.u16 o.entityClass],
   [.u8 o.category],
   [.u8 o.subcategory],
   [.u8 o.specific],
   [.u8 o.extra]].flatten

/-- Layout of `TotalRecordSets` on the wire (/repo/opendis/dis7.py:1444-1447). -/
def TotalRecordSets.wire (o : TotalRecordSets) : List Slot :=
  [[.u16 o.totalRecordSets],
   [.u16 o.padding]].flatten

/-- Layout of `MineEntityIdentifier` on the wire (/repo/opendis/dis7.py:1469-1472). -/
def MineEntityIdentifier.wire (o : MineEntityIdentifier) : List Slot :=
  [SimulationAddress.wire o.simulationAddress,
   [.u16 o.mineEntityNumber]].flatten

/-- Layout of `Relationship` on the wire (/repo/opendis/dis7.py:1494-1497). -/
def Relationship.wire (o : Relationship) : List Slot :=
  [[.u16 o.nature],
   [.u16 o.position]].flatten

end Dis
