import Verif.Model.Records2
import Verif.Spec.Records1

/-!
# Specification of: Records of `opendis/dis7.py`, part 2

Generated by `tools/genproof.py`.
-/

set_option linter.unusedVariables false
set_option linter.unusedSimpArgs false

namespace Dis

/-- The object `s` after it parsed what `o` serialized: fields of `o`, singles rounded, list elements
appended (/repo/opendis/dis7.py:829-833,835-839). -/
def Attribute.after (s o : Attribute) : Attribute :=
  { s with
    recordType := o.recordType,
    recordLength := o.recordLength,
    recordSpecificFields := o.recordSpecificFields }

/-- Every field of `o` fits its wire type (/repo/opendis/dis7.py:829-833,835-839). -/
def Attribute.WireOk (o : Attribute) : Prop :=
  U32 o.recordType ∧
  U16 o.recordLength ∧
  S64 o.recordSpecificFields

/-- `o` is in the form a fresh `Attribute` takes after parsing: singles exact, arrays of the fixed length,
attributes that are not on the wire at their initial value (/repo/opendis/dis7.py:829-833,835-839). -/
def Attribute.Canon (o : Attribute) : Prop :=
  True

/-- No single-precision field of `o` is a NaN (/repo/opendis/dis7.py:829-833,835-839). -/
def Attribute.NoNaN (o : Attribute) : Prop :=
  True

/-- Number of bytes `serialize` writes (/repo/opendis/dis7.py:829-833,835-839). -/
def Attribute.wireSize (o : Attribute) : Nat := 14

/-- The object `s` after it parsed what `o` serialized: fields of `o`, singles rounded, list elements
appended (/repo/opendis/dis7.py:857-861,863-868). -/
def RecordQuerySpecification.after (s o : RecordQuerySpecification) : RecordQuerySpecification :=
  { s with
    recordIDs := s.recordIDs ++ o.recordIDs }

/-- Every field of `o` fits its wire type (/repo/opendis/dis7.py:857-861,863-868). -/
def RecordQuerySpecification.WireOk (o : RecordQuerySpecification) : Prop :=
  U32 ((o.recordIDs.length : Int)) ∧
  (∀ x ∈ o.recordIDs, U32 x)

/-- `o` is in the form a fresh `RecordQuerySpecification` takes after parsing: singles exact, arrays of the fixed length,
attributes that are not on the wire at their initial value (/repo/opendis/dis7.py:857-861,863-868). -/
def RecordQuerySpecification.Canon (o : RecordQuerySpecification) : Prop :=
  True

/-- No single-precision field of `o` is a NaN (/repo/opendis/dis7.py:857-861,863-868). -/
def RecordQuerySpecification.NoNaN (o : RecordQuerySpecification) : Prop :=
  True

/-- Number of bytes `serialize` writes (/repo/opendis/dis7.py:857-861,863-868). -/
def RecordQuerySpecification.wireSize (o : RecordQuerySpecification) : Nat := 4 + 4 * o.recordIDs.length

/-- The object `s` after it parsed what `o` serialized: fields of `o`, singles rounded, list elements
appended (/repo/opendis/dis7.py:893-899,901-907). -/
def ArticulatedParts.after (s o : ArticulatedParts) : ArticulatedParts :=
  { s with
    recordType := o.recordType,
    changeIndicator := o.changeIndicator,
    partAttachedTo := o.partAttachedTo,
    parameterType := o.parameterType,
    parameterValue := o.parameterValue }

/-- Every field of `o` fits its wire type (/repo/opendis/dis7.py:893-899,901-907). -/
def ArticulatedParts.WireOk (o : ArticulatedParts) : Prop :=
  U8 o.recordType ∧
  U8 o.changeIndicator ∧
  U16 o.partAttachedTo ∧
  U32 o.parameterType ∧
  S64 o.parameterValue

/-- `o` is in the form a fresh `ArticulatedParts` takes after parsing: singles exact, arrays of the fixed length,
attributes that are not on the wire at their initial value (/repo/opendis/dis7.py:893-899,901-907). -/
def ArticulatedParts.Canon (o : ArticulatedParts) : Prop :=
  True

/-- No single-precision field of `o` is a NaN (/repo/opendis/dis7.py:893-899,901-907). -/
def ArticulatedParts.NoNaN (o : ArticulatedParts) : Prop :=
  True

/-- Number of bytes `serialize` writes (/repo/opendis/dis7.py:893-899,901-907). -/
def ArticulatedParts.wireSize (o : ArticulatedParts) : Nat := 16

/-- The object `s` after it parsed what `o` serialized: fields of `o`, singles rounded, list elements
appended (/repo/opendis/dis7.py:930-935,937-942). -/
def ObjectType.after (s o : ObjectType) : ObjectType :=
  { s with
    domain := o.domain,
    objectKind := o.objectKind,
    category := o.category,
    subcategory := o.subcategory }

/-- Every field of `o` fits its wire type (/repo/opendis/dis7.py:930-935,937-942). -/
def ObjectType.WireOk (o : ObjectType) : Prop :=
  U8 o.domain ∧
  U8 o.objectKind ∧
  U8 o.category ∧
  U8 o.subcategory

/-- `o` is in the form a fresh `ObjectType` takes after parsing: singles exact, arrays of the fixed length,
attributes that are not on the wire at their initial value (/repo/opendis/dis7.py:930-935,937-942). -/
def ObjectType.Canon (o : ObjectType) : Prop :=
  True

/-- No single-precision field of `o` is a NaN (/repo/opendis/dis7.py:930-935,937-942). -/
def ObjectType.NoNaN (o : ObjectType) : Prop :=
  True

/-- Number of bytes `serialize` writes (/repo/opendis/dis7.py:930-935,937-942). -/
def ObjectType.wireSize (o : ObjectType) : Nat := 4

/-- The object `s` after it parsed what `o` serialized: fields of `o`, singles rounded, list elements
appended (/repo/opendis/dis7.py:967-972,974-979). -/
def Association.after (s o : Association) : Association :=
  { s with
    associationType := o.associationType,
    padding4 := o.padding4,
    associatedEntityID := EntityIdentifier.after s.associatedEntityID o.associatedEntityID,
    associatedLocation := WorldCoordinates.after s.associatedLocation o.associatedLocation }

/-- Every field of `o` fits its wire type (/repo/opendis/dis7.py:967-972,974-979). -/
def Association.WireOk (o : Association) : Prop :=
  U8 o.associationType ∧
  U8 o.padding4 ∧
  EntityIdentifier.WireOk o.associatedEntityID

/-- `o` is in the form a fresh `Association` takes after parsing: singles exact, arrays of the fixed length,
attributes that are not on the wire at their initial value (/repo/opendis/dis7.py:967-972,974-979). -/
def Association.Canon (o : Association) : Prop :=
  True

/-- No single-precision field of `o` is a NaN (/repo/opendis/dis7.py:967-972,974-979). -/
def Association.NoNaN (o : Association) : Prop :=
  True

/-- Number of bytes `serialize` writes (/repo/opendis/dis7.py:967-972,974-979). -/
def Association.wireSize (o : Association) : Nat := 32

/-- The object `s` after it parsed what `o` serialized: fields of `o`, singles rounded, list elements
appended (/repo/opendis/dis7.py:1006-1013,1015-1022). -/
def RecordSpecificationElement.after (s o : RecordSpecificationElement) : RecordSpecificationElement :=
  { s with
    recordID := o.recordID,
    recordSetSerialNumber := o.recordSetSerialNumber,
    recordLength := o.recordLength,
    recordCount := o.recordCount,
    recordValues := o.recordValues,
    pad4 := o.pad4 }

/-- Every field of `o` fits its wire type (/repo/opendis/dis7.py:1006-1013,1015-1022). -/
def RecordSpecificationElement.WireOk (o : RecordSpecificationElement) : Prop :=
  U32 o.recordID ∧
  U32 o.recordSetSerialNumber ∧
  U16 o.recordLength ∧
  U16 o.recordCount ∧
  U16 o.recordValues ∧
  U8 o.pad4

/-- `o` is in the form a fresh `RecordSpecificationElement` takes after parsing: singles exact, arrays of the fixed length,
attributes that are not on the wire at their initial value (/repo/opendis/dis7.py:1006-1013,1015-1022). -/
def RecordSpecificationElement.Canon (o : RecordSpecificationElement) : Prop :=
  True

/-- No single-precision field of `o` is a NaN (/repo/opendis/dis7.py:1006-1013,1015-1022). -/
def RecordSpecificationElement.NoNaN (o : RecordSpecificationElement) : Prop :=
  True

/-- Number of bytes `serialize` writes (/repo/opendis/dis7.py:1006-1013,1015-1022). -/
def RecordSpecificationElement.wireSize (o : RecordSpecificationElement) : Nat := 15

/-- The object `s` after it parsed what `o` serialized: fields of `o`, singles rounded, list elements
appended (/repo/opendis/dis7.py:1040-1043,1045-1048). -/
def AntennaLocation.after (s o : AntennaLocation) : AntennaLocation :=
  { s with
    antennaLocation := WorldCoordinates.after s.antennaLocation o.antennaLocation,
    relativeAntennaLocation := Vector3Float.after s.relativeAntennaLocation o.relativeAntennaLocation }

/-- Every field of `o` fits its wire type (/repo/opendis/dis7.py:1040-1043,1045-1048). -/
def AntennaLocation.WireOk (o : AntennaLocation) : Prop :=
  Vector3Float.WireOk o.relativeAntennaLocation

/-- `o` is in the form a fresh `AntennaLocation` takes after parsing: singles exact, arrays of the fixed length,
attributes that are not on the wire at their initial value (/repo/opendis/dis7.py:1040-1043,1045-1048). -/
def AntennaLocation.Canon (o : AntennaLocation) : Prop :=
  Vector3Float.Canon o.relativeAntennaLocation

/-- No single-precision field of `o` is a NaN (/repo/opendis/dis7.py:1040-1043,1045-1048). -/
def AntennaLocation.NoNaN (o : AntennaLocation) : Prop :=
  Vector3Float.NoNaN o.relativeAntennaLocation

/-- Number of bytes `serialize` writes (/repo/opendis/dis7.py:1040-1043,1045-1048). -/
def AntennaLocation.wireSize (o : AntennaLocation) : Nat := 36

/-- The object `s` after it parsed what `o` serialized: fields of `o`, singles rounded, list elements
appended (/repo/opendis/dis7.py:1065-1068,1070-1073). -/
def ObjectIdentifier.after (s o : ObjectIdentifier) : ObjectIdentifier :=
  { s with
    simulationAddress := SimulationAddress.after s.simulationAddress o.simulationAddress,
    objectNumber := o.objectNumber }

/-- Every field of `o` fits its wire type (/repo/opendis/dis7.py:1065-1068,1070-1073). -/
def ObjectIdentifier.WireOk (o : ObjectIdentifier) : Prop :=
  SimulationAddress.WireOk o.simulationAddress ∧
  U16 o.objectNumber

/-- `o` is in the form a fresh `ObjectIdentifier` takes after parsing: singles exact, arrays of the fixed length,
attributes that are not on the wire at their initial value (/repo/opendis/dis7.py:1065-1068,1070-1073). -/
def ObjectIdentifier.Canon (o : ObjectIdentifier) : Prop :=
  True

/-- No single-precision field of `o` is a NaN (/repo/opendis/dis7.py:1065-1068,1070-1073). -/
def ObjectIdentifier.NoNaN (o : ObjectIdentifier) : Prop :=
  True

/-- Number of bytes `serialize` writes (/repo/opendis/dis7.py:1065-1068,1070-1073). -/
def ObjectIdentifier.wireSize (o : ObjectIdentifier) : Nat := 6

/-- The object `s` after it parsed what `o` serialized: fields of `o`, singles rounded, list elements
appended (/repo/opendis/dis7.py:1089-1092,1094-1097). -/
def AggregateIdentifier.after (s o : AggregateIdentifier) : AggregateIdentifier :=
  { s with
    simulationAddress := SimulationAddress.after s.simulationAddress o.simulationAddress,
    aggregateID := o.aggregateID }

/-- Every field of `o` fits its wire type (/repo/opendis/dis7.py:1089-1092,1094-1097). -/
def AggregateIdentifier.WireOk (o : AggregateIdentifier) : Prop :=
  SimulationAddress.WireOk o.simulationAddress ∧
  U16 o.aggregateID

/-- `o` is in the form a fresh `AggregateIdentifier` takes after parsing: singles exact, arrays of the fixed length,
attributes that are not on the wire at their initial value (/repo/opendis/dis7.py:1089-1092,1094-1097). -/
def AggregateIdentifier.Canon (o : AggregateIdentifier) : Prop :=
  True

/-- No single-precision field of `o` is a NaN (/repo/opendis/dis7.py:1089-1092,1094-1097). -/
def AggregateIdentifier.NoNaN (o : AggregateIdentifier) : Prop :=
  True

/-- Number of bytes `serialize` writes (/repo/opendis/dis7.py:1089-1092,1094-1097). -/
def AggregateIdentifier.wireSize (o : AggregateIdentifier) : Nat := 6

/-- The object `s` after it parsed what `o` serialized: fields of `o`, singles rounded, list elements
appended (/repo/opendis/dis7.py:1114-1117,1119-1122). -/
def FixedDatum.after (s o : FixedDatum) : FixedDatum :=
  { s with
    fixedDatumID := o.fixedDatumID,
    fixedDatumValue := o.fixedDatumValue }

/-- Every field of `o` fits its wire type (/repo/opendis/dis7.py:1114-1117,1119-1122). -/
def FixedDatum.WireOk (o : FixedDatum) : Prop :=
  U32 o.fixedDatumID ∧
  U32 o.fixedDatumValue

/-- `o` is in the form a fresh `FixedDatum` takes after parsing: singles exact, arrays of the fixed length,
attributes that are not on the wire at their initial value (/repo/opendis/dis7.py:1114-1117,1119-1122). -/
def FixedDatum.Canon (o : FixedDatum) : Prop :=
  True

/-- No single-precision field of `o` is a NaN (/repo/opendis/dis7.py:1114-1117,1119-1122). -/
def FixedDatum.NoNaN (o : FixedDatum) : Prop :=
  True

/-- Number of bytes `serialize` writes (/repo/opendis/dis7.py:1114-1117,1119-1122). -/
def FixedDatum.wireSize (o : FixedDatum) : Nat := 8

/-- The object `s` after it parsed what `o` serialized: fields of `o`, singles rounded, list elements
appended (/repo/opendis/dis7.py:1149-1155,1157-1163). -/
def VariableParameter.after (s o : VariableParameter) : VariableParameter :=
  { s with
    recordType := o.recordType,
    variableParameterFields1 := o.variableParameterFields1,
    variableParameterFields2 := o.variableParameterFields2,
    variableParameterFields3 := o.variableParameterFields3,
    variableParameterFields4 := o.variableParameterFields4 }

/-- Every field of `o` fits its wire type (/repo/opendis/dis7.py:1149-1155,1157-1163). -/
def VariableParameter.WireOk (o : VariableParameter) : Prop :=
  U8 o.recordType ∧
  U32 o.variableParameterFields2 ∧
  U16 o.variableParameterFields3 ∧
  U8 o.variableParameterFields4

/-- `o` is in the form a fresh `VariableParameter` takes after parsing: singles exact, arrays of the fixed length,
attributes that are not on the wire at their initial value (/repo/opendis/dis7.py:1149-1155,1157-1163). -/
def VariableParameter.Canon (o : VariableParameter) : Prop :=
  True

/-- No single-precision field of `o` is a NaN (/repo/opendis/dis7.py:1149-1155,1157-1163). -/
def VariableParameter.NoNaN (o : VariableParameter) : Prop :=
  True

/-- Number of bytes `serialize` writes (/repo/opendis/dis7.py:1149-1155,1157-1163). -/
def VariableParameter.wireSize (o : VariableParameter) : Nat := 16

/-- The object `s` after it parsed what `o` serialized: fields of `o`, singles rounded, list elements
appended (/repo/opendis/dis7.py:1173-1175,1177-1179). -/
def ChangeOptions.after (s o : ChangeOptions) : ChangeOptions :=
  s

/-- Every field of `o` fits its wire type (/repo/opendis/dis7.py:1173-1175,1177-1179). -/
def ChangeOptions.WireOk (o : ChangeOptions) : Prop :=
  True

/-- `o` is in the form a fresh `ChangeOptions` takes after parsing: singles exact, arrays of the fixed length,
attributes that are not on the wire at their initial value (/repo/opendis/dis7.py:1173-1175,1177-1179). -/
def ChangeOptions.Canon (o : ChangeOptions) : Prop :=
  True

/-- No single-precision field of `o` is a NaN (/repo/opendis/dis7.py:1173-1175,1177-1179). -/
def ChangeOptions.NoNaN (o : ChangeOptions) : Prop :=
  True

/-- Number of bytes `serialize` writes (/repo/opendis/dis7.py:1173-1175,1177-1179). -/
def ChangeOptions.wireSize (o : ChangeOptions) : Nat := 0

/-- The object `s` after it parsed what `o` serialized: fields of `o`, singles rounded, list elements
appended (/repo/opendis/dis7.py:1197-1200,1202-1205). -/
def LiveSimulationAddress.after (s o : LiveSimulationAddress) : LiveSimulationAddress :=
  { s with
    liveSiteNumber := o.liveSiteNumber,
    liveApplicationNumber := o.liveApplicationNumber }

/-- Every field of `o` fits its wire type (/repo/opendis/dis7.py:1197-1200,1202-1205). -/
def LiveSimulationAddress.WireOk (o : LiveSimulationAddress) : Prop :=
  U8 o.liveSiteNumber ∧
  U8 o.liveApplicationNumber

/-- `o` is in the form a fresh `LiveSimulationAddress` takes after parsing: singles exact, arrays of the fixed length,
attributes that are not on the wire at their initial value (/repo/opendis/dis7.py:1197-1200,1202-1205). -/
def LiveSimulationAddress.Canon (o : LiveSimulationAddress) : Prop :=
  True

/-- No single-precision field of `o` is a NaN (/repo/opendis/dis7.py:1197-1200,1202-1205). -/
def LiveSimulationAddress.NoNaN (o : LiveSimulationAddress) : Prop :=
  True

/-- Number of bytes `serialize` writes (/repo/opendis/dis7.py:1197-1200,1202-1205). -/
def LiveSimulationAddress.wireSize (o : LiveSimulationAddress) : Nat := 2

/-- The object `s` after it parsed what `o` serialized: fields of `o`, singles rounded, list elements
appended (/repo/opendis/dis7.py:1233-1237,1239-1245). -/
def EntityMarking.after (s o : EntityMarking) : EntityMarking :=
  { s with
    characterSet := o.characterSet,
    characters := o.characters.take 11 }

/-- Every field of `o` fits its wire type (/repo/opendis/dis7.py:1233-1237,1239-1245). -/
def EntityMarking.WireOk (o : EntityMarking) : Prop :=
  U8 o.characterSet ∧
  (11 ≤ o.characters.length ∧ ∀ x ∈ o.characters.take 11, S8 x)

/-- `o` is in the form a fresh `EntityMarking` takes after parsing: singles exact, arrays of the fixed length,
attributes that are not on the wire at their initial value (/repo/opendis/dis7.py:1233-1237,1239-1245). -/
def EntityMarking.Canon (o : EntityMarking) : Prop :=
  o.characters.length = 11

/-- No single-precision field of `o` is a NaN (/repo/opendis/dis7.py:1233-1237,1239-1245). -/
def EntityMarking.NoNaN (o : EntityMarking) : Prop :=
  True

/-- Number of bytes `serialize` writes (/repo/opendis/dis7.py:1233-1237,1239-1245). -/
def EntityMarking.wireSize (o : EntityMarking) : Nat := 12

/-- The object `s` after it parsed what `o` serialized: fields of `o`, singles rounded, list elements
appended (/repo/opendis/dis7.py:1275-1282,1284-1291). -/
def UAFundamentalParameter.after (s o : UAFundamentalParameter) : UAFundamentalParameter :=
  { s with
    activeEmissionParameterIndex := o.activeEmissionParameterIndex,
    scanPattern := o.scanPattern,
    beamCenterAzimuthHorizontal := quant o.beamCenterAzimuthHorizontal,
    azimuthalBeamwidthHorizontal := quant o.azimuthalBeamwidthHorizontal,
    beamCenterDepressionElevation := quant o.beamCenterDepressionElevation,
    beamwidthDownElevation := quant o.beamwidthDownElevation }

/-- Every field of `o` fits its wire type (/repo/opendis/dis7.py:1275-1282,1284-1291). -/
def UAFundamentalParameter.WireOk (o : UAFundamentalParameter) : Prop :=
  U16 o.activeEmissionParameterIndex ∧
  U16 o.scanPattern ∧
  F32Fits o.beamCenterAzimuthHorizontal ∧
  F32Fits o.azimuthalBeamwidthHorizontal ∧
  F32Fits o.beamCenterDepressionElevation ∧
  F32Fits o.beamwidthDownElevation

/-- `o` is in the form a fresh `UAFundamentalParameter` takes after parsing: singles exact, arrays of the fixed length,
attributes that are not on the wire at their initial value (/repo/opendis/dis7.py:1275-1282,1284-1291). -/
def UAFundamentalParameter.Canon (o : UAFundamentalParameter) : Prop :=
  quant o.beamCenterAzimuthHorizontal = o.beamCenterAzimuthHorizontal ∧
  quant o.azimuthalBeamwidthHorizontal = o.azimuthalBeamwidthHorizontal ∧
  quant o.beamCenterDepressionElevation = o.beamCenterDepressionElevation ∧
  quant o.beamwidthDownElevation = o.beamwidthDownElevation

/-- No single-precision field of `o` is a NaN (/repo/opendis/dis7.py:1275-1282,1284-1291). -/
def UAFundamentalParameter.NoNaN (o : UAFundamentalParameter) : Prop :=
  ¬ o.beamCenterAzimuthHorizontal.isNaN ∧
  ¬ o.azimuthalBeamwidthHorizontal.isNaN ∧
  ¬ o.beamCenterDepressionElevation.isNaN ∧
  ¬ o.beamwidthDownElevation.isNaN

/-- Number of bytes `serialize` writes (/repo/opendis/dis7.py:1275-1282,1284-1291). -/
def UAFundamentalParameter.wireSize (o : UAFundamentalParameter) : Nat := 20

/-- The object `s` after it parsed what `o` serialized: fields of `o`, singles rounded, list elements
appended (/repo/opendis/dis7.py:1312-1317,1319-1324). -/
def ExplosionDescriptor.after (s o : ExplosionDescriptor) : ExplosionDescriptor :=
  { s with
    explodingObject := EntityType.after s.explodingObject o.explodingObject,
    explosiveMaterial := o.explosiveMaterial,
    padding := o.padding,
    explosiveForce := quant o.explosiveForce }

/-- Every field of `o` fits its wire type (/repo/opendis/dis7.py:1312-1317,1319-1324). -/
def ExplosionDescriptor.WireOk (o : ExplosionDescriptor) : Prop :=
  EntityType.WireOk o.explodingObject ∧
  U16 o.explosiveMaterial ∧
  U16 o.padding ∧
  F32Fits o.explosiveForce

/-- `o` is in the form a fresh `ExplosionDescriptor` takes after parsing: singles exact, arrays of the fixed length,
attributes that are not on the wire at their initial value (/repo/opendis/dis7.py:1312-1317,1319-1324). -/
def ExplosionDescriptor.Canon (o : ExplosionDescriptor) : Prop :=
  quant o.explosiveForce = o.explosiveForce

/-- No single-precision field of `o` is a NaN (/repo/opendis/dis7.py:1312-1317,1319-1324). -/
def ExplosionDescriptor.NoNaN (o : ExplosionDescriptor) : Prop :=
  ¬ o.explosiveForce.isNaN

/-- Number of bytes `serialize` writes (/repo/opendis/dis7.py:1312-1317,1319-1324). -/
def ExplosionDescriptor.wireSize (o : ExplosionDescriptor) : Nat := 16

/-- The object `s` after it parsed what `o` serialized: fields of `o`, singles rounded, list elements
appended (/repo/opendis/dis7.py:1344-1347,1349-1352). -/
def ClockTime.after (s o : ClockTime) : ClockTime :=
  { s with
    hour := o.hour,
    timePastHour := o.timePastHour }

/-- Every field of `o` fits its wire type (/repo/opendis/dis7.py:1344-1347,1349-1352). -/
def ClockTime.WireOk (o : ClockTime) : Prop :=
  U32 o.hour ∧
  U32 o.timePastHour

/-- `o` is in the form a fresh `ClockTime` takes after parsing: singles exact, arrays of the fixed length,
attributes that are not on the wire at their initial value (/repo/opendis/dis7.py:1344-1347,1349-1352). -/
def ClockTime.Canon (o : ClockTime) : Prop :=
  True

/-- No single-precision field of `o` is a NaN (/repo/opendis/dis7.py:1344-1347,1349-1352). -/
def ClockTime.NoNaN (o : ClockTime) : Prop :=
  True

/-- Number of bytes `serialize` writes (/repo/opendis/dis7.py:1344-1347,1349-1352). -/
def ClockTime.wireSize (o : ClockTime) : Nat := 8

/-- The object `s` after it parsed what `o` serialized: fields of `o`, singles rounded, list elements
appended (/repo/opendis/dis7.py:1374-1380,1382-1386). -/
def SecondaryOperationalData.after (s o : SecondaryOperationalData) : SecondaryOperationalData :=
  { s with
    operationalData1 := o.operationalData1,
    operationalData2 := o.operationalData2,
    numberOfIFFFundamentalParameterRecords := o.numberOfIFFFundamentalParameterRecords }

/-- Every field of `o` fits its wire type (/repo/opendis/dis7.py:1374-1380,1382-1386). -/
def SecondaryOperationalData.WireOk (o : SecondaryOperationalData) : Prop :=
  U8 o.operationalData1 ∧
  U8 o.operationalData2 ∧
  U16 o.numberOfIFFFundamentalParameterRecords

/-- `o` is in the form a fresh `SecondaryOperationalData` takes after parsing: singles exact, arrays of the fixed length,
attributes that are not on the wire at their initial value (/repo/opendis/dis7.py:1374-1380,1382-1386). -/
def SecondaryOperationalData.Canon (o : SecondaryOperationalData) : Prop :=
  True

/-- No single-precision field of `o` is a NaN (/repo/opendis/dis7.py:1374-1380,1382-1386). -/
def SecondaryOperationalData.NoNaN (o : SecondaryOperationalData) : Prop :=
  True

/-- Number of bytes `serialize` writes (/repo/opendis/dis7.py:1374-1380,1382-1386). -/
def SecondaryOperationalData.wireSize (o : SecondaryOperationalData) : Nat := 4

/-- The object `s` after it parsed what `o` serialized: fields of `o`, singles rounded, list elements
appended (/repo/opendis/dis7.py:1414-1422,1424-1433). -/
def EnvironmentType.after (s o : EnvironmentType) : EnvironmentType :=
  { s with
    entityKind := o.entityKind,
    domain := o.domain,
    entityClass := o.entityClass,
    category := o.category,
    subcategory := o.subcategory,
    specific := o.specific,
    extra := o.extra }

/-- Every field of `o` fits its wire type (/repo/opendis/dis7.py:1414-1422,1424-1433). -/
def EnvironmentType.WireOk (o : EnvironmentType) : Prop :=
  U8 o.entityKind ∧
  U8 o.domain ∧
  U16 o.entityClass ∧
  U8 o.category ∧
  U8 o.subcategory ∧
  U8 o.specific ∧
  U8 o.extra

/-- `o` is in the form a fresh `EnvironmentType` takes after parsing: singles exact, arrays of the fixed length,
attributes that are not on the wire at their initial value (/repo/opendis/dis7.py:1414-1422,1424-1433). -/
def EnvironmentType.Canon (o : EnvironmentType) : Prop :=
  True

/-- No single-precision field of `o` is a NaN (/repo/opendis/dis7.py:1414-1422,1424-1433). -/
def EnvironmentType.NoNaN (o : EnvironmentType) : Prop :=
  True

/-- Number of bytes `serialize` writes (/repo/opendis/dis7.py:1414-1422,1424-1433). -/
def EnvironmentType.wireSize (o : EnvironmentType) : Nat := 8

/-- The object `s` after it parsed what `o` serialized: fields of `o`, singles rounded, list elements
appended (/repo/opendis/dis7.py:1444-1447,1449-1453). -/
def TotalRecordSets.after (s o : TotalRecordSets) : TotalRecordSets :=
  { s with
    totalRecordSets := o.totalRecordSets,
    padding := o.padding }

/-- Every field of `o` fits its wire type (/repo/opendis/dis7.py:1444-1447,1449-1453). -/
def TotalRecordSets.WireOk (o : TotalRecordSets) : Prop :=
  U16 o.totalRecordSets ∧
  U16 o.padding

/-- `o` is in the form a fresh `TotalRecordSets` takes after parsing: singles exact, arrays of the fixed length,
attributes that are not on the wire at their initial value (/repo/opendis/dis7.py:1444-1447,1449-1453). -/
def TotalRecordSets.Canon (o : TotalRecordSets) : Prop :=
  True

/-- No single-precision field of `o` is a NaN (/repo/opendis/dis7.py:1444-1447,1449-1453). -/
def TotalRecordSets.NoNaN (o : TotalRecordSets) : Prop :=
  True

/-- Number of bytes `serialize` writes (/repo/opendis/dis7.py:1444-1447,1449-1453). -/
def TotalRecordSets.wireSize (o : TotalRecordSets) : Nat := 4

/-- The object `s` after it parsed what `o` serialized: fields of `o`, singles rounded, list elements
appended (/repo/opendis/dis7.py:1469-1472,1474-1477). -/
def MineEntityIdentifier.after (s o : MineEntityIdentifier) : MineEntityIdentifier :=
  { s with
    simulationAddress := SimulationAddress.after s.simulationAddress o.simulationAddress,
    mineEntityNumber := o.mineEntityNumber }

/-- Every field of `o` fits its wire type (/repo/opendis/dis7.py:1469-1472,1474-1477). -/
def MineEntityIdentifier.WireOk (o : MineEntityIdentifier) : Prop :=
  SimulationAddress.WireOk o.simulationAddress ∧
  U16 o.mineEntityNumber

/-- `o` is in the form a fresh `MineEntityIdentifier` takes after parsing: singles exact, arrays of the fixed length,
attributes that are not on the wire at their initial value (/repo/opendis/dis7.py:1469-1472,1474-1477). -/
def MineEntityIdentifier.Canon (o : MineEntityIdentifier) : Prop :=
  True

/-- No single-precision field of `o` is a NaN (/repo/opendis/dis7.py:1469-1472,1474-1477). -/
def MineEntityIdentifier.NoNaN (o : MineEntityIdentifier) : Prop :=
  True

/-- Number of bytes `serialize` writes (/repo/opendis/dis7.py:1469-1472,1474-1477). -/
def MineEntityIdentifier.wireSize (o : MineEntityIdentifier) : Nat := 6

/-- The object `s` after it parsed what `o` serialized: fields of `o`, singles rounded, list elements
appended (/repo/opendis/dis7.py:1494-1497,1499-1502). -/
def Relationship.after (s o : Relationship) : Relationship :=
  { s with
    nature := o.nature,
    position := o.position }

/-- Every field of `o` fits its wire type (/repo/opendis/dis7.py:1494-1497,1499-1502). -/
def Relationship.WireOk (o : Relationship) : Prop :=
  U16 o.nature ∧
  U16 o.position

/-- `o` is in the form a fresh `Relationship` takes after parsing: singles exact, arrays of the fixed length,
attributes that are not on the wire at their initial value (/repo/opendis/dis7.py:1494-1497,1499-1502). -/
def Relationship.Canon (o : Relationship) : Prop :=
  True

/-- No single-precision field of `o` is a NaN (/repo/opendis/dis7.py:1494-1497,1499-1502). -/
def Relationship.NoNaN (o : Relationship) : Prop :=
  True

/-- Number of bytes `serialize` writes (/repo/opendis/dis7.py:1494-1497,1499-1502). -/
def Relationship.wireSize (o : Relationship) : Nat := 4

end Dis
