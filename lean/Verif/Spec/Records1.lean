import Verif.Model.Records1
import Verif.Spec.Common

/-!
# Specification of: Records of `opendis/dis7.py`, part 1

Generated by `tools/genproof.py`.
-/

set_option linter.unusedVariables false
set_option linter.unusedSimpArgs false

namespace Dis

/-- The object `s` after it parsed what `o` serialized: fields of `o`, singles rounded, list elements
appended (/repo/opendis/dis7.py:93-101,103-112). -/
def DataQueryDatumSpecification.after (s o : DataQueryDatumSpecification) : DataQueryDatumSpecification :=
  { s with
    fixedDatumIDs := s.fixedDatumIDs ++ o.fixedDatumIDs,
    variableDatumIDs := s.variableDatumIDs ++ o.variableDatumIDs }

/-- Every field of `o` fits its wire type (/repo/opendis/dis7.py:93-101,103-112). -/
def DataQueryDatumSpecification.WireOk (o : DataQueryDatumSpecification) : Prop :=
  U32 ((o.fixedDatumIDs.length : Int)) ∧
  U32 ((o.variableDatumIDs.length : Int)) ∧
  (∀ x ∈ o.fixedDatumIDs, U32 x) ∧
  (∀ x ∈ o.variableDatumIDs, U32 x)

/-- `o` is in the form a fresh `DataQueryDatumSpecification` takes after parsing: singles exact, arrays of the fixed length,
attributes that are not on the wire at their initial value (/repo/opendis/dis7.py:93-101,103-112). -/
def DataQueryDatumSpecification.Canon (o : DataQueryDatumSpecification) : Prop :=
  True

/-- No single-precision field of `o` is a NaN (/repo/opendis/dis7.py:93-101,103-112). -/
def DataQueryDatumSpecification.NoNaN (o : DataQueryDatumSpecification) : Prop :=
  True

/-- Number of bytes `serialize` writes (/repo/opendis/dis7.py:93-101,103-112). -/
def DataQueryDatumSpecification.wireSize (o : DataQueryDatumSpecification) : Nat := 8 + 4 * o.fixedDatumIDs.length + 4 * o.variableDatumIDs.length

/-- The object `s` after it parsed what `o` serialized: fields of `o`, singles rounded, list elements
appended (/repo/opendis/dis7.py:132-137,139-144). -/
def RadioIdentifier.after (s o : RadioIdentifier) : RadioIdentifier :=
  { s with
    siteNumber := o.siteNumber,
    applicationNumber := o.applicationNumber,
    referenceNumber := o.referenceNumber,
    radioNumber := o.radioNumber }

/-- Every field of `o` fits its wire type (/repo/opendis/dis7.py:132-137,139-144). -/
def RadioIdentifier.WireOk (o : RadioIdentifier) : Prop :=
  U16 o.siteNumber ∧
  U16 o.applicationNumber ∧
  U16 o.referenceNumber ∧
  U16 o.radioNumber

/-- `o` is in the form a fresh `RadioIdentifier` takes after parsing: singles exact, arrays of the fixed length,
attributes that are not on the wire at their initial value (/repo/opendis/dis7.py:132-137,139-144). -/
def RadioIdentifier.Canon (o : RadioIdentifier) : Prop :=
  True

/-- No single-precision field of `o` is a NaN (/repo/opendis/dis7.py:132-137,139-144). -/
def RadioIdentifier.NoNaN (o : RadioIdentifier) : Prop :=
  True

/-- Number of bytes `serialize` writes (/repo/opendis/dis7.py:132-137,139-144). -/
def RadioIdentifier.wireSize (o : RadioIdentifier) : Nat := 8

/-- The object `s` after it parsed what `o` serialized: fields of `o`, singles rounded, list elements
appended (/repo/opendis/dis7.py:158-160,162-164). -/
def RequestID.after (s o : RequestID) : RequestID :=
  { s with
    requestID := o.requestID }

/-- Every field of `o` fits its wire type (/repo/opendis/dis7.py:158-160,162-164). -/
def RequestID.WireOk (o : RequestID) : Prop :=
  U32 o.requestID

/-- `o` is in the form a fresh `RequestID` takes after parsing: singles exact, arrays of the fixed length,
attributes that are not on the wire at their initial value (/repo/opendis/dis7.py:158-160,162-164). -/
def RequestID.Canon (o : RequestID) : Prop :=
  True

/-- No single-precision field of `o` is a NaN (/repo/opendis/dis7.py:158-160,162-164). -/
def RequestID.NoNaN (o : RequestID) : Prop :=
  True

/-- Number of bytes `serialize` writes (/repo/opendis/dis7.py:158-160,162-164). -/
def RequestID.wireSize (o : RequestID) : Nat := 4

/-- The object `s` after it parsed what an `o` without data serialized
(/repo/opendis/dis7.py:184-190,192-201). -/
def IFFData.after (s o : IFFData) : IFFData :=
  { s with recordType := o.recordType, recordLength := 0, iffData := s.iffData ++ [] }

/-- Every field of `o` fits its wire type (/repo/opendis/dis7.py:184-190). -/
def IFFData.WireOk (o : IFFData) : Prop :=
  U32 o.recordType ∧ U16 (o.iffData.length : Int) ∧ ∀ x ∈ o.iffData, U8 x

/-- Form of an object that survives a round trip (/repo/opendis/dis7.py:184-190,192-201). -/
def IFFData.Canon (o : IFFData) : Prop := o.recordLength = 0 ∧ o.iffData = []

/-- No single-precision fields (/repo/opendis/dis7.py:184-190). -/
def IFFData.NoNaN (_o : IFFData) : Prop := True

/-- `serialize` writes `len(iffData)` where `parse` expects `len(iffData) + 6`, so only empty data is
read back (/repo/opendis/dis7.py:187,197). -/
def IFFData.Decodable (o : IFFData) : Prop := o.iffData = []

/-- `serialize` reproduces only a zero record length (/repo/opendis/dis7.py:187,197). -/
def IFFData.Live (o : IFFData) : Prop := o.recordLength = 0

/-- Number of bytes `serialize` writes (/repo/opendis/dis7.py:184-190). -/
def IFFData.wireSize (o : IFFData) : Nat := 6 + 1 * o.iffData.length

/-- The object `s` after it parsed what `o` serialized: fields of `o`, singles rounded, list elements
appended (/repo/opendis/dis7.py:2522-2530,2532-2540). -/
def EntityType.after (s o : EntityType) : EntityType :=
  { s with
    entityKind := o.entityKind,
    domain := o.domain,
    country := o.country,
    category := o.category,
    subcategory := o.subcategory,
    specific := o.specific,
    extra := o.extra }

/-- Every field of `o` fits its wire type (/repo/opendis/dis7.py:2522-2530,2532-2540). -/
def EntityType.WireOk (o : EntityType) : Prop :=
  U8 o.entityKind ∧
  U8 o.domain ∧
  U16 o.country ∧
  U8 o.category ∧
  U8 o.subcategory ∧
  U8 o.specific ∧
  U8 o.extra

/-- `o` is in the form a fresh `EntityType` takes after parsing: singles exact, arrays of the fixed length,
attributes that are not on the wire at their initial value (/repo/opendis/dis7.py:2522-2530,2532-2540). -/
def EntityType.Canon (o : EntityType) : Prop :=
  True

/-- No single-precision field of `o` is a NaN (/repo/opendis/dis7.py:2522-2530,2532-2540). -/
def EntityType.NoNaN (o : EntityType) : Prop :=
  True

/-- Number of bytes `serialize` writes (/repo/opendis/dis7.py:2522-2530,2532-2540). -/
def EntityType.wireSize (o : EntityType) : Nat := 8

/-- The object `s` after it parsed what `o` serialized: fields of `o`, singles rounded, list elements
appended (/repo/opendis/dis7.py:229-235,237-243). -/
def MunitionDescriptor.after (s o : MunitionDescriptor) : MunitionDescriptor :=
  { s with
    munitionType := EntityType.after s.munitionType o.munitionType,
    warhead := o.warhead,
    fuse := o.fuse,
    quantity := o.quantity,
    rate := o.rate }

/-- Every field of `o` fits its wire type (/repo/opendis/dis7.py:229-235,237-243). -/
def MunitionDescriptor.WireOk (o : MunitionDescriptor) : Prop :=
  EntityType.WireOk o.munitionType ∧
  U16 o.warhead ∧
  U16 o.fuse ∧
  U16 o.quantity ∧
  U16 o.rate

/-- `o` is in the form a fresh `MunitionDescriptor` takes after parsing: singles exact, arrays of the fixed length,
attributes that are not on the wire at their initial value (/repo/opendis/dis7.py:229-235,237-243). -/
def MunitionDescriptor.Canon (o : MunitionDescriptor) : Prop :=
  True

/-- No single-precision field of `o` is a NaN (/repo/opendis/dis7.py:229-235,237-243). -/
def MunitionDescriptor.NoNaN (o : MunitionDescriptor) : Prop :=
  True

/-- Number of bytes `serialize` writes (/repo/opendis/dis7.py:229-235,237-243). -/
def MunitionDescriptor.wireSize (o : MunitionDescriptor) : Nat := 16

/-- The object `s` after it parsed what `o` serialized: fields of `o`, singles rounded, list elements
appended (/repo/opendis/dis7.py:257-259,261-263). -/
def MinefieldSensorType.after (s o : MinefieldSensorType) : MinefieldSensorType :=
  { s with
    sensorType := o.sensorType }

/-- Every field of `o` fits its wire type (/repo/opendis/dis7.py:257-259,261-263). -/
def MinefieldSensorType.WireOk (o : MinefieldSensorType) : Prop :=
  U16 o.sensorType

/-- `o` is in the form a fresh `MinefieldSensorType` takes after parsing: singles exact, arrays of the fixed length,
attributes that are not on the wire at their initial value (/repo/opendis/dis7.py:257-259,261-263). -/
def MinefieldSensorType.Canon (o : MinefieldSensorType) : Prop :=
  True

/-- No single-precision field of `o` is a NaN (/repo/opendis/dis7.py:257-259,261-263). -/
def MinefieldSensorType.NoNaN (o : MinefieldSensorType) : Prop :=
  True

/-- Number of bytes `serialize` writes (/repo/opendis/dis7.py:257-259,261-263). -/
def MinefieldSensorType.wireSize (o : MinefieldSensorType) : Nat := 2

/-- The object `s` after it parsed what `o` serialized: fields of `o`, singles rounded, list elements
appended (/repo/opendis/dis7.py:281-284,286-289). -/
def GroupID.after (s o : GroupID) : GroupID :=
  { s with
    simulationAddress := SimulationAddress.after s.simulationAddress o.simulationAddress,
    groupNumber := o.groupNumber }

/-- Every field of `o` fits its wire type (/repo/opendis/dis7.py:281-284,286-289). -/
def GroupID.WireOk (o : GroupID) : Prop :=
  SimulationAddress.WireOk o.simulationAddress ∧
  U16 o.groupNumber

/-- `o` is in the form a fresh `GroupID` takes after parsing: singles exact, arrays of the fixed length,
attributes that are not on the wire at their initial value (/repo/opendis/dis7.py:281-284,286-289). -/
def GroupID.Canon (o : GroupID) : Prop :=
  True

/-- No single-precision field of `o` is a NaN (/repo/opendis/dis7.py:281-284,286-289). -/
def GroupID.NoNaN (o : GroupID) : Prop :=
  True

/-- Number of bytes `serialize` writes (/repo/opendis/dis7.py:281-284,286-289). -/
def GroupID.wireSize (o : GroupID) : Nat := 6

/-- The object `s` after it parsed what `o` serialized: fields of `o`, singles rounded, list elements
appended (/repo/opendis/dis7.py:309-313,315-319). -/
def LayerHeader.after (s o : LayerHeader) : LayerHeader :=
  { s with
    layerNumber := o.layerNumber,
    layerSpecificInformation := o.layerSpecificInformation,
    length := o.length }

/-- Every field of `o` fits its wire type (/repo/opendis/dis7.py:309-313,315-319). -/
def LayerHeader.WireOk (o : LayerHeader) : Prop :=
  U8 o.layerNumber ∧
  U8 o.layerSpecificInformation ∧
  U16 o.length

/-- `o` is in the form a fresh `LayerHeader` takes after parsing: singles exact, arrays of the fixed length,
attributes that are not on the wire at their initial value (/repo/opendis/dis7.py:309-313,315-319). -/
def LayerHeader.Canon (o : LayerHeader) : Prop :=
  True

/-- No single-precision field of `o` is a NaN (/repo/opendis/dis7.py:309-313,315-319). -/
def LayerHeader.NoNaN (o : LayerHeader) : Prop :=
  True

/-- Number of bytes `serialize` writes (/repo/opendis/dis7.py:309-313,315-319). -/
def LayerHeader.wireSize (o : LayerHeader) : Nat := 4

/-- The object `s` after it parsed what `o` serialized: fields of `o`, singles rounded, list elements
appended (/repo/opendis/dis7.py:329-331,333-335). -/
def UnsignedDISInteger.after (s o : UnsignedDISInteger) : UnsignedDISInteger :=
  { s with
    val := o.val }

/-- Every field of `o` fits its wire type (/repo/opendis/dis7.py:329-331,333-335). -/
def UnsignedDISInteger.WireOk (o : UnsignedDISInteger) : Prop :=
  U32 o.val

/-- `o` is in the form a fresh `UnsignedDISInteger` takes after parsing: singles exact, arrays of the fixed length,
attributes that are not on the wire at their initial value (/repo/opendis/dis7.py:329-331,333-335). -/
def UnsignedDISInteger.Canon (o : UnsignedDISInteger) : Prop :=
  True

/-- No single-precision field of `o` is a NaN (/repo/opendis/dis7.py:329-331,333-335). -/
def UnsignedDISInteger.NoNaN (o : UnsignedDISInteger) : Prop :=
  True

/-- Number of bytes `serialize` writes (/repo/opendis/dis7.py:329-331,333-335). -/
def UnsignedDISInteger.wireSize (o : UnsignedDISInteger) : Nat := 4

/-- The object `s` after it parsed what `o` serialized: fields of `o`, singles rounded, list elements
appended (/repo/opendis/dis7.py:356-363,365-375). -/
def DeadReckoningParameters.after (s o : DeadReckoningParameters) : DeadReckoningParameters :=
  { s with
    deadReckoningAlgorithm := o.deadReckoningAlgorithm,
    parameters := o.parameters.take 15,
    entityLinearAcceleration := Vector3Float.after s.entityLinearAcceleration o.entityLinearAcceleration,
    entityAngularVelocity := Vector3Float.after s.entityAngularVelocity o.entityAngularVelocity }

/-- Every field of `o` fits its wire type (/repo/opendis/dis7.py:356-363,365-375). -/
def DeadReckoningParameters.WireOk (o : DeadReckoningParameters) : Prop :=
  U8 o.deadReckoningAlgorithm ∧
  (15 ≤ o.parameters.length ∧ ∀ x ∈ o.parameters.take 15, U8 x) ∧
  Vector3Float.WireOk o.entityLinearAcceleration ∧
  Vector3Float.WireOk o.entityAngularVelocity

/-- `o` is in the form a fresh `DeadReckoningParameters` takes after parsing: singles exact, arrays of the fixed length,
attributes that are not on the wire at their initial value (/repo/opendis/dis7.py:356-363,365-375). -/
def DeadReckoningParameters.Canon (o : DeadReckoningParameters) : Prop :=
  o.parameters.length = 15 ∧
  Vector3Float.Canon o.entityLinearAcceleration ∧
  Vector3Float.Canon o.entityAngularVelocity

/-- No single-precision field of `o` is a NaN (/repo/opendis/dis7.py:356-363,365-375). -/
def DeadReckoningParameters.NoNaN (o : DeadReckoningParameters) : Prop :=
  Vector3Float.NoNaN o.entityLinearAcceleration ∧
  Vector3Float.NoNaN o.entityAngularVelocity

/-- Number of bytes `serialize` writes (/repo/opendis/dis7.py:356-363,365-375). -/
def DeadReckoningParameters.wireSize (o : DeadReckoningParameters) : Nat := 40

/-- The object `s` after it parsed what `o` serialized: fields of `o`, singles rounded, list elements
appended (/repo/opendis/dis7.py:388-390,392-394). -/
def ProtocolMode.after (s o : ProtocolMode) : ProtocolMode :=
  { s with
    protocolMode := o.protocolMode }

/-- Every field of `o` fits its wire type (/repo/opendis/dis7.py:388-390,392-394). -/
def ProtocolMode.WireOk (o : ProtocolMode) : Prop :=
  U16 o.protocolMode

/-- `o` is in the form a fresh `ProtocolMode` takes after parsing: singles exact, arrays of the fixed length,
attributes that are not on the wire at their initial value (/repo/opendis/dis7.py:388-390,392-394). -/
def ProtocolMode.Canon (o : ProtocolMode) : Prop :=
  True

/-- No single-precision field of `o` is a NaN (/repo/opendis/dis7.py:388-390,392-394). -/
def ProtocolMode.NoNaN (o : ProtocolMode) : Prop :=
  True

/-- Number of bytes `serialize` writes (/repo/opendis/dis7.py:388-390,392-394). -/
def ProtocolMode.wireSize (o : ProtocolMode) : Nat := 2

/-- The object `s` after it parsed what `o` serialized: fields of `o`, singles rounded, list elements
appended (/repo/opendis/dis7.py:436-453,455-472). -/
def AngleDeception.after (s o : AngleDeception) : AngleDeception :=
  { s with
    recordType := o.recordType,
    recordLength := o.recordLength,
    padding := o.padding,
    emitterNumber := o.emitterNumber,
    beamNumber := o.beamNumber,
    stateIndicator := o.stateIndicator,
    padding2 := o.padding2,
    azimuthOffset := quant o.azimuthOffset,
    azimuthWidth := quant o.azimuthWidth,
    azimuthPullRate := quant o.azimuthPullRate,
    azimuthPullAcceleration := quant o.azimuthPullAcceleration,
    elevationOffset := quant o.elevationOffset,
    elevationWidth := quant o.elevationWidth,
    elevationPullRate := quant o.elevationPullRate,
    elevationPullAcceleration := quant o.elevationPullAcceleration,
    padding3 := o.padding3 }

/-- Every field of `o` fits its wire type (/repo/opendis/dis7.py:436-453,455-472). -/
def AngleDeception.WireOk (o : AngleDeception) : Prop :=
  U32 o.recordType ∧
  U16 o.recordLength ∧
  U16 o.padding ∧
  U8 o.emitterNumber ∧
  U8 o.beamNumber ∧
  U8 o.stateIndicator ∧
  U8 o.padding2 ∧
  F32Fits o.azimuthOffset ∧
  F32Fits o.azimuthWidth ∧
  F32Fits o.azimuthPullRate ∧
  F32Fits o.azimuthPullAcceleration ∧
  F32Fits o.elevationOffset ∧
  F32Fits o.elevationWidth ∧
  F32Fits o.elevationPullRate ∧
  F32Fits o.elevationPullAcceleration ∧
  U32 o.padding3

/-- `o` is in the form a fresh `AngleDeception` takes after parsing: singles exact, arrays of the fixed length,
attributes that are not on the wire at their initial value (/repo/opendis/dis7.py:436-453,455-472). -/
def AngleDeception.Canon (o : AngleDeception) : Prop :=
  quant o.azimuthOffset = o.azimuthOffset ∧
  quant o.azimuthWidth = o.azimuthWidth ∧
  quant o.azimuthPullRate = o.azimuthPullRate ∧
  quant o.azimuthPullAcceleration = o.azimuthPullAcceleration ∧
  quant o.elevationOffset = o.elevationOffset ∧
  quant o.elevationWidth = o.elevationWidth ∧
  quant o.elevationPullRate = o.elevationPullRate ∧
  quant o.elevationPullAcceleration = o.elevationPullAcceleration

/-- No single-precision field of `o` is a NaN (/repo/opendis/dis7.py:436-453,455-472). -/
def AngleDeception.NoNaN (o : AngleDeception) : Prop :=
  ¬ o.azimuthOffset.isNaN ∧
  ¬ o.azimuthWidth.isNaN ∧
  ¬ o.azimuthPullRate.isNaN ∧
  ¬ o.azimuthPullAcceleration.isNaN ∧
  ¬ o.elevationOffset.isNaN ∧
  ¬ o.elevationWidth.isNaN ∧
  ¬ o.elevationPullRate.isNaN ∧
  ¬ o.elevationPullAcceleration.isNaN

/-- Number of bytes `serialize` writes (/repo/opendis/dis7.py:436-453,455-472). -/
def AngleDeception.wireSize (o : AngleDeception) : Nat := 48

/-- The object `s` after it parsed what `o` serialized: fields of `o`, singles rounded, list elements
appended (/repo/opendis/dis7.py:508-518,520-530). -/
def EntityAssociation.after (s o : EntityAssociation) : EntityAssociation :=
  { s with
    recordType := o.recordType,
    changeIndicator := o.changeIndicator,
    associationStatus := o.associationStatus,
    associationType := o.associationType,
    entityID := EntityIdentifier.after s.entityID o.entityID,
    ownStationLocation := o.ownStationLocation,
    physicalConnectionType := o.physicalConnectionType,
    groupMemberType := o.groupMemberType,
    groupNumber := o.groupNumber }

/-- Every field of `o` fits its wire type (/repo/opendis/dis7.py:508-518,520-530). -/
def EntityAssociation.WireOk (o : EntityAssociation) : Prop :=
  U8 o.recordType ∧
  U8 o.changeIndicator ∧
  U8 o.associationStatus ∧
  U8 o.associationType ∧
  EntityIdentifier.WireOk o.entityID ∧
  U16 o.ownStationLocation ∧
  U8 o.physicalConnectionType ∧
  U8 o.groupMemberType ∧
  U16 o.groupNumber

/-- `o` is in the form a fresh `EntityAssociation` takes after parsing: singles exact, arrays of the fixed length,
attributes that are not on the wire at their initial value (/repo/opendis/dis7.py:508-518,520-530). -/
def EntityAssociation.Canon (o : EntityAssociation) : Prop :=
  True

/-- No single-precision field of `o` is a NaN (/repo/opendis/dis7.py:508-518,520-530). -/
def EntityAssociation.NoNaN (o : EntityAssociation) : Prop :=
  True

/-- Number of bytes `serialize` writes (/repo/opendis/dis7.py:508-518,520-530). -/
def EntityAssociation.wireSize (o : EntityAssociation) : Nat := 16

/-- The object `s` after it parsed what `o` serialized: fields of `o`, singles rounded, list elements
appended (/repo/opendis/dis7.py:545-548,550-553). -/
def VectoringNozzleSystem.after (s o : VectoringNozzleSystem) : VectoringNozzleSystem :=
  { s with
    horizontalDeflectionAngle := quant o.horizontalDeflectionAngle,
    verticalDeflectionAngle := quant o.verticalDeflectionAngle }

/-- Every field of `o` fits its wire type (/repo/opendis/dis7.py:545-548,550-553). -/
def VectoringNozzleSystem.WireOk (o : VectoringNozzleSystem) : Prop :=
  F32Fits o.horizontalDeflectionAngle ∧
  F32Fits o.verticalDeflectionAngle

/-- `o` is in the form a fresh `VectoringNozzleSystem` takes after parsing: singles exact, arrays of the fixed length,
attributes that are not on the wire at their initial value (/repo/opendis/dis7.py:545-548,550-553). -/
def VectoringNozzleSystem.Canon (o : VectoringNozzleSystem) : Prop :=
  quant o.horizontalDeflectionAngle = o.horizontalDeflectionAngle ∧
  quant o.verticalDeflectionAngle = o.verticalDeflectionAngle

/-- No single-precision field of `o` is a NaN (/repo/opendis/dis7.py:545-548,550-553). -/
def VectoringNozzleSystem.NoNaN (o : VectoringNozzleSystem) : Prop :=
  ¬ o.horizontalDeflectionAngle.isNaN ∧
  ¬ o.verticalDeflectionAngle.isNaN

/-- Number of bytes `serialize` writes (/repo/opendis/dis7.py:545-548,550-553). -/
def VectoringNozzleSystem.wireSize (o : VectoringNozzleSystem) : Nat := 8

/-- The object `s` after it parsed what `o` serialized: fields of `o`, singles rounded, list elements
appended (/repo/opendis/dis7.py:591-605,607-621). -/
def FalseTargetsAttribute.after (s o : FalseTargetsAttribute) : FalseTargetsAttribute :=
  { s with
    recordType := o.recordType,
    recordLength := o.recordLength,
    padding := o.padding,
    emitterNumber := o.emitterNumber,
    beamNumber := o.beamNumber,
    stateIndicator := o.stateIndicator,
    padding2 := o.padding2,
    falseTargetCount := o.falseTargetCount,
    walkSpeed := quant o.walkSpeed,
    walkAcceleration := quant o.walkAcceleration,
    maximumWalkDistance := quant o.maximumWalkDistance,
    keepTime := quant o.keepTime,
    echoSpacing := quant o.echoSpacing }

/-- Every field of `o` fits its wire type (/repo/opendis/dis7.py:591-605,607-621). -/
def FalseTargetsAttribute.WireOk (o : FalseTargetsAttribute) : Prop :=
  U32 o.recordType ∧
  U16 o.recordLength ∧
  U16 o.padding ∧
  U8 o.emitterNumber ∧
  U8 o.beamNumber ∧
  U8 o.stateIndicator ∧
  U8 o.padding2 ∧
  U16 o.falseTargetCount ∧
  F32Fits o.walkSpeed ∧
  F32Fits o.walkAcceleration ∧
  F32Fits o.maximumWalkDistance ∧
  F32Fits o.keepTime ∧
  F32Fits o.echoSpacing

/-- `o` is in the form a fresh `FalseTargetsAttribute` takes after parsing: singles exact, arrays of the fixed length,
attributes that are not on the wire at their initial value (/repo/opendis/dis7.py:591-605,607-621). -/
def FalseTargetsAttribute.Canon (o : FalseTargetsAttribute) : Prop :=
  quant o.walkSpeed = o.walkSpeed ∧
  quant o.walkAcceleration = o.walkAcceleration ∧
  quant o.maximumWalkDistance = o.maximumWalkDistance ∧
  quant o.keepTime = o.keepTime ∧
  quant o.echoSpacing = o.echoSpacing

/-- No single-precision field of `o` is a NaN (/repo/opendis/dis7.py:591-605,607-621). -/
def FalseTargetsAttribute.NoNaN (o : FalseTargetsAttribute) : Prop :=
  ¬ o.walkSpeed.isNaN ∧
  ¬ o.walkAcceleration.isNaN ∧
  ¬ o.maximumWalkDistance.isNaN ∧
  ¬ o.keepTime.isNaN ∧
  ¬ o.echoSpacing.isNaN

/-- Number of bytes `serialize` writes (/repo/opendis/dis7.py:591-605,607-621). -/
def FalseTargetsAttribute.wireSize (o : FalseTargetsAttribute) : Nat := 34

/-- The object `s` after it parsed what `o` serialized: fields of `o`, singles rounded, list elements
appended (/repo/opendis/dis7.py:636-639,641-644). -/
def MinefieldIdentifier.after (s o : MinefieldIdentifier) : MinefieldIdentifier :=
  { s with
    simulationAddress := SimulationAddress.after s.simulationAddress o.simulationAddress,
    minefieldNumber := o.minefieldNumber }

/-- Every field of `o` fits its wire type (/repo/opendis/dis7.py:636-639,641-644). -/
def MinefieldIdentifier.WireOk (o : MinefieldIdentifier) : Prop :=
  SimulationAddress.WireOk o.simulationAddress ∧
  U16 o.minefieldNumber

/-- `o` is in the form a fresh `MinefieldIdentifier` takes after parsing: singles exact, arrays of the fixed length,
attributes that are not on the wire at their initial value (/repo/opendis/dis7.py:636-639,641-644). -/
def MinefieldIdentifier.Canon (o : MinefieldIdentifier) : Prop :=
  True

/-- No single-precision field of `o` is a NaN (/repo/opendis/dis7.py:636-639,641-644). -/
def MinefieldIdentifier.NoNaN (o : MinefieldIdentifier) : Prop :=
  True

/-- Number of bytes `serialize` writes (/repo/opendis/dis7.py:636-639,641-644). -/
def MinefieldIdentifier.wireSize (o : MinefieldIdentifier) : Nat := 6

/-- The object `s` after it parsed what `o` serialized: fields of `o`, singles rounded, list elements
appended (/repo/opendis/dis7.py:672-680,682-690). -/
def RadioType.after (s o : RadioType) : RadioType :=
  { s with
    entityKind := o.entityKind,
    domain := o.domain,
    country := o.country,
    category := o.category,
    subcategory := o.subcategory,
    specific := o.specific,
    extra := o.extra }

/-- Every field of `o` fits its wire type (/repo/opendis/dis7.py:672-680,682-690). -/
def RadioType.WireOk (o : RadioType) : Prop :=
  U8 o.entityKind ∧
  U8 o.domain ∧
  U16 o.country ∧
  U8 o.category ∧
  U8 o.subcategory ∧
  U8 o.specific ∧
  U8 o.extra

/-- `o` is in the form a fresh `RadioType` takes after parsing: singles exact, arrays of the fixed length,
attributes that are not on the wire at their initial value (/repo/opendis/dis7.py:672-680,682-690). -/
def RadioType.Canon (o : RadioType) : Prop :=
  True

/-- No single-precision field of `o` is a NaN (/repo/opendis/dis7.py:672-680,682-690). -/
def RadioType.NoNaN (o : RadioType) : Prop :=
  True

/-- Number of bytes `serialize` writes (/repo/opendis/dis7.py:672-680,682-690). -/
def RadioType.wireSize (o : RadioType) : Nat := 8

/-- The object `s` after it parsed what `o` serialized: fields of `o`, singles rounded, list elements
appended (/repo/opendis/dis7.py:709-712,714-717). -/
def NamedLocationIdentification.after (s o : NamedLocationIdentification) : NamedLocationIdentification :=
  { s with
    stationName := o.stationName,
    stationNumber := o.stationNumber }

/-- Every field of `o` fits its wire type (/repo/opendis/dis7.py:709-712,714-717). -/
def NamedLocationIdentification.WireOk (o : NamedLocationIdentification) : Prop :=
  U16 o.stationName ∧
  U16 o.stationNumber

/-- `o` is in the form a fresh `NamedLocationIdentification` takes after parsing: singles exact, arrays of the fixed length,
attributes that are not on the wire at their initial value (/repo/opendis/dis7.py:709-712,714-717). -/
def NamedLocationIdentification.Canon (o : NamedLocationIdentification) : Prop :=
  True

/-- No single-precision field of `o` is a NaN (/repo/opendis/dis7.py:709-712,714-717). -/
def NamedLocationIdentification.NoNaN (o : NamedLocationIdentification) : Prop :=
  True

/-- Number of bytes `serialize` writes (/repo/opendis/dis7.py:709-712,714-717). -/
def NamedLocationIdentification.wireSize (o : NamedLocationIdentification) : Nat := 4

/-- The object `s` after it parsed what `o` serialized: fields of `o`, singles rounded, list elements
appended (/repo/opendis/dis7.py:733-737,739-745). -/
def IFFDataSpecification.after (s o : IFFDataSpecification) : IFFDataSpecification :=
  { s with
    iffDataRecords := s.iffDataRecords ++ o.iffDataRecords.map (IFFData.after IFFData.init) }

/-- Every field of `o` fits its wire type (/repo/opendis/dis7.py:733-737,739-745). -/
def IFFDataSpecification.WireOk (o : IFFDataSpecification) : Prop :=
  U16 ((o.iffDataRecords.length : Int)) ∧
  (∀ x ∈ o.iffDataRecords, IFFData.WireOk x)

/-- `o` is in the form a fresh `IFFDataSpecification` takes after parsing: singles exact, arrays of the fixed length,
attributes that are not on the wire at their initial value (/repo/opendis/dis7.py:733-737,739-745). -/
def IFFDataSpecification.Canon (o : IFFDataSpecification) : Prop :=
  ∀ x ∈ o.iffDataRecords, IFFData.Canon x

/-- No single-precision field of `o` is a NaN (/repo/opendis/dis7.py:733-737,739-745). -/
def IFFDataSpecification.NoNaN (o : IFFDataSpecification) : Prop :=
  True

/-- `o` avoids the lists that `parse` cannot read back (/repo/opendis/dis7.py:733-737,739-745). -/
def IFFDataSpecification.Decodable (o : IFFDataSpecification) : Prop :=
  (∀ x ∈ o.iffDataRecords, IFFData.Decodable x)

/-- `o` avoids the values that `serialize` does not reproduce (/repo/opendis/dis7.py:733-737,739-745). -/
def IFFDataSpecification.Live (o : IFFDataSpecification) : Prop :=
  ∀ x ∈ o.iffDataRecords, IFFData.Live x

/-- Number of bytes `serialize` writes (/repo/opendis/dis7.py:733-737,739-745). -/
def IFFDataSpecification.wireSize (o : IFFDataSpecification) : Nat := 2 + (o.iffDataRecords.map IFFData.wireSize).sum

/-- The object `s` after it parsed what `o` serialized: fields of `o`, singles rounded, list elements
appended (/repo/opendis/dis7.py:763-767,769-773). -/
def OwnershipStatus.after (s o : OwnershipStatus) : OwnershipStatus :=
  { s with
    entityId := EntityIdentifier.after s.entityId o.entityId,
    ownershipStatus := o.ownershipStatus,
    padding := o.padding }

/-- Every field of `o` fits its wire type (/repo/opendis/dis7.py:763-767,769-773). -/
def OwnershipStatus.WireOk (o : OwnershipStatus) : Prop :=
  EntityIdentifier.WireOk o.entityId ∧
  U8 o.ownershipStatus ∧
  U8 o.padding

/-- `o` is in the form a fresh `OwnershipStatus` takes after parsing: singles exact, arrays of the fixed length,
attributes that are not on the wire at their initial value (/repo/opendis/dis7.py:763-767,769-773). -/
def OwnershipStatus.Canon (o : OwnershipStatus) : Prop :=
  True

/-- No single-precision field of `o` is a NaN (/repo/opendis/dis7.py:763-767,769-773). -/
def OwnershipStatus.NoNaN (o : OwnershipStatus) : Prop :=
  True

/-- Number of bytes `serialize` writes (/repo/opendis/dis7.py:763-767,769-773). -/
def OwnershipStatus.wireSize (o : OwnershipStatus) : Nat := 8

/-- The object `s` after it parsed what `o` serialized: fields of `o`, singles rounded, list elements
appended (/repo/opendis/dis7.py:797-803,805-811). -/
def AttachedParts.after (s o : AttachedParts) : AttachedParts :=
  { s with
    recordType := o.recordType,
    detachedIndicator := o.detachedIndicator,
    partAttachedTo := o.partAttachedTo,
    parameterType := o.parameterType,
    parameterValue := some (o.parameterValue.getD 0) }

/-- Every field of `o` fits its wire type (/repo/opendis/dis7.py:797-803,805-811). -/
def AttachedParts.WireOk (o : AttachedParts) : Prop :=
  U8 o.recordType ∧
  U8 o.detachedIndicator ∧
  U16 o.partAttachedTo ∧
  U32 o.parameterType ∧
  (∃ v, o.parameterValue = some v ∧ S64 v)

/-- `o` is in the form a fresh `AttachedParts` takes after parsing: singles exact, arrays of the fixed length,
attributes that are not on the wire at their initial value (/repo/opendis/dis7.py:797-803,805-811). -/
def AttachedParts.Canon (o : AttachedParts) : Prop :=
  (∃ v, o.parameterValue = some v) ∧
  o.attachedPartType = EntityType.init

/-- No single-precision field of `o` is a NaN (/repo/opendis/dis7.py:797-803,805-811). -/
def AttachedParts.NoNaN (o : AttachedParts) : Prop :=
  True

/-- Number of bytes `serialize` writes (/repo/opendis/dis7.py:797-803,805-811). -/
def AttachedParts.wireSize (o : AttachedParts) : Nat := 16

end Dis
