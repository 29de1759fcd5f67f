import Verif.Model.Pdus4
import Verif.Spec.Pdus3

/-!
# Specification of: PDUs of `opendis/dis7.py`, part 4

Generated by `tools/genproof.py`.
-/

set_option linter.unusedVariables false
set_option linter.unusedSimpArgs false

namespace Dis

/-- The object `s` after it parsed what `o` serialized: fields of `o`, singles rounded, list elements
appended (/repo/opendis/dis7.py:5764-5811,5813-5868). -/
def FastEntityStatePdu.after (s o : FastEntityStatePdu) : FastEntityStatePdu :=
  { s with
    toEntityInformationFamilyPdu := EntityInformationFamilyPdu.after s.toEntityInformationFamilyPdu o.toEntityInformationFamilyPdu,
    site := o.site,
    application := o.application,
    entity := o.entity,
    forceId := o.forceId,
    numberOfVariableParameters := (o.variableParameters.length : Int),
    entityKind := o.entityKind,
    domain := o.domain,
    country := o.country,
    category := o.category,
    subcategory := o.subcategory,
    specific := o.specific,
    extra := o.extra,
    altEntityKind := o.altEntityKind,
    altDomain := o.altDomain,
    altCountry := o.altCountry,
    altCategory := o.altCategory,
    altSubcategory := o.altSubcategory,
    altSpecific := o.altSpecific,
    altExtra := o.altExtra,
    xVelocity := quant o.xVelocity,
    yVelocity := quant o.yVelocity,
    zVelocity := quant o.zVelocity,
    xLocation := o.xLocation,
    yLocation := o.yLocation,
    zLocation := o.zLocation,
    psi := quant o.psi,
    theta := quant o.theta,
    phi := quant o.phi,
    entityAppearance := o.entityAppearance,
    deadReckoningAlgorithm := o.deadReckoningAlgorithm,
    otherParameters := o.otherParameters.take 15,
    xAcceleration := quant o.xAcceleration,
    yAcceleration := quant o.yAcceleration,
    zAcceleration := quant o.zAcceleration,
    xAngularVelocity := quant o.xAngularVelocity,
    yAngularVelocity := quant o.yAngularVelocity,
    zAngularVelocity := quant o.zAngularVelocity,
    marking := o.marking.take 12,
    capabilities := o.capabilities,
    variableParameters := s.variableParameters ++ o.variableParameters.map (VariableParameter.after VariableParameter.init) }

/-- Every field of `o` fits its wire type (/repo/opendis/dis7.py:5764-5811,5813-5868). -/
def FastEntityStatePdu.WireOk (o : FastEntityStatePdu) : Prop :=
  EntityInformationFamilyPdu.WireOk o.toEntityInformationFamilyPdu ∧
  U16 o.site ∧
  U16 o.application ∧
  U16 o.entity ∧
  U8 o.forceId ∧
  S8 ((o.variableParameters.length : Int)) ∧
  U8 o.entityKind ∧
  U8 o.domain ∧
  U16 o.country ∧
  U8 o.category ∧
  U8 o.subcategory ∧
  U8 o.specific ∧
  U8 o.extra ∧
  U8 o.altEntityKind ∧
  U8 o.altDomain ∧
  U16 o.altCountry ∧
  U8 o.altCategory ∧
  U8 o.altSubcategory ∧
  U8 o.altSpecific ∧
  U8 o.altExtra ∧
  F32Fits o.xVelocity ∧
  F32Fits o.yVelocity ∧
  F32Fits o.zVelocity ∧
  F32Fits o.psi ∧
  F32Fits o.theta ∧
  F32Fits o.phi ∧
  S32 o.entityAppearance ∧
  U8 o.deadReckoningAlgorithm ∧
  (15 ≤ o.otherParameters.length ∧ ∀ x ∈ o.otherParameters.take 15, S8 x) ∧
  F32Fits o.xAcceleration ∧
  F32Fits o.yAcceleration ∧
  F32Fits o.zAcceleration ∧
  F32Fits o.xAngularVelocity ∧
  F32Fits o.yAngularVelocity ∧
  F32Fits o.zAngularVelocity ∧
  (12 ≤ o.marking.length ∧ ∀ x ∈ o.marking.take 12, S8 x) ∧
  S32 o.capabilities ∧
  (∀ x ∈ o.variableParameters, VariableParameter.WireOk x)

/-- `o` is in the form a fresh `FastEntityStatePdu` takes after parsing: singles exact, arrays of the fixed length,
attributes that are not on the wire at their initial value (/repo/opendis/dis7.py:5764-5811,5813-5868). -/
def FastEntityStatePdu.Canon (o : FastEntityStatePdu) : Prop :=
  o.numberOfVariableParameters = (o.variableParameters.length : Int) ∧
  quant o.xVelocity = o.xVelocity ∧
  quant o.yVelocity = o.yVelocity ∧
  quant o.zVelocity = o.zVelocity ∧
  quant o.psi = o.psi ∧
  quant o.theta = o.theta ∧
  quant o.phi = o.phi ∧
  o.otherParameters.length = 15 ∧
  quant o.xAcceleration = o.xAcceleration ∧
  quant o.yAcceleration = o.yAcceleration ∧
  quant o.zAcceleration = o.zAcceleration ∧
  quant o.xAngularVelocity = o.xAngularVelocity ∧
  quant o.yAngularVelocity = o.yAngularVelocity ∧
  quant o.zAngularVelocity = o.zAngularVelocity ∧
  o.marking.length = 12

/-- No single-precision field of `o` is a NaN (/repo/opendis/dis7.py:5764-5811,5813-5868). -/
def FastEntityStatePdu.NoNaN (o : FastEntityStatePdu) : Prop :=
  ¬ o.xVelocity.isNaN ∧
  ¬ o.yVelocity.isNaN ∧
  ¬ o.zVelocity.isNaN ∧
  ¬ o.psi.isNaN ∧
  ¬ o.theta.isNaN ∧
  ¬ o.phi.isNaN ∧
  ¬ o.xAcceleration.isNaN ∧
  ¬ o.yAcceleration.isNaN ∧
  ¬ o.zAcceleration.isNaN ∧
  ¬ o.xAngularVelocity.isNaN ∧
  ¬ o.yAngularVelocity.isNaN ∧
  ¬ o.zAngularVelocity.isNaN

/-- `o` avoids the values that `serialize` does not reproduce (/repo/opendis/dis7.py:5764-5811,5813-5868). -/
def FastEntityStatePdu.Live (o : FastEntityStatePdu) : Prop :=
  0 ≤ o.numberOfVariableParameters

/-- Number of bytes `serialize` writes (/repo/opendis/dis7.py:5764-5811,5813-5868). -/
def FastEntityStatePdu.wireSize (o : FastEntityStatePdu) : Nat := 144 + 16 * o.variableParameters.length

/-- The object `s` after it parsed what `o` serialized: fields of `o`, singles rounded, list elements
appended (/repo/opendis/dis7.py:5890-5895,5897-5902). -/
def AcknowledgeReliablePdu.after (s o : AcknowledgeReliablePdu) : AcknowledgeReliablePdu :=
  { s with
    toSimulationManagementWithReliabilityFamilyPdu := SimulationManagementWithReliabilityFamilyPdu.after s.toSimulationManagementWithReliabilityFamilyPdu o.toSimulationManagementWithReliabilityFamilyPdu,
    acknowledgeFlag := o.acknowledgeFlag,
    responseFlag := o.responseFlag,
    requestID := o.requestID }

/-- Every field of `o` fits its wire type (/repo/opendis/dis7.py:5890-5895,5897-5902). -/
def AcknowledgeReliablePdu.WireOk (o : AcknowledgeReliablePdu) : Prop :=
  SimulationManagementWithReliabilityFamilyPdu.WireOk o.toSimulationManagementWithReliabilityFamilyPdu ∧
  U16 o.acknowledgeFlag ∧
  U16 o.responseFlag ∧
  U32 o.requestID

/-- `o` is in the form a fresh `AcknowledgeReliablePdu` takes after parsing: singles exact, arrays of the fixed length,
attributes that are not on the wire at their initial value (/repo/opendis/dis7.py:5890-5895,5897-5902). -/
def AcknowledgeReliablePdu.Canon (o : AcknowledgeReliablePdu) : Prop :=
  True

/-- No single-precision field of `o` is a NaN (/repo/opendis/dis7.py:5890-5895,5897-5902). -/
def AcknowledgeReliablePdu.NoNaN (o : AcknowledgeReliablePdu) : Prop :=
  True

/-- Number of bytes `serialize` writes (/repo/opendis/dis7.py:5890-5895,5897-5902). -/
def AcknowledgeReliablePdu.wireSize (o : AcknowledgeReliablePdu) : Nat := 32

/-- The object `s` after it parsed what `o` serialized: fields of `o`, singles rounded, list elements
appended (/repo/opendis/dis7.py:5928-5936,5938-5946). -/
def StartResumeReliablePdu.after (s o : StartResumeReliablePdu) : StartResumeReliablePdu :=
  { s with
    toSimulationManagementWithReliabilityFamilyPdu := SimulationManagementWithReliabilityFamilyPdu.after s.toSimulationManagementWithReliabilityFamilyPdu o.toSimulationManagementWithReliabilityFamilyPdu,
    realWorldTime := ClockTime.after s.realWorldTime o.realWorldTime,
    simulationTime := ClockTime.after s.simulationTime o.simulationTime,
    requiredReliabilityService := o.requiredReliabilityService,
    pad1 := o.pad1,
    pad2 := o.pad2,
    requestID := o.requestID }

/-- Every field of `o` fits its wire type (/repo/opendis/dis7.py:5928-5936,5938-5946). -/
def StartResumeReliablePdu.WireOk (o : StartResumeReliablePdu) : Prop :=
  SimulationManagementWithReliabilityFamilyPdu.WireOk o.toSimulationManagementWithReliabilityFamilyPdu ∧
  ClockTime.WireOk o.realWorldTime ∧
  ClockTime.WireOk o.simulationTime ∧
  U8 o.requiredReliabilityService ∧
  U16 o.pad1 ∧
  U8 o.pad2 ∧
  U32 o.requestID

/-- `o` is in the form a fresh `StartResumeReliablePdu` takes after parsing: singles exact, arrays of the fixed length,
attributes that are not on the wire at their initial value (/repo/opendis/dis7.py:5928-5936,5938-5946). -/
def StartResumeReliablePdu.Canon (o : StartResumeReliablePdu) : Prop :=
  True

/-- No single-precision field of `o` is a NaN (/repo/opendis/dis7.py:5928-5936,5938-5946). -/
def StartResumeReliablePdu.NoNaN (o : StartResumeReliablePdu) : Prop :=
  True

/-- Number of bytes `serialize` writes (/repo/opendis/dis7.py:5928-5936,5938-5946). -/
def StartResumeReliablePdu.wireSize (o : StartResumeReliablePdu) : Nat := 48

/-- The object `s` after it parsed what `o` serialized: fields of `o`, singles rounded, list elements
appended (/repo/opendis/dis7.py:5991-6006,6008-6025). -/
def ArealObjectStatePdu.after (s o : ArealObjectStatePdu) : ArealObjectStatePdu :=
  { s with
    toSyntheticEnvironmentFamilyPdu := SyntheticEnvironmentFamilyPdu.after s.toSyntheticEnvironmentFamilyPdu o.toSyntheticEnvironmentFamilyPdu,
    objectID := EntityIdentifier.after s.objectID o.objectID,
    referencedObjectID := EntityIdentifier.after s.referencedObjectID o.referencedObjectID,
    updateNumber := o.updateNumber,
    forceID := o.forceID,
    modifications := o.modifications,
    objectType := ObjectType.after s.objectType o.objectType,
    specificObjectAppearance := o.specificObjectAppearance,
    generalObjectAppearance := o.generalObjectAppearance,
    requesterID := SimulationAddress.after s.requesterID o.requesterID,
    receivingID := SimulationAddress.after s.receivingID o.receivingID,
    objectLocation := s.objectLocation ++ o.objectLocation.map (WorldCoordinates.after WorldCoordinates.init) }

/-- Every field of `o` fits its wire type (/repo/opendis/dis7.py:5991-6006,6008-6025). -/
def ArealObjectStatePdu.WireOk (o : ArealObjectStatePdu) : Prop :=
  SyntheticEnvironmentFamilyPdu.WireOk o.toSyntheticEnvironmentFamilyPdu ∧
  EntityIdentifier.WireOk o.objectID ∧
  EntityIdentifier.WireOk o.referencedObjectID ∧
  U16 o.updateNumber ∧
  U8 o.forceID ∧
  U8 o.modifications ∧
  ObjectType.WireOk o.objectType ∧
  U32 o.specificObjectAppearance ∧
  U16 o.generalObjectAppearance ∧
  U16 ((o.objectLocation.length : Int)) ∧
  SimulationAddress.WireOk o.requesterID ∧
  SimulationAddress.WireOk o.receivingID

/-- `o` is in the form a fresh `ArealObjectStatePdu` takes after parsing: singles exact, arrays of the fixed length,
attributes that are not on the wire at their initial value (/repo/opendis/dis7.py:5991-6006,6008-6025). -/
def ArealObjectStatePdu.Canon (o : ArealObjectStatePdu) : Prop :=
  True

/-- No single-precision field of `o` is a NaN (/repo/opendis/dis7.py:5991-6006,6008-6025). -/
def ArealObjectStatePdu.NoNaN (o : ArealObjectStatePdu) : Prop :=
  True

/-- Number of bytes `serialize` writes (/repo/opendis/dis7.py:5991-6006,6008-6025). -/
def ArealObjectStatePdu.wireSize (o : ArealObjectStatePdu) : Nat := 48 + 24 * o.objectLocation.length

/-- The object `s` after it parsed what `o` serialized: fields of `o`, singles rounded, list elements
appended (/repo/opendis/dis7.py:6069-6077,6079-6087). -/
def DataQueryReliablePdu.after (s o : DataQueryReliablePdu) : DataQueryReliablePdu :=
  { s with
    toSimulationManagementWithReliabilityFamilyPdu := SimulationManagementWithReliabilityFamilyPdu.after s.toSimulationManagementWithReliabilityFamilyPdu o.toSimulationManagementWithReliabilityFamilyPdu,
    requiredReliabilityService := o.requiredReliabilityService,
    pad1 := o.pad1,
    pad2 := o.pad2,
    requestID := o.requestID,
    timeInterval := o.timeInterval,
    _dataQuery := DataQueryDatumSpecification.after s._dataQuery o._dataQuery }

/-- Every field of `o` fits its wire type (/repo/opendis/dis7.py:6069-6077,6079-6087). -/
def DataQueryReliablePdu.WireOk (o : DataQueryReliablePdu) : Prop :=
  SimulationManagementWithReliabilityFamilyPdu.WireOk o.toSimulationManagementWithReliabilityFamilyPdu ∧
  U8 o.requiredReliabilityService ∧
  U16 o.pad1 ∧
  U8 o.pad2 ∧
  U32 o.requestID ∧
  U32 o.timeInterval ∧
  DataQueryDatumSpecification.WireOk o._dataQuery

/-- `o` is in the form a fresh `DataQueryReliablePdu` takes after parsing: singles exact, arrays of the fixed length,
attributes that are not on the wire at their initial value (/repo/opendis/dis7.py:6069-6077,6079-6087). -/
def DataQueryReliablePdu.Canon (o : DataQueryReliablePdu) : Prop :=
  True

/-- No single-precision field of `o` is a NaN (/repo/opendis/dis7.py:6069-6077,6079-6087). -/
def DataQueryReliablePdu.NoNaN (o : DataQueryReliablePdu) : Prop :=
  True

/-- Number of bytes `serialize` writes (/repo/opendis/dis7.py:6069-6077,6079-6087). -/
def DataQueryReliablePdu.wireSize (o : DataQueryReliablePdu) : Nat := 44 + 4 * o._dataQuery.fixedDatumIDs.length + 4 * o._dataQuery.variableDatumIDs.length

/-- The object `s` after it parsed what `o` serialized: fields of `o`, singles rounded, list elements
appended (/repo/opendis/dis7.py:6132-6149,6151-6172). -/
def MinefieldStatePdu.after (s o : MinefieldStatePdu) : MinefieldStatePdu :=
  { s with
    toMinefieldFamilyPdu := MinefieldFamilyPdu.after s.toMinefieldFamilyPdu o.toMinefieldFamilyPdu,
    minefieldID := MinefieldIdentifier.after s.minefieldID o.minefieldID,
    minefieldSequence := o.minefieldSequence,
    forceID := o.forceID,
    minefieldType := EntityType.after s.minefieldType o.minefieldType,
    minefieldLocation := WorldCoordinates.after s.minefieldLocation o.minefieldLocation,
    minefieldOrientation := EulerAngles.after s.minefieldOrientation o.minefieldOrientation,
    appearance := o.appearance,
    protocolMode := o.protocolMode,
    perimeterPoints := s.perimeterPoints ++ o.perimeterPoints.map (Vector2Float.after Vector2Float.init),
    mineTypes := s.mineTypes ++ o.mineTypes.map (EntityType.after EntityType.init) }

/-- Every field of `o` fits its wire type (/repo/opendis/dis7.py:6132-6149,6151-6172). -/
def MinefieldStatePdu.WireOk (o : MinefieldStatePdu) : Prop :=
  MinefieldFamilyPdu.WireOk o.toMinefieldFamilyPdu ∧
  MinefieldIdentifier.WireOk o.minefieldID ∧
  U16 o.minefieldSequence ∧
  U8 o.forceID ∧
  U8 ((o.perimeterPoints.length : Int)) ∧
  EntityType.WireOk o.minefieldType ∧
  U16 ((o.mineTypes.length : Int)) ∧
  EulerAngles.WireOk o.minefieldOrientation ∧
  U16 o.appearance ∧
  U16 o.protocolMode ∧
  (∀ x ∈ o.perimeterPoints, Vector2Float.WireOk x) ∧
  (∀ x ∈ o.mineTypes, EntityType.WireOk x)

/-- `o` is in the form a fresh `MinefieldStatePdu` takes after parsing: singles exact, arrays of the fixed length,
attributes that are not on the wire at their initial value (/repo/opendis/dis7.py:6132-6149,6151-6172). -/
def MinefieldStatePdu.Canon (o : MinefieldStatePdu) : Prop :=
  EulerAngles.Canon o.minefieldOrientation ∧
  ∀ x ∈ o.perimeterPoints, Vector2Float.Canon x

/-- No single-precision field of `o` is a NaN (/repo/opendis/dis7.py:6132-6149,6151-6172). -/
def MinefieldStatePdu.NoNaN (o : MinefieldStatePdu) : Prop :=
  EulerAngles.NoNaN o.minefieldOrientation ∧
  ∀ x ∈ o.perimeterPoints, Vector2Float.NoNaN x

/-- Number of bytes `serialize` writes (/repo/opendis/dis7.py:6132-6149,6151-6172). -/
def MinefieldStatePdu.wireSize (o : MinefieldStatePdu) : Nat := 72 + 8 * o.perimeterPoints.length + 8 * o.mineTypes.length

/-- The object `s` after it parsed what `o` serialized: fields of `o`, singles rounded, list elements
appended (/repo/opendis/dis7.py:6214-6221,6223-6230). -/
def DataReliablePdu.after (s o : DataReliablePdu) : DataReliablePdu :=
  { s with
    toSimulationManagementWithReliabilityFamilyPdu := SimulationManagementWithReliabilityFamilyPdu.after s.toSimulationManagementWithReliabilityFamilyPdu o.toSimulationManagementWithReliabilityFamilyPdu,
    requestID := o.requestID,
    requiredReliabilityService := o.requiredReliabilityService,
    pad1 := o.pad1,
    pad2 := o.pad2,
    _datums := DatumSpecification.after s._datums o._datums }

/-- Every field of `o` fits its wire type (/repo/opendis/dis7.py:6214-6221,6223-6230). -/
def DataReliablePdu.WireOk (o : DataReliablePdu) : Prop :=
  SimulationManagementWithReliabilityFamilyPdu.WireOk o.toSimulationManagementWithReliabilityFamilyPdu ∧
  U32 o.requestID ∧
  U8 o.requiredReliabilityService ∧
  U16 o.pad1 ∧
  U8 o.pad2 ∧
  DatumSpecification.WireOk o._datums

/-- `o` is in the form a fresh `DataReliablePdu` takes after parsing: singles exact, arrays of the fixed length,
attributes that are not on the wire at their initial value (/repo/opendis/dis7.py:6214-6221,6223-6230). -/
def DataReliablePdu.Canon (o : DataReliablePdu) : Prop :=
  DatumSpecification.Canon o._datums

/-- No single-precision field of `o` is a NaN (/repo/opendis/dis7.py:6214-6221,6223-6230). -/
def DataReliablePdu.NoNaN (o : DataReliablePdu) : Prop :=
  True

/-- Number of bytes `serialize` writes (/repo/opendis/dis7.py:6214-6221,6223-6230). -/
def DataReliablePdu.wireSize (o : DataReliablePdu) : Nat := 40 + 8 * o._datums.fixedDatumRecords.length + (o._datums.variableDatumRecords.map VariableDatum.wireSize).sum

/-- The object `s` after it parsed what `o` serialized: fields of `o`, singles rounded, list elements
appended (/repo/opendis/dis7.py:6264-6267,6269-6272). -/
def CommentPdu.after (s o : CommentPdu) : CommentPdu :=
  { s with
    toSimulationManagementFamilyPdu := SimulationManagementFamilyPdu.after s.toSimulationManagementFamilyPdu o.toSimulationManagementFamilyPdu,
    _datums := DatumSpecification.after s._datums o._datums }

/-- Every field of `o` fits its wire type (/repo/opendis/dis7.py:6264-6267,6269-6272). -/
def CommentPdu.WireOk (o : CommentPdu) : Prop :=
  SimulationManagementFamilyPdu.WireOk o.toSimulationManagementFamilyPdu ∧
  DatumSpecification.WireOk o._datums

/-- `o` is in the form a fresh `CommentPdu` takes after parsing: singles exact, arrays of the fixed length,
attributes that are not on the wire at their initial value (/repo/opendis/dis7.py:6264-6267,6269-6272). -/
def CommentPdu.Canon (o : CommentPdu) : Prop :=
  DatumSpecification.Canon o._datums

/-- No single-precision field of `o` is a NaN (/repo/opendis/dis7.py:6264-6267,6269-6272). -/
def CommentPdu.NoNaN (o : CommentPdu) : Prop :=
  True

/-- Number of bytes `serialize` writes (/repo/opendis/dis7.py:6264-6267,6269-6272). -/
def CommentPdu.wireSize (o : CommentPdu) : Nat := 32 + 8 * o._datums.fixedDatumRecords.length + (o._datums.variableDatumRecords.map VariableDatum.wireSize).sum

/-- The object `s` after it parsed what `o` serialized: fields of `o`, singles rounded, list elements
appended (/repo/opendis/dis7.py:6307-6310,6312-6315). -/
def CommentReliablePdu.after (s o : CommentReliablePdu) : CommentReliablePdu :=
  { s with
    toSimulationManagementWithReliabilityFamilyPdu := SimulationManagementWithReliabilityFamilyPdu.after s.toSimulationManagementWithReliabilityFamilyPdu o.toSimulationManagementWithReliabilityFamilyPdu,
    _datums := DatumSpecification.after s._datums o._datums }

/-- Every field of `o` fits its wire type (/repo/opendis/dis7.py:6307-6310,6312-6315). -/
def CommentReliablePdu.WireOk (o : CommentReliablePdu) : Prop :=
  SimulationManagementWithReliabilityFamilyPdu.WireOk o.toSimulationManagementWithReliabilityFamilyPdu ∧
  DatumSpecification.WireOk o._datums

/-- `o` is in the form a fresh `CommentReliablePdu` takes after parsing: singles exact, arrays of the fixed length,
attributes that are not on the wire at their initial value (/repo/opendis/dis7.py:6307-6310,6312-6315). -/
def CommentReliablePdu.Canon (o : CommentReliablePdu) : Prop :=
  DatumSpecification.Canon o._datums

/-- No single-precision field of `o` is a NaN (/repo/opendis/dis7.py:6307-6310,6312-6315). -/
def CommentReliablePdu.NoNaN (o : CommentReliablePdu) : Prop :=
  True

/-- Number of bytes `serialize` writes (/repo/opendis/dis7.py:6307-6310,6312-6315). -/
def CommentReliablePdu.wireSize (o : CommentReliablePdu) : Nat := 32 + 8 * o._datums.fixedDatumRecords.length + (o._datums.variableDatumRecords.map VariableDatum.wireSize).sum

/-- The object `s` after it parsed what `o` serialized: fields of `o`, singles rounded, list elements
appended (/repo/opendis/dis7.py:6445-6458,6460-6475). -/
def DetonationPdu.after (s o : DetonationPdu) : DetonationPdu :=
  { s with
    toWarfareFamilyPdu := WarfareFamilyPdu.after s.toWarfareFamilyPdu o.toWarfareFamilyPdu,
    explodingEntityID := EntityIdentifier.after s.explodingEntityID o.explodingEntityID,
    eventID := EventIdentifier.after s.eventID o.eventID,
    velocity := Vector3Float.after s.velocity o.velocity,
    location := WorldCoordinates.after s.location o.location,
    descriptor := MunitionDescriptor.after s.descriptor o.descriptor,
    locationInEntityCoordinates := Vector3Float.after s.locationInEntityCoordinates o.locationInEntityCoordinates,
    detonationResult := o.detonationResult,
    pad := o.pad,
    variableParameters := s.variableParameters ++ o.variableParameters.map (VariableParameter.after VariableParameter.init) }

/-- Every field of `o` fits its wire type (/repo/opendis/dis7.py:6445-6458,6460-6475). -/
def DetonationPdu.WireOk (o : DetonationPdu) : Prop :=
  WarfareFamilyPdu.WireOk o.toWarfareFamilyPdu ∧
  EntityIdentifier.WireOk o.explodingEntityID ∧
  EventIdentifier.WireOk o.eventID ∧
  Vector3Float.WireOk o.velocity ∧
  MunitionDescriptor.WireOk o.descriptor ∧
  Vector3Float.WireOk o.locationInEntityCoordinates ∧
  U8 o.detonationResult ∧
  U8 ((o.variableParameters.length : Int)) ∧
  U16 o.pad ∧
  (∀ x ∈ o.variableParameters, VariableParameter.WireOk x)

/-- `o` is in the form a fresh `DetonationPdu` takes after parsing: singles exact, arrays of the fixed length,
attributes that are not on the wire at their initial value (/repo/opendis/dis7.py:6445-6458,6460-6475). -/
def DetonationPdu.Canon (o : DetonationPdu) : Prop :=
  Vector3Float.Canon o.velocity ∧
  Vector3Float.Canon o.locationInEntityCoordinates

/-- No single-precision field of `o` is a NaN (/repo/opendis/dis7.py:6445-6458,6460-6475). -/
def DetonationPdu.NoNaN (o : DetonationPdu) : Prop :=
  Vector3Float.NoNaN o.velocity ∧
  Vector3Float.NoNaN o.locationInEntityCoordinates

/-- Number of bytes `serialize` writes (/repo/opendis/dis7.py:6445-6458,6460-6475). -/
def DetonationPdu.wireSize (o : DetonationPdu) : Nat := 104 + 16 * o.variableParameters.length

/-- The object `s` after it parsed what `o` serialized: fields of `o`, singles rounded, list elements
appended (/repo/opendis/dis7.py:6512-6517,6519-6524). -/
def SetDataPdu.after (s o : SetDataPdu) : SetDataPdu :=
  { s with
    toSimulationManagementFamilyPdu := SimulationManagementFamilyPdu.after s.toSimulationManagementFamilyPdu o.toSimulationManagementFamilyPdu,
    requestID := o.requestID,
    padding1 := o.padding1,
    _datums := DatumSpecification.after s._datums o._datums }

/-- Every field of `o` fits its wire type (/repo/opendis/dis7.py:6512-6517,6519-6524). -/
def SetDataPdu.WireOk (o : SetDataPdu) : Prop :=
  SimulationManagementFamilyPdu.WireOk o.toSimulationManagementFamilyPdu ∧
  U32 o.requestID ∧
  U32 o.padding1 ∧
  DatumSpecification.WireOk o._datums

/-- `o` is in the form a fresh `SetDataPdu` takes after parsing: singles exact, arrays of the fixed length,
attributes that are not on the wire at their initial value (/repo/opendis/dis7.py:6512-6517,6519-6524). -/
def SetDataPdu.Canon (o : SetDataPdu) : Prop :=
  DatumSpecification.Canon o._datums

/-- No single-precision field of `o` is a NaN (/repo/opendis/dis7.py:6512-6517,6519-6524). -/
def SetDataPdu.NoNaN (o : SetDataPdu) : Prop :=
  True

/-- Number of bytes `serialize` writes (/repo/opendis/dis7.py:6512-6517,6519-6524). -/
def SetDataPdu.wireSize (o : SetDataPdu) : Nat := 40 + 8 * o._datums.fixedDatumRecords.length + (o._datums.variableDatumRecords.map VariableDatum.wireSize).sum

/-- The object `s` after it parsed what `o` serialized: fields of `o`, singles rounded, list elements
appended (/repo/opendis/dis7.py:6555-6566,6568-6581). -/
def RecordQueryReliablePdu.after (s o : RecordQueryReliablePdu) : RecordQueryReliablePdu :=
  { s with
    toSimulationManagementWithReliabilityFamilyPdu := SimulationManagementWithReliabilityFamilyPdu.after s.toSimulationManagementWithReliabilityFamilyPdu o.toSimulationManagementWithReliabilityFamilyPdu,
    requestID := o.requestID,
    requiredReliabilityService := o.requiredReliabilityService,
    pad1 := o.pad1,
    pad2 := o.pad2,
    eventType := o.eventType,
    time := o.time,
    recordIDs := s.recordIDs ++ [] }

/-- Every field of `o` fits its wire type (/repo/opendis/dis7.py:6555-6566,6568-6581). -/
def RecordQueryReliablePdu.WireOk (o : RecordQueryReliablePdu) : Prop :=
  SimulationManagementWithReliabilityFamilyPdu.WireOk o.toSimulationManagementWithReliabilityFamilyPdu ∧
  U32 o.requestID ∧
  U8 o.requiredReliabilityService ∧
  U16 o.pad1 ∧
  U8 o.pad2 ∧
  U16 o.eventType ∧
  U32 o.time ∧
  U32 ((o.recordIDs.length : Int)) ∧
  o.recordIDs = []

/-- `o` is in the form a fresh `RecordQueryReliablePdu` takes after parsing: singles exact, arrays of the fixed length,
attributes that are not on the wire at their initial value (/repo/opendis/dis7.py:6555-6566,6568-6581). -/
def RecordQueryReliablePdu.Canon (o : RecordQueryReliablePdu) : Prop :=
  o.recordIDs = []

/-- No single-precision field of `o` is a NaN (/repo/opendis/dis7.py:6555-6566,6568-6581). -/
def RecordQueryReliablePdu.NoNaN (o : RecordQueryReliablePdu) : Prop :=
  True

/-- Number of bytes `serialize` writes (/repo/opendis/dis7.py:6555-6566,6568-6581). -/
def RecordQueryReliablePdu.wireSize (o : RecordQueryReliablePdu) : Nat := 42

/-- The object `s` after it parsed what `o` serialized: fields of `o`, singles rounded, list elements
appended (/repo/opendis/dis7.py:6620-6625,6627-6632). -/
def ActionResponsePdu.after (s o : ActionResponsePdu) : ActionResponsePdu :=
  { s with
    toSimulationManagementFamilyPdu := SimulationManagementFamilyPdu.after s.toSimulationManagementFamilyPdu o.toSimulationManagementFamilyPdu,
    requestID := o.requestID,
    requestStatus := o.requestStatus,
    _datums := DatumSpecification.after s._datums o._datums }

/-- Every field of `o` fits its wire type (/repo/opendis/dis7.py:6620-6625,6627-6632). -/
def ActionResponsePdu.WireOk (o : ActionResponsePdu) : Prop :=
  SimulationManagementFamilyPdu.WireOk o.toSimulationManagementFamilyPdu ∧
  U32 o.requestID ∧
  U32 o.requestStatus ∧
  DatumSpecification.WireOk o._datums

/-- `o` is in the form a fresh `ActionResponsePdu` takes after parsing: singles exact, arrays of the fixed length,
attributes that are not on the wire at their initial value (/repo/opendis/dis7.py:6620-6625,6627-6632). -/
def ActionResponsePdu.Canon (o : ActionResponsePdu) : Prop :=
  DatumSpecification.Canon o._datums

/-- No single-precision field of `o` is a NaN (/repo/opendis/dis7.py:6620-6625,6627-6632). -/
def ActionResponsePdu.NoNaN (o : ActionResponsePdu) : Prop :=
  True

/-- Number of bytes `serialize` writes (/repo/opendis/dis7.py:6620-6625,6627-6632). -/
def ActionResponsePdu.wireSize (o : ActionResponsePdu) : Nat := 40 + 8 * o._datums.fixedDatumRecords.length + (o._datums.variableDatumRecords.map VariableDatum.wireSize).sum

end Dis
