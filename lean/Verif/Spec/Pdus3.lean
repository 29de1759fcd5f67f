import Verif.Model.Pdus3
import Verif.Spec.Pdus2

/-!
# Specification of: PDUs of `opendis/dis7.py`, part 3

Generated by `tools/genproof.py`.
-/

set_option linter.unusedVariables false
set_option linter.unusedSimpArgs false

namespace Dis

/-- The object `s` after it parsed what `o` serialized: fields of `o`, singles rounded, list elements
appended (/repo/opendis/dis7.py:4723-4737,4739-4753). -/
def DesignatorPdu.after (s o : DesignatorPdu) : DesignatorPdu :=
  { s with
    toDistributedEmissionsFamilyPdu := DistributedEmissionsFamilyPdu.after s.toDistributedEmissionsFamilyPdu o.toDistributedEmissionsFamilyPdu,
    designatingEntityID := EntityIdentifier.after s.designatingEntityID o.designatingEntityID,
    codeName := o.codeName,
    designatedEntityID := EntityIdentifier.after s.designatedEntityID o.designatedEntityID,
    designatorCode := o.designatorCode,
    designatorPower := quant o.designatorPower,
    designatorWavelength := quant o.designatorWavelength,
    designatorSpotWrtDesignated := Vector3Float.after s.designatorSpotWrtDesignated o.designatorSpotWrtDesignated,
    designatorSpotLocation := WorldCoordinates.after s.designatorSpotLocation o.designatorSpotLocation,
    deadReckoningAlgorithm := o.deadReckoningAlgorithm,
    padding1 := o.padding1,
    padding2 := o.padding2,
    entityLinearAcceleration := Vector3Float.after s.entityLinearAcceleration o.entityLinearAcceleration }

/-- Every field of `o` fits its wire type (/repo/opendis/dis7.py:4723-4737,4739-4753). -/
def DesignatorPdu.WireOk (o : DesignatorPdu) : Prop :=
  DistributedEmissionsFamilyPdu.WireOk o.toDistributedEmissionsFamilyPdu ∧
  EntityIdentifier.WireOk o.designatingEntityID ∧
  U16 o.codeName ∧
  EntityIdentifier.WireOk o.designatedEntityID ∧
  U16 o.designatorCode ∧
  F32Fits o.designatorPower ∧
  F32Fits o.designatorWavelength ∧
  Vector3Float.WireOk o.designatorSpotWrtDesignated ∧
  S8 o.deadReckoningAlgorithm ∧
  U16 o.padding1 ∧
  S8 o.padding2 ∧
  Vector3Float.WireOk o.entityLinearAcceleration

/-- `o` is in the form a fresh `DesignatorPdu` takes after parsing: singles exact, arrays of the fixed length,
attributes that are not on the wire at their initial value (/repo/opendis/dis7.py:4723-4737,4739-4753). -/
def DesignatorPdu.Canon (o : DesignatorPdu) : Prop :=
  quant o.designatorPower = o.designatorPower ∧
  quant o.designatorWavelength = o.designatorWavelength ∧
  Vector3Float.Canon o.designatorSpotWrtDesignated ∧
  Vector3Float.Canon o.entityLinearAcceleration

/-- No single-precision field of `o` is a NaN (/repo/opendis/dis7.py:4723-4737,4739-4753). -/
def DesignatorPdu.NoNaN (o : DesignatorPdu) : Prop :=
  ¬ o.designatorPower.isNaN ∧
  ¬ o.designatorWavelength.isNaN ∧
  Vector3Float.NoNaN o.designatorSpotWrtDesignated ∧
  Vector3Float.NoNaN o.entityLinearAcceleration

/-- Number of bytes `serialize` writes (/repo/opendis/dis7.py:4723-4737,4739-4753). -/
def DesignatorPdu.wireSize (o : DesignatorPdu) : Nat := 88

/-- The object `s` after it parsed what `o` serialized: fields of `o`, singles rounded, list elements
appended (/repo/opendis/dis7.py:4779-4786,4788-4795). -/
def StopFreezePdu.after (s o : StopFreezePdu) : StopFreezePdu :=
  { s with
    toSimulationManagementFamilyPdu := SimulationManagementFamilyPdu.after s.toSimulationManagementFamilyPdu o.toSimulationManagementFamilyPdu,
    realWorldTime := ClockTime.after s.realWorldTime o.realWorldTime,
    reason := o.reason,
    frozenBehavior := o.frozenBehavior,
    padding1 := o.padding1,
    requestID := o.requestID }

/-- Every field of `o` fits its wire type (/repo/opendis/dis7.py:4779-4786,4788-4795). -/
def StopFreezePdu.WireOk (o : StopFreezePdu) : Prop :=
  SimulationManagementFamilyPdu.WireOk o.toSimulationManagementFamilyPdu ∧
  ClockTime.WireOk o.realWorldTime ∧
  U8 o.reason ∧
  U8 o.frozenBehavior ∧
  S16 o.padding1 ∧
  U32 o.requestID

/-- `o` is in the form a fresh `StopFreezePdu` takes after parsing: singles exact, arrays of the fixed length,
attributes that are not on the wire at their initial value (/repo/opendis/dis7.py:4779-4786,4788-4795). -/
def StopFreezePdu.Canon (o : StopFreezePdu) : Prop :=
  True

/-- No single-precision field of `o` is a NaN (/repo/opendis/dis7.py:4779-4786,4788-4795). -/
def StopFreezePdu.NoNaN (o : StopFreezePdu) : Prop :=
  True

/-- Number of bytes `serialize` writes (/repo/opendis/dis7.py:4779-4786,4788-4795). -/
def StopFreezePdu.wireSize (o : StopFreezePdu) : Nat := 40

/-- The object `s` after it parsed what `o` serialized: fields of `o`, singles rounded, list elements
appended (/repo/opendis/dis7.py:4851-4867,4869-4887). -/
def EntityStatePdu.after (s o : EntityStatePdu) : EntityStatePdu :=
  { s with
    toEntityInformationFamilyPdu := EntityInformationFamilyPdu.after s.toEntityInformationFamilyPdu o.toEntityInformationFamilyPdu,
    entityID := EntityIdentifier.after s.entityID o.entityID,
    forceId := o.forceId,
    entityType := EntityType.after s.entityType o.entityType,
    alternativeEntityType := EntityType.after s.alternativeEntityType o.alternativeEntityType,
    entityLinearVelocity := Vector3Float.after s.entityLinearVelocity o.entityLinearVelocity,
    entityLocation := WorldCoordinates.after s.entityLocation o.entityLocation,
    entityOrientation := EulerAngles.after s.entityOrientation o.entityOrientation,
    entityAppearance := o.entityAppearance,
    deadReckoningParameters := DeadReckoningParameters.after s.deadReckoningParameters o.deadReckoningParameters,
    marking := EntityMarking.after s.marking o.marking,
    capabilities := o.capabilities,
    variableParameters := s.variableParameters ++ o.variableParameters.map (VariableParameter.after VariableParameter.init) }

/-- Every field of `o` fits its wire type (/repo/opendis/dis7.py:4851-4867,4869-4887). -/
def EntityStatePdu.WireOk (o : EntityStatePdu) : Prop :=
  EntityInformationFamilyPdu.WireOk o.toEntityInformationFamilyPdu ∧
  EntityIdentifier.WireOk o.entityID ∧
  U8 o.forceId ∧
  U8 ((o.variableParameters.length : Int)) ∧
  EntityType.WireOk o.entityType ∧
  EntityType.WireOk o.alternativeEntityType ∧
  Vector3Float.WireOk o.entityLinearVelocity ∧
  EulerAngles.WireOk o.entityOrientation ∧
  U32 o.entityAppearance ∧
  DeadReckoningParameters.WireOk o.deadReckoningParameters ∧
  EntityMarking.WireOk o.marking ∧
  U32 o.capabilities ∧
  (∀ x ∈ o.variableParameters, VariableParameter.WireOk x)

/-- `o` is in the form a fresh `EntityStatePdu` takes after parsing: singles exact, arrays of the fixed length,
attributes that are not on the wire at their initial value (/repo/opendis/dis7.py:4851-4867,4869-4887). -/
def EntityStatePdu.Canon (o : EntityStatePdu) : Prop :=
  Vector3Float.Canon o.entityLinearVelocity ∧
  EulerAngles.Canon o.entityOrientation ∧
  DeadReckoningParameters.Canon o.deadReckoningParameters ∧
  EntityMarking.Canon o.marking

/-- No single-precision field of `o` is a NaN (/repo/opendis/dis7.py:4851-4867,4869-4887). -/
def EntityStatePdu.NoNaN (o : EntityStatePdu) : Prop :=
  Vector3Float.NoNaN o.entityLinearVelocity ∧
  EulerAngles.NoNaN o.entityOrientation ∧
  DeadReckoningParameters.NoNaN o.deadReckoningParameters

/-- Number of bytes `serialize` writes (/repo/opendis/dis7.py:4851-4867,4869-4887). -/
def EntityStatePdu.wireSize (o : EntityStatePdu) : Nat := 144 + 16 * o.variableParameters.length

/-- The object `s` after it parsed what `o` serialized: fields of `o`, singles rounded, list elements
appended (/repo/opendis/dis7.py:4900-4902,4904-4906). -/
def EntityManagementFamilyPdu.after (s o : EntityManagementFamilyPdu) : EntityManagementFamilyPdu :=
  { s with
    toPdu := Pdu.after s.toPdu o.toPdu }

/-- Every field of `o` fits its wire type (/repo/opendis/dis7.py:4900-4902,4904-4906). -/
def EntityManagementFamilyPdu.WireOk (o : EntityManagementFamilyPdu) : Prop :=
  Pdu.WireOk o.toPdu

/-- `o` is in the form a fresh `EntityManagementFamilyPdu` takes after parsing: singles exact, arrays of the fixed length,
attributes that are not on the wire at their initial value (/repo/opendis/dis7.py:4900-4902,4904-4906). -/
def EntityManagementFamilyPdu.Canon (o : EntityManagementFamilyPdu) : Prop :=
  True

/-- No single-precision field of `o` is a NaN (/repo/opendis/dis7.py:4900-4902,4904-4906). -/
def EntityManagementFamilyPdu.NoNaN (o : EntityManagementFamilyPdu) : Prop :=
  True

/-- Number of bytes `serialize` writes (/repo/opendis/dis7.py:4900-4902,4904-4906). -/
def EntityManagementFamilyPdu.wireSize (o : EntityManagementFamilyPdu) : Nat := 12

/-- The object `s` after it parsed what `o` serialized: fields of `o`, singles rounded, list elements
appended (/repo/opendis/dis7.py:4928-4933,4935-4940). -/
def StartResumePdu.after (s o : StartResumePdu) : StartResumePdu :=
  { s with
    toSimulationManagementFamilyPdu := SimulationManagementFamilyPdu.after s.toSimulationManagementFamilyPdu o.toSimulationManagementFamilyPdu,
    realWorldTime := ClockTime.after s.realWorldTime o.realWorldTime,
    simulationTime := ClockTime.after s.simulationTime o.simulationTime,
    requestID := o.requestID }

/-- Every field of `o` fits its wire type (/repo/opendis/dis7.py:4928-4933,4935-4940). -/
def StartResumePdu.WireOk (o : StartResumePdu) : Prop :=
  SimulationManagementFamilyPdu.WireOk o.toSimulationManagementFamilyPdu ∧
  ClockTime.WireOk o.realWorldTime ∧
  ClockTime.WireOk o.simulationTime ∧
  U32 o.requestID

/-- `o` is in the form a fresh `StartResumePdu` takes after parsing: singles exact, arrays of the fixed length,
attributes that are not on the wire at their initial value (/repo/opendis/dis7.py:4928-4933,4935-4940). -/
def StartResumePdu.Canon (o : StartResumePdu) : Prop :=
  True

/-- No single-precision field of `o` is a NaN (/repo/opendis/dis7.py:4928-4933,4935-4940). -/
def StartResumePdu.NoNaN (o : StartResumePdu) : Prop :=
  True

/-- Number of bytes `serialize` writes (/repo/opendis/dis7.py:4928-4933,4935-4940). -/
def StartResumePdu.wireSize (o : StartResumePdu) : Nat := 44

/-- The object `s` after it parsed what `o` serialized: fields of `o`, singles rounded, list elements
appended (/repo/opendis/dis7.py:5146-5155,5157-5169). -/
def ElectromagneticEmissionsPdu.after (s o : ElectromagneticEmissionsPdu) : ElectromagneticEmissionsPdu :=
  { s with
    toDistributedEmissionsFamilyPdu := DistributedEmissionsFamilyPdu.after s.toDistributedEmissionsFamilyPdu o.toDistributedEmissionsFamilyPdu,
    emittingEntityID := EntityIdentifier.after s.emittingEntityID o.emittingEntityID,
    eventID := EventIdentifier.after s.eventID o.eventID,
    stateUpdateIndicator := o.stateUpdateIndicator,
    paddingForEmissionsPdu := o.paddingForEmissionsPdu,
    systems := s.systems ++ o.systems.map (EmissionSystemRecord.after EmissionSystemRecord.init) }

/-- Every field of `o` fits its wire type (/repo/opendis/dis7.py:5146-5155,5157-5169). -/
def ElectromagneticEmissionsPdu.WireOk (o : ElectromagneticEmissionsPdu) : Prop :=
  DistributedEmissionsFamilyPdu.WireOk o.toDistributedEmissionsFamilyPdu ∧
  EntityIdentifier.WireOk o.emittingEntityID ∧
  EventIdentifier.WireOk o.eventID ∧
  U8 o.stateUpdateIndicator ∧
  U8 ((o.systems.length : Int)) ∧
  U16 o.paddingForEmissionsPdu ∧
  (∀ x ∈ o.systems, EmissionSystemRecord.WireOk x)

/-- `o` is in the form a fresh `ElectromagneticEmissionsPdu` takes after parsing: singles exact, arrays of the fixed length,
attributes that are not on the wire at their initial value (/repo/opendis/dis7.py:5146-5155,5157-5169). -/
def ElectromagneticEmissionsPdu.Canon (o : ElectromagneticEmissionsPdu) : Prop :=
  ∀ x ∈ o.systems, EmissionSystemRecord.Canon x

/-- No single-precision field of `o` is a NaN (/repo/opendis/dis7.py:5146-5155,5157-5169). -/
def ElectromagneticEmissionsPdu.NoNaN (o : ElectromagneticEmissionsPdu) : Prop :=
  ∀ x ∈ o.systems, EmissionSystemRecord.NoNaN x

/-- Number of bytes `serialize` writes (/repo/opendis/dis7.py:5146-5155,5157-5169). -/
def ElectromagneticEmissionsPdu.wireSize (o : ElectromagneticEmissionsPdu) : Nat := 28 + (o.systems.map EmissionSystemRecord.wireSize).sum

/-- The object `s` after it parsed what `o` serialized: fields of `o`, singles rounded, list elements
appended (/repo/opendis/dis7.py:5305-5314,5316-5327). -/
def ResupplyOfferPdu.after (s o : ResupplyOfferPdu) : ResupplyOfferPdu :=
  { s with
    toLogisticsFamilyPdu := LogisticsFamilyPdu.after s.toLogisticsFamilyPdu o.toLogisticsFamilyPdu,
    receivingEntityID := EntityIdentifier.after s.receivingEntityID o.receivingEntityID,
    supplyingEntityID := EntityIdentifier.after s.supplyingEntityID o.supplyingEntityID,
    padding1 := o.padding1,
    padding2 := o.padding2,
    supplies := s.supplies ++ o.supplies.map (SupplyQuantity.after SupplyQuantity.init) }

/-- Every field of `o` fits its wire type (/repo/opendis/dis7.py:5305-5314,5316-5327). -/
def ResupplyOfferPdu.WireOk (o : ResupplyOfferPdu) : Prop :=
  LogisticsFamilyPdu.WireOk o.toLogisticsFamilyPdu ∧
  EntityIdentifier.WireOk o.receivingEntityID ∧
  EntityIdentifier.WireOk o.supplyingEntityID ∧
  U8 ((o.supplies.length : Int)) ∧
  S8 o.padding1 ∧
  S16 o.padding2 ∧
  (∀ x ∈ o.supplies, SupplyQuantity.WireOk x)

/-- `o` is in the form a fresh `ResupplyOfferPdu` takes after parsing: singles exact, arrays of the fixed length,
attributes that are not on the wire at their initial value (/repo/opendis/dis7.py:5305-5314,5316-5327). -/
def ResupplyOfferPdu.Canon (o : ResupplyOfferPdu) : Prop :=
  ∀ x ∈ o.supplies, SupplyQuantity.Canon x

/-- No single-precision field of `o` is a NaN (/repo/opendis/dis7.py:5305-5314,5316-5327). -/
def ResupplyOfferPdu.NoNaN (o : ResupplyOfferPdu) : Prop :=
  ∀ x ∈ o.supplies, SupplyQuantity.NoNaN x

/-- Number of bytes `serialize` writes (/repo/opendis/dis7.py:5305-5314,5316-5327). -/
def ResupplyOfferPdu.wireSize (o : ResupplyOfferPdu) : Nat := 28 + 12 * o.supplies.length

/-- The object `s` after it parsed what `o` serialized: fields of `o`, singles rounded, list elements
appended (/repo/opendis/dis7.py:5367-5378,5380-5391). -/
def AttributePdu.after (s o : AttributePdu) : AttributePdu :=
  { s with
    toEntityInformationFamilyPdu := EntityInformationFamilyPdu.after s.toEntityInformationFamilyPdu o.toEntityInformationFamilyPdu,
    originatingSimulationAddress := SimulationAddress.after s.originatingSimulationAddress o.originatingSimulationAddress,
    padding1 := o.padding1,
    padding2 := o.padding2,
    attributeRecordPduType := o.attributeRecordPduType,
    attributeRecordProtocolVersion := o.attributeRecordProtocolVersion,
    masterAttributeRecordType := o.masterAttributeRecordType,
    actionCode := o.actionCode,
    padding3 := o.padding3,
    numberOfAttributeRecordSets := o.numberOfAttributeRecordSets }

/-- Every field of `o` fits its wire type (/repo/opendis/dis7.py:5367-5378,5380-5391). -/
def AttributePdu.WireOk (o : AttributePdu) : Prop :=
  EntityInformationFamilyPdu.WireOk o.toEntityInformationFamilyPdu ∧
  SimulationAddress.WireOk o.originatingSimulationAddress ∧
  S32 o.padding1 ∧
  S16 o.padding2 ∧
  U8 o.attributeRecordPduType ∧
  U8 o.attributeRecordProtocolVersion ∧
  U32 o.masterAttributeRecordType ∧
  U8 o.actionCode ∧
  S8 o.padding3 ∧
  U16 o.numberOfAttributeRecordSets

/-- `o` is in the form a fresh `AttributePdu` takes after parsing: singles exact, arrays of the fixed length,
attributes that are not on the wire at their initial value (/repo/opendis/dis7.py:5367-5378,5380-5391). -/
def AttributePdu.Canon (o : AttributePdu) : Prop :=
  True

/-- No single-precision field of `o` is a NaN (/repo/opendis/dis7.py:5367-5378,5380-5391). -/
def AttributePdu.NoNaN (o : AttributePdu) : Prop :=
  True

/-- Number of bytes `serialize` writes (/repo/opendis/dis7.py:5367-5378,5380-5391). -/
def AttributePdu.wireSize (o : AttributePdu) : Nat := 32

/-- The object `s` after it parsed what `o` serialized: fields of `o`, singles rounded, list elements
appended (/repo/opendis/dis7.py:5404-5406,5408-5410). -/
def MinefieldFamilyPdu.after (s o : MinefieldFamilyPdu) : MinefieldFamilyPdu :=
  { s with
    toPdu := Pdu.after s.toPdu o.toPdu }

/-- Every field of `o` fits its wire type (/repo/opendis/dis7.py:5404-5406,5408-5410). -/
def MinefieldFamilyPdu.WireOk (o : MinefieldFamilyPdu) : Prop :=
  Pdu.WireOk o.toPdu

/-- `o` is in the form a fresh `MinefieldFamilyPdu` takes after parsing: singles exact, arrays of the fixed length,
attributes that are not on the wire at their initial value (/repo/opendis/dis7.py:5404-5406,5408-5410). -/
def MinefieldFamilyPdu.Canon (o : MinefieldFamilyPdu) : Prop :=
  True

/-- No single-precision field of `o` is a NaN (/repo/opendis/dis7.py:5404-5406,5408-5410). -/
def MinefieldFamilyPdu.NoNaN (o : MinefieldFamilyPdu) : Prop :=
  True

/-- Number of bytes `serialize` writes (/repo/opendis/dis7.py:5404-5406,5408-5410). -/
def MinefieldFamilyPdu.wireSize (o : MinefieldFamilyPdu) : Nat := 12

/-- The object `s` after it parsed what `o` serialized: fields of `o`, singles rounded, list elements
appended (/repo/opendis/dis7.py:5452-5459,5461-5468). -/
def SetDataReliablePdu.after (s o : SetDataReliablePdu) : SetDataReliablePdu :=
  { s with
    toSimulationManagementWithReliabilityFamilyPdu := SimulationManagementWithReliabilityFamilyPdu.after s.toSimulationManagementWithReliabilityFamilyPdu o.toSimulationManagementWithReliabilityFamilyPdu,
    requiredReliabilityService := o.requiredReliabilityService,
    pad1 := o.pad1,
    pad2 := o.pad2,
    requestID := o.requestID,
    _datums := DatumSpecification.after s._datums o._datums }

/-- Every field of `o` fits its wire type (/repo/opendis/dis7.py:5452-5459,5461-5468). -/
def SetDataReliablePdu.WireOk (o : SetDataReliablePdu) : Prop :=
  SimulationManagementWithReliabilityFamilyPdu.WireOk o.toSimulationManagementWithReliabilityFamilyPdu ∧
  U8 o.requiredReliabilityService ∧
  U16 o.pad1 ∧
  U8 o.pad2 ∧
  U32 o.requestID ∧
  DatumSpecification.WireOk o._datums

/-- `o` is in the form a fresh `SetDataReliablePdu` takes after parsing: singles exact, arrays of the fixed length,
attributes that are not on the wire at their initial value (/repo/opendis/dis7.py:5452-5459,5461-5468). -/
def SetDataReliablePdu.Canon (o : SetDataReliablePdu) : Prop :=
  DatumSpecification.Canon o._datums

/-- No single-precision field of `o` is a NaN (/repo/opendis/dis7.py:5452-5459,5461-5468). -/
def SetDataReliablePdu.NoNaN (o : SetDataReliablePdu) : Prop :=
  True

/-- Number of bytes `serialize` writes (/repo/opendis/dis7.py:5452-5459,5461-5468). -/
def SetDataReliablePdu.wireSize (o : SetDataReliablePdu) : Nat := 40 + 8 * o._datums.fixedDatumRecords.length + (o._datums.variableDatumRecords.map VariableDatum.wireSize).sum

/-- The object `s` after it parsed what `o` serialized: fields of `o`, singles rounded, list elements
appended (/repo/opendis/dis7.py:5490-5495,5497-5502). -/
def EventReportPdu.after (s o : EventReportPdu) : EventReportPdu :=
  { s with
    toSimulationManagementFamilyPdu := SimulationManagementFamilyPdu.after s.toSimulationManagementFamilyPdu o.toSimulationManagementFamilyPdu,
    eventType := o.eventType,
    padding1 := o.padding1,
    _datums := DatumSpecification.after s._datums o._datums }

/-- Every field of `o` fits its wire type (/repo/opendis/dis7.py:5490-5495,5497-5502). -/
def EventReportPdu.WireOk (o : EventReportPdu) : Prop :=
  SimulationManagementFamilyPdu.WireOk o.toSimulationManagementFamilyPdu ∧
  U32 o.eventType ∧
  U32 o.padding1 ∧
  DatumSpecification.WireOk o._datums

/-- `o` is in the form a fresh `EventReportPdu` takes after parsing: singles exact, arrays of the fixed length,
attributes that are not on the wire at their initial value (/repo/opendis/dis7.py:5490-5495,5497-5502). -/
def EventReportPdu.Canon (o : EventReportPdu) : Prop :=
  DatumSpecification.Canon o._datums

/-- No single-precision field of `o` is a NaN (/repo/opendis/dis7.py:5490-5495,5497-5502). -/
def EventReportPdu.NoNaN (o : EventReportPdu) : Prop :=
  True

/-- Number of bytes `serialize` writes (/repo/opendis/dis7.py:5490-5495,5497-5502). -/
def EventReportPdu.wireSize (o : EventReportPdu) : Nat := 40 + 8 * o._datums.fixedDatumRecords.length + (o._datums.variableDatumRecords.map VariableDatum.wireSize).sum

/-- The object `s` after it parsed what `o` serialized: fields of `o`, singles rounded, list elements
appended (/repo/opendis/dis7.py:5552-5566,5568-5582). -/
def PointObjectStatePdu.after (s o : PointObjectStatePdu) : PointObjectStatePdu :=
  { s with
    toSyntheticEnvironmentFamilyPdu := SyntheticEnvironmentFamilyPdu.after s.toSyntheticEnvironmentFamilyPdu o.toSyntheticEnvironmentFamilyPdu,
    objectID := EntityIdentifier.after s.objectID o.objectID,
    referencedObjectID := EntityIdentifier.after s.referencedObjectID o.referencedObjectID,
    updateNumber := o.updateNumber,
    forceID := o.forceID,
    modifications := o.modifications,
    objectType := ObjectType.after s.objectType o.objectType,
    objectLocation := WorldCoordinates.after s.objectLocation o.objectLocation,
    objectOrientation := EulerAngles.after s.objectOrientation o.objectOrientation,
    objectAppearance := o.objectAppearance,
    requesterID := SimulationAddress.after s.requesterID o.requesterID,
    receivingID := SimulationAddress.after s.receivingID o.receivingID,
    pad2 := o.pad2 }

/-- Every field of `o` fits its wire type (/repo/opendis/dis7.py:5552-5566,5568-5582). -/
def PointObjectStatePdu.WireOk (o : PointObjectStatePdu) : Prop :=
  SyntheticEnvironmentFamilyPdu.WireOk o.toSyntheticEnvironmentFamilyPdu ∧
  EntityIdentifier.WireOk o.objectID ∧
  EntityIdentifier.WireOk o.referencedObjectID ∧
  U16 o.updateNumber ∧
  U8 o.forceID ∧
  U8 o.modifications ∧
  ObjectType.WireOk o.objectType ∧
  EulerAngles.WireOk o.objectOrientation ∧
  SimulationAddress.WireOk o.requesterID ∧
  SimulationAddress.WireOk o.receivingID ∧
  U32 o.pad2

/-- `o` is in the form a fresh `PointObjectStatePdu` takes after parsing: singles exact, arrays of the fixed length,
attributes that are not on the wire at their initial value (/repo/opendis/dis7.py:5552-5566,5568-5582). -/
def PointObjectStatePdu.Canon (o : PointObjectStatePdu) : Prop :=
  EulerAngles.Canon o.objectOrientation ∧
  o.pad1 = 0

/-- No single-precision field of `o` is a NaN (/repo/opendis/dis7.py:5552-5566,5568-5582). -/
def PointObjectStatePdu.NoNaN (o : PointObjectStatePdu) : Prop :=
  EulerAngles.NoNaN o.objectOrientation

/-- Number of bytes `serialize` writes (/repo/opendis/dis7.py:5552-5566,5568-5582). -/
def PointObjectStatePdu.wireSize (o : PointObjectStatePdu) : Nat := 88

/-- The object `s` after it parsed what `o` serialized: fields of `o`, singles rounded, list elements
appended (/repo/opendis/dis7.py:5621-5626,5628-5634). -/
def DataPdu.after (s o : DataPdu) : DataPdu :=
  { s with
    toSimulationManagementFamilyPdu := SimulationManagementFamilyPdu.after s.toSimulationManagementFamilyPdu o.toSimulationManagementFamilyPdu,
    requestID := o.requestID,
    padding1 := o.padding1,
    _datums := DatumSpecification.after s._datums o._datums }

/-- Every field of `o` fits its wire type (/repo/opendis/dis7.py:5621-5626,5628-5634). -/
def DataPdu.WireOk (o : DataPdu) : Prop :=
  SimulationManagementFamilyPdu.WireOk o.toSimulationManagementFamilyPdu ∧
  U32 o.requestID ∧
  U32 o.padding1 ∧
  DatumSpecification.WireOk o._datums

/-- `o` is in the form a fresh `DataPdu` takes after parsing: singles exact, arrays of the fixed length,
attributes that are not on the wire at their initial value (/repo/opendis/dis7.py:5621-5626,5628-5634). -/
def DataPdu.Canon (o : DataPdu) : Prop :=
  DatumSpecification.Canon o._datums

/-- No single-precision field of `o` is a NaN (/repo/opendis/dis7.py:5621-5626,5628-5634). -/
def DataPdu.NoNaN (o : DataPdu) : Prop :=
  True

/-- Number of bytes `serialize` writes (/repo/opendis/dis7.py:5621-5626,5628-5634). -/
def DataPdu.wireSize (o : DataPdu) : Nat := 40 + 8 * o._datums.fixedDatumRecords.length + (o._datums.variableDatumRecords.map VariableDatum.wireSize).sum

end Dis
