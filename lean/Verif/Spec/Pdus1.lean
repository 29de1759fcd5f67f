import Verif.Model.Pdus1
import Verif.Spec.Records5

/-!
# Specification of: PDUs of `opendis/dis7.py`, part 1

Generated by `tools/genproof.py`.
-/

set_option linter.unusedVariables false
set_option linter.unusedSimpArgs false

namespace Dis

/-- The object `s` after it parsed what `o` serialized: fields of `o`, singles rounded, list elements
appended (/repo/opendis/dis7.py:3462-3469,3471-3478). -/
def PduSuperclass.after (s o : PduSuperclass) : PduSuperclass :=
  { s with
    protocolVersion := o.protocolVersion,
    exerciseID := o.exerciseID,
    pduType := o.pduType,
    protocolFamily := o.protocolFamily,
    timestamp := o.timestamp,
    length := o.length }

/-- Every field of `o` fits its wire type (/repo/opendis/dis7.py:3462-3469,3471-3478). -/
def PduSuperclass.WireOk (o : PduSuperclass) : Prop :=
  U8 o.protocolVersion ∧
  U8 o.exerciseID ∧
  U8 o.pduType ∧
  U8 o.protocolFamily ∧
  U32 o.timestamp ∧
  U16 o.length

/-- `o` is in the form a fresh `PduSuperclass` takes after parsing: singles exact, arrays of the fixed length,
attributes that are not on the wire at their initial value (/repo/opendis/dis7.py:3462-3469,3471-3478). -/
def PduSuperclass.Canon (o : PduSuperclass) : Prop :=
  True

/-- No single-precision field of `o` is a NaN (/repo/opendis/dis7.py:3462-3469,3471-3478). -/
def PduSuperclass.NoNaN (o : PduSuperclass) : Prop :=
  True

/-- Number of bytes `serialize` writes (/repo/opendis/dis7.py:3462-3469,3471-3478). -/
def PduSuperclass.wireSize (o : PduSuperclass) : Nat := 10

/-- The object `s` after it parsed what `o` serialized: fields of `o`, singles rounded, list elements
appended (/repo/opendis/dis7.py:3685-3689,3691-3695). -/
def LiveEntityPdu.after (s o : LiveEntityPdu) : LiveEntityPdu :=
  { s with
    toPduSuperclass := PduSuperclass.after s.toPduSuperclass o.toPduSuperclass,
    subprotocolNumber := o.subprotocolNumber,
    padding := o.padding }

/-- Every field of `o` fits its wire type (/repo/opendis/dis7.py:3685-3689,3691-3695). -/
def LiveEntityPdu.WireOk (o : LiveEntityPdu) : Prop :=
  PduSuperclass.WireOk o.toPduSuperclass ∧
  U16 o.subprotocolNumber ∧
  U8 o.padding

/-- `o` is in the form a fresh `LiveEntityPdu` takes after parsing: singles exact, arrays of the fixed length,
attributes that are not on the wire at their initial value (/repo/opendis/dis7.py:3685-3689,3691-3695). -/
def LiveEntityPdu.Canon (o : LiveEntityPdu) : Prop :=
  True

/-- No single-precision field of `o` is a NaN (/repo/opendis/dis7.py:3685-3689,3691-3695). -/
def LiveEntityPdu.NoNaN (o : LiveEntityPdu) : Prop :=
  True

/-- Number of bytes `serialize` writes (/repo/opendis/dis7.py:3685-3689,3691-3695). -/
def LiveEntityPdu.wireSize (o : LiveEntityPdu) : Nat := 13

/-- The object `s` after it parsed what `o` serialized: fields of `o`, singles rounded, list elements
appended (/repo/opendis/dis7.py:3708-3712,3714-3718). -/
def Pdu.after (s o : Pdu) : Pdu :=
  { s with
    toPduSuperclass := PduSuperclass.after s.toPduSuperclass o.toPduSuperclass,
    pduStatus := o.pduStatus,
    padding := o.padding }

/-- Every field of `o` fits its wire type (/repo/opendis/dis7.py:3708-3712,3714-3718). -/
def Pdu.WireOk (o : Pdu) : Prop :=
  PduSuperclass.WireOk o.toPduSuperclass ∧
  U8 o.pduStatus ∧
  U8 o.padding

/-- `o` is in the form a fresh `Pdu` takes after parsing: singles exact, arrays of the fixed length,
attributes that are not on the wire at their initial value (/repo/opendis/dis7.py:3708-3712,3714-3718). -/
def Pdu.Canon (o : Pdu) : Prop :=
  True

/-- No single-precision field of `o` is a NaN (/repo/opendis/dis7.py:3708-3712,3714-3718). -/
def Pdu.NoNaN (o : Pdu) : Prop :=
  True

/-- Number of bytes `serialize` writes (/repo/opendis/dis7.py:3708-3712,3714-3718). -/
def Pdu.wireSize (o : Pdu) : Nat := 12

/-- The object `s` after it parsed what `o` serialized: fields of `o`, singles rounded, list elements
appended (/repo/opendis/dis7.py:3732-3734,3736-3738). -/
def EntityInformationFamilyPdu.after (s o : EntityInformationFamilyPdu) : EntityInformationFamilyPdu :=
  { s with
    toPdu := Pdu.after s.toPdu o.toPdu }

/-- Every field of `o` fits its wire type (/repo/opendis/dis7.py:3732-3734,3736-3738). -/
def EntityInformationFamilyPdu.WireOk (o : EntityInformationFamilyPdu) : Prop :=
  Pdu.WireOk o.toPdu

/-- `o` is in the form a fresh `EntityInformationFamilyPdu` takes after parsing: singles exact, arrays of the fixed length,
attributes that are not on the wire at their initial value (/repo/opendis/dis7.py:3732-3734,3736-3738). -/
def EntityInformationFamilyPdu.Canon (o : EntityInformationFamilyPdu) : Prop :=
  True

/-- No single-precision field of `o` is a NaN (/repo/opendis/dis7.py:3732-3734,3736-3738). -/
def EntityInformationFamilyPdu.NoNaN (o : EntityInformationFamilyPdu) : Prop :=
  True

/-- Number of bytes `serialize` writes (/repo/opendis/dis7.py:3732-3734,3736-3738). -/
def EntityInformationFamilyPdu.wireSize (o : EntityInformationFamilyPdu) : Nat := 12

/-- The object `s` after it parsed what `o` serialized: fields of `o`, singles rounded, list elements
appended (/repo/opendis/dis7.py:3751-3753,3755-3757). -/
def LogisticsFamilyPdu.after (s o : LogisticsFamilyPdu) : LogisticsFamilyPdu :=
  { s with
    toPdu := Pdu.after s.toPdu o.toPdu }

/-- Every field of `o` fits its wire type (/repo/opendis/dis7.py:3751-3753,3755-3757). -/
def LogisticsFamilyPdu.WireOk (o : LogisticsFamilyPdu) : Prop :=
  Pdu.WireOk o.toPdu

/-- `o` is in the form a fresh `LogisticsFamilyPdu` takes after parsing: singles exact, arrays of the fixed length,
attributes that are not on the wire at their initial value (/repo/opendis/dis7.py:3751-3753,3755-3757). -/
def LogisticsFamilyPdu.Canon (o : LogisticsFamilyPdu) : Prop :=
  True

/-- No single-precision field of `o` is a NaN (/repo/opendis/dis7.py:3751-3753,3755-3757). -/
def LogisticsFamilyPdu.NoNaN (o : LogisticsFamilyPdu) : Prop :=
  True

/-- Number of bytes `serialize` writes (/repo/opendis/dis7.py:3751-3753,3755-3757). -/
def LogisticsFamilyPdu.wireSize (o : LogisticsFamilyPdu) : Nat := 12

/-- The object `s` after it parsed what `o` serialized: fields of `o`, singles rounded, list elements
appended (/repo/opendis/dis7.py:3794-3805,3807-3820). -/
def EntityStateUpdatePdu.after (s o : EntityStateUpdatePdu) : EntityStateUpdatePdu :=
  { s with
    toEntityInformationFamilyPdu := EntityInformationFamilyPdu.after s.toEntityInformationFamilyPdu o.toEntityInformationFamilyPdu,
    entityID := EntityIdentifier.after s.entityID o.entityID,
    padding1 := o.padding1,
    entityLinearVelocity := Vector3Float.after s.entityLinearVelocity o.entityLinearVelocity,
    entityLocation := WorldCoordinates.after s.entityLocation o.entityLocation,
    entityOrientation := EulerAngles.after s.entityOrientation o.entityOrientation,
    entityAppearance := o.entityAppearance,
    variableParameters := s.variableParameters ++ o.variableParameters.map (VariableParameter.after VariableParameter.init) }

/-- Every field of `o` fits its wire type (/repo/opendis/dis7.py:3794-3805,3807-3820). -/
def EntityStateUpdatePdu.WireOk (o : EntityStateUpdatePdu) : Prop :=
  EntityInformationFamilyPdu.WireOk o.toEntityInformationFamilyPdu ∧
  EntityIdentifier.WireOk o.entityID ∧
  S8 o.padding1 ∧
  U8 ((o.variableParameters.length : Int)) ∧
  Vector3Float.WireOk o.entityLinearVelocity ∧
  EulerAngles.WireOk o.entityOrientation ∧
  U32 o.entityAppearance ∧
  (∀ x ∈ o.variableParameters, VariableParameter.WireOk x)

/-- `o` is in the form a fresh `EntityStateUpdatePdu` takes after parsing: singles exact, arrays of the fixed length,
attributes that are not on the wire at their initial value (/repo/opendis/dis7.py:3794-3805,3807-3820). -/
def EntityStateUpdatePdu.Canon (o : EntityStateUpdatePdu) : Prop :=
  Vector3Float.Canon o.entityLinearVelocity ∧
  EulerAngles.Canon o.entityOrientation

/-- No single-precision field of `o` is a NaN (/repo/opendis/dis7.py:3794-3805,3807-3820). -/
def EntityStateUpdatePdu.NoNaN (o : EntityStateUpdatePdu) : Prop :=
  Vector3Float.NoNaN o.entityLinearVelocity ∧
  EulerAngles.NoNaN o.entityOrientation

/-- Number of bytes `serialize` writes (/repo/opendis/dis7.py:3794-3805,3807-3820). -/
def EntityStateUpdatePdu.wireSize (o : EntityStateUpdatePdu) : Nat := 72 + 16 * o.variableParameters.length

/-- The object `s` after it parsed what `o` serialized: fields of `o`, singles rounded, list elements
appended (/repo/opendis/dis7.py:3850-3859,3861-3872). -/
def ServiceRequestPdu.after (s o : ServiceRequestPdu) : ServiceRequestPdu :=
  { s with
    toLogisticsFamilyPdu := LogisticsFamilyPdu.after s.toLogisticsFamilyPdu o.toLogisticsFamilyPdu,
    requestingEntityID := EntityIdentifier.after s.requestingEntityID o.requestingEntityID,
    servicingEntityID := EntityIdentifier.after s.servicingEntityID o.servicingEntityID,
    serviceTypeRequested := o.serviceTypeRequested,
    serviceRequestPadding := o.serviceRequestPadding,
    supplies := s.supplies ++ o.supplies.map (SupplyQuantity.after SupplyQuantity.init) }

/-- Every field of `o` fits its wire type (/repo/opendis/dis7.py:3850-3859,3861-3872). -/
def ServiceRequestPdu.WireOk (o : ServiceRequestPdu) : Prop :=
  LogisticsFamilyPdu.WireOk o.toLogisticsFamilyPdu ∧
  EntityIdentifier.WireOk o.requestingEntityID ∧
  EntityIdentifier.WireOk o.servicingEntityID ∧
  U8 o.serviceTypeRequested ∧
  U8 ((o.supplies.length : Int)) ∧
  S16 o.serviceRequestPadding ∧
  (∀ x ∈ o.supplies, SupplyQuantity.WireOk x)

/-- `o` is in the form a fresh `ServiceRequestPdu` takes after parsing: singles exact, arrays of the fixed length,
attributes that are not on the wire at their initial value (/repo/opendis/dis7.py:3850-3859,3861-3872). -/
def ServiceRequestPdu.Canon (o : ServiceRequestPdu) : Prop :=
  ∀ x ∈ o.supplies, SupplyQuantity.Canon x

/-- No single-precision field of `o` is a NaN (/repo/opendis/dis7.py:3850-3859,3861-3872). -/
def ServiceRequestPdu.NoNaN (o : ServiceRequestPdu) : Prop :=
  ∀ x ∈ o.supplies, SupplyQuantity.NoNaN x

/-- Number of bytes `serialize` writes (/repo/opendis/dis7.py:3850-3859,3861-3872). -/
def ServiceRequestPdu.wireSize (o : ServiceRequestPdu) : Nat := 28 + 12 * o.supplies.length

/-- The object `s` after it parsed what `o` serialized: fields of `o`, singles rounded, list elements
appended (/repo/opendis/dis7.py:3896-3902,3904-3910). -/
def RepairCompletePdu.after (s o : RepairCompletePdu) : RepairCompletePdu :=
  { s with
    toLogisticsFamilyPdu := LogisticsFamilyPdu.after s.toLogisticsFamilyPdu o.toLogisticsFamilyPdu,
    receivingEntityID := EntityIdentifier.after s.receivingEntityID o.receivingEntityID,
    repairingEntityID := EntityIdentifier.after s.repairingEntityID o.repairingEntityID,
    repair := o.repair,
    padding4 := o.padding4 }

/-- Every field of `o` fits its wire type (/repo/opendis/dis7.py:3896-3902,3904-3910). -/
def RepairCompletePdu.WireOk (o : RepairCompletePdu) : Prop :=
  LogisticsFamilyPdu.WireOk o.toLogisticsFamilyPdu ∧
  EntityIdentifier.WireOk o.receivingEntityID ∧
  EntityIdentifier.WireOk o.repairingEntityID ∧
  U16 o.repair ∧
  S16 o.padding4

/-- `o` is in the form a fresh `RepairCompletePdu` takes after parsing: singles exact, arrays of the fixed length,
attributes that are not on the wire at their initial value (/repo/opendis/dis7.py:3896-3902,3904-3910). -/
def RepairCompletePdu.Canon (o : RepairCompletePdu) : Prop :=
  True

/-- No single-precision field of `o` is a NaN (/repo/opendis/dis7.py:3896-3902,3904-3910). -/
def RepairCompletePdu.NoNaN (o : RepairCompletePdu) : Prop :=
  True

/-- Number of bytes `serialize` writes (/repo/opendis/dis7.py:3896-3902,3904-3910). -/
def RepairCompletePdu.wireSize (o : RepairCompletePdu) : Nat := 28

/-- The object `s` after it parsed what `o` serialized: fields of `o`, singles rounded, list elements
appended (/repo/opendis/dis7.py:3923-3925,3927-3929). -/
def SyntheticEnvironmentFamilyPdu.after (s o : SyntheticEnvironmentFamilyPdu) : SyntheticEnvironmentFamilyPdu :=
  { s with
    toPdu := Pdu.after s.toPdu o.toPdu }

/-- Every field of `o` fits its wire type (/repo/opendis/dis7.py:3923-3925,3927-3929). -/
def SyntheticEnvironmentFamilyPdu.WireOk (o : SyntheticEnvironmentFamilyPdu) : Prop :=
  Pdu.WireOk o.toPdu

/-- `o` is in the form a fresh `SyntheticEnvironmentFamilyPdu` takes after parsing: singles exact, arrays of the fixed length,
attributes that are not on the wire at their initial value (/repo/opendis/dis7.py:3923-3925,3927-3929). -/
def SyntheticEnvironmentFamilyPdu.Canon (o : SyntheticEnvironmentFamilyPdu) : Prop :=
  True

/-- No single-precision field of `o` is a NaN (/repo/opendis/dis7.py:3923-3925,3927-3929). -/
def SyntheticEnvironmentFamilyPdu.NoNaN (o : SyntheticEnvironmentFamilyPdu) : Prop :=
  True

/-- Number of bytes `serialize` writes (/repo/opendis/dis7.py:3923-3925,3927-3929). -/
def SyntheticEnvironmentFamilyPdu.wireSize (o : SyntheticEnvironmentFamilyPdu) : Nat := 12

/-- The object `s` after it parsed what `o` serialized: fields of `o`, singles rounded, list elements
appended (/repo/opendis/dis7.py:3965-3975,3977-3987). -/
def CollisionPdu.after (s o : CollisionPdu) : CollisionPdu :=
  { s with
    toEntityInformationFamilyPdu := EntityInformationFamilyPdu.after s.toEntityInformationFamilyPdu o.toEntityInformationFamilyPdu,
    issuingEntityID := EntityIdentifier.after s.issuingEntityID o.issuingEntityID,
    collidingEntityID := EntityIdentifier.after s.collidingEntityID o.collidingEntityID,
    eventID := EventIdentifier.after s.eventID o.eventID,
    collisionType := o.collisionType,
    pad := o.pad,
    velocity := Vector3Float.after s.velocity o.velocity,
    mass := quant o.mass,
    location := Vector3Float.after s.location o.location }

/-- Every field of `o` fits its wire type (/repo/opendis/dis7.py:3965-3975,3977-3987). -/
def CollisionPdu.WireOk (o : CollisionPdu) : Prop :=
  EntityInformationFamilyPdu.WireOk o.toEntityInformationFamilyPdu ∧
  EntityIdentifier.WireOk o.issuingEntityID ∧
  EntityIdentifier.WireOk o.collidingEntityID ∧
  EventIdentifier.WireOk o.eventID ∧
  U8 o.collisionType ∧
  S8 o.pad ∧
  Vector3Float.WireOk o.velocity ∧
  F32Fits o.mass ∧
  Vector3Float.WireOk o.location

/-- `o` is in the form a fresh `CollisionPdu` takes after parsing: singles exact, arrays of the fixed length,
attributes that are not on the wire at their initial value (/repo/opendis/dis7.py:3965-3975,3977-3987). -/
def CollisionPdu.Canon (o : CollisionPdu) : Prop :=
  Vector3Float.Canon o.velocity ∧
  quant o.mass = o.mass ∧
  Vector3Float.Canon o.location

/-- No single-precision field of `o` is a NaN (/repo/opendis/dis7.py:3965-3975,3977-3987). -/
def CollisionPdu.NoNaN (o : CollisionPdu) : Prop :=
  Vector3Float.NoNaN o.velocity ∧
  ¬ o.mass.isNaN ∧
  Vector3Float.NoNaN o.location

/-- Number of bytes `serialize` writes (/repo/opendis/dis7.py:3965-3975,3977-3987). -/
def CollisionPdu.wireSize (o : CollisionPdu) : Nat := 60

/-- The object `s` after it parsed what `o` serialized: fields of `o`, singles rounded, list elements
appended (/repo/opendis/dis7.py:4011-4018,4020-4027). -/
def RepairResponsePdu.after (s o : RepairResponsePdu) : RepairResponsePdu :=
  { s with
    toLogisticsFamilyPdu := LogisticsFamilyPdu.after s.toLogisticsFamilyPdu o.toLogisticsFamilyPdu,
    receivingEntityID := EntityIdentifier.after s.receivingEntityID o.receivingEntityID,
    repairingEntityID := EntityIdentifier.after s.repairingEntityID o.repairingEntityID,
    repairResult := o.repairResult,
    padding1 := o.padding1,
    padding2 := o.padding2 }

/-- Every field of `o` fits its wire type (/repo/opendis/dis7.py:4011-4018,4020-4027). -/
def RepairResponsePdu.WireOk (o : RepairResponsePdu) : Prop :=
  LogisticsFamilyPdu.WireOk o.toLogisticsFamilyPdu ∧
  EntityIdentifier.WireOk o.receivingEntityID ∧
  EntityIdentifier.WireOk o.repairingEntityID ∧
  U8 o.repairResult ∧
  S16 o.padding1 ∧
  S8 o.padding2

/-- `o` is in the form a fresh `RepairResponsePdu` takes after parsing: singles exact, arrays of the fixed length,
attributes that are not on the wire at their initial value (/repo/opendis/dis7.py:4011-4018,4020-4027). -/
def RepairResponsePdu.Canon (o : RepairResponsePdu) : Prop :=
  True

/-- No single-precision field of `o` is a NaN (/repo/opendis/dis7.py:4011-4018,4020-4027). -/
def RepairResponsePdu.NoNaN (o : RepairResponsePdu) : Prop :=
  True

/-- Number of bytes `serialize` writes (/repo/opendis/dis7.py:4011-4018,4020-4027). -/
def RepairResponsePdu.wireSize (o : RepairResponsePdu) : Nat := 28

/-- The object `s` after it parsed what `o` serialized: fields of `o`, singles rounded, list elements
appended (/repo/opendis/dis7.py:4046-4050,4052-4056). -/
def SimulationManagementFamilyPdu.after (s o : SimulationManagementFamilyPdu) : SimulationManagementFamilyPdu :=
  { s with
    toPdu := Pdu.after s.toPdu o.toPdu,
    originatingEntityID := EntityIdentifier.after s.originatingEntityID o.originatingEntityID,
    receivingEntityID := EntityIdentifier.after s.receivingEntityID o.receivingEntityID }

/-- Every field of `o` fits its wire type (/repo/opendis/dis7.py:4046-4050,4052-4056). -/
def SimulationManagementFamilyPdu.WireOk (o : SimulationManagementFamilyPdu) : Prop :=
  Pdu.WireOk o.toPdu ∧
  EntityIdentifier.WireOk o.originatingEntityID ∧
  EntityIdentifier.WireOk o.receivingEntityID

/-- `o` is in the form a fresh `SimulationManagementFamilyPdu` takes after parsing: singles exact, arrays of the fixed length,
attributes that are not on the wire at their initial value (/repo/opendis/dis7.py:4046-4050,4052-4056). -/
def SimulationManagementFamilyPdu.Canon (o : SimulationManagementFamilyPdu) : Prop :=
  True

/-- No single-precision field of `o` is a NaN (/repo/opendis/dis7.py:4046-4050,4052-4056). -/
def SimulationManagementFamilyPdu.NoNaN (o : SimulationManagementFamilyPdu) : Prop :=
  True

/-- Number of bytes `serialize` writes (/repo/opendis/dis7.py:4046-4050,4052-4056). -/
def SimulationManagementFamilyPdu.wireSize (o : SimulationManagementFamilyPdu) : Nat := 24

/-- The object `s` after it parsed what `o` serialized: fields of `o`, singles rounded, list elements
appended (/repo/opendis/dis7.py:4095-4100,4102-4107). -/
def DataQueryPdu.after (s o : DataQueryPdu) : DataQueryPdu :=
  { s with
    toSimulationManagementFamilyPdu := SimulationManagementFamilyPdu.after s.toSimulationManagementFamilyPdu o.toSimulationManagementFamilyPdu,
    requestID := o.requestID,
    timeInterval := o.timeInterval,
    _dataQuery := DataQueryDatumSpecification.after s._dataQuery o._dataQuery }

/-- Every field of `o` fits its wire type (/repo/opendis/dis7.py:4095-4100,4102-4107). -/
def DataQueryPdu.WireOk (o : DataQueryPdu) : Prop :=
  SimulationManagementFamilyPdu.WireOk o.toSimulationManagementFamilyPdu ∧
  U32 o.requestID ∧
  U32 o.timeInterval ∧
  DataQueryDatumSpecification.WireOk o._dataQuery

/-- `o` is in the form a fresh `DataQueryPdu` takes after parsing: singles exact, arrays of the fixed length,
attributes that are not on the wire at their initial value (/repo/opendis/dis7.py:4095-4100,4102-4107). -/
def DataQueryPdu.Canon (o : DataQueryPdu) : Prop :=
  True

/-- No single-precision field of `o` is a NaN (/repo/opendis/dis7.py:4095-4100,4102-4107). -/
def DataQueryPdu.NoNaN (o : DataQueryPdu) : Prop :=
  True

/-- Number of bytes `serialize` writes (/repo/opendis/dis7.py:4095-4100,4102-4107). -/
def DataQueryPdu.wireSize (o : DataQueryPdu) : Nat := 40 + 4 * o._dataQuery.fixedDatumIDs.length + 4 * o._dataQuery.variableDatumIDs.length

end Dis
