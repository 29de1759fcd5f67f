import Verif.Model.Pdus2
import Verif.Spec.Pdus1

/-!
# Specification of: PDUs of `opendis/dis7.py`, part 2

Generated by `tools/genproof.py`.
-/

set_option linter.unusedVariables false
set_option linter.unusedSimpArgs false

namespace Dis

/-- The object `s` after it parsed what `o` serialized: fields of `o`, singles rounded, list elements
appended (/repo/opendis/dis7.py:4147-4159,4161-4175). -/
def LinearObjectStatePdu.after (s o : LinearObjectStatePdu) : LinearObjectStatePdu :=
  { s with
    toSyntheticEnvironmentFamilyPdu := SyntheticEnvironmentFamilyPdu.after s.toSyntheticEnvironmentFamilyPdu o.toSyntheticEnvironmentFamilyPdu,
    objectID := EntityIdentifier.after s.objectID o.objectID,
    referencedObjectID := EntityIdentifier.after s.referencedObjectID o.referencedObjectID,
    updateNumber := o.updateNumber,
    forceID := o.forceID,
    requesterID := SimulationAddress.after s.requesterID o.requesterID,
    receivingID := SimulationAddress.after s.receivingID o.receivingID,
    objectType := ObjectType.after s.objectType o.objectType,
    linearSegmentParameters := s.linearSegmentParameters ++ o.linearSegmentParameters.map (LinearSegmentParameter.after LinearSegmentParameter.init) }

/-- Every field of `o` fits its wire type (/repo/opendis/dis7.py:4147-4159,4161-4175). -/
def LinearObjectStatePdu.WireOk (o : LinearObjectStatePdu) : Prop :=
  SyntheticEnvironmentFamilyPdu.WireOk o.toSyntheticEnvironmentFamilyPdu ∧
  EntityIdentifier.WireOk o.objectID ∧
  EntityIdentifier.WireOk o.referencedObjectID ∧
  U16 o.updateNumber ∧
  U8 o.forceID ∧
  U8 ((o.linearSegmentParameters.length : Int)) ∧
  SimulationAddress.WireOk o.requesterID ∧
  SimulationAddress.WireOk o.receivingID ∧
  ObjectType.WireOk o.objectType ∧
  (∀ x ∈ o.linearSegmentParameters, LinearSegmentParameter.WireOk x)

/-- `o` is in the form a fresh `LinearObjectStatePdu` takes after parsing: singles exact, arrays of the fixed length,
attributes that are not on the wire at their initial value (/repo/opendis/dis7.py:4147-4159,4161-4175). -/
def LinearObjectStatePdu.Canon (o : LinearObjectStatePdu) : Prop :=
  ∀ x ∈ o.linearSegmentParameters, LinearSegmentParameter.Canon x

/-- No single-precision field of `o` is a NaN (/repo/opendis/dis7.py:4147-4159,4161-4175). -/
def LinearObjectStatePdu.NoNaN (o : LinearObjectStatePdu) : Prop :=
  ∀ x ∈ o.linearSegmentParameters, LinearSegmentParameter.NoNaN x

/-- Number of bytes `serialize` writes (/repo/opendis/dis7.py:4147-4159,4161-4175). -/
def LinearObjectStatePdu.wireSize (o : LinearObjectStatePdu) : Nat := 40 + 64 * o.linearSegmentParameters.length

/-- The object `s` after it parsed what `o` serialized: fields of `o`, singles rounded, list elements
appended (/repo/opendis/dis7.py:4190-4193,4195-4198). -/
def CreateEntityPdu.after (s o : CreateEntityPdu) : CreateEntityPdu :=
  { s with
    toSimulationManagementFamilyPdu := SimulationManagementFamilyPdu.after s.toSimulationManagementFamilyPdu o.toSimulationManagementFamilyPdu,
    requestID := o.requestID }

/-- Every field of `o` fits its wire type (/repo/opendis/dis7.py:4190-4193,4195-4198). -/
def CreateEntityPdu.WireOk (o : CreateEntityPdu) : Prop :=
  SimulationManagementFamilyPdu.WireOk o.toSimulationManagementFamilyPdu ∧
  U32 o.requestID

/-- `o` is in the form a fresh `CreateEntityPdu` takes after parsing: singles exact, arrays of the fixed length,
attributes that are not on the wire at their initial value (/repo/opendis/dis7.py:4190-4193,4195-4198). -/
def CreateEntityPdu.Canon (o : CreateEntityPdu) : Prop :=
  True

/-- No single-precision field of `o` is a NaN (/repo/opendis/dis7.py:4190-4193,4195-4198). -/
def CreateEntityPdu.NoNaN (o : CreateEntityPdu) : Prop :=
  True

/-- Number of bytes `serialize` writes (/repo/opendis/dis7.py:4190-4193,4195-4198). -/
def CreateEntityPdu.wireSize (o : CreateEntityPdu) : Nat := 28

/-- The object `s` after it parsed what `o` serialized: fields of `o`, singles rounded, list elements
appended (/repo/opendis/dis7.py:4211-4213,4215-4217). -/
def RadioCommunicationsFamilyPdu.after (s o : RadioCommunicationsFamilyPdu) : RadioCommunicationsFamilyPdu :=
  { s with
    toPdu := Pdu.after s.toPdu o.toPdu }

/-- Every field of `o` fits its wire type (/repo/opendis/dis7.py:4211-4213,4215-4217). -/
def RadioCommunicationsFamilyPdu.WireOk (o : RadioCommunicationsFamilyPdu) : Prop :=
  Pdu.WireOk o.toPdu

/-- `o` is in the form a fresh `RadioCommunicationsFamilyPdu` takes after parsing: singles exact, arrays of the fixed length,
attributes that are not on the wire at their initial value (/repo/opendis/dis7.py:4211-4213,4215-4217). -/
def RadioCommunicationsFamilyPdu.Canon (o : RadioCommunicationsFamilyPdu) : Prop :=
  True

/-- No single-precision field of `o` is a NaN (/repo/opendis/dis7.py:4211-4213,4215-4217). -/
def RadioCommunicationsFamilyPdu.NoNaN (o : RadioCommunicationsFamilyPdu) : Prop :=
  True

/-- Number of bytes `serialize` writes (/repo/opendis/dis7.py:4211-4213,4215-4217). -/
def RadioCommunicationsFamilyPdu.wireSize (o : RadioCommunicationsFamilyPdu) : Nat := 12

/-- The object `s` after it parsed what `o` serialized: fields of `o`, singles rounded, list elements
appended (/repo/opendis/dis7.py:4252-4263,4265-4280). -/
def IntercomSignalPdu.after (s o : IntercomSignalPdu) : IntercomSignalPdu :=
  { s with
    toRadioCommunicationsFamilyPdu := RadioCommunicationsFamilyPdu.after s.toRadioCommunicationsFamilyPdu o.toRadioCommunicationsFamilyPdu,
    entityID := EntityIdentifier.after s.entityID o.entityID,
    communicationsDeviceID := o.communicationsDeviceID,
    encodingScheme := o.encodingScheme,
    tdlType := o.tdlType,
    sampleRate := o.sampleRate,
    samples := o.samples,
    data := s.data ++ [] }

/-- Every field of `o` fits its wire type (/repo/opendis/dis7.py:4252-4263,4265-4280). -/
def IntercomSignalPdu.WireOk (o : IntercomSignalPdu) : Prop :=
  RadioCommunicationsFamilyPdu.WireOk o.toRadioCommunicationsFamilyPdu ∧
  EntityIdentifier.WireOk o.entityID ∧
  U16 o.communicationsDeviceID ∧
  U16 o.encodingScheme ∧
  U16 o.tdlType ∧
  U32 o.sampleRate ∧
  U16 ((o.data.length : Int) * 8) ∧
  U16 o.samples ∧
  o.data = []

/-- `o` is in the form a fresh `IntercomSignalPdu` takes after parsing: singles exact, arrays of the fixed length,
attributes that are not on the wire at their initial value (/repo/opendis/dis7.py:4252-4263,4265-4280). -/
def IntercomSignalPdu.Canon (o : IntercomSignalPdu) : Prop :=
  o.data = []

/-- No single-precision field of `o` is a NaN (/repo/opendis/dis7.py:4252-4263,4265-4280). -/
def IntercomSignalPdu.NoNaN (o : IntercomSignalPdu) : Prop :=
  True

/-- Number of bytes `serialize` writes (/repo/opendis/dis7.py:4252-4263,4265-4280). -/
def IntercomSignalPdu.wireSize (o : IntercomSignalPdu) : Nat := 32

/-- The object `s` after it parsed what `o` serialized: fields of `o`, singles rounded, list elements
appended (/repo/opendis/dis7.py:4297-4300,4302-4305). -/
def RemoveEntityPdu.after (s o : RemoveEntityPdu) : RemoveEntityPdu :=
  { s with
    toSimulationManagementFamilyPdu := SimulationManagementFamilyPdu.after s.toSimulationManagementFamilyPdu o.toSimulationManagementFamilyPdu,
    requestID := o.requestID }

/-- Every field of `o` fits its wire type (/repo/opendis/dis7.py:4297-4300,4302-4305). -/
def RemoveEntityPdu.WireOk (o : RemoveEntityPdu) : Prop :=
  SimulationManagementFamilyPdu.WireOk o.toSimulationManagementFamilyPdu ∧
  U32 o.requestID

/-- `o` is in the form a fresh `RemoveEntityPdu` takes after parsing: singles exact, arrays of the fixed length,
attributes that are not on the wire at their initial value (/repo/opendis/dis7.py:4297-4300,4302-4305). -/
def RemoveEntityPdu.Canon (o : RemoveEntityPdu) : Prop :=
  True

/-- No single-precision field of `o` is a NaN (/repo/opendis/dis7.py:4297-4300,4302-4305). -/
def RemoveEntityPdu.NoNaN (o : RemoveEntityPdu) : Prop :=
  True

/-- Number of bytes `serialize` writes (/repo/opendis/dis7.py:4297-4300,4302-4305). -/
def RemoveEntityPdu.wireSize (o : RemoveEntityPdu) : Nat := 28

/-- The object `s` after it parsed what `o` serialized: fields of `o`, singles rounded, list elements
appended (/repo/opendis/dis7.py:4333-4342,4344-4355). -/
def ResupplyReceivedPdu.after (s o : ResupplyReceivedPdu) : ResupplyReceivedPdu :=
  { s with
    toLogisticsFamilyPdu := LogisticsFamilyPdu.after s.toLogisticsFamilyPdu o.toLogisticsFamilyPdu,
    receivingEntityID := EntityIdentifier.after s.receivingEntityID o.receivingEntityID,
    supplyingEntityID := EntityIdentifier.after s.supplyingEntityID o.supplyingEntityID,
    padding1 := o.padding1,
    padding2 := o.padding2,
    supplies := s.supplies ++ [] }

/-- Every field of `o` fits its wire type (/repo/opendis/dis7.py:4333-4342,4344-4355). -/
def ResupplyReceivedPdu.WireOk (o : ResupplyReceivedPdu) : Prop :=
  LogisticsFamilyPdu.WireOk o.toLogisticsFamilyPdu ∧
  EntityIdentifier.WireOk o.receivingEntityID ∧
  EntityIdentifier.WireOk o.supplyingEntityID ∧
  U8 ((o.supplies.length : Int)) ∧
  S16 o.padding1 ∧
  S8 o.padding2 ∧
  (∀ x ∈ o.supplies, SupplyQuantity.WireOk x)

/-- `o` is in the form a fresh `ResupplyReceivedPdu` takes after parsing: singles exact, arrays of the fixed length,
attributes that are not on the wire at their initial value (/repo/opendis/dis7.py:4333-4342,4344-4355). -/
def ResupplyReceivedPdu.Canon (o : ResupplyReceivedPdu) : Prop :=
  o.supplies = []

/-- No single-precision field of `o` is a NaN (/repo/opendis/dis7.py:4333-4342,4344-4355). -/
def ResupplyReceivedPdu.NoNaN (o : ResupplyReceivedPdu) : Prop :=
  True

/-- `o` avoids the lists that `parse` cannot read back (/repo/opendis/dis7.py:4333-4342,4344-4355). -/
def ResupplyReceivedPdu.Decodable (o : ResupplyReceivedPdu) : Prop :=
  o.supplies = []

/-- Number of bytes `serialize` writes (/repo/opendis/dis7.py:4333-4342,4344-4355). -/
def ResupplyReceivedPdu.wireSize (o : ResupplyReceivedPdu) : Nat := 28 + 12 * o.supplies.length

/-- The object `s` after it parsed what `o` serialized: fields of `o`, singles rounded, list elements
appended (/repo/opendis/dis7.py:4375-4379,4381-4385). -/
def WarfareFamilyPdu.after (s o : WarfareFamilyPdu) : WarfareFamilyPdu :=
  { s with
    toPdu := Pdu.after s.toPdu o.toPdu,
    firingEntityID := EntityIdentifier.after s.firingEntityID o.firingEntityID,
    targetEntityID := EntityIdentifier.after s.targetEntityID o.targetEntityID }

/-- Every field of `o` fits its wire type (/repo/opendis/dis7.py:4375-4379,4381-4385). -/
def WarfareFamilyPdu.WireOk (o : WarfareFamilyPdu) : Prop :=
  Pdu.WireOk o.toPdu ∧
  EntityIdentifier.WireOk o.firingEntityID ∧
  EntityIdentifier.WireOk o.targetEntityID

/-- `o` is in the form a fresh `WarfareFamilyPdu` takes after parsing: singles exact, arrays of the fixed length,
attributes that are not on the wire at their initial value (/repo/opendis/dis7.py:4375-4379,4381-4385). -/
def WarfareFamilyPdu.Canon (o : WarfareFamilyPdu) : Prop :=
  True

/-- No single-precision field of `o` is a NaN (/repo/opendis/dis7.py:4375-4379,4381-4385). -/
def WarfareFamilyPdu.NoNaN (o : WarfareFamilyPdu) : Prop :=
  True

/-- Number of bytes `serialize` writes (/repo/opendis/dis7.py:4375-4379,4381-4385). -/
def WarfareFamilyPdu.wireSize (o : WarfareFamilyPdu) : Nat := 24

/-- The object `s` after it parsed what `o` serialized: fields of `o`, singles rounded, list elements
appended (/repo/opendis/dis7.py:4438-4455,4457-4474). -/
def CollisionElasticPdu.after (s o : CollisionElasticPdu) : CollisionElasticPdu :=
  { s with
    toEntityInformationFamilyPdu := EntityInformationFamilyPdu.after s.toEntityInformationFamilyPdu o.toEntityInformationFamilyPdu,
    issuingEntityID := EntityIdentifier.after s.issuingEntityID o.issuingEntityID,
    collidingEntityID := EntityIdentifier.after s.collidingEntityID o.collidingEntityID,
    collisionEventID := EventIdentifier.after s.collisionEventID o.collisionEventID,
    pad := o.pad,
    contactVelocity := Vector3Float.after s.contactVelocity o.contactVelocity,
    mass := quant o.mass,
    locationOfImpact := Vector3Float.after s.locationOfImpact o.locationOfImpact,
    collisionIntermediateResultXX := quant o.collisionIntermediateResultXX,
    collisionIntermediateResultXY := quant o.collisionIntermediateResultXY,
    collisionIntermediateResultXZ := quant o.collisionIntermediateResultXZ,
    collisionIntermediateResultYY := quant o.collisionIntermediateResultYY,
    collisionIntermediateResultYZ := quant o.collisionIntermediateResultYZ,
    collisionIntermediateResultZZ := quant o.collisionIntermediateResultZZ,
    unitSurfaceNormal := Vector3Float.after s.unitSurfaceNormal o.unitSurfaceNormal,
    coefficientOfRestitution := quant o.coefficientOfRestitution }

/-- Every field of `o` fits its wire type (/repo/opendis/dis7.py:4438-4455,4457-4474). -/
def CollisionElasticPdu.WireOk (o : CollisionElasticPdu) : Prop :=
  EntityInformationFamilyPdu.WireOk o.toEntityInformationFamilyPdu ∧
  EntityIdentifier.WireOk o.issuingEntityID ∧
  EntityIdentifier.WireOk o.collidingEntityID ∧
  EventIdentifier.WireOk o.collisionEventID ∧
  S16 o.pad ∧
  Vector3Float.WireOk o.contactVelocity ∧
  F32Fits o.mass ∧
  Vector3Float.WireOk o.locationOfImpact ∧
  F32Fits o.collisionIntermediateResultXX ∧
  F32Fits o.collisionIntermediateResultXY ∧
  F32Fits o.collisionIntermediateResultXZ ∧
  F32Fits o.collisionIntermediateResultYY ∧
  F32Fits o.collisionIntermediateResultYZ ∧
  F32Fits o.collisionIntermediateResultZZ ∧
  Vector3Float.WireOk o.unitSurfaceNormal ∧
  F32Fits o.coefficientOfRestitution

/-- `o` is in the form a fresh `CollisionElasticPdu` takes after parsing: singles exact, arrays of the fixed length,
attributes that are not on the wire at their initial value (/repo/opendis/dis7.py:4438-4455,4457-4474). -/
def CollisionElasticPdu.Canon (o : CollisionElasticPdu) : Prop :=
  Vector3Float.Canon o.contactVelocity ∧
  quant o.mass = o.mass ∧
  Vector3Float.Canon o.locationOfImpact ∧
  quant o.collisionIntermediateResultXX = o.collisionIntermediateResultXX ∧
  quant o.collisionIntermediateResultXY = o.collisionIntermediateResultXY ∧
  quant o.collisionIntermediateResultXZ = o.collisionIntermediateResultXZ ∧
  quant o.collisionIntermediateResultYY = o.collisionIntermediateResultYY ∧
  quant o.collisionIntermediateResultYZ = o.collisionIntermediateResultYZ ∧
  quant o.collisionIntermediateResultZZ = o.collisionIntermediateResultZZ ∧
  Vector3Float.Canon o.unitSurfaceNormal ∧
  quant o.coefficientOfRestitution = o.coefficientOfRestitution

/-- No single-precision field of `o` is a NaN (/repo/opendis/dis7.py:4438-4455,4457-4474). -/
def CollisionElasticPdu.NoNaN (o : CollisionElasticPdu) : Prop :=
  Vector3Float.NoNaN o.contactVelocity ∧
  ¬ o.mass.isNaN ∧
  Vector3Float.NoNaN o.locationOfImpact ∧
  ¬ o.collisionIntermediateResultXX.isNaN ∧
  ¬ o.collisionIntermediateResultXY.isNaN ∧
  ¬ o.collisionIntermediateResultXZ.isNaN ∧
  ¬ o.collisionIntermediateResultYY.isNaN ∧
  ¬ o.collisionIntermediateResultYZ.isNaN ∧
  ¬ o.collisionIntermediateResultZZ.isNaN ∧
  Vector3Float.NoNaN o.unitSurfaceNormal ∧
  ¬ o.coefficientOfRestitution.isNaN

/-- Number of bytes `serialize` writes (/repo/opendis/dis7.py:4438-4455,4457-4474). -/
def CollisionElasticPdu.wireSize (o : CollisionElasticPdu) : Nat := 100

/-- The object `s` after it parsed what `o` serialized: fields of `o`, singles rounded, list elements
appended (/repo/opendis/dis7.py:4515-4520,4522-4527). -/
def ActionRequestPdu.after (s o : ActionRequestPdu) : ActionRequestPdu :=
  { s with
    toSimulationManagementFamilyPdu := SimulationManagementFamilyPdu.after s.toSimulationManagementFamilyPdu o.toSimulationManagementFamilyPdu,
    requestID := o.requestID,
    actionID := o.actionID,
    _datums := DatumSpecification.after s._datums o._datums }

/-- Every field of `o` fits its wire type (/repo/opendis/dis7.py:4515-4520,4522-4527). -/
def ActionRequestPdu.WireOk (o : ActionRequestPdu) : Prop :=
  SimulationManagementFamilyPdu.WireOk o.toSimulationManagementFamilyPdu ∧
  U32 o.requestID ∧
  U32 o.actionID ∧
  DatumSpecification.WireOk o._datums

/-- `o` is in the form a fresh `ActionRequestPdu` takes after parsing: singles exact, arrays of the fixed length,
attributes that are not on the wire at their initial value (/repo/opendis/dis7.py:4515-4520,4522-4527). -/
def ActionRequestPdu.Canon (o : ActionRequestPdu) : Prop :=
  DatumSpecification.Canon o._datums

/-- No single-precision field of `o` is a NaN (/repo/opendis/dis7.py:4515-4520,4522-4527). -/
def ActionRequestPdu.NoNaN (o : ActionRequestPdu) : Prop :=
  True

/-- Number of bytes `serialize` writes (/repo/opendis/dis7.py:4515-4520,4522-4527). -/
def ActionRequestPdu.wireSize (o : ActionRequestPdu) : Nat := 40 + 8 * o._datums.fixedDatumRecords.length + (o._datums.variableDatumRecords.map VariableDatum.wireSize).sum

/-- The object `s` after it parsed what `o` serialized: fields of `o`, singles rounded, list elements
appended (/repo/opendis/dis7.py:4550-4555,4557-4562). -/
def AcknowledgePdu.after (s o : AcknowledgePdu) : AcknowledgePdu :=
  { s with
    toSimulationManagementFamilyPdu := SimulationManagementFamilyPdu.after s.toSimulationManagementFamilyPdu o.toSimulationManagementFamilyPdu,
    acknowledgeFlag := o.acknowledgeFlag,
    responseFlag := o.responseFlag,
    requestID := o.requestID }

/-- Every field of `o` fits its wire type (/repo/opendis/dis7.py:4550-4555,4557-4562). -/
def AcknowledgePdu.WireOk (o : AcknowledgePdu) : Prop :=
  SimulationManagementFamilyPdu.WireOk o.toSimulationManagementFamilyPdu ∧
  U16 o.acknowledgeFlag ∧
  U16 o.responseFlag ∧
  U32 o.requestID

/-- `o` is in the form a fresh `AcknowledgePdu` takes after parsing: singles exact, arrays of the fixed length,
attributes that are not on the wire at their initial value (/repo/opendis/dis7.py:4550-4555,4557-4562). -/
def AcknowledgePdu.Canon (o : AcknowledgePdu) : Prop :=
  True

/-- No single-precision field of `o` is a NaN (/repo/opendis/dis7.py:4550-4555,4557-4562). -/
def AcknowledgePdu.NoNaN (o : AcknowledgePdu) : Prop :=
  True

/-- Number of bytes `serialize` writes (/repo/opendis/dis7.py:4550-4555,4557-4562). -/
def AcknowledgePdu.wireSize (o : AcknowledgePdu) : Nat := 32

/-- The object `s` after it parsed what `o` serialized: fields of `o`, singles rounded, list elements
appended (/repo/opendis/dis7.py:4575-4577,4579-4581). -/
def DistributedEmissionsFamilyPdu.after (s o : DistributedEmissionsFamilyPdu) : DistributedEmissionsFamilyPdu :=
  { s with
    toPdu := Pdu.after s.toPdu o.toPdu }

/-- Every field of `o` fits its wire type (/repo/opendis/dis7.py:4575-4577,4579-4581). -/
def DistributedEmissionsFamilyPdu.WireOk (o : DistributedEmissionsFamilyPdu) : Prop :=
  Pdu.WireOk o.toPdu

/-- `o` is in the form a fresh `DistributedEmissionsFamilyPdu` takes after parsing: singles exact, arrays of the fixed length,
attributes that are not on the wire at their initial value (/repo/opendis/dis7.py:4575-4577,4579-4581). -/
def DistributedEmissionsFamilyPdu.Canon (o : DistributedEmissionsFamilyPdu) : Prop :=
  True

/-- No single-precision field of `o` is a NaN (/repo/opendis/dis7.py:4575-4577,4579-4581). -/
def DistributedEmissionsFamilyPdu.NoNaN (o : DistributedEmissionsFamilyPdu) : Prop :=
  True

/-- Number of bytes `serialize` writes (/repo/opendis/dis7.py:4575-4577,4579-4581). -/
def DistributedEmissionsFamilyPdu.wireSize (o : DistributedEmissionsFamilyPdu) : Nat := 12

/-- The object `s` after it parsed what `o` serialized: fields of `o`, singles rounded, list elements
appended (/repo/opendis/dis7.py:4600-4604,4606-4610). -/
def SimulationManagementWithReliabilityFamilyPdu.after (s o : SimulationManagementWithReliabilityFamilyPdu) : SimulationManagementWithReliabilityFamilyPdu :=
  { s with
    toPdu := Pdu.after s.toPdu o.toPdu,
    originatingEntityID := EntityIdentifier.after s.originatingEntityID o.originatingEntityID,
    receivingEntityID := EntityIdentifier.after s.receivingEntityID o.receivingEntityID }

/-- Every field of `o` fits its wire type (/repo/opendis/dis7.py:4600-4604,4606-4610). -/
def SimulationManagementWithReliabilityFamilyPdu.WireOk (o : SimulationManagementWithReliabilityFamilyPdu) : Prop :=
  Pdu.WireOk o.toPdu ∧
  EntityIdentifier.WireOk o.originatingEntityID ∧
  EntityIdentifier.WireOk o.receivingEntityID

/-- `o` is in the form a fresh `SimulationManagementWithReliabilityFamilyPdu` takes after parsing: singles exact, arrays of the fixed length,
attributes that are not on the wire at their initial value (/repo/opendis/dis7.py:4600-4604,4606-4610). -/
def SimulationManagementWithReliabilityFamilyPdu.Canon (o : SimulationManagementWithReliabilityFamilyPdu) : Prop :=
  True

/-- No single-precision field of `o` is a NaN (/repo/opendis/dis7.py:4600-4604,4606-4610). -/
def SimulationManagementWithReliabilityFamilyPdu.NoNaN (o : SimulationManagementWithReliabilityFamilyPdu) : Prop :=
  True

/-- Number of bytes `serialize` writes (/repo/opendis/dis7.py:4600-4604,4606-4610). -/
def SimulationManagementWithReliabilityFamilyPdu.wireSize (o : SimulationManagementWithReliabilityFamilyPdu) : Nat := 24

/-- The object `s` after it parsed what `o` serialized: fields of `o`, singles rounded, list elements
appended (/repo/opendis/dis7.py:4655-4664,4666-4675). -/
def ActionRequestReliablePdu.after (s o : ActionRequestReliablePdu) : ActionRequestReliablePdu :=
  { s with
    toSimulationManagementWithReliabilityFamilyPdu := SimulationManagementWithReliabilityFamilyPdu.after s.toSimulationManagementWithReliabilityFamilyPdu o.toSimulationManagementWithReliabilityFamilyPdu,
    requiredReliabilityService := o.requiredReliabilityService,
    pad1 := o.pad1,
    pad2 := o.pad2,
    requestID := o.requestID,
    actionID := o.actionID,
    pad3 := o.pad3,
    _datums := DatumSpecification.after s._datums o._datums }

/-- Every field of `o` fits its wire type (/repo/opendis/dis7.py:4655-4664,4666-4675). -/
def ActionRequestReliablePdu.WireOk (o : ActionRequestReliablePdu) : Prop :=
  SimulationManagementWithReliabilityFamilyPdu.WireOk o.toSimulationManagementWithReliabilityFamilyPdu ∧
  U8 o.requiredReliabilityService ∧
  U16 o.pad1 ∧
  U8 o.pad2 ∧
  U32 o.requestID ∧
  U32 o.actionID ∧
  S32 o.pad3 ∧
  DatumSpecification.WireOk o._datums

/-- `o` is in the form a fresh `ActionRequestReliablePdu` takes after parsing: singles exact, arrays of the fixed length,
attributes that are not on the wire at their initial value (/repo/opendis/dis7.py:4655-4664,4666-4675). -/
def ActionRequestReliablePdu.Canon (o : ActionRequestReliablePdu) : Prop :=
  DatumSpecification.Canon o._datums

/-- No single-precision field of `o` is a NaN (/repo/opendis/dis7.py:4655-4664,4666-4675). -/
def ActionRequestReliablePdu.NoNaN (o : ActionRequestReliablePdu) : Prop :=
  True

/-- Number of bytes `serialize` writes (/repo/opendis/dis7.py:4655-4664,4666-4675). -/
def ActionRequestReliablePdu.wireSize (o : ActionRequestReliablePdu) : Nat := 48 + 8 * o._datums.fixedDatumRecords.length + (o._datums.variableDatumRecords.map VariableDatum.wireSize).sum

end Dis
