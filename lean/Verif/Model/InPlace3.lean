import Verif.Model.InPlace2

/-!
# Parse methods as programs that change their object, part 3

Generated by `tools/geninplace.py` from the Python source; each definition cites the lines it transliterates.
-/

set_option linter.unusedVariables false
set_option linter.unusedSimpArgs false

namespace Dis

/-- `LiveEntityIdentifier.parse`, /repo/opendis/dis7.py:3574-3577, statement by statement. -/
def LiveEntityIdentifier.parseInto : P LiveEntityIdentifier Unit := do
  P.call ⟨(·.liveSimulationAddress), fun o v => { o with liveSimulationAddress := v }⟩ LiveSimulationAddress.parseInto
  let entityNumber ← P.read read_unsigned_short
  P.set fun o => { o with entityNumber := entityNumber }
  return ()

/-- `SeparationVP.parse`, /repo/opendis/dis7.py:3613-3621, statement by statement. -/
def SeparationVP.parseInto : P SeparationVP Unit := do
  let recordType ← P.read read_unsigned_byte
  P.set fun o => { o with recordType := recordType }
  let reasonForSeparation ← P.read read_unsigned_byte
  P.set fun o => { o with reasonForSeparation := reasonForSeparation }
  let preEntityIndicator ← P.read read_unsigned_byte
  P.set fun o => { o with preEntityIndicator := preEntityIndicator }
  let padding1 ← P.read read_unsigned_byte
  P.set fun o => { o with padding1 := padding1 }
  P.call ⟨(·.parentEntityID), fun o v => { o with parentEntityID := v }⟩ EntityIdentifier.parseInto
  let padding2 ← P.read read_unsigned_short
  P.set fun o => { o with padding2 := padding2 }
  let stationLocation ← P.read read_unsigned_int
  P.set fun o => { o with stationLocation := .int stationLocation }
  return ()

/-- `EmitterSystem.parse`, /repo/opendis/dis7.py:3644-3648, statement by statement. -/
def EmitterSystem.parseInto : P EmitterSystem Unit := do
  let emitterName ← P.read read_unsigned_short
  P.set fun o => { o with emitterName := emitterName }
  let emitterFunction ← P.read read_unsigned_byte
  P.set fun o => { o with emitterFunction := emitterFunction }
  let emitterIDNumber ← P.read read_unsigned_byte
  P.set fun o => { o with emitterIDNumber := emitterIDNumber }
  return ()

/-- `PduStatus.parse`, /repo/opendis/dis7.py:3666-3668, statement by statement. -/
def PduStatus.parseInto : P PduStatus Unit := do
  let pduStatus ← P.read read_unsigned_byte
  P.set fun o => { o with pduStatus := pduStatus }
  return ()

/-- `EmissionSystemBeamRecord.parse`, /repo/opendis/dis7.py:5217-5231, statement by statement. -/
def EmissionSystemBeamRecord.parseInto : P EmissionSystemBeamRecord Unit := do
  let beamDataLength ← P.read read_unsigned_byte
  P.set fun o => { o with beamDataLength := beamDataLength }
  let beamIDNumber ← P.read read_unsigned_byte
  P.set fun o => { o with beamIDNumber := beamIDNumber }
  let beamParameterIndex ← P.read read_unsigned_short
  P.set fun o => { o with beamParameterIndex := beamParameterIndex }
  P.call ⟨(·.fundamentalParameterData), fun o v => { o with fundamentalParameterData := v }⟩ EEFundamentalParameterData.parseInto
  let beamFunction ← P.read read_unsigned_byte
  P.set fun o => { o with beamFunction := beamFunction }
  let numberOfTargetsInTrackJam ← P.read read_unsigned_byte
  let highDensityTrackJam ← P.read read_unsigned_byte
  P.set fun o => { o with highDensityTrackJam := highDensityTrackJam }
  P.call ⟨(·.beamStatus), fun o v => { o with beamStatus := v }⟩ BeamStatus.parseInto
  let jammingModeSequence ← P.read read_unsigned_int
  P.set fun o => { o with jammingModeSequence := jammingModeSequence }
  P.appendObjs numberOfTargetsInTrackJam.toNat TrackJamData.init TrackJamData.parseInto ⟨(·.trackJamRecords), fun o v => { o with trackJamRecords := v }⟩
  return ()

/-- `EmissionSystemRecord.parse`, /repo/opendis/dis7.py:5267-5276, statement by statement. -/
def EmissionSystemRecord.parseInto : P EmissionSystemRecord Unit := do
  let systemDataLength ← P.read read_unsigned_byte
  P.set fun o => { o with systemDataLength := systemDataLength }
  let numberOfBeams ← P.read read_unsigned_byte
  let _ ← P.read read_unsigned_short
  P.call ⟨(·.emitterSystem), fun o v => { o with emitterSystem := v }⟩ EmitterSystem.parseInto
  P.call ⟨(·.location), fun o v => { o with location := v }⟩ Vector3Float.parseInto
  P.appendObjs numberOfBeams.toNat EmissionSystemBeamRecord.init EmissionSystemBeamRecord.parseInto ⟨(·.beamRecords), fun o v => { o with beamRecords := v }⟩
  return ()

/-- `PduSuperclass.parse`, /repo/opendis/dis7.py:3471-3478, statement by statement. -/
def PduSuperclass.parseInto : P PduSuperclass Unit := do
  let protocolVersion ← P.read read_unsigned_byte
  P.set fun o => { o with protocolVersion := protocolVersion }
  let exerciseID ← P.read read_unsigned_byte
  P.set fun o => { o with exerciseID := exerciseID }
  let pduType ← P.read read_unsigned_byte
  P.set fun o => { o with pduType := pduType }
  let protocolFamily ← P.read read_unsigned_byte
  P.set fun o => { o with protocolFamily := protocolFamily }
  let timestamp ← P.read read_unsigned_int
  P.set fun o => { o with timestamp := timestamp }
  let length ← P.read read_unsigned_short
  P.set fun o => { o with length := length }
  return ()

/-- `LiveEntityPdu.parse`, /repo/opendis/dis7.py:3691-3695, statement by statement. -/
def LiveEntityPdu.parseInto : P LiveEntityPdu Unit := do
  P.call ⟨(·.toPduSuperclass), fun o v => { o with toPduSuperclass := v }⟩ PduSuperclass.parseInto
  let subprotocolNumber ← P.read read_unsigned_short
  P.set fun o => { o with subprotocolNumber := subprotocolNumber }
  let padding ← P.read read_unsigned_byte
  P.set fun o => { o with padding := padding }
  return ()

/-- `Pdu.parse`, /repo/opendis/dis7.py:3714-3718, statement by statement. -/
def Pdu.parseInto : P Pdu Unit := do
  P.call ⟨(·.toPduSuperclass), fun o v => { o with toPduSuperclass := v }⟩ PduSuperclass.parseInto
  let pduStatus ← P.read read_unsigned_byte
  P.set fun o => { o with pduStatus := pduStatus }
  let padding ← P.read read_unsigned_byte
  P.set fun o => { o with padding := padding }
  return ()

/-- `EntityInformationFamilyPdu.parse`, /repo/opendis/dis7.py:3736-3738, statement by statement. -/
def EntityInformationFamilyPdu.parseInto : P EntityInformationFamilyPdu Unit := do
  P.call ⟨(·.toPdu), fun o v => { o with toPdu := v }⟩ Pdu.parseInto
  return ()

/-- `LogisticsFamilyPdu.parse`, /repo/opendis/dis7.py:3755-3757, statement by statement. -/
def LogisticsFamilyPdu.parseInto : P LogisticsFamilyPdu Unit := do
  P.call ⟨(·.toPdu), fun o v => { o with toPdu := v }⟩ Pdu.parseInto
  return ()

/-- `EntityStateUpdatePdu.parse`, /repo/opendis/dis7.py:3807-3820, statement by statement. -/
def EntityStateUpdatePdu.parseInto : P EntityStateUpdatePdu Unit := do
  P.call ⟨(·.toEntityInformationFamilyPdu), fun o v => { o with toEntityInformationFamilyPdu := v }⟩ EntityInformationFamilyPdu.parseInto
  P.call ⟨(·.entityID), fun o v => { o with entityID := v }⟩ EntityIdentifier.parseInto
  let padding1 ← P.read read_byte
  P.set fun o => { o with padding1 := padding1 }
  let numberOfVariableParameters ← P.read read_unsigned_byte
  P.call ⟨(·.entityLinearVelocity), fun o v => { o with entityLinearVelocity := v }⟩ Vector3Float.parseInto
  P.call ⟨(·.entityLocation), fun o v => { o with entityLocation := v }⟩ WorldCoordinates.parseInto
  P.call ⟨(·.entityOrientation), fun o v => { o with entityOrientation := v }⟩ EulerAngles.parseInto
  let entityAppearance ← P.read read_unsigned_int
  P.set fun o => { o with entityAppearance := entityAppearance }
  P.appendObjs numberOfVariableParameters.toNat VariableParameter.init VariableParameter.parseInto ⟨(·.variableParameters), fun o v => { o with variableParameters := v }⟩
  return ()

/-- `ServiceRequestPdu.parse`, /repo/opendis/dis7.py:3861-3872, statement by statement. -/
def ServiceRequestPdu.parseInto : P ServiceRequestPdu Unit := do
  P.call ⟨(·.toLogisticsFamilyPdu), fun o v => { o with toLogisticsFamilyPdu := v }⟩ LogisticsFamilyPdu.parseInto
  P.call ⟨(·.requestingEntityID), fun o v => { o with requestingEntityID := v }⟩ EntityIdentifier.parseInto
  P.call ⟨(·.servicingEntityID), fun o v => { o with servicingEntityID := v }⟩ EntityIdentifier.parseInto
  let serviceTypeRequested ← P.read read_unsigned_byte
  P.set fun o => { o with serviceTypeRequested := serviceTypeRequested }
  let numberOfSupplyTypes ← P.read read_unsigned_byte
  let serviceRequestPadding ← P.read read_short
  P.set fun o => { o with serviceRequestPadding := serviceRequestPadding }
  P.appendObjs numberOfSupplyTypes.toNat SupplyQuantity.init SupplyQuantity.parseInto ⟨(·.supplies), fun o v => { o with supplies := v }⟩
  return ()

/-- `RepairCompletePdu.parse`, /repo/opendis/dis7.py:3904-3910, statement by statement. -/
def RepairCompletePdu.parseInto : P RepairCompletePdu Unit := do
  P.call ⟨(·.toLogisticsFamilyPdu), fun o v => { o with toLogisticsFamilyPdu := v }⟩ LogisticsFamilyPdu.parseInto
  P.call ⟨(·.receivingEntityID), fun o v => { o with receivingEntityID := v }⟩ EntityIdentifier.parseInto
  P.call ⟨(·.repairingEntityID), fun o v => { o with repairingEntityID := v }⟩ EntityIdentifier.parseInto
  let repair ← P.read read_unsigned_short
  P.set fun o => { o with repair := repair }
  let padding4 ← P.read read_short
  P.set fun o => { o with padding4 := padding4 }
  return ()

/-- `SyntheticEnvironmentFamilyPdu.parse`, /repo/opendis/dis7.py:3927-3929, statement by statement. -/
def SyntheticEnvironmentFamilyPdu.parseInto : P SyntheticEnvironmentFamilyPdu Unit := do
  P.call ⟨(·.toPdu), fun o v => { o with toPdu := v }⟩ Pdu.parseInto
  return ()

/-- `CollisionPdu.parse`, /repo/opendis/dis7.py:3977-3987, statement by statement. -/
def CollisionPdu.parseInto : P CollisionPdu Unit := do
  P.call ⟨(·.toEntityInformationFamilyPdu), fun o v => { o with toEntityInformationFamilyPdu := v }⟩ EntityInformationFamilyPdu.parseInto
  P.call ⟨(·.issuingEntityID), fun o v => { o with issuingEntityID := v }⟩ EntityIdentifier.parseInto
  P.call ⟨(·.collidingEntityID), fun o v => { o with collidingEntityID := v }⟩ EntityIdentifier.parseInto
  P.call ⟨(·.eventID), fun o v => { o with eventID := v }⟩ EventIdentifier.parseInto
  let collisionType ← P.read read_unsigned_byte
  P.set fun o => { o with collisionType := collisionType }
  let pad ← P.read read_byte
  P.set fun o => { o with pad := pad }
  P.call ⟨(·.velocity), fun o v => { o with velocity := v }⟩ Vector3Float.parseInto
  let mass ← P.read read_float
  P.set fun o => { o with mass := mass }
  P.call ⟨(·.location), fun o v => { o with location := v }⟩ Vector3Float.parseInto
  return ()

/-- `RepairResponsePdu.parse`, /repo/opendis/dis7.py:4020-4027, statement by statement. -/
def RepairResponsePdu.parseInto : P RepairResponsePdu Unit := do
  P.call ⟨(·.toLogisticsFamilyPdu), fun o v => { o with toLogisticsFamilyPdu := v }⟩ LogisticsFamilyPdu.parseInto
  P.call ⟨(·.receivingEntityID), fun o v => { o with receivingEntityID := v }⟩ EntityIdentifier.parseInto
  P.call ⟨(·.repairingEntityID), fun o v => { o with repairingEntityID := v }⟩ EntityIdentifier.parseInto
  let repairResult ← P.read read_unsigned_byte
  P.set fun o => { o with repairResult := repairResult }
  let padding1 ← P.read read_short
  P.set fun o => { o with padding1 := padding1 }
  let padding2 ← P.read read_byte
  P.set fun o => { o with padding2 := padding2 }
  return ()

/-- `SimulationManagementFamilyPdu.parse`, /repo/opendis/dis7.py:4052-4056, statement by statement. -/
def SimulationManagementFamilyPdu.parseInto : P SimulationManagementFamilyPdu Unit := do
  P.call ⟨(·.toPdu), fun o v => { o with toPdu := v }⟩ Pdu.parseInto
  P.call ⟨(·.originatingEntityID), fun o v => { o with originatingEntityID := v }⟩ EntityIdentifier.parseInto
  P.call ⟨(·.receivingEntityID), fun o v => { o with receivingEntityID := v }⟩ EntityIdentifier.parseInto
  return ()

/-- `DataQueryPdu.parse`, /repo/opendis/dis7.py:4102-4107, statement by statement. -/
def DataQueryPdu.parseInto : P DataQueryPdu Unit := do
  P.call ⟨(·.toSimulationManagementFamilyPdu), fun o v => { o with toSimulationManagementFamilyPdu := v }⟩ SimulationManagementFamilyPdu.parseInto
  let requestID ← P.read read_unsigned_int
  P.set fun o => { o with requestID := requestID }
  let timeInterval ← P.read read_unsigned_int
  P.set fun o => { o with timeInterval := timeInterval }
  P.call ⟨(·._dataQuery), fun o v => { o with _dataQuery := v }⟩ DataQueryDatumSpecification.parseInto
  return ()

/-- `LinearObjectStatePdu.parse`, /repo/opendis/dis7.py:4161-4175, statement by statement. -/
def LinearObjectStatePdu.parseInto : P LinearObjectStatePdu Unit := do
  P.call ⟨(·.toSyntheticEnvironmentFamilyPdu), fun o v => { o with toSyntheticEnvironmentFamilyPdu := v }⟩ SyntheticEnvironmentFamilyPdu.parseInto
  P.call ⟨(·.objectID), fun o v => { o with objectID := v }⟩ EntityIdentifier.parseInto
  P.call ⟨(·.referencedObjectID), fun o v => { o with referencedObjectID := v }⟩ EntityIdentifier.parseInto
  let updateNumber ← P.read read_unsigned_short
  P.set fun o => { o with updateNumber := updateNumber }
  let forceID ← P.read read_unsigned_byte
  P.set fun o => { o with forceID := forceID }
  let numberOfSegments ← P.read read_unsigned_byte
  P.call ⟨(·.requesterID), fun o v => { o with requesterID := v }⟩ SimulationAddress.parseInto
  P.call ⟨(·.receivingID), fun o v => { o with receivingID := v }⟩ SimulationAddress.parseInto
  P.call ⟨(·.objectType), fun o v => { o with objectType := v }⟩ ObjectType.parseInto
  P.appendObjs numberOfSegments.toNat LinearSegmentParameter.init LinearSegmentParameter.parseInto ⟨(·.linearSegmentParameters), fun o v => { o with linearSegmentParameters := v }⟩
  return ()

/-- `CreateEntityPdu.parse`, /repo/opendis/dis7.py:4195-4198, statement by statement. -/
def CreateEntityPdu.parseInto : P CreateEntityPdu Unit := do
  P.call ⟨(·.toSimulationManagementFamilyPdu), fun o v => { o with toSimulationManagementFamilyPdu := v }⟩ SimulationManagementFamilyPdu.parseInto
  let requestID ← P.read read_unsigned_int
  P.set fun o => { o with requestID := requestID }
  return ()

/-- `RadioCommunicationsFamilyPdu.parse`, /repo/opendis/dis7.py:4215-4217, statement by statement. -/
def RadioCommunicationsFamilyPdu.parseInto : P RadioCommunicationsFamilyPdu Unit := do
  P.call ⟨(·.toPdu), fun o v => { o with toPdu := v }⟩ Pdu.parseInto
  return ()

/-- `IntercomSignalPdu.parse`, /repo/opendis/dis7.py:4265-4280, statement by statement. -/
def IntercomSignalPdu.parseInto : P IntercomSignalPdu Unit := do
  P.call ⟨(·.toRadioCommunicationsFamilyPdu), fun o v => { o with toRadioCommunicationsFamilyPdu := v }⟩ RadioCommunicationsFamilyPdu.parseInto
  P.call ⟨(·.entityID), fun o v => { o with entityID := v }⟩ EntityIdentifier.parseInto
  let communicationsDeviceID ← P.read read_unsigned_short
  P.set fun o => { o with communicationsDeviceID := communicationsDeviceID }
  let encodingScheme ← P.read read_unsigned_short
  P.set fun o => { o with encodingScheme := encodingScheme }
  let tdlType ← P.read read_unsigned_short
  P.set fun o => { o with tdlType := tdlType }
  let sampleRate ← P.read read_unsigned_int
  P.set fun o => { o with sampleRate := sampleRate }
  let dataLength ← P.read read_unsigned_short
  let samples ← P.read read_unsigned_short
  P.set fun o => { o with samples := samples }
  P.appendReads (dataLength / 8).toNat (R.throw .nameError : R Int) ⟨(·.data), fun o v => { o with data := v }⟩
  return ()

/-- `RemoveEntityPdu.parse`, /repo/opendis/dis7.py:4302-4305, statement by statement. -/
def RemoveEntityPdu.parseInto : P RemoveEntityPdu Unit := do
  P.call ⟨(·.toSimulationManagementFamilyPdu), fun o v => { o with toSimulationManagementFamilyPdu := v }⟩ SimulationManagementFamilyPdu.parseInto
  let requestID ← P.read read_unsigned_int
  P.set fun o => { o with requestID := requestID }
  return ()

/-- `ResupplyReceivedPdu.parse`, /repo/opendis/dis7.py:4344-4355, statement by statement. -/
def ResupplyReceivedPdu.parseInto : P ResupplyReceivedPdu Unit := do
  P.call ⟨(·.toLogisticsFamilyPdu), fun o v => { o with toLogisticsFamilyPdu := v }⟩ LogisticsFamilyPdu.parseInto
  P.call ⟨(·.receivingEntityID), fun o v => { o with receivingEntityID := v }⟩ EntityIdentifier.parseInto
  P.call ⟨(·.supplyingEntityID), fun o v => { o with supplyingEntityID := v }⟩ EntityIdentifier.parseInto
  let numberOfSupplyTypes ← P.read read_unsigned_byte
  let padding1 ← P.read read_short
  P.set fun o => { o with padding1 := padding1 }
  let padding2 ← P.read read_byte
  P.set fun o => { o with padding2 := padding2 }
  P.appendReads numberOfSupplyTypes.toNat (R.throw .nameError : R SupplyQuantity) ⟨(·.supplies), fun o v => { o with supplies := v }⟩
  return ()

/-- `WarfareFamilyPdu.parse`, /repo/opendis/dis7.py:4381-4385, statement by statement. -/
def WarfareFamilyPdu.parseInto : P WarfareFamilyPdu Unit := do
  P.call ⟨(·.toPdu), fun o v => { o with toPdu := v }⟩ Pdu.parseInto
  P.call ⟨(·.firingEntityID), fun o v => { o with firingEntityID := v }⟩ EntityIdentifier.parseInto
  P.call ⟨(·.targetEntityID), fun o v => { o with targetEntityID := v }⟩ EntityIdentifier.parseInto
  return ()

/-- `CollisionElasticPdu.parse`, /repo/opendis/dis7.py:4457-4474, statement by statement. -/
def CollisionElasticPdu.parseInto : P CollisionElasticPdu Unit := do
  P.call ⟨(·.toEntityInformationFamilyPdu), fun o v => { o with toEntityInformationFamilyPdu := v }⟩ EntityInformationFamilyPdu.parseInto
  P.call ⟨(·.issuingEntityID), fun o v => { o with issuingEntityID := v }⟩ EntityIdentifier.parseInto
  P.call ⟨(·.collidingEntityID), fun o v => { o with collidingEntityID := v }⟩ EntityIdentifier.parseInto
  P.call ⟨(·.collisionEventID), fun o v => { o with collisionEventID := v }⟩ EventIdentifier.parseInto
  let pad ← P.read read_short
  P.set fun o => { o with pad := pad }
  P.call ⟨(·.contactVelocity), fun o v => { o with contactVelocity := v }⟩ Vector3Float.parseInto
  let mass ← P.read read_float
  P.set fun o => { o with mass := mass }
  P.call ⟨(·.locationOfImpact), fun o v => { o with locationOfImpact := v }⟩ Vector3Float.parseInto
  let collisionIntermediateResultXX ← P.read read_float
  P.set fun o => { o with collisionIntermediateResultXX := collisionIntermediateResultXX }
  let collisionIntermediateResultXY ← P.read read_float
  P.set fun o => { o with collisionIntermediateResultXY := collisionIntermediateResultXY }
  let collisionIntermediateResultXZ ← P.read read_float
  P.set fun o => { o with collisionIntermediateResultXZ := collisionIntermediateResultXZ }
  let collisionIntermediateResultYY ← P.read read_float
  P.set fun o => { o with collisionIntermediateResultYY := collisionIntermediateResultYY }
  let collisionIntermediateResultYZ ← P.read read_float
  P.set fun o => { o with collisionIntermediateResultYZ := collisionIntermediateResultYZ }
  let collisionIntermediateResultZZ ← P.read read_float
  P.set fun o => { o with collisionIntermediateResultZZ := collisionIntermediateResultZZ }
  P.call ⟨(·.unitSurfaceNormal), fun o v => { o with unitSurfaceNormal := v }⟩ Vector3Float.parseInto
  let coefficientOfRestitution ← P.read read_float
  P.set fun o => { o with coefficientOfRestitution := coefficientOfRestitution }
  return ()

/-- `ActionRequestPdu.parse`, /repo/opendis/dis7.py:4522-4527, statement by statement. -/
def ActionRequestPdu.parseInto : P ActionRequestPdu Unit := do
  P.call ⟨(·.toSimulationManagementFamilyPdu), fun o v => { o with toSimulationManagementFamilyPdu := v }⟩ SimulationManagementFamilyPdu.parseInto
  let requestID ← P.read read_unsigned_int
  P.set fun o => { o with requestID := requestID }
  let actionID ← P.read read_unsigned_int
  P.set fun o => { o with actionID := actionID }
  P.call ⟨(·._datums), fun o v => { o with _datums := v }⟩ DatumSpecification.parseInto
  return ()

/-- `AcknowledgePdu.parse`, /repo/opendis/dis7.py:4557-4562, statement by statement. -/
def AcknowledgePdu.parseInto : P AcknowledgePdu Unit := do
  P.call ⟨(·.toSimulationManagementFamilyPdu), fun o v => { o with toSimulationManagementFamilyPdu := v }⟩ SimulationManagementFamilyPdu.parseInto
  let acknowledgeFlag ← P.read read_unsigned_short
  P.set fun o => { o with acknowledgeFlag := acknowledgeFlag }
  let responseFlag ← P.read read_unsigned_short
  P.set fun o => { o with responseFlag := responseFlag }
  let requestID ← P.read read_unsigned_int
  P.set fun o => { o with requestID := requestID }
  return ()

/-- `DistributedEmissionsFamilyPdu.parse`, /repo/opendis/dis7.py:4579-4581, statement by statement. -/
def DistributedEmissionsFamilyPdu.parseInto : P DistributedEmissionsFamilyPdu Unit := do
  P.call ⟨(·.toPdu), fun o v => { o with toPdu := v }⟩ Pdu.parseInto
  return ()

/-- `SimulationManagementWithReliabilityFamilyPdu.parse`, /repo/opendis/dis7.py:4606-4610, statement by statement. -/
def SimulationManagementWithReliabilityFamilyPdu.parseInto : P SimulationManagementWithReliabilityFamilyPdu Unit := do
  P.call ⟨(·.toPdu), fun o v => { o with toPdu := v }⟩ Pdu.parseInto
  P.call ⟨(·.originatingEntityID), fun o v => { o with originatingEntityID := v }⟩ EntityIdentifier.parseInto
  P.call ⟨(·.receivingEntityID), fun o v => { o with receivingEntityID := v }⟩ EntityIdentifier.parseInto
  return ()

/-- `ActionRequestReliablePdu.parse`, /repo/opendis/dis7.py:4666-4675, statement by statement. -/
def ActionRequestReliablePdu.parseInto : P ActionRequestReliablePdu Unit := do
  P.call ⟨(·.toSimulationManagementWithReliabilityFamilyPdu), fun o v => { o with toSimulationManagementWithReliabilityFamilyPdu := v }⟩ SimulationManagementWithReliabilityFamilyPdu.parseInto
  let requiredReliabilityService ← P.read read_unsigned_byte
  P.set fun o => { o with requiredReliabilityService := requiredReliabilityService }
  let pad1 ← P.read read_unsigned_short
  P.set fun o => { o with pad1 := pad1 }
  let pad2 ← P.read read_unsigned_byte
  P.set fun o => { o with pad2 := pad2 }
  let requestID ← P.read read_unsigned_int
  P.set fun o => { o with requestID := requestID }
  let actionID ← P.read read_unsigned_int
  P.set fun o => { o with actionID := actionID }
  let pad3 ← P.read read_int
  P.set fun o => { o with pad3 := pad3 }
  P.call ⟨(·._datums), fun o v => { o with _datums := v }⟩ DatumSpecification.parseInto
  return ()

/-- `DesignatorPdu.parse`, /repo/opendis/dis7.py:4739-4753, statement by statement. -/
def DesignatorPdu.parseInto : P DesignatorPdu Unit := do
  P.call ⟨(·.toDistributedEmissionsFamilyPdu), fun o v => { o with toDistributedEmissionsFamilyPdu := v }⟩ DistributedEmissionsFamilyPdu.parseInto
  P.call ⟨(·.designatingEntityID), fun o v => { o with designatingEntityID := v }⟩ EntityIdentifier.parseInto
  let codeName ← P.read read_unsigned_short
  P.set fun o => { o with codeName := codeName }
  P.call ⟨(·.designatedEntityID), fun o v => { o with designatedEntityID := v }⟩ EntityIdentifier.parseInto
  let designatorCode ← P.read read_unsigned_short
  P.set fun o => { o with designatorCode := designatorCode }
  let designatorPower ← P.read read_float
  P.set fun o => { o with designatorPower := designatorPower }
  let designatorWavelength ← P.read read_float
  P.set fun o => { o with designatorWavelength := designatorWavelength }
  P.call ⟨(·.designatorSpotWrtDesignated), fun o v => { o with designatorSpotWrtDesignated := v }⟩ Vector3Float.parseInto
  P.call ⟨(·.designatorSpotLocation), fun o v => { o with designatorSpotLocation := v }⟩ WorldCoordinates.parseInto
  let deadReckoningAlgorithm ← P.read read_byte
  P.set fun o => { o with deadReckoningAlgorithm := deadReckoningAlgorithm }
  let padding1 ← P.read read_unsigned_short
  P.set fun o => { o with padding1 := padding1 }
  let padding2 ← P.read read_byte
  P.set fun o => { o with padding2 := padding2 }
  P.call ⟨(·.entityLinearAcceleration), fun o v => { o with entityLinearAcceleration := v }⟩ Vector3Float.parseInto
  return ()

/-- `StopFreezePdu.parse`, /repo/opendis/dis7.py:4788-4795, statement by statement. -/
def StopFreezePdu.parseInto : P StopFreezePdu Unit := do
  P.call ⟨(·.toSimulationManagementFamilyPdu), fun o v => { o with toSimulationManagementFamilyPdu := v }⟩ SimulationManagementFamilyPdu.parseInto
  P.call ⟨(·.realWorldTime), fun o v => { o with realWorldTime := v }⟩ ClockTime.parseInto
  let reason ← P.read read_unsigned_byte
  P.set fun o => { o with reason := reason }
  let frozenBehavior ← P.read read_unsigned_byte
  P.set fun o => { o with frozenBehavior := frozenBehavior }
  let padding1 ← P.read read_short
  P.set fun o => { o with padding1 := padding1 }
  let requestID ← P.read read_unsigned_int
  P.set fun o => { o with requestID := requestID }
  return ()

/-- `EntityStatePdu.parse`, /repo/opendis/dis7.py:4869-4887, statement by statement. -/
def EntityStatePdu.parseInto : P EntityStatePdu Unit := do
  P.call ⟨(·.toEntityInformationFamilyPdu), fun o v => { o with toEntityInformationFamilyPdu := v }⟩ EntityInformationFamilyPdu.parseInto
  P.call ⟨(·.entityID), fun o v => { o with entityID := v }⟩ EntityIdentifier.parseInto
  let forceId ← P.read read_unsigned_byte
  P.set fun o => { o with forceId := forceId }
  let numberOfVariableParameters ← P.read read_unsigned_byte
  P.call ⟨(·.entityType), fun o v => { o with entityType := v }⟩ EntityType.parseInto
  P.call ⟨(·.alternativeEntityType), fun o v => { o with alternativeEntityType := v }⟩ EntityType.parseInto
  P.call ⟨(·.entityLinearVelocity), fun o v => { o with entityLinearVelocity := v }⟩ Vector3Float.parseInto
  P.call ⟨(·.entityLocation), fun o v => { o with entityLocation := v }⟩ WorldCoordinates.parseInto
  P.call ⟨(·.entityOrientation), fun o v => { o with entityOrientation := v }⟩ EulerAngles.parseInto
  let entityAppearance ← P.read read_unsigned_int
  P.set fun o => { o with entityAppearance := entityAppearance }
  P.call ⟨(·.deadReckoningParameters), fun o v => { o with deadReckoningParameters := v }⟩ DeadReckoningParameters.parseInto
  P.call ⟨(·.marking), fun o v => { o with marking := v }⟩ EntityMarking.parseInto
  let capabilities ← P.read read_unsigned_int
  P.set fun o => { o with capabilities := capabilities }
  P.appendObjs numberOfVariableParameters.toNat VariableParameter.init VariableParameter.parseInto ⟨(·.variableParameters), fun o v => { o with variableParameters := v }⟩
  return ()

/-- `EntityManagementFamilyPdu.parse`, /repo/opendis/dis7.py:4904-4906, statement by statement. -/
def EntityManagementFamilyPdu.parseInto : P EntityManagementFamilyPdu Unit := do
  P.call ⟨(·.toPdu), fun o v => { o with toPdu := v }⟩ Pdu.parseInto
  return ()

/-- `StartResumePdu.parse`, /repo/opendis/dis7.py:4935-4940, statement by statement. -/
def StartResumePdu.parseInto : P StartResumePdu Unit := do
  P.call ⟨(·.toSimulationManagementFamilyPdu), fun o v => { o with toSimulationManagementFamilyPdu := v }⟩ SimulationManagementFamilyPdu.parseInto
  P.call ⟨(·.realWorldTime), fun o v => { o with realWorldTime := v }⟩ ClockTime.parseInto
  P.call ⟨(·.simulationTime), fun o v => { o with simulationTime := v }⟩ ClockTime.parseInto
  let requestID ← P.read read_unsigned_int
  P.set fun o => { o with requestID := requestID }
  return ()

/-- `ElectromagneticEmissionsPdu.parse`, /repo/opendis/dis7.py:5157-5169, statement by statement. -/
def ElectromagneticEmissionsPdu.parseInto : P ElectromagneticEmissionsPdu Unit := do
  P.call ⟨(·.toDistributedEmissionsFamilyPdu), fun o v => { o with toDistributedEmissionsFamilyPdu := v }⟩ DistributedEmissionsFamilyPdu.parseInto
  P.call ⟨(·.emittingEntityID), fun o v => { o with emittingEntityID := v }⟩ EntityIdentifier.parseInto
  P.call ⟨(·.eventID), fun o v => { o with eventID := v }⟩ EventIdentifier.parseInto
  let stateUpdateIndicator ← P.read read_unsigned_byte
  P.set fun o => { o with stateUpdateIndicator := stateUpdateIndicator }
  let numberOfSystems ← P.read read_unsigned_byte
  let paddingForEmissionsPdu ← P.read read_unsigned_short
  P.set fun o => { o with paddingForEmissionsPdu := paddingForEmissionsPdu }
  P.appendObjs numberOfSystems.toNat EmissionSystemRecord.init EmissionSystemRecord.parseInto ⟨(·.systems), fun o v => { o with systems := v }⟩
  return ()

/-- `ResupplyOfferPdu.parse`, /repo/opendis/dis7.py:5316-5327, statement by statement. -/
def ResupplyOfferPdu.parseInto : P ResupplyOfferPdu Unit := do
  P.call ⟨(·.toLogisticsFamilyPdu), fun o v => { o with toLogisticsFamilyPdu := v }⟩ LogisticsFamilyPdu.parseInto
  P.call ⟨(·.receivingEntityID), fun o v => { o with receivingEntityID := v }⟩ EntityIdentifier.parseInto
  P.call ⟨(·.supplyingEntityID), fun o v => { o with supplyingEntityID := v }⟩ EntityIdentifier.parseInto
  let numberOfSupplyTypes ← P.read read_unsigned_byte
  let padding1 ← P.read read_byte
  P.set fun o => { o with padding1 := padding1 }
  let padding2 ← P.read read_short
  P.set fun o => { o with padding2 := padding2 }
  P.appendObjs numberOfSupplyTypes.toNat SupplyQuantity.init SupplyQuantity.parseInto ⟨(·.supplies), fun o v => { o with supplies := v }⟩
  return ()

/-- `AttributePdu.parse`, /repo/opendis/dis7.py:5380-5391, statement by statement. -/
def AttributePdu.parseInto : P AttributePdu Unit := do
  P.call ⟨(·.toEntityInformationFamilyPdu), fun o v => { o with toEntityInformationFamilyPdu := v }⟩ EntityInformationFamilyPdu.parseInto
  P.call ⟨(·.originatingSimulationAddress), fun o v => { o with originatingSimulationAddress := v }⟩ SimulationAddress.parseInto
  let padding1 ← P.read read_int
  P.set fun o => { o with padding1 := padding1 }
  let padding2 ← P.read read_short
  P.set fun o => { o with padding2 := padding2 }
  let attributeRecordPduType ← P.read read_unsigned_byte
  P.set fun o => { o with attributeRecordPduType := attributeRecordPduType }
  let attributeRecordProtocolVersion ← P.read read_unsigned_byte
  P.set fun o => { o with attributeRecordProtocolVersion := attributeRecordProtocolVersion }
  let masterAttributeRecordType ← P.read read_unsigned_int
  P.set fun o => { o with masterAttributeRecordType := masterAttributeRecordType }
  let actionCode ← P.read read_unsigned_byte
  P.set fun o => { o with actionCode := actionCode }
  let padding3 ← P.read read_byte
  P.set fun o => { o with padding3 := padding3 }
  let numberOfAttributeRecordSets ← P.read read_unsigned_short
  P.set fun o => { o with numberOfAttributeRecordSets := numberOfAttributeRecordSets }
  return ()

/-- `MinefieldFamilyPdu.parse`, /repo/opendis/dis7.py:5408-5410, statement by statement. -/
def MinefieldFamilyPdu.parseInto : P MinefieldFamilyPdu Unit := do
  P.call ⟨(·.toPdu), fun o v => { o with toPdu := v }⟩ Pdu.parseInto
  return ()

/-- `SetDataReliablePdu.parse`, /repo/opendis/dis7.py:5461-5468, statement by statement. -/
def SetDataReliablePdu.parseInto : P SetDataReliablePdu Unit := do
  P.call ⟨(·.toSimulationManagementWithReliabilityFamilyPdu), fun o v => { o with toSimulationManagementWithReliabilityFamilyPdu := v }⟩ SimulationManagementWithReliabilityFamilyPdu.parseInto
  let requiredReliabilityService ← P.read read_unsigned_byte
  P.set fun o => { o with requiredReliabilityService := requiredReliabilityService }
  let pad1 ← P.read read_unsigned_short
  P.set fun o => { o with pad1 := pad1 }
  let pad2 ← P.read read_unsigned_byte
  P.set fun o => { o with pad2 := pad2 }
  let requestID ← P.read read_unsigned_int
  P.set fun o => { o with requestID := requestID }
  P.call ⟨(·._datums), fun o v => { o with _datums := v }⟩ DatumSpecification.parseInto
  return ()

/-- `EventReportPdu.parse`, /repo/opendis/dis7.py:5497-5502, statement by statement. -/
def EventReportPdu.parseInto : P EventReportPdu Unit := do
  P.call ⟨(·.toSimulationManagementFamilyPdu), fun o v => { o with toSimulationManagementFamilyPdu := v }⟩ SimulationManagementFamilyPdu.parseInto
  let eventType ← P.read read_unsigned_int
  P.set fun o => { o with eventType := eventType }
  let padding1 ← P.read read_unsigned_int
  P.set fun o => { o with padding1 := padding1 }
  P.call ⟨(·._datums), fun o v => { o with _datums := v }⟩ DatumSpecification.parseInto
  return ()

/-- `PointObjectStatePdu.parse`, /repo/opendis/dis7.py:5568-5582, statement by statement. -/
def PointObjectStatePdu.parseInto : P PointObjectStatePdu Unit := do
  P.call ⟨(·.toSyntheticEnvironmentFamilyPdu), fun o v => { o with toSyntheticEnvironmentFamilyPdu := v }⟩ SyntheticEnvironmentFamilyPdu.parseInto
  P.call ⟨(·.objectID), fun o v => { o with objectID := v }⟩ EntityIdentifier.parseInto
  P.call ⟨(·.referencedObjectID), fun o v => { o with referencedObjectID := v }⟩ EntityIdentifier.parseInto
  let updateNumber ← P.read read_unsigned_short
  P.set fun o => { o with updateNumber := updateNumber }
  let forceID ← P.read read_unsigned_byte
  P.set fun o => { o with forceID := forceID }
  let modifications ← P.read read_unsigned_byte
  P.set fun o => { o with modifications := modifications }
  P.call ⟨(·.objectType), fun o v => { o with objectType := v }⟩ ObjectType.parseInto
  P.call ⟨(·.objectLocation), fun o v => { o with objectLocation := v }⟩ WorldCoordinates.parseInto
  P.call ⟨(·.objectOrientation), fun o v => { o with objectOrientation := v }⟩ EulerAngles.parseInto
  let objectAppearance ← P.read read_double
  P.set fun o => { o with objectAppearance := objectAppearance }
  P.call ⟨(·.requesterID), fun o v => { o with requesterID := v }⟩ SimulationAddress.parseInto
  P.call ⟨(·.receivingID), fun o v => { o with receivingID := v }⟩ SimulationAddress.parseInto
  let pad2 ← P.read read_unsigned_int
  P.set fun o => { o with pad2 := pad2 }
  return ()

/-- `DataPdu.parse`, /repo/opendis/dis7.py:5628-5634, statement by statement. -/
def DataPdu.parseInto : P DataPdu Unit := do
  P.call ⟨(·.toSimulationManagementFamilyPdu), fun o v => { o with toSimulationManagementFamilyPdu := v }⟩ SimulationManagementFamilyPdu.parseInto
  let requestID ← P.read read_unsigned_int
  P.set fun o => { o with requestID := requestID }
  let padding1 ← P.read read_unsigned_int
  P.set fun o => { o with padding1 := padding1 }
  P.call ⟨(·._datums), fun o v => { o with _datums := v }⟩ DatumSpecification.parseInto
  return ()

/-- `FastEntityStatePdu.parse`, /repo/opendis/dis7.py:5813-5868, statement by statement. -/
def FastEntityStatePdu.parseInto : P FastEntityStatePdu Unit := do
  P.call ⟨(·.toEntityInformationFamilyPdu), fun o v => { o with toEntityInformationFamilyPdu := v }⟩ EntityInformationFamilyPdu.parseInto
  let site ← P.read read_unsigned_short
  P.set fun o => { o with site := site }
  let application ← P.read read_unsigned_short
  P.set fun o => { o with application := application }
  let entity ← P.read read_unsigned_short
  P.set fun o => { o with entity := entity }
  let forceId ← P.read read_unsigned_byte
  P.set fun o => { o with forceId := forceId }
  let numberOfVariableParameters ← P.read read_byte
  P.set fun o => { o with numberOfVariableParameters := numberOfVariableParameters }
  let entityKind ← P.read read_unsigned_byte
  P.set fun o => { o with entityKind := entityKind }
  let domain ← P.read read_unsigned_byte
  P.set fun o => { o with domain := domain }
  let country ← P.read read_unsigned_short
  P.set fun o => { o with country := country }
  let category ← P.read read_unsigned_byte
  P.set fun o => { o with category := category }
  let subcategory ← P.read read_unsigned_byte
  P.set fun o => { o with subcategory := subcategory }
  let specific ← P.read read_unsigned_byte
  P.set fun o => { o with specific := specific }
  let extra ← P.read read_unsigned_byte
  P.set fun o => { o with extra := extra }
  let altEntityKind ← P.read read_unsigned_byte
  P.set fun o => { o with altEntityKind := altEntityKind }
  let altDomain ← P.read read_unsigned_byte
  P.set fun o => { o with altDomain := altDomain }
  let altCountry ← P.read read_unsigned_short
  P.set fun o => { o with altCountry := altCountry }
  let altCategory ← P.read read_unsigned_byte
  P.set fun o => { o with altCategory := altCategory }
  let altSubcategory ← P.read read_unsigned_byte
  P.set fun o => { o with altSubcategory := altSubcategory }
  let altSpecific ← P.read read_unsigned_byte
  P.set fun o => { o with altSpecific := altSpecific }
  let altExtra ← P.read read_unsigned_byte
  P.set fun o => { o with altExtra := altExtra }
  let xVelocity ← P.read read_float
  P.set fun o => { o with xVelocity := xVelocity }
  let yVelocity ← P.read read_float
  P.set fun o => { o with yVelocity := yVelocity }
  let zVelocity ← P.read read_float
  P.set fun o => { o with zVelocity := zVelocity }
  let xLocation ← P.read read_double
  P.set fun o => { o with xLocation := xLocation }
  let yLocation ← P.read read_double
  P.set fun o => { o with yLocation := yLocation }
  let zLocation ← P.read read_double
  P.set fun o => { o with zLocation := zLocation }
  let psi ← P.read read_float
  P.set fun o => { o with psi := psi }
  let theta ← P.read read_float
  P.set fun o => { o with theta := theta }
  let phi ← P.read read_float
  P.set fun o => { o with phi := phi }
  let entityAppearance ← P.read read_int
  P.set fun o => { o with entityAppearance := entityAppearance }
  let deadReckoningAlgorithm ← P.read read_unsigned_byte
  P.set fun o => { o with deadReckoningAlgorithm := deadReckoningAlgorithm }
  P.fillReads 15 read_byte ⟨(·.otherParameters), fun o v => { o with otherParameters := v }⟩
  let xAcceleration ← P.read read_float
  P.set fun o => { o with xAcceleration := xAcceleration }
  let yAcceleration ← P.read read_float
  P.set fun o => { o with yAcceleration := yAcceleration }
  let zAcceleration ← P.read read_float
  P.set fun o => { o with zAcceleration := zAcceleration }
  let xAngularVelocity ← P.read read_float
  P.set fun o => { o with xAngularVelocity := xAngularVelocity }
  let yAngularVelocity ← P.read read_float
  P.set fun o => { o with yAngularVelocity := yAngularVelocity }
  let zAngularVelocity ← P.read read_float
  P.set fun o => { o with zAngularVelocity := zAngularVelocity }
  P.fillReads 12 read_byte ⟨(·.marking), fun o v => { o with marking := v }⟩
  let capabilities ← P.read read_int
  P.set fun o => { o with capabilities := capabilities }
  P.appendObjs numberOfVariableParameters.toNat VariableParameter.init VariableParameter.parseInto ⟨(·.variableParameters), fun o v => { o with variableParameters := v }⟩
  return ()

/-- `AcknowledgeReliablePdu.parse`, /repo/opendis/dis7.py:5897-5902, statement by statement. -/
def AcknowledgeReliablePdu.parseInto : P AcknowledgeReliablePdu Unit := do
  P.call ⟨(·.toSimulationManagementWithReliabilityFamilyPdu), fun o v => { o with toSimulationManagementWithReliabilityFamilyPdu := v }⟩ SimulationManagementWithReliabilityFamilyPdu.parseInto
  let acknowledgeFlag ← P.read read_unsigned_short
  P.set fun o => { o with acknowledgeFlag := acknowledgeFlag }
  let responseFlag ← P.read read_unsigned_short
  P.set fun o => { o with responseFlag := responseFlag }
  let requestID ← P.read read_unsigned_int
  P.set fun o => { o with requestID := requestID }
  return ()

/-- `StartResumeReliablePdu.parse`, /repo/opendis/dis7.py:5938-5946, statement by statement. -/
def StartResumeReliablePdu.parseInto : P StartResumeReliablePdu Unit := do
  P.call ⟨(·.toSimulationManagementWithReliabilityFamilyPdu), fun o v => { o with toSimulationManagementWithReliabilityFamilyPdu := v }⟩ SimulationManagementWithReliabilityFamilyPdu.parseInto
  P.call ⟨(·.realWorldTime), fun o v => { o with realWorldTime := v }⟩ ClockTime.parseInto
  P.call ⟨(·.simulationTime), fun o v => { o with simulationTime := v }⟩ ClockTime.parseInto
  let requiredReliabilityService ← P.read read_unsigned_byte
  P.set fun o => { o with requiredReliabilityService := requiredReliabilityService }
  let pad1 ← P.read read_unsigned_short
  P.set fun o => { o with pad1 := pad1 }
  let pad2 ← P.read read_unsigned_byte
  P.set fun o => { o with pad2 := pad2 }
  let requestID ← P.read read_unsigned_int
  P.set fun o => { o with requestID := requestID }
  return ()

/-- `ArealObjectStatePdu.parse`, /repo/opendis/dis7.py:6008-6025, statement by statement. -/
def ArealObjectStatePdu.parseInto : P ArealObjectStatePdu Unit := do
  P.call ⟨(·.toSyntheticEnvironmentFamilyPdu), fun o v => { o with toSyntheticEnvironmentFamilyPdu := v }⟩ SyntheticEnvironmentFamilyPdu.parseInto
  P.call ⟨(·.objectID), fun o v => { o with objectID := v }⟩ EntityIdentifier.parseInto
  P.call ⟨(·.referencedObjectID), fun o v => { o with referencedObjectID := v }⟩ EntityIdentifier.parseInto
  let updateNumber ← P.read read_unsigned_short
  P.set fun o => { o with updateNumber := updateNumber }
  let forceID ← P.read read_unsigned_byte
  P.set fun o => { o with forceID := forceID }
  let modifications ← P.read read_unsigned_byte
  P.set fun o => { o with modifications := modifications }
  P.call ⟨(·.objectType), fun o v => { o with objectType := v }⟩ ObjectType.parseInto
  let specificObjectAppearance ← P.read read_unsigned_int
  P.set fun o => { o with specificObjectAppearance := specificObjectAppearance }
  let generalObjectAppearance ← P.read read_unsigned_short
  P.set fun o => { o with generalObjectAppearance := generalObjectAppearance }
  let numberOfPoints ← P.read read_unsigned_short
  P.call ⟨(·.requesterID), fun o v => { o with requesterID := v }⟩ SimulationAddress.parseInto
  P.call ⟨(·.receivingID), fun o v => { o with receivingID := v }⟩ SimulationAddress.parseInto
  P.appendObjs numberOfPoints.toNat WorldCoordinates.init WorldCoordinates.parseInto ⟨(·.objectLocation), fun o v => { o with objectLocation := v }⟩
  return ()

/-- `DataQueryReliablePdu.parse`, /repo/opendis/dis7.py:6079-6087, statement by statement. -/
def DataQueryReliablePdu.parseInto : P DataQueryReliablePdu Unit := do
  P.call ⟨(·.toSimulationManagementWithReliabilityFamilyPdu), fun o v => { o with toSimulationManagementWithReliabilityFamilyPdu := v }⟩ SimulationManagementWithReliabilityFamilyPdu.parseInto
  let requiredReliabilityService ← P.read read_unsigned_byte
  P.set fun o => { o with requiredReliabilityService := requiredReliabilityService }
  let pad1 ← P.read read_unsigned_short
  P.set fun o => { o with pad1 := pad1 }
  let pad2 ← P.read read_unsigned_byte
  P.set fun o => { o with pad2 := pad2 }
  let requestID ← P.read read_unsigned_int
  P.set fun o => { o with requestID := requestID }
  let timeInterval ← P.read read_unsigned_int
  P.set fun o => { o with timeInterval := timeInterval }
  P.call ⟨(·._dataQuery), fun o v => { o with _dataQuery := v }⟩ DataQueryDatumSpecification.parseInto
  return ()

end Dis
