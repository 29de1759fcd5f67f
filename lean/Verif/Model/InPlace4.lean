import Verif.Model.InPlace3

/-!
# Parse methods as programs that change their object, part 4

Generated by `tools/geninplace.py` from the Python source; each definition cites the lines it transliterates.
-/

set_option linter.unusedVariables false
set_option linter.unusedSimpArgs false

namespace Dis

/-- `MinefieldStatePdu.parse`, /repo/opendis/dis7.py:6151-6172, statement by statement. -/
def MinefieldStatePdu.parseInto : P MinefieldStatePdu Unit := do
  P.call ⟨(·.toMinefieldFamilyPdu), fun o v => { o with toMinefieldFamilyPdu := v }⟩ MinefieldFamilyPdu.parseInto
  P.call ⟨(·.minefieldID), fun o v => { o with minefieldID := v }⟩ MinefieldIdentifier.parseInto
  let minefieldSequence ← P.read read_unsigned_short
  P.set fun o => { o with minefieldSequence := minefieldSequence }
  let forceID ← P.read read_unsigned_byte
  P.set fun o => { o with forceID := forceID }
  let numberOfPerimeterPoints ← P.read read_unsigned_byte
  P.call ⟨(·.minefieldType), fun o v => { o with minefieldType := v }⟩ EntityType.parseInto
  let numberOfMineTypes ← P.read read_unsigned_short
  P.call ⟨(·.minefieldLocation), fun o v => { o with minefieldLocation := v }⟩ WorldCoordinates.parseInto
  P.call ⟨(·.minefieldOrientation), fun o v => { o with minefieldOrientation := v }⟩ EulerAngles.parseInto
  let appearance ← P.read read_unsigned_short
  P.set fun o => { o with appearance := appearance }
  let protocolMode ← P.read read_unsigned_short
  P.set fun o => { o with protocolMode := protocolMode }
  P.appendObjs numberOfPerimeterPoints.toNat Vector2Float.init Vector2Float.parseInto ⟨(·.perimeterPoints), fun o v => { o with perimeterPoints := v }⟩
  P.appendObjs numberOfMineTypes.toNat EntityType.init EntityType.parseInto ⟨(·.mineTypes), fun o v => { o with mineTypes := v }⟩
  return ()

/-- `DataReliablePdu.parse`, /repo/opendis/dis7.py:6223-6230, statement by statement. -/
def DataReliablePdu.parseInto : P DataReliablePdu Unit := do
  P.call ⟨(·.toSimulationManagementWithReliabilityFamilyPdu), fun o v => { o with toSimulationManagementWithReliabilityFamilyPdu := v }⟩ SimulationManagementWithReliabilityFamilyPdu.parseInto
  let requestID ← P.read read_unsigned_int
  P.set fun o => { o with requestID := requestID }
  let requiredReliabilityService ← P.read read_unsigned_byte
  P.set fun o => { o with requiredReliabilityService := requiredReliabilityService }
  let pad1 ← P.read read_unsigned_short
  P.set fun o => { o with pad1 := pad1 }
  let pad2 ← P.read read_unsigned_byte
  P.set fun o => { o with pad2 := pad2 }
  P.call ⟨(·._datums), fun o v => { o with _datums := v }⟩ DatumSpecification.parseInto
  return ()

/-- `CommentPdu.parse`, /repo/opendis/dis7.py:6269-6272, statement by statement. -/
def CommentPdu.parseInto : P CommentPdu Unit := do
  P.call ⟨(·.toSimulationManagementFamilyPdu), fun o v => { o with toSimulationManagementFamilyPdu := v }⟩ SimulationManagementFamilyPdu.parseInto
  P.call ⟨(·._datums), fun o v => { o with _datums := v }⟩ DatumSpecification.parseInto
  return ()

/-- `CommentReliablePdu.parse`, /repo/opendis/dis7.py:6312-6315, statement by statement. -/
def CommentReliablePdu.parseInto : P CommentReliablePdu Unit := do
  P.call ⟨(·.toSimulationManagementWithReliabilityFamilyPdu), fun o v => { o with toSimulationManagementWithReliabilityFamilyPdu := v }⟩ SimulationManagementWithReliabilityFamilyPdu.parseInto
  P.call ⟨(·._datums), fun o v => { o with _datums := v }⟩ DatumSpecification.parseInto
  return ()

/-- `DetonationPdu.parse`, /repo/opendis/dis7.py:6460-6475, statement by statement. -/
def DetonationPdu.parseInto : P DetonationPdu Unit := do
  P.call ⟨(·.toWarfareFamilyPdu), fun o v => { o with toWarfareFamilyPdu := v }⟩ WarfareFamilyPdu.parseInto
  P.call ⟨(·.explodingEntityID), fun o v => { o with explodingEntityID := v }⟩ EntityIdentifier.parseInto
  P.call ⟨(·.eventID), fun o v => { o with eventID := v }⟩ EventIdentifier.parseInto
  P.call ⟨(·.velocity), fun o v => { o with velocity := v }⟩ Vector3Float.parseInto
  P.call ⟨(·.location), fun o v => { o with location := v }⟩ WorldCoordinates.parseInto
  P.call ⟨(·.descriptor), fun o v => { o with descriptor := v }⟩ MunitionDescriptor.parseInto
  P.call ⟨(·.locationInEntityCoordinates), fun o v => { o with locationInEntityCoordinates := v }⟩ Vector3Float.parseInto
  let detonationResult ← P.read read_unsigned_byte
  P.set fun o => { o with detonationResult := detonationResult }
  let numberOfVariableParameters ← P.read read_unsigned_byte
  let pad ← P.read read_unsigned_short
  P.set fun o => { o with pad := pad }
  P.appendObjs numberOfVariableParameters.toNat VariableParameter.init VariableParameter.parseInto ⟨(·.variableParameters), fun o v => { o with variableParameters := v }⟩
  return ()

/-- `SetDataPdu.parse`, /repo/opendis/dis7.py:6519-6524, statement by statement. -/
def SetDataPdu.parseInto : P SetDataPdu Unit := do
  P.call ⟨(·.toSimulationManagementFamilyPdu), fun o v => { o with toSimulationManagementFamilyPdu := v }⟩ SimulationManagementFamilyPdu.parseInto
  let requestID ← P.read read_unsigned_int
  P.set fun o => { o with requestID := requestID }
  let padding1 ← P.read read_unsigned_int
  P.set fun o => { o with padding1 := padding1 }
  P.call ⟨(·._datums), fun o v => { o with _datums := v }⟩ DatumSpecification.parseInto
  return ()

/-- `RecordQueryReliablePdu.parse`, /repo/opendis/dis7.py:6568-6581, statement by statement. -/
def RecordQueryReliablePdu.parseInto : P RecordQueryReliablePdu Unit := do
  P.call ⟨(·.toSimulationManagementWithReliabilityFamilyPdu), fun o v => { o with toSimulationManagementWithReliabilityFamilyPdu := v }⟩ SimulationManagementWithReliabilityFamilyPdu.parseInto
  let requestID ← P.read read_unsigned_int
  P.set fun o => { o with requestID := requestID }
  let requiredReliabilityService ← P.read read_unsigned_byte
  P.set fun o => { o with requiredReliabilityService := requiredReliabilityService }
  let pad1 ← P.read read_unsigned_short
  P.set fun o => { o with pad1 := pad1 }
  let pad2 ← P.read read_unsigned_byte
  P.set fun o => { o with pad2 := pad2 }
  let eventType ← P.read read_unsigned_short
  P.set fun o => { o with eventType := eventType }
  let time ← P.read read_unsigned_int
  P.set fun o => { o with time := time }
  let numberOfRecords ← P.read read_unsigned_int
  P.appendReads numberOfRecords.toNat (R.throw .nameError : R Int) ⟨(·.recordIDs), fun o v => { o with recordIDs := v }⟩
  return ()

/-- `ActionResponsePdu.parse`, /repo/opendis/dis7.py:6627-6632, statement by statement. -/
def ActionResponsePdu.parseInto : P ActionResponsePdu Unit := do
  P.call ⟨(·.toSimulationManagementFamilyPdu), fun o v => { o with toSimulationManagementFamilyPdu := v }⟩ SimulationManagementFamilyPdu.parseInto
  let requestID ← P.read read_unsigned_int
  P.set fun o => { o with requestID := requestID }
  let requestStatus ← P.read read_unsigned_int
  P.set fun o => { o with requestStatus := requestStatus }
  P.call ⟨(·._datums), fun o v => { o with _datums := v }⟩ DatumSpecification.parseInto
  return ()

/-- `FirePdu.parse`, /repo/opendis/dis7.py:6724-6733, statement by statement. -/
def FirePdu.parseInto : P FirePdu Unit := do
  P.call ⟨(·.toWarfareFamilyPdu), fun o v => { o with toWarfareFamilyPdu := v }⟩ WarfareFamilyPdu.parseInto
  P.call ⟨(·.munitionExpendableID), fun o v => { o with munitionExpendableID := v }⟩ EntityIdentifier.parseInto
  P.call ⟨(·.eventID), fun o v => { o with eventID := v }⟩ EventIdentifier.parseInto
  let fireMissionIndex ← P.read read_unsigned_int
  P.set fun o => { o with fireMissionIndex := fireMissionIndex }
  P.call ⟨(·.location), fun o v => { o with location := v }⟩ WorldCoordinates.parseInto
  P.call ⟨(·.descriptor), fun o v => { o with descriptor := v }⟩ MunitionDescriptor.parseInto
  P.call ⟨(·.velocity), fun o v => { o with velocity := v }⟩ Vector3Float.parseInto
  let range ← P.read read_float
  P.set fun o => { o with range := range }
  return ()

/-- `ReceiverPdu.parse`, /repo/opendis/dis7.py:6768-6775, statement by statement. -/
def ReceiverPdu.parseInto : P ReceiverPdu Unit := do
  P.call ⟨(·.toRadioCommunicationsFamilyPdu), fun o v => { o with toRadioCommunicationsFamilyPdu := v }⟩ RadioCommunicationsFamilyPdu.parseInto
  let receiverState ← P.read read_unsigned_short
  P.set fun o => { o with receiverState := receiverState }
  let padding1 ← P.read read_unsigned_short
  P.set fun o => { o with padding1 := padding1 }
  let receivedPower ← P.read read_float
  P.set fun o => { o with receivedPower := receivedPower }
  P.call ⟨(·.transmitterEntityID), fun o v => { o with transmitterEntityID := v }⟩ EntityIdentifier.parseInto
  let transmitterRadioId ← P.read read_unsigned_short
  P.set fun o => { o with transmitterRadioId := transmitterRadioId }
  return ()

/-- `UaPdu.parse`, /repo/opendis/dis7.py:6847-6870, statement by statement. -/
def UaPdu.parseInto : P UaPdu Unit := do
  P.call ⟨(·.toDistributedEmissionsFamilyPdu), fun o v => { o with toDistributedEmissionsFamilyPdu := v }⟩ DistributedEmissionsFamilyPdu.parseInto
  P.call ⟨(·.emittingEntityID), fun o v => { o with emittingEntityID := v }⟩ EntityIdentifier.parseInto
  P.call ⟨(·.eventID), fun o v => { o with eventID := v }⟩ EventIdentifier.parseInto
  let stateChangeIndicator ← P.read read_byte
  P.set fun o => { o with stateChangeIndicator := stateChangeIndicator }
  let pad ← P.read read_byte
  P.set fun o => { o with pad := pad }
  let passiveParameterIndex ← P.read read_unsigned_short
  P.set fun o => { o with passiveParameterIndex := passiveParameterIndex }
  let propulsionPlantConfiguration ← P.read read_unsigned_byte
  P.set fun o => { o with propulsionPlantConfiguration := propulsionPlantConfiguration }
  let numberOfShafts ← P.read read_unsigned_byte
  let numberOfAPAs ← P.read read_unsigned_byte
  let numberOfUAEmitterSystems ← P.read read_unsigned_byte
  P.appendReads numberOfShafts.toNat (R.throw .nameError : R Int) ⟨(·.shaftRPMs), fun o v => { o with shaftRPMs := v }⟩
  P.appendReads numberOfAPAs.toNat (R.throw .nameError : R Int) ⟨(·.apaData), fun o v => { o with apaData := v }⟩
  P.appendReads numberOfUAEmitterSystems.toNat (R.throw .nameError : R Int) ⟨(·.emitterSystems), fun o v => { o with emitterSystems := v }⟩
  return ()

/-- `SignalPdu.parse`, /repo/opendis/dis7.py:7003-7015, statement by statement. -/
def SignalPdu.parseInto : P SignalPdu Unit := do
  P.call ⟨(·.toRadioCommunicationsFamilyPdu), fun o v => { o with toRadioCommunicationsFamilyPdu := v }⟩ RadioCommunicationsFamilyPdu.parseInto
  P.call ⟨(·.entityID), fun o v => { o with entityID := v }⟩ EntityIdentifier.parseInto
  let radioID ← P.read read_unsigned_short
  P.set fun o => { o with radioID := radioID }
  let encodingScheme ← P.read read_unsigned_short
  P.set fun o => { o with encodingScheme := encodingScheme }
  let tdlType ← P.read read_unsigned_short
  P.set fun o => { o with tdlType := tdlType }
  let sampleRate ← P.read read_unsigned_int
  P.set fun o => { o with sampleRate := sampleRate }
  let dataLength ← P.read read_unsigned_short
  let samples ← P.read read_unsigned_short
  P.set fun o => { o with samples := samples }
  P.appendReads (dataLength / 8).toNat read_unsigned_byte ⟨(·.data), fun o v => { o with data := v }⟩
  return ()

/-- `RemoveEntityReliablePdu.parse`, /repo/opendis/dis7.py:7043-7049, statement by statement. -/
def RemoveEntityReliablePdu.parseInto : P RemoveEntityReliablePdu Unit := do
  P.call ⟨(·.toSimulationManagementWithReliabilityFamilyPdu), fun o v => { o with toSimulationManagementWithReliabilityFamilyPdu := v }⟩ SimulationManagementWithReliabilityFamilyPdu.parseInto
  let requiredReliabilityService ← P.read read_unsigned_byte
  P.set fun o => { o with requiredReliabilityService := requiredReliabilityService }
  let pad1 ← P.read read_unsigned_short
  P.set fun o => { o with pad1 := pad1 }
  let pad2 ← P.read read_unsigned_byte
  P.set fun o => { o with pad2 := pad2 }
  let requestID ← P.read read_unsigned_int
  P.set fun o => { o with requestID := requestID }
  return ()

/-- `SeesPdu.parse`, /repo/opendis/dis7.py:7099-7119, statement by statement. -/
def SeesPdu.parseInto : P SeesPdu Unit := do
  P.call ⟨(·.toDistributedEmissionsFamilyPdu), fun o v => { o with toDistributedEmissionsFamilyPdu := v }⟩ DistributedEmissionsFamilyPdu.parseInto
  P.call ⟨(·.orginatingEntityID), fun o v => { o with orginatingEntityID := v }⟩ EntityIdentifier.parseInto
  let infraredSignatureRepresentationIndex ← P.read read_unsigned_short
  P.set fun o => { o with infraredSignatureRepresentationIndex := infraredSignatureRepresentationIndex }
  let acousticSignatureRepresentationIndex ← P.read read_unsigned_short
  P.set fun o => { o with acousticSignatureRepresentationIndex := acousticSignatureRepresentationIndex }
  let radarCrossSectionSignatureRepresentationIndex ← P.read read_unsigned_short
  P.set fun o => { o with radarCrossSectionSignatureRepresentationIndex := radarCrossSectionSignatureRepresentationIndex }
  let numberOfPropulsionSystems ← P.read read_unsigned_short
  let numberOfVectoringNozzleSystems ← P.read read_unsigned_short
  P.appendReads numberOfPropulsionSystems.toNat (R.throw .nameError : R PropulsionSystemData) ⟨(·.propulsionSystemData), fun o v => { o with propulsionSystemData := v }⟩
  P.appendReads numberOfVectoringNozzleSystems.toNat (R.throw .nameError : R VectoringNozzleSystem) ⟨(·.vectoringSystemData), fun o v => { o with vectoringSystemData := v }⟩
  return ()

/-- `CreateEntityReliablePdu.parse`, /repo/opendis/dis7.py:7147-7153, statement by statement. -/
def CreateEntityReliablePdu.parseInto : P CreateEntityReliablePdu Unit := do
  P.call ⟨(·.toSimulationManagementWithReliabilityFamilyPdu), fun o v => { o with toSimulationManagementWithReliabilityFamilyPdu := v }⟩ SimulationManagementWithReliabilityFamilyPdu.parseInto
  let requiredReliabilityService ← P.read read_unsigned_byte
  P.set fun o => { o with requiredReliabilityService := requiredReliabilityService }
  let pad1 ← P.read read_unsigned_short
  P.set fun o => { o with pad1 := pad1 }
  let pad2 ← P.read read_unsigned_byte
  P.set fun o => { o with pad2 := pad2 }
  let requestID ← P.read read_unsigned_int
  P.set fun o => { o with requestID := requestID }
  return ()

/-- `StopFreezeReliablePdu.parse`, /repo/opendis/dis7.py:7191-7199, statement by statement. -/
def StopFreezeReliablePdu.parseInto : P StopFreezeReliablePdu Unit := do
  P.call ⟨(·.toSimulationManagementWithReliabilityFamilyPdu), fun o v => { o with toSimulationManagementWithReliabilityFamilyPdu := v }⟩ SimulationManagementWithReliabilityFamilyPdu.parseInto
  P.call ⟨(·.realWorldTime), fun o v => { o with realWorldTime := v }⟩ ClockTime.parseInto
  let reason ← P.read read_unsigned_byte
  P.set fun o => { o with reason := reason }
  let frozenBehavior ← P.read read_unsigned_byte
  P.set fun o => { o with frozenBehavior := frozenBehavior }
  let requiredReliablityService ← P.read read_unsigned_byte
  P.set fun o => { o with requiredReliablityService := requiredReliablityService }
  let pad1 ← P.read read_unsigned_byte
  P.set fun o => { o with pad1 := pad1 }
  let requestID ← P.read read_unsigned_int
  P.set fun o => { o with requestID := requestID }
  return ()

/-- `EventReportReliablePdu.parse`, /repo/opendis/dis7.py:7245-7250, statement by statement. -/
def EventReportReliablePdu.parseInto : P EventReportReliablePdu Unit := do
  P.call ⟨(·.toSimulationManagementWithReliabilityFamilyPdu), fun o v => { o with toSimulationManagementWithReliabilityFamilyPdu := v }⟩ SimulationManagementWithReliabilityFamilyPdu.parseInto
  let eventType ← P.read read_unsigned_short
  P.set fun o => { o with eventType := eventType }
  let pad1 ← P.read read_unsigned_int
  P.set fun o => { o with pad1 := pad1 }
  P.call ⟨(·._datums), fun o v => { o with _datums := v }⟩ DatumSpecification.parseInto
  return ()

/-- `MinefieldResponseNackPdu.parse`, /repo/opendis/dis7.py:7288-7299, statement by statement. -/
def MinefieldResponseNackPdu.parseInto : P MinefieldResponseNackPdu Unit := do
  P.call ⟨(·.toMinefieldFamilyPdu), fun o v => { o with toMinefieldFamilyPdu := v }⟩ MinefieldFamilyPdu.parseInto
  P.call ⟨(·.minefieldID), fun o v => { o with minefieldID := v }⟩ EntityIdentifier.parseInto
  P.call ⟨(·.requestingEntityID), fun o v => { o with requestingEntityID := v }⟩ EntityIdentifier.parseInto
  let requestID ← P.read read_unsigned_byte
  P.set fun o => { o with requestID := requestID }
  let numberOfMissingPdus ← P.read read_unsigned_byte
  P.appendReads numberOfMissingPdus.toNat (R.throw .nameError : R Int) ⟨(·.missingPduSequenceNumbers), fun o v => { o with missingPduSequenceNumbers := v }⟩
  return ()

/-- `ActionResponseReliablePdu.parse`, /repo/opendis/dis7.py:7344-7349, statement by statement. -/
def ActionResponseReliablePdu.parseInto : P ActionResponseReliablePdu Unit := do
  P.call ⟨(·.toSimulationManagementWithReliabilityFamilyPdu), fun o v => { o with toSimulationManagementWithReliabilityFamilyPdu := v }⟩ SimulationManagementWithReliabilityFamilyPdu.parseInto
  let requestID ← P.read read_unsigned_int
  P.set fun o => { o with requestID := requestID }
  let responseStatus ← P.read read_unsigned_int
  P.set fun o => { o with responseStatus := responseStatus }
  P.call ⟨(·._datums), fun o v => { o with _datums := v }⟩ DatumSpecification.parseInto
  return ()

/-- `IsPartOfPdu.parse`, /repo/opendis/dis7.py:7389-7397, statement by statement. -/
def IsPartOfPdu.parseInto : P IsPartOfPdu Unit := do
  P.call ⟨(·.toEntityManagementFamilyPdu), fun o v => { o with toEntityManagementFamilyPdu := v }⟩ EntityManagementFamilyPdu.parseInto
  P.call ⟨(·.orginatingEntityID), fun o v => { o with orginatingEntityID := v }⟩ EntityIdentifier.parseInto
  P.call ⟨(·.receivingEntityID), fun o v => { o with receivingEntityID := v }⟩ EntityIdentifier.parseInto
  P.call ⟨(·.relationship), fun o v => { o with relationship := v }⟩ Relationship.parseInto
  P.call ⟨(·.partLocation), fun o v => { o with partLocation := v }⟩ Vector3Float.parseInto
  P.call ⟨(·.namedLocationID), fun o v => { o with namedLocationID := v }⟩ NamedLocationIdentification.parseInto
  P.call ⟨(·.partEntityType), fun o v => { o with partEntityType := v }⟩ EntityType.parseInto
  return ()

/-- `AggregateStatePdu.parse`, /repo/opendis/dis7.py:7500-7537, statement by statement. -/
def AggregateStatePdu.parseInto : P AggregateStatePdu Unit := do
  P.call ⟨(·.toEntityManagementFamilyPdu), fun o v => { o with toEntityManagementFamilyPdu := v }⟩ EntityManagementFamilyPdu.parseInto
  P.call ⟨(·.aggregateID), fun o v => { o with aggregateID := v }⟩ AggregateIdentifier.parseInto
  let forceID ← P.read read_unsigned_byte
  P.set fun o => { o with forceID := forceID }
  let aggregateState ← P.read read_unsigned_byte
  P.set fun o => { o with aggregateState := aggregateState }
  P.call ⟨(·.aggregateType), fun o v => { o with aggregateType := v }⟩ AggregateType.parseInto
  let formation ← P.read read_unsigned_int
  P.set fun o => { o with formation := formation }
  P.call ⟨(·.aggregateMarking), fun o v => { o with aggregateMarking := v }⟩ AggregateMarking.parseInto
  P.call ⟨(·.dimensions), fun o v => { o with dimensions := v }⟩ Vector3Float.parseInto
  P.call ⟨(·.orientation), fun o v => { o with orientation := v }⟩ EulerAngles.parseInto
  P.call ⟨(·.centerOfMass), fun o v => { o with centerOfMass := v }⟩ Vector3Float.parseInto
  P.call ⟨(·.velocity), fun o v => { o with velocity := v }⟩ WorldCoordinates.parseInto
  let numberOfAggregateIDs ← P.read read_unsigned_short
  let numberOfEntityIDs ← P.read read_unsigned_short
  let numberOfSilentAggregateSystems ← P.read read_unsigned_short
  let numberOfSilentEntitySystems ← P.read read_unsigned_short
  P.appendObjs numberOfAggregateIDs.toNat AggregateIdentifier.init AggregateIdentifier.parseInto ⟨(·.aggregateIDs), fun o v => { o with aggregateIDs := v }⟩
  P.appendObjs numberOfEntityIDs.toNat EntityIdentifier.init EntityIdentifier.parseInto ⟨(·.entityIDs), fun o v => { o with entityIDs := v }⟩
  P.appendObjs numberOfSilentAggregateSystems.toNat SilentAggregateSystem.init SilentAggregateSystem.parseInto ⟨(·.silentAggregateSystems), fun o v => { o with silentAggregateSystems := v }⟩
  P.appendObjs numberOfSilentEntitySystems.toNat SilentEntitySystem.init SilentEntitySystem.parseInto ⟨(·.silentEntitySystems), fun o v => { o with silentEntitySystems := v }⟩
  let numberOfVariableDatumRecords ← P.read read_unsigned_int
  P.appendObjs numberOfVariableDatumRecords.toNat VariableDatum.init VariableDatum.parseInto ⟨(·.variableDatumRecords), fun o v => { o with variableDatumRecords := v }⟩
  return ()

end Dis
