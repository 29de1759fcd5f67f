import Verif.Source.Encode2

/-!
# Objects of the model as values, part 3

Written by `tools/gensourceproof.py`.
-/

set_option linter.unusedVariables false
set_option linter.unusedSimpArgs false

namespace Dis.Src

/-- The attributes of a `StorageFuel` object (/repo/opendis/dis7.py:2815-2850). -/
abbrev StorageFuel.fields (x : Dis.StorageFuel) : List (Ident × Val) :=
   [(I.padding, .int x.padding),
    (I.fuelQuantity, .int x.fuelQuantity),
    (I.fuelMeasurementUnits, .int x.fuelMeasurementUnits),
    (I.fuelType, .int x.fuelType),
    (I.fuelLocation, .int x.fuelLocation)]

/-- A `StorageFuel` object (/repo/opendis/dis7.py:2815-2850). -/
abbrev StorageFuel.enc (x : Dis.StorageFuel) : Val := .obj I.StorageFuel (StorageFuel.fields x)

/-- The attributes of a `Sensor` object (/repo/opendis/dis7.py:2853-2893). -/
abbrev Sensor.fields (x : Dis.Sensor) : List (Ident × Val) :=
   [(I.padding, .int x.padding),
    (I.quantity, .int x.quantity),
    (I.sensorType, .int x.sensorType),
    (I.station, .int x.station),
    (I.sensorTypeSource, .int x.sensorTypeSource),
    (I.sensorOnOffStatus, .int x.sensorOnOffStatus)]

/-- A `Sensor` object (/repo/opendis/dis7.py:2853-2893). -/
abbrev Sensor.enc (x : Dis.Sensor) : Val := .obj I.Sensor (Sensor.fields x)

/-- The attributes of a `MunitionReload` object (/repo/opendis/dis7.py:2896-2940). -/
abbrev MunitionReload.fields (x : Dis.MunitionReload) : List (Ident × Val) :=
   [(I.munitionType, EntityType.enc x.munitionType),
    (I.station, .int x.station),
    (I.standardQuantity, .int x.standardQuantity),
    (I.maximumQuantity, .int x.maximumQuantity),
    (I.standardQuantityReloadTime, .int x.standardQuantityReloadTime),
    (I.maximumQuantityReloadTime, .int x.maximumQuantityReloadTime)]

/-- A `MunitionReload` object (/repo/opendis/dis7.py:2896-2940). -/
abbrev MunitionReload.enc (x : Dis.MunitionReload) : Val := .obj I.MunitionReload (MunitionReload.fields x)

/-- The attributes of a `StorageFuelReload` object (/repo/opendis/dis7.py:2943-2996). -/
abbrev StorageFuelReload.fields (x : Dis.StorageFuelReload) : List (Ident × Val) :=
   [(I.padding, .int x.padding),
    (I.fuelMeasurementUnits, .int x.fuelMeasurementUnits),
    (I.fuelType, .int x.fuelType),
    (I.fuelLocation, .int x.fuelLocation),
    (I.standardQuantity, .int x.standardQuantity),
    (I.maximumQuantity, .int x.maximumQuantity),
    (I.standardQuantityReloadTime, .int x.standardQuantityReloadTime),
    (I.maximumQuantityReloadTime, .int x.maximumQuantityReloadTime)]

/-- A `StorageFuelReload` object (/repo/opendis/dis7.py:2943-2996). -/
abbrev StorageFuelReload.enc (x : Dis.StorageFuelReload) : Val := .obj I.StorageFuelReload (StorageFuelReload.fields x)

/-- The attributes of a `ExpendableReload` object (/repo/opendis/dis7.py:2999-3037). -/
abbrev ExpendableReload.fields (x : Dis.ExpendableReload) : List (Ident × Val) :=
   [(I.expendable, EntityType.enc x.expendable),
    (I.station, .int x.station),
    (I.standardQuantity, .int x.standardQuantity),
    (I.maximumQuantity, .int x.maximumQuantity),
    (I.standardQuantityReloadTime, .int x.standardQuantityReloadTime),
    (I.maximumQuantityReloadTime, .int x.maximumQuantityReloadTime)]

/-- A `ExpendableReload` object (/repo/opendis/dis7.py:2999-3037). -/
abbrev ExpendableReload.enc (x : Dis.ExpendableReload) : Val := .obj I.ExpendableReload (ExpendableReload.fields x)

/-- The attributes of a `EngineFuelReload` object (/repo/opendis/dis7.py:3040-3083). -/
abbrev EngineFuelReload.fields (x : Dis.EngineFuelReload) : List (Ident × Val) :=
   [(I.padding, .int x.padding),
    (I.fuelLocation, .int x.fuelLocation),
    (I.standardQuantity, .int x.standardQuantity),
    (I.maximumQuantity, .int x.maximumQuantity),
    (I.standardQuantityReloadTime, .int x.standardQuantityReloadTime),
    (I.maximumQuantityReloadTime, .int x.maximumQuantityReloadTime),
    (I.fuelMeasurmentUnits, .int x.fuelMeasurmentUnits)]

/-- A `EngineFuelReload` object (/repo/opendis/dis7.py:3040-3083). -/
abbrev EngineFuelReload.enc (x : Dis.EngineFuelReload) : Val := .obj I.EngineFuelReload (EngineFuelReload.fields x)

/-- The attributes of a `UnattachedIdentifier` object (/repo/opendis/dis7.py:3086-3109). -/
abbrev UnattachedIdentifier.fields (x : Dis.UnattachedIdentifier) : List (Ident × Val) :=
   [(I.simulationAddress, SimulationAddress.enc x.simulationAddress),
    (I.referenceNumber, .int x.referenceNumber)]

/-- A `UnattachedIdentifier` object (/repo/opendis/dis7.py:3086-3109). -/
abbrev UnattachedIdentifier.enc (x : Dis.UnattachedIdentifier) : Val := .obj I.UnattachedIdentifier (UnattachedIdentifier.fields x)

/-- The attributes of a `EntityTypeVP` object (/repo/opendis/dis7.py:3112-3143). -/
abbrev EntityTypeVP.fields (x : Dis.EntityTypeVP) : List (Ident × Val) :=
   [(I.padding, .int x.padding),
    (I.recordType, .int x.recordType),
    (I.padding1, .int x.padding1),
    (I.changeIndicator, .int x.changeIndicator),
    (I.entityType, EntityType.enc x.entityType)]

/-- A `EntityTypeVP` object (/repo/opendis/dis7.py:3112-3143). -/
abbrev EntityTypeVP.enc (x : Dis.EntityTypeVP) : Val := .obj I.EntityTypeVP (EntityTypeVP.fields x)

/-- The attributes of a `BeamStatus` object (/repo/opendis/dis7.py:3146-3165). -/
abbrev BeamStatus.fields (x : Dis.BeamStatus) : List (Ident × Val) :=
   [(I.beamState, .int x.beamState)]

/-- A `BeamStatus` object (/repo/opendis/dis7.py:3146-3165). -/
abbrev BeamStatus.enc (x : Dis.BeamStatus) : Val := .obj I.BeamStatus (BeamStatus.fields x)

/-- The attributes of a `GridAxis` object (/repo/opendis/dis7.py:3212-3259). -/
abbrev GridAxis.fields (x : Dis.GridAxis) : List (Ident × Val) :=
   [(I.domainInitialXi, .float x.domainInitialXi),
    (I.domainFinalXi, .float x.domainFinalXi),
    (I.domainPointsXi, .int x.domainPointsXi),
    (I.interleafFactor, .int x.interleafFactor),
    (I.axisType, .int x.axisType),
    (I.numberOfPointsOnXiAxis, .int x.numberOfPointsOnXiAxis),
    (I.initialIndex, .int x.initialIndex)]

/-- A `GridAxis` object (/repo/opendis/dis7.py:3212-3259). -/
abbrev GridAxis.enc (x : Dis.GridAxis) : Val := .obj I.GridAxis (GridAxis.fields x)

/-- The attributes of a `RecordSpecification` object (/repo/opendis/dis7.py:3262-3290). -/
abbrev RecordSpecification.fields (x : Dis.RecordSpecification) : List (Ident × Val) :=
   [(I.recordSets, .list (x.recordSets.map RecordSpecificationElement.enc))]

/-- A `RecordSpecification` object (/repo/opendis/dis7.py:3262-3290). -/
abbrev RecordSpecification.enc (x : Dis.RecordSpecification) : Val := .obj I.RecordSpecification (RecordSpecification.fields x)

/-- The attributes of a `EventIdentifierLiveEntity` object (/repo/opendis/dis7.py:3342-3367). -/
abbrev EventIdentifierLiveEntity.fields (x : Dis.EventIdentifierLiveEntity) : List (Ident × Val) :=
   [(I.eventNumber, .int x.eventNumber),
    (I.siteNumber, .int x.siteNumber),
    (I.applicationNumber, .int x.applicationNumber)]

/-- A `EventIdentifierLiveEntity` object (/repo/opendis/dis7.py:3342-3367). -/
abbrev EventIdentifierLiveEntity.enc (x : Dis.EventIdentifierLiveEntity) : Val := .obj I.EventIdentifierLiveEntity (EventIdentifierLiveEntity.fields x)

/-- The attributes of a `ExpendableDescriptor` object (/repo/opendis/dis7.py:3504-3523). -/
abbrev ExpendableDescriptor.fields (x : Dis.ExpendableDescriptor) : List (Ident × Val) :=
   [(I.padding, .int x.padding),
    (I.expendableType, EntityType.enc x.expendableType)]

/-- A `ExpendableDescriptor` object (/repo/opendis/dis7.py:3504-3523). -/
abbrev ExpendableDescriptor.enc (x : Dis.ExpendableDescriptor) : Val := .obj I.ExpendableDescriptor (ExpendableDescriptor.fields x)

/-- The attributes of a `PropulsionSystemData` object (/repo/opendis/dis7.py:3526-3550). -/
abbrev PropulsionSystemData.fields (x : Dis.PropulsionSystemData) : List (Ident × Val) :=
   [(I.powerSetting, .float x.powerSetting),
    (I.engineRpm, .float x.engineRpm)]

/-- A `PropulsionSystemData` object (/repo/opendis/dis7.py:3526-3550). -/
abbrev PropulsionSystemData.enc (x : Dis.PropulsionSystemData) : Val := .obj I.PropulsionSystemData (PropulsionSystemData.fields x)

/-- The attributes of a `LiveEntityIdentifier` object (/repo/opendis/dis7.py:3553-3577). -/
abbrev LiveEntityIdentifier.fields (x : Dis.LiveEntityIdentifier) : List (Ident × Val) :=
   [(I.entityNumber, .int x.entityNumber),
    (I.liveSimulationAddress, LiveSimulationAddress.enc x.liveSimulationAddress)]

/-- A `LiveEntityIdentifier` object (/repo/opendis/dis7.py:3553-3577). -/
abbrev LiveEntityIdentifier.enc (x : Dis.LiveEntityIdentifier) : Val := .obj I.LiveEntityIdentifier (LiveEntityIdentifier.fields x)

/-- The attributes of a `EmitterSystem` object (/repo/opendis/dis7.py:3624-3648). -/
abbrev EmitterSystem.fields (x : Dis.EmitterSystem) : List (Ident × Val) :=
   [(I.emitterName, .int x.emitterName),
    (I.emitterFunction, .int x.emitterFunction),
    (I.emitterIDNumber, .int x.emitterIDNumber)]

/-- A `EmitterSystem` object (/repo/opendis/dis7.py:3624-3648). -/
abbrev EmitterSystem.enc (x : Dis.EmitterSystem) : Val := .obj I.EmitterSystem (EmitterSystem.fields x)

/-- The attributes of a `PduStatus` object (/repo/opendis/dis7.py:3651-3668). -/
abbrev PduStatus.fields (x : Dis.PduStatus) : List (Ident × Val) :=
   [(I.pduStatus, .int x.pduStatus)]

/-- A `PduStatus` object (/repo/opendis/dis7.py:3651-3668). -/
abbrev PduStatus.enc (x : Dis.PduStatus) : Val := .obj I.PduStatus (PduStatus.fields x)

/-- The attributes of a `EmissionSystemBeamRecord` object (/repo/opendis/dis7.py:5172-5231). -/
abbrev EmissionSystemBeamRecord.fields (x : Dis.EmissionSystemBeamRecord) : List (Ident × Val) :=
   [(I.beamDataLength, .int x.beamDataLength),
    (I.beamIDNumber, .int x.beamIDNumber),
    (I.beamParameterIndex, .int x.beamParameterIndex),
    (I.fundamentalParameterData, EEFundamentalParameterData.enc x.fundamentalParameterData),
    (I.beamFunction, .int x.beamFunction),
    (I.highDensityTrackJam, .int x.highDensityTrackJam),
    (I.beamStatus, BeamStatus.enc x.beamStatus),
    (I.jammingModeSequence, .int x.jammingModeSequence),
    (I.trackJamRecords, .list (x.trackJamRecords.map TrackJamData.enc))]

/-- A `EmissionSystemBeamRecord` object (/repo/opendis/dis7.py:5172-5231). -/
abbrev EmissionSystemBeamRecord.enc (x : Dis.EmissionSystemBeamRecord) : Val := .obj I.EmissionSystemBeamRecord (EmissionSystemBeamRecord.fields x)

/-- A `EmissionSystemBeamRecord` object of the model, and what the attributes hold that the constructor gives an integer (/repo/opendis/dis7.py:5172-5231). -/
structure EmissionSystemBeamRecord.Raw where
  obj : Dis.EmissionSystemBeamRecord
  fundamentalParameterData : EEFundamentalParameterData.Raw

/-- The object of the model (/repo/opendis/dis7.py:5172-5231). -/
abbrev EmissionSystemBeamRecord.Raw.out (r : EmissionSystemBeamRecord.Raw) : Dis.EmissionSystemBeamRecord := { r.obj with fundamentalParameterData := r.fundamentalParameterData.out }

/-- Its attributes (/repo/opendis/dis7.py:5172-5231). -/
abbrev EmissionSystemBeamRecord.rawFields (r : EmissionSystemBeamRecord.Raw) : List (Ident × Val) :=
   [(I.beamDataLength, .int r.obj.beamDataLength),
    (I.beamIDNumber, .int r.obj.beamIDNumber),
    (I.beamParameterIndex, .int r.obj.beamParameterIndex),
    (I.fundamentalParameterData, .obj I.EEFundamentalParameterData (EEFundamentalParameterData.rawFields r.fundamentalParameterData)),
    (I.beamFunction, .int r.obj.beamFunction),
    (I.highDensityTrackJam, .int r.obj.highDensityTrackJam),
    (I.beamStatus, BeamStatus.enc r.obj.beamStatus),
    (I.jammingModeSequence, .int r.obj.jammingModeSequence),
    (I.trackJamRecords, .list (r.obj.trackJamRecords.map TrackJamData.enc))]

/-- What the constructor makes (/repo/opendis/dis7.py:5172-5231). -/
abbrev EmissionSystemBeamRecord.made : EmissionSystemBeamRecord.Raw := ⟨Dis.EmissionSystemBeamRecord.init, EEFundamentalParameterData.made⟩

/-- `EmissionSystemBeamRecord.parse` (/repo/opendis/dis7.py:5217-5231). -/
def EmissionSystemBeamRecord.parseRaw : P EmissionSystemBeamRecord.Raw Unit := do
  let beamDataLength ← P.read read_unsigned_byte
  P.set fun o => { o with obj := { o.obj with beamDataLength := beamDataLength } }
  let beamIDNumber ← P.read read_unsigned_byte
  P.set fun o => { o with obj := { o.obj with beamIDNumber := beamIDNumber } }
  let beamParameterIndex ← P.read read_unsigned_short
  P.set fun o => { o with obj := { o.obj with beamParameterIndex := beamParameterIndex } }
  P.call ⟨(·.fundamentalParameterData), fun o v => { o with fundamentalParameterData := v }⟩ EEFundamentalParameterData.parseRaw
  let beamFunction ← P.read read_unsigned_byte
  P.set fun o => { o with obj := { o.obj with beamFunction := beamFunction } }
  let numberOfTargetsInTrackJam ← P.read read_unsigned_byte
  let highDensityTrackJam ← P.read read_unsigned_byte
  P.set fun o => { o with obj := { o.obj with highDensityTrackJam := highDensityTrackJam } }
  P.call ⟨(·.obj.beamStatus), fun o v => { o with obj := { o.obj with beamStatus := v } }⟩ Dis.BeamStatus.parseInto
  let jammingModeSequence ← P.read read_unsigned_int
  P.set fun o => { o with obj := { o.obj with jammingModeSequence := jammingModeSequence } }
  P.appendObjs numberOfTargetsInTrackJam.toNat Dis.TrackJamData.init Dis.TrackJamData.parseInto ⟨(·.obj.trackJamRecords), fun o v => { o with obj := { o.obj with trackJamRecords := v } }⟩
  return ()
/-- The attributes of a `EmissionSystemRecord` object (/repo/opendis/dis7.py:5234-5276). -/
abbrev EmissionSystemRecord.fields (x : Dis.EmissionSystemRecord) : List (Ident × Val) :=
   [(I.location, Vector3Float.enc x.location),
    (I.paddingForEmissionsPdu, .int x.paddingForEmissionsPdu),
    (I.systemDataLength, .int x.systemDataLength),
    (I.emitterSystem, EmitterSystem.enc x.emitterSystem),
    (I.beamRecords, .list (x.beamRecords.map EmissionSystemBeamRecord.enc))]

/-- A `EmissionSystemRecord` object (/repo/opendis/dis7.py:5234-5276). -/
abbrev EmissionSystemRecord.enc (x : Dis.EmissionSystemRecord) : Val := .obj I.EmissionSystemRecord (EmissionSystemRecord.fields x)

/-- The attributes of a `PduSuperclass` object (/repo/opendis/dis7.py:3424-3478). -/
abbrev PduSuperclass.fields (x : Dis.PduSuperclass) : List (Ident × Val) :=
   [(I.protocolVersion, .int x.protocolVersion),
    (I.exerciseID, .int x.exerciseID),
    (I.timestamp, .int x.timestamp),
    (I.length, .int x.length),
    (I.pduType, .int x.pduType),
    (I.protocolFamily, .int x.protocolFamily)]

/-- A `PduSuperclass` object (/repo/opendis/dis7.py:3424-3478). -/
abbrev PduSuperclass.enc (x : Dis.PduSuperclass) : Val := .obj I.PduSuperclass (PduSuperclass.fields x)

/-- The attributes a `LiveEntityPdu` object has besides the inherited ones (/repo/opendis/dis7.py:3671-3695). -/
abbrev LiveEntityPdu.own (x : Dis.LiveEntityPdu) : List (Ident × Val) :=
   [(I.padding, .int x.padding),
    (I.subprotocolNumber, .int x.subprotocolNumber)]

/-- The attributes of a `LiveEntityPdu` object (/repo/opendis/dis7.py:3671-3695). -/
abbrev LiveEntityPdu.fields (x : Dis.LiveEntityPdu) : List (Ident × Val) := PduSuperclass.fields x.toPduSuperclass ++ LiveEntityPdu.own x

/-- A `LiveEntityPdu` object (/repo/opendis/dis7.py:3671-3695). -/
abbrev LiveEntityPdu.enc (x : Dis.LiveEntityPdu) : Val := .obj I.LiveEntityPdu (LiveEntityPdu.fields x)

/-- The attributes a `Pdu` object has besides the inherited ones (/repo/opendis/dis7.py:3698-3718). -/
abbrev Pdu.own (x : Dis.Pdu) : List (Ident × Val) :=
   [(I.pduStatus, .int x.pduStatus),
    (I.padding, .int x.padding)]

/-- The attributes of a `Pdu` object (/repo/opendis/dis7.py:3698-3718). -/
abbrev Pdu.fields (x : Dis.Pdu) : List (Ident × Val) := PduSuperclass.fields x.toPduSuperclass ++ Pdu.own x

/-- A `Pdu` object (/repo/opendis/dis7.py:3698-3718). -/
abbrev Pdu.enc (x : Dis.Pdu) : Val := .obj I.Pdu (Pdu.fields x)

/-- The attributes a `EntityInformationFamilyPdu` object has besides the inherited ones (/repo/opendis/dis7.py:3721-3738). -/
abbrev EntityInformationFamilyPdu.own (_x : Dis.EntityInformationFamilyPdu) : List (Ident × Val) :=
   []

/-- The attributes of a `EntityInformationFamilyPdu` object (/repo/opendis/dis7.py:3721-3738). -/
abbrev EntityInformationFamilyPdu.fields (x : Dis.EntityInformationFamilyPdu) : List (Ident × Val) := Pdu.fields x.toPdu ++ EntityInformationFamilyPdu.own x

/-- A `EntityInformationFamilyPdu` object (/repo/opendis/dis7.py:3721-3738). -/
abbrev EntityInformationFamilyPdu.enc (x : Dis.EntityInformationFamilyPdu) : Val := .obj I.EntityInformationFamilyPdu (EntityInformationFamilyPdu.fields x)

/-- The attributes a `LogisticsFamilyPdu` object has besides the inherited ones (/repo/opendis/dis7.py:3741-3757). -/
abbrev LogisticsFamilyPdu.own (_x : Dis.LogisticsFamilyPdu) : List (Ident × Val) :=
   []

/-- The attributes of a `LogisticsFamilyPdu` object (/repo/opendis/dis7.py:3741-3757). -/
abbrev LogisticsFamilyPdu.fields (x : Dis.LogisticsFamilyPdu) : List (Ident × Val) := Pdu.fields x.toPdu ++ LogisticsFamilyPdu.own x

/-- A `LogisticsFamilyPdu` object (/repo/opendis/dis7.py:3741-3757). -/
abbrev LogisticsFamilyPdu.enc (x : Dis.LogisticsFamilyPdu) : Val := .obj I.LogisticsFamilyPdu (LogisticsFamilyPdu.fields x)

/-- The attributes a `EntityStateUpdatePdu` object has besides the inherited ones (/repo/opendis/dis7.py:3760-3820). -/
abbrev EntityStateUpdatePdu.own (x : Dis.EntityStateUpdatePdu) : List (Ident × Val) :=
   [(I.padding1, .int x.padding1),
    (I.entityID, EntityIdentifier.enc x.entityID),
    (I.entityLinearVelocity, Vector3Float.enc x.entityLinearVelocity),
    (I.entityLocation, WorldCoordinates.enc x.entityLocation),
    (I.entityOrientation, EulerAngles.enc x.entityOrientation),
    (I.entityAppearance, .int x.entityAppearance),
    (I.variableParameters, .list (x.variableParameters.map VariableParameter.enc))]

/-- The attributes of a `EntityStateUpdatePdu` object (/repo/opendis/dis7.py:3760-3820). -/
abbrev EntityStateUpdatePdu.fields (x : Dis.EntityStateUpdatePdu) : List (Ident × Val) := EntityInformationFamilyPdu.fields x.toEntityInformationFamilyPdu ++ EntityStateUpdatePdu.own x

/-- A `EntityStateUpdatePdu` object (/repo/opendis/dis7.py:3760-3820). -/
abbrev EntityStateUpdatePdu.enc (x : Dis.EntityStateUpdatePdu) : Val := .obj I.EntityStateUpdatePdu (EntityStateUpdatePdu.fields x)

/-- The attributes a `ServiceRequestPdu` object has besides the inherited ones (/repo/opendis/dis7.py:3823-3872). -/
abbrev ServiceRequestPdu.own (x : Dis.ServiceRequestPdu) : List (Ident × Val) :=
   [(I.requestingEntityID, EntityIdentifier.enc x.requestingEntityID),
    (I.servicingEntityID, EntityIdentifier.enc x.servicingEntityID),
    (I.serviceTypeRequested, .int x.serviceTypeRequested),
    (I.supplies, .list (x.supplies.map SupplyQuantity.enc)),
    (I.serviceRequestPadding, .int x.serviceRequestPadding)]

/-- The attributes of a `ServiceRequestPdu` object (/repo/opendis/dis7.py:3823-3872). -/
abbrev ServiceRequestPdu.fields (x : Dis.ServiceRequestPdu) : List (Ident × Val) := LogisticsFamilyPdu.fields x.toLogisticsFamilyPdu ++ ServiceRequestPdu.own x

/-- A `ServiceRequestPdu` object (/repo/opendis/dis7.py:3823-3872). -/
abbrev ServiceRequestPdu.enc (x : Dis.ServiceRequestPdu) : Val := .obj I.ServiceRequestPdu (ServiceRequestPdu.fields x)

/-- The attributes a `RepairCompletePdu` object has besides the inherited ones (/repo/opendis/dis7.py:3875-3910). -/
abbrev RepairCompletePdu.own (x : Dis.RepairCompletePdu) : List (Ident × Val) :=
   [(I.receivingEntityID, EntityIdentifier.enc x.receivingEntityID),
    (I.padding4, .int x.padding4),
    (I.repairingEntityID, EntityIdentifier.enc x.repairingEntityID),
    (I.repair, .int x.repair)]

/-- The attributes of a `RepairCompletePdu` object (/repo/opendis/dis7.py:3875-3910). -/
abbrev RepairCompletePdu.fields (x : Dis.RepairCompletePdu) : List (Ident × Val) := LogisticsFamilyPdu.fields x.toLogisticsFamilyPdu ++ RepairCompletePdu.own x

/-- A `RepairCompletePdu` object (/repo/opendis/dis7.py:3875-3910). -/
abbrev RepairCompletePdu.enc (x : Dis.RepairCompletePdu) : Val := .obj I.RepairCompletePdu (RepairCompletePdu.fields x)

/-- The attributes a `SyntheticEnvironmentFamilyPdu` object has besides the inherited ones (/repo/opendis/dis7.py:3913-3929). -/
abbrev SyntheticEnvironmentFamilyPdu.own (_x : Dis.SyntheticEnvironmentFamilyPdu) : List (Ident × Val) :=
   []

/-- The attributes of a `SyntheticEnvironmentFamilyPdu` object (/repo/opendis/dis7.py:3913-3929). -/
abbrev SyntheticEnvironmentFamilyPdu.fields (x : Dis.SyntheticEnvironmentFamilyPdu) : List (Ident × Val) := Pdu.fields x.toPdu ++ SyntheticEnvironmentFamilyPdu.own x

/-- A `SyntheticEnvironmentFamilyPdu` object (/repo/opendis/dis7.py:3913-3929). -/
abbrev SyntheticEnvironmentFamilyPdu.enc (x : Dis.SyntheticEnvironmentFamilyPdu) : Val := .obj I.SyntheticEnvironmentFamilyPdu (SyntheticEnvironmentFamilyPdu.fields x)

/-- The attributes a `CollisionPdu` object has besides the inherited ones (/repo/opendis/dis7.py:3932-3987). -/
abbrev CollisionPdu.own (x : Dis.CollisionPdu) : List (Ident × Val) :=
   [(I.issuingEntityID, EntityIdentifier.enc x.issuingEntityID),
    (I.collidingEntityID, EntityIdentifier.enc x.collidingEntityID),
    (I.eventID, EventIdentifier.enc x.eventID),
    (I.collisionType, .int x.collisionType),
    (I.velocity, Vector3Float.enc x.velocity),
    (I.mass, .float x.mass),
    (I.location, Vector3Float.enc x.location),
    (I.pad, .int x.pad)]

/-- The attributes of a `CollisionPdu` object (/repo/opendis/dis7.py:3932-3987). -/
abbrev CollisionPdu.fields (x : Dis.CollisionPdu) : List (Ident × Val) := EntityInformationFamilyPdu.fields x.toEntityInformationFamilyPdu ++ CollisionPdu.own x

/-- A `CollisionPdu` object (/repo/opendis/dis7.py:3932-3987). -/
abbrev CollisionPdu.enc (x : Dis.CollisionPdu) : Val := .obj I.CollisionPdu (CollisionPdu.fields x)

/-- The attributes a `RepairResponsePdu` object has besides the inherited ones (/repo/opendis/dis7.py:3990-4027). -/
abbrev RepairResponsePdu.own (x : Dis.RepairResponsePdu) : List (Ident × Val) :=
   [(I.receivingEntityID, EntityIdentifier.enc x.receivingEntityID),
    (I.padding1, .int x.padding1),
    (I.padding2, .int x.padding2),
    (I.repairingEntityID, EntityIdentifier.enc x.repairingEntityID),
    (I.repairResult, .int x.repairResult)]

/-- The attributes of a `RepairResponsePdu` object (/repo/opendis/dis7.py:3990-4027). -/
abbrev RepairResponsePdu.fields (x : Dis.RepairResponsePdu) : List (Ident × Val) := LogisticsFamilyPdu.fields x.toLogisticsFamilyPdu ++ RepairResponsePdu.own x

/-- A `RepairResponsePdu` object (/repo/opendis/dis7.py:3990-4027). -/
abbrev RepairResponsePdu.enc (x : Dis.RepairResponsePdu) : Val := .obj I.RepairResponsePdu (RepairResponsePdu.fields x)

/-- The attributes a `SimulationManagementFamilyPdu` object has besides the inherited ones (/repo/opendis/dis7.py:4030-4056). -/
abbrev SimulationManagementFamilyPdu.own (x : Dis.SimulationManagementFamilyPdu) : List (Ident × Val) :=
   [(I.originatingEntityID, EntityIdentifier.enc x.originatingEntityID),
    (I.receivingEntityID, EntityIdentifier.enc x.receivingEntityID)]

/-- The attributes of a `SimulationManagementFamilyPdu` object (/repo/opendis/dis7.py:4030-4056). -/
abbrev SimulationManagementFamilyPdu.fields (x : Dis.SimulationManagementFamilyPdu) : List (Ident × Val) := Pdu.fields x.toPdu ++ SimulationManagementFamilyPdu.own x

/-- A `SimulationManagementFamilyPdu` object (/repo/opendis/dis7.py:4030-4056). -/
abbrev SimulationManagementFamilyPdu.enc (x : Dis.SimulationManagementFamilyPdu) : Val := .obj I.SimulationManagementFamilyPdu (SimulationManagementFamilyPdu.fields x)

/-- The attributes a `DataQueryPdu` object has besides the inherited ones (/repo/opendis/dis7.py:4059-4107). -/
abbrev DataQueryPdu.own (x : Dis.DataQueryPdu) : List (Ident × Val) :=
   [(I.requestID, .int x.requestID),
    (I.timeInterval, .int x.timeInterval),
    (I._dataQuery, DataQueryDatumSpecification.enc x._dataQuery)]

/-- The attributes of a `DataQueryPdu` object (/repo/opendis/dis7.py:4059-4107). -/
abbrev DataQueryPdu.fields (x : Dis.DataQueryPdu) : List (Ident × Val) := SimulationManagementFamilyPdu.fields x.toSimulationManagementFamilyPdu ++ DataQueryPdu.own x

/-- A `DataQueryPdu` object (/repo/opendis/dis7.py:4059-4107). -/
abbrev DataQueryPdu.enc (x : Dis.DataQueryPdu) : Val := .obj I.DataQueryPdu (DataQueryPdu.fields x)

/-- The attributes a `LinearObjectStatePdu` object has besides the inherited ones (/repo/opendis/dis7.py:4110-4175). -/
abbrev LinearObjectStatePdu.own (x : Dis.LinearObjectStatePdu) : List (Ident × Val) :=
   [(I.receivingID, SimulationAddress.enc x.receivingID),
    (I.objectID, EntityIdentifier.enc x.objectID),
    (I.referencedObjectID, EntityIdentifier.enc x.referencedObjectID),
    (I.updateNumber, .int x.updateNumber),
    (I.forceID, .int x.forceID),
    (I.requesterID, SimulationAddress.enc x.requesterID),
    (I.objectType, ObjectType.enc x.objectType),
    (I.linearSegmentParameters, .list (x.linearSegmentParameters.map LinearSegmentParameter.enc))]

/-- The attributes of a `LinearObjectStatePdu` object (/repo/opendis/dis7.py:4110-4175). -/
abbrev LinearObjectStatePdu.fields (x : Dis.LinearObjectStatePdu) : List (Ident × Val) := SyntheticEnvironmentFamilyPdu.fields x.toSyntheticEnvironmentFamilyPdu ++ LinearObjectStatePdu.own x

/-- A `LinearObjectStatePdu` object (/repo/opendis/dis7.py:4110-4175). -/
abbrev LinearObjectStatePdu.enc (x : Dis.LinearObjectStatePdu) : Val := .obj I.LinearObjectStatePdu (LinearObjectStatePdu.fields x)

/-- The attributes a `CreateEntityPdu` object has besides the inherited ones (/repo/opendis/dis7.py:4178-4198). -/
abbrev CreateEntityPdu.own (x : Dis.CreateEntityPdu) : List (Ident × Val) :=
   [(I.requestID, .int x.requestID)]

/-- The attributes of a `CreateEntityPdu` object (/repo/opendis/dis7.py:4178-4198). -/
abbrev CreateEntityPdu.fields (x : Dis.CreateEntityPdu) : List (Ident × Val) := SimulationManagementFamilyPdu.fields x.toSimulationManagementFamilyPdu ++ CreateEntityPdu.own x

/-- A `CreateEntityPdu` object (/repo/opendis/dis7.py:4178-4198). -/
abbrev CreateEntityPdu.enc (x : Dis.CreateEntityPdu) : Val := .obj I.CreateEntityPdu (CreateEntityPdu.fields x)

/-- The attributes a `RadioCommunicationsFamilyPdu` object has besides the inherited ones (/repo/opendis/dis7.py:4201-4217). -/
abbrev RadioCommunicationsFamilyPdu.own (_x : Dis.RadioCommunicationsFamilyPdu) : List (Ident × Val) :=
   []

/-- The attributes of a `RadioCommunicationsFamilyPdu` object (/repo/opendis/dis7.py:4201-4217). -/
abbrev RadioCommunicationsFamilyPdu.fields (x : Dis.RadioCommunicationsFamilyPdu) : List (Ident × Val) := Pdu.fields x.toPdu ++ RadioCommunicationsFamilyPdu.own x

/-- A `RadioCommunicationsFamilyPdu` object (/repo/opendis/dis7.py:4201-4217). -/
abbrev RadioCommunicationsFamilyPdu.enc (x : Dis.RadioCommunicationsFamilyPdu) : Val := .obj I.RadioCommunicationsFamilyPdu (RadioCommunicationsFamilyPdu.fields x)

/-- The attributes a `IntercomSignalPdu` object has besides the inherited ones (/repo/opendis/dis7.py:4220-4280). -/
abbrev IntercomSignalPdu.own (x : Dis.IntercomSignalPdu) : List (Ident × Val) :=
   [(I.data, .list (x.data.map .int)),
    (I.entityID, EntityIdentifier.enc x.entityID),
    (I.communicationsDeviceID, .int x.communicationsDeviceID),
    (I.encodingScheme, .int x.encodingScheme),
    (I.tdlType, .int x.tdlType),
    (I.sampleRate, .int x.sampleRate),
    (I.samples, .int x.samples)]

/-- The attributes of a `IntercomSignalPdu` object (/repo/opendis/dis7.py:4220-4280). -/
abbrev IntercomSignalPdu.fields (x : Dis.IntercomSignalPdu) : List (Ident × Val) := RadioCommunicationsFamilyPdu.fields x.toRadioCommunicationsFamilyPdu ++ IntercomSignalPdu.own x

/-- A `IntercomSignalPdu` object (/repo/opendis/dis7.py:4220-4280). -/
abbrev IntercomSignalPdu.enc (x : Dis.IntercomSignalPdu) : Val := .obj I.IntercomSignalPdu (IntercomSignalPdu.fields x)

/-- The attributes a `RemoveEntityPdu` object has besides the inherited ones (/repo/opendis/dis7.py:4283-4305). -/
abbrev RemoveEntityPdu.own (x : Dis.RemoveEntityPdu) : List (Ident × Val) :=
   [(I.requestID, .int x.requestID)]

/-- The attributes of a `RemoveEntityPdu` object (/repo/opendis/dis7.py:4283-4305). -/
abbrev RemoveEntityPdu.fields (x : Dis.RemoveEntityPdu) : List (Ident × Val) := SimulationManagementFamilyPdu.fields x.toSimulationManagementFamilyPdu ++ RemoveEntityPdu.own x

/-- A `RemoveEntityPdu` object (/repo/opendis/dis7.py:4283-4305). -/
abbrev RemoveEntityPdu.enc (x : Dis.RemoveEntityPdu) : Val := .obj I.RemoveEntityPdu (RemoveEntityPdu.fields x)

/-- The attributes a `ResupplyReceivedPdu` object has besides the inherited ones (/repo/opendis/dis7.py:4308-4355). -/
abbrev ResupplyReceivedPdu.own (x : Dis.ResupplyReceivedPdu) : List (Ident × Val) :=
   [(I.receivingEntityID, EntityIdentifier.enc x.receivingEntityID),
    (I.padding1, .int x.padding1),
    (I.padding2, .int x.padding2),
    (I.supplies, .list (x.supplies.map SupplyQuantity.enc)),
    (I.supplyingEntityID, EntityIdentifier.enc x.supplyingEntityID)]

/-- The attributes of a `ResupplyReceivedPdu` object (/repo/opendis/dis7.py:4308-4355). -/
abbrev ResupplyReceivedPdu.fields (x : Dis.ResupplyReceivedPdu) : List (Ident × Val) := LogisticsFamilyPdu.fields x.toLogisticsFamilyPdu ++ ResupplyReceivedPdu.own x

/-- A `ResupplyReceivedPdu` object (/repo/opendis/dis7.py:4308-4355). -/
abbrev ResupplyReceivedPdu.enc (x : Dis.ResupplyReceivedPdu) : Val := .obj I.ResupplyReceivedPdu (ResupplyReceivedPdu.fields x)

/-- The attributes a `WarfareFamilyPdu` object has besides the inherited ones (/repo/opendis/dis7.py:4358-4385). -/
abbrev WarfareFamilyPdu.own (x : Dis.WarfareFamilyPdu) : List (Ident × Val) :=
   [(I.firingEntityID, EntityIdentifier.enc x.firingEntityID),
    (I.targetEntityID, EntityIdentifier.enc x.targetEntityID)]

/-- The attributes of a `WarfareFamilyPdu` object (/repo/opendis/dis7.py:4358-4385). -/
abbrev WarfareFamilyPdu.fields (x : Dis.WarfareFamilyPdu) : List (Ident × Val) := Pdu.fields x.toPdu ++ WarfareFamilyPdu.own x

/-- A `WarfareFamilyPdu` object (/repo/opendis/dis7.py:4358-4385). -/
abbrev WarfareFamilyPdu.enc (x : Dis.WarfareFamilyPdu) : Val := .obj I.WarfareFamilyPdu (WarfareFamilyPdu.fields x)

/-- The attributes a `CollisionElasticPdu` object has besides the inherited ones (/repo/opendis/dis7.py:4388-4474). -/
abbrev CollisionElasticPdu.own (x : Dis.CollisionElasticPdu) : List (Ident × Val) :=
   [(I.issuingEntityID, EntityIdentifier.enc x.issuingEntityID),
    (I.collidingEntityID, EntityIdentifier.enc x.collidingEntityID),
    (I.mass, .float x.mass),
    (I.pad, .int x.pad),
    (I.collisionEventID, EventIdentifier.enc x.collisionEventID),
    (I.contactVelocity, Vector3Float.enc x.contactVelocity),
    (I.locationOfImpact, Vector3Float.enc x.locationOfImpact),
    (I.collisionIntermediateResultXX, .float x.collisionIntermediateResultXX),
    (I.collisionIntermediateResultXY, .float x.collisionIntermediateResultXY),
    (I.collisionIntermediateResultXZ, .float x.collisionIntermediateResultXZ),
    (I.collisionIntermediateResultYY, .float x.collisionIntermediateResultYY),
    (I.collisionIntermediateResultYZ, .float x.collisionIntermediateResultYZ),
    (I.collisionIntermediateResultZZ, .float x.collisionIntermediateResultZZ),
    (I.unitSurfaceNormal, Vector3Float.enc x.unitSurfaceNormal),
    (I.coefficientOfRestitution, .float x.coefficientOfRestitution)]

/-- The attributes of a `CollisionElasticPdu` object (/repo/opendis/dis7.py:4388-4474). -/
abbrev CollisionElasticPdu.fields (x : Dis.CollisionElasticPdu) : List (Ident × Val) := EntityInformationFamilyPdu.fields x.toEntityInformationFamilyPdu ++ CollisionElasticPdu.own x

/-- A `CollisionElasticPdu` object (/repo/opendis/dis7.py:4388-4474). -/
abbrev CollisionElasticPdu.enc (x : Dis.CollisionElasticPdu) : Val := .obj I.CollisionElasticPdu (CollisionElasticPdu.fields x)

end Dis.Src
