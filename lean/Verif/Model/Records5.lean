import Verif.Model.Records4

/-!
# Records of `opendis/dis7.py`, part 5

Generated by `tools/gen.py` from the Python source; each definition cites the lines it transliterates.
-/

set_option linter.unusedVariables false

namespace Dis

/-- Attributes of a `EnvironmentGeneral` object, /repo/opendis/dis7.py:3168-3209; default values are those of an
object made by `EnvironmentGeneral()`, /repo/opendis/dis7.py:3176-3191. -/
structure EnvironmentGeneral where
  environmentType : Int := 0
  length : Int := 0
  index : Int := 0
  padding : Int := 0
  geometry : Option Int := none
  padding2 : Int := 0
  padding1 : Option Int := none
  deriving DecidableEq

/-- Constructor `EnvironmentGeneral(...)`, /repo/opendis/dis7.py:3176-3191. `x or T()` and `x or []` keep a given
value and replace `None` (absent) by a fresh one. -/
def EnvironmentGeneral.init (environmentType : Int := 0) (length : Int := 0) (index : Int := 0)
    (geometry : Option Int := none) : EnvironmentGeneral :=
  { environmentType := environmentType,
    length := length,
    index := index,
    padding := 0,
    geometry := geometry,
    padding2 := 0 }

/-- `EnvironmentGeneral.serialize`, /repo/opendis/dis7.py:3193-3200. -/
def EnvironmentGeneral.serialize (self : EnvironmentGeneral) : W Unit := do
  write_unsigned_int self.environmentType
  write_unsigned_byte (self.length : Int)
  write_unsigned_byte self.index
  W.using (attr self.padding1) write_unsigned_byte
  W.using (needInt self.geometry) write_unsigned_byte
  write_unsigned_byte self.padding2

/-- `EnvironmentGeneral.parse`, /repo/opendis/dis7.py:3202-3209; returns the updated object. -/
def EnvironmentGeneral.parse (self : EnvironmentGeneral) : R EnvironmentGeneral := do
  let environmentType ← read_unsigned_int
  let length ← read_unsigned_byte
  let index ← read_unsigned_byte
  let padding1 ← read_unsigned_byte
  let geometry ← read_unsigned_byte
  let padding2 ← read_unsigned_byte
  return { self with
    environmentType := environmentType,
    length := length,
    index := index,
    padding1 := some padding1,
    geometry := some geometry,
    padding2 := padding2 }

/-- Attributes of a `GridAxis` object, /repo/opendis/dis7.py:3212-3259; default values are those of an
object made by `GridAxis()`, /repo/opendis/dis7.py:3218-3239. -/
structure GridAxis where
  domainInitialXi : F64 := 0x0000000000000000
  domainFinalXi : F64 := 0x0000000000000000
  domainPointsXi : Int := 0
  interleafFactor : Int := 0
  axisType : Int := 0
  numberOfPointsOnXiAxis : Int := 0
  initialIndex : Int := 0
  deriving DecidableEq

/-- Constructor `GridAxis(...)`, /repo/opendis/dis7.py:3218-3239. `x or T()` and `x or []` keep a given
value and replace `None` (absent) by a fresh one. -/
def GridAxis.init (domainInitialXi : F64 := 0x0000000000000000)
    (domainFinalXi : F64 := 0x0000000000000000) (domainPointsXi : Int := 0)
    (interleafFactor : Int := 0) (axisType : Int := 0) (numberOfPointsOnXiAxis : Int := 0)
    (initialIndex : Int := 0) : GridAxis :=
  { domainInitialXi := domainInitialXi,
    domainFinalXi := domainFinalXi,
    domainPointsXi := domainPointsXi,
    interleafFactor := interleafFactor,
    axisType := axisType,
    numberOfPointsOnXiAxis := numberOfPointsOnXiAxis,
    initialIndex := initialIndex }

/-- `GridAxis.serialize`, /repo/opendis/dis7.py:3241-3249. -/
def GridAxis.serialize (self : GridAxis) : W Unit := do
  write_double self.domainInitialXi
  write_double self.domainFinalXi
  write_unsigned_short self.domainPointsXi
  write_unsigned_byte self.interleafFactor
  write_unsigned_byte self.axisType
  write_unsigned_short self.numberOfPointsOnXiAxis
  write_unsigned_short self.initialIndex

/-- `GridAxis.parse`, /repo/opendis/dis7.py:3251-3259; returns the updated object. -/
def GridAxis.parse (self : GridAxis) : R GridAxis := do
  let domainInitialXi ← read_double
  let domainFinalXi ← read_double
  let domainPointsXi ← read_unsigned_short
  let interleafFactor ← read_unsigned_byte
  let axisType ← read_unsigned_byte
  let numberOfPointsOnXiAxis ← read_unsigned_short
  let initialIndex ← read_unsigned_short
  return { self with
    domainInitialXi := domainInitialXi,
    domainFinalXi := domainFinalXi,
    domainPointsXi := domainPointsXi,
    interleafFactor := interleafFactor,
    axisType := axisType,
    numberOfPointsOnXiAxis := numberOfPointsOnXiAxis,
    initialIndex := initialIndex }

/-- Attributes of a `RecordSpecification` object, /repo/opendis/dis7.py:3262-3290; default values are those of an
object made by `RecordSpecification()`, /repo/opendis/dis7.py:3269-3272. -/
structure RecordSpecification where
  recordSets : List RecordSpecificationElement := []
  deriving DecidableEq

/-- Constructor `RecordSpecification(...)`, /repo/opendis/dis7.py:3269-3272. `x or T()` and `x or []` keep a given
value and replace `None` (absent) by a fresh one. -/
def RecordSpecification.init (recordSets : List RecordSpecificationElement := []) : RecordSpecification :=
  { recordSets := recordSets }

/-- `RecordSpecification.serialize`, /repo/opendis/dis7.py:3278-3282. -/
def RecordSpecification.serialize (self : RecordSpecification) : W Unit := do
  write_unsigned_int (self.recordSets.length : Int)
  W.forEach self.recordSets RecordSpecificationElement.serialize

/-- `RecordSpecification.parse`, /repo/opendis/dis7.py:3284-3290; returns the updated object. -/
def RecordSpecification.parse (self : RecordSpecification) : R RecordSpecification := do
  let numberOfRecordSets ← read_unsigned_int
  let recordSets ← R.times numberOfRecordSets.toNat (R.throw .nameError : R RecordSpecificationElement)
  return { self with recordSets := self.recordSets ++ recordSets }

/-- Attributes of a `EventIdentifierLiveEntity` object, /repo/opendis/dis7.py:3342-3367; default values are those of an
object made by `EventIdentifierLiveEntity()`, /repo/opendis/dis7.py:3349-3355. -/
structure EventIdentifierLiveEntity where
  siteNumber : Int := 0
  applicationNumber : Int := 0
  eventNumber : Int := 0
  deriving DecidableEq

/-- Constructor `EventIdentifierLiveEntity(...)`, /repo/opendis/dis7.py:3349-3355. `x or T()` and `x or []` keep a given
value and replace `None` (absent) by a fresh one. -/
def EventIdentifierLiveEntity.init (siteNumber : Int := 0) (applicationNumber : Int := 0)
    (eventNumber : Int := 0) : EventIdentifierLiveEntity :=
  { siteNumber := siteNumber,
    applicationNumber := applicationNumber,
    eventNumber := eventNumber }

/-- `EventIdentifierLiveEntity.serialize`, /repo/opendis/dis7.py:3357-3361. -/
def EventIdentifierLiveEntity.serialize (self : EventIdentifierLiveEntity) : W Unit := do
  write_unsigned_byte self.siteNumber
  write_unsigned_byte self.applicationNumber
  write_unsigned_short self.eventNumber

/-- `EventIdentifierLiveEntity.parse`, /repo/opendis/dis7.py:3363-3367; returns the updated object. -/
def EventIdentifierLiveEntity.parse (self : EventIdentifierLiveEntity) : R EventIdentifierLiveEntity := do
  let siteNumber ← read_unsigned_byte
  let applicationNumber ← read_unsigned_byte
  let eventNumber ← read_unsigned_short
  return { self with
    siteNumber := siteNumber,
    applicationNumber := applicationNumber,
    eventNumber := eventNumber }

/-- Attributes of a `ExpendableDescriptor` object, /repo/opendis/dis7.py:3504-3523; default values are those of an
object made by `ExpendableDescriptor()`, /repo/opendis/dis7.py:3510-3513. -/
structure ExpendableDescriptor where
  expendableType : EntityType := EntityType.init
  padding : Int := 0
  deriving DecidableEq

/-- Constructor `ExpendableDescriptor(...)`, /repo/opendis/dis7.py:3510-3513. `x or T()` and `x or []` keep a given
value and replace `None` (absent) by a fresh one. -/
def ExpendableDescriptor.init (expendableType : Option EntityType := none) : ExpendableDescriptor :=
  { expendableType := expendableType.getD EntityType.init,
    padding := 0 }

/-- `ExpendableDescriptor.serialize`, /repo/opendis/dis7.py:3515-3518. -/
def ExpendableDescriptor.serialize (self : ExpendableDescriptor) : W Unit := do
  EntityType.serialize self.expendableType
  write_long self.padding

/-- `ExpendableDescriptor.parse`, /repo/opendis/dis7.py:3520-3523; returns the updated object. -/
def ExpendableDescriptor.parse (self : ExpendableDescriptor) : R ExpendableDescriptor := do
  let expendableType ← EntityType.parse self.expendableType
  let padding ← read_long
  return { self with expendableType := expendableType, padding := padding }

/-- Attributes of a `PropulsionSystemData` object, /repo/opendis/dis7.py:3526-3550; default values are those of an
object made by `PropulsionSystemData()`, /repo/opendis/dis7.py:3534-3540. -/
structure PropulsionSystemData where
  powerSetting : F64 := 0x0000000000000000
  engineRpm : F64 := 0x0000000000000000
  deriving DecidableEq

/-- Constructor `PropulsionSystemData(...)`, /repo/opendis/dis7.py:3534-3540. `x or T()` and `x or []` keep a given
value and replace `None` (absent) by a fresh one. -/
def PropulsionSystemData.init (powerSetting : F64 := 0x0000000000000000)
    (engineRpm : F64 := 0x0000000000000000) : PropulsionSystemData :=
  { powerSetting := powerSetting,
    engineRpm := engineRpm }

/-- `PropulsionSystemData.serialize`, /repo/opendis/dis7.py:3542-3545. -/
def PropulsionSystemData.serialize (self : PropulsionSystemData) : W Unit := do
  write_float self.powerSetting
  write_float self.engineRpm

/-- `PropulsionSystemData.parse`, /repo/opendis/dis7.py:3547-3550; returns the updated object. -/
def PropulsionSystemData.parse (self : PropulsionSystemData) : R PropulsionSystemData := do
  let powerSetting ← read_float
  let engineRpm ← read_float
  return { self with powerSetting := powerSetting, engineRpm := engineRpm }

/-- Attributes of a `LiveEntityIdentifier` object, /repo/opendis/dis7.py:3553-3577; default values are those of an
object made by `LiveEntityIdentifier()`, /repo/opendis/dis7.py:3560-3567. -/
structure LiveEntityIdentifier where
  liveSimulationAddress : LiveSimulationAddress := LiveSimulationAddress.init
  entityNumber : Int := 0
  deriving DecidableEq

/-- Constructor `LiveEntityIdentifier(...)`, /repo/opendis/dis7.py:3560-3567. `x or T()` and `x or []` keep a given
value and replace `None` (absent) by a fresh one. -/
def LiveEntityIdentifier.init (liveSimulationAddress : Option LiveSimulationAddress := none)
    (entityNumber : Int := 0) : LiveEntityIdentifier :=
  { liveSimulationAddress := liveSimulationAddress.getD LiveSimulationAddress.init,
    entityNumber := entityNumber }

/-- `LiveEntityIdentifier.serialize`, /repo/opendis/dis7.py:3569-3572. -/
def LiveEntityIdentifier.serialize (self : LiveEntityIdentifier) : W Unit := do
  LiveSimulationAddress.serialize self.liveSimulationAddress
  write_unsigned_short self.entityNumber

/-- `LiveEntityIdentifier.parse`, /repo/opendis/dis7.py:3574-3577; returns the updated object. -/
def LiveEntityIdentifier.parse (self : LiveEntityIdentifier) : R LiveEntityIdentifier := do
  let liveSimulationAddress ← LiveSimulationAddress.parse self.liveSimulationAddress
  let entityNumber ← read_unsigned_short
  return { self with
    liveSimulationAddress := liveSimulationAddress,
    entityNumber := entityNumber }

/-- Attributes of a `SeparationVP` object, /repo/opendis/dis7.py:3580-3621; default values are those of an
object made by `SeparationVP()`, /repo/opendis/dis7.py:3587-3601. -/
structure SeparationVP where
  recordType : Int := 2
  reasonForSeparation : Int := 0
  preEntityIndicator : Int := 0
  padding1 : Int := 0
  parentEntityID : EntityIdentifier := EntityIdentifier.init
  padding2 : Int := 0
  stationLocation : IntOr NamedLocationIdentification := .obj NamedLocationIdentification.init
  deriving DecidableEq

/-- Constructor `SeparationVP(...)`, /repo/opendis/dis7.py:3587-3601. `x or T()` and `x or []` keep a given
value and replace `None` (absent) by a fresh one. -/
def SeparationVP.init (reasonForSeparation : Int := 0) (preEntityIndicator : Int := 0)
    (parentEntityID : Option EntityIdentifier := none)
    (stationLocation : Option NamedLocationIdentification := none) : SeparationVP :=
  { reasonForSeparation := reasonForSeparation,
    preEntityIndicator := preEntityIndicator,
    padding1 := 0,
    parentEntityID := parentEntityID.getD EntityIdentifier.init,
    padding2 := 0,
    stationLocation := .obj (stationLocation.getD NamedLocationIdentification.init) }

/-- `SeparationVP.serialize`, /repo/opendis/dis7.py:3603-3611. -/
def SeparationVP.serialize (self : SeparationVP) : W Unit := do
  write_unsigned_byte self.recordType
  write_unsigned_byte self.reasonForSeparation
  write_unsigned_byte self.preEntityIndicator
  write_unsigned_byte self.padding1
  EntityIdentifier.serialize self.parentEntityID
  write_unsigned_short self.padding2
  W.using (IntOr.asInt self.stationLocation) write_unsigned_int

/-- `SeparationVP.parse`, /repo/opendis/dis7.py:3613-3621; returns the updated object. -/
def SeparationVP.parse (self : SeparationVP) : R SeparationVP := do
  let recordType ← read_unsigned_byte
  let reasonForSeparation ← read_unsigned_byte
  let preEntityIndicator ← read_unsigned_byte
  let padding1 ← read_unsigned_byte
  let parentEntityID ← EntityIdentifier.parse self.parentEntityID
  let padding2 ← read_unsigned_short
  let stationLocation ← read_unsigned_int
  return { self with
    recordType := recordType,
    reasonForSeparation := reasonForSeparation,
    preEntityIndicator := preEntityIndicator,
    padding1 := padding1,
    parentEntityID := parentEntityID,
    padding2 := padding2,
    stationLocation := .int stationLocation }

/-- Attributes of a `EmitterSystem` object, /repo/opendis/dis7.py:3624-3648; default values are those of an
object made by `EmitterSystem()`, /repo/opendis/dis7.py:3630-3636. -/
structure EmitterSystem where
  emitterName : Int := 0
  emitterFunction : Int := 0
  emitterIDNumber : Int := 0
  deriving DecidableEq

/-- Constructor `EmitterSystem(...)`, /repo/opendis/dis7.py:3630-3636. `x or T()` and `x or []` keep a given
value and replace `None` (absent) by a fresh one. -/
def EmitterSystem.init (emitterName : Int := 0) (emitterFunction : Int := 0)
    (emitterIDNumber : Int := 0) : EmitterSystem :=
  { emitterName := emitterName,
    emitterFunction := emitterFunction,
    emitterIDNumber := emitterIDNumber }

/-- `EmitterSystem.serialize`, /repo/opendis/dis7.py:3638-3642. -/
def EmitterSystem.serialize (self : EmitterSystem) : W Unit := do
  write_unsigned_short self.emitterName
  write_unsigned_byte self.emitterFunction
  write_unsigned_byte self.emitterIDNumber

/-- `EmitterSystem.parse`, /repo/opendis/dis7.py:3644-3648; returns the updated object. -/
def EmitterSystem.parse (self : EmitterSystem) : R EmitterSystem := do
  let emitterName ← read_unsigned_short
  let emitterFunction ← read_unsigned_byte
  let emitterIDNumber ← read_unsigned_byte
  return { self with
    emitterName := emitterName,
    emitterFunction := emitterFunction,
    emitterIDNumber := emitterIDNumber }

/-- Attributes of a `PduStatus` object, /repo/opendis/dis7.py:3651-3668; default values are those of an
object made by `PduStatus()`, /repo/opendis/dis7.py:3658-3660. -/
structure PduStatus where
  pduStatus : Int := 0
  deriving DecidableEq

/-- Constructor `PduStatus(...)`, /repo/opendis/dis7.py:3658-3660. `x or T()` and `x or []` keep a given
value and replace `None` (absent) by a fresh one. -/
def PduStatus.init (pduStatus : Int := 0) : PduStatus :=
  { pduStatus := pduStatus }

/-- `PduStatus.serialize`, /repo/opendis/dis7.py:3662-3664. -/
def PduStatus.serialize (self : PduStatus) : W Unit := do
  write_unsigned_byte self.pduStatus

/-- `PduStatus.parse`, /repo/opendis/dis7.py:3666-3668; returns the updated object. -/
def PduStatus.parse (self : PduStatus) : R PduStatus := do
  let pduStatus ← read_unsigned_byte
  return { self with pduStatus := pduStatus }

/-- Attributes of a `EmissionSystemBeamRecord` object, /repo/opendis/dis7.py:5172-5231; default values are those of an
object made by `EmissionSystemBeamRecord()`, /repo/opendis/dis7.py:5178-5197. -/
structure EmissionSystemBeamRecord where
  beamDataLength : Int := 0
  beamIDNumber : Int := 0
  beamParameterIndex : Int := 0
  fundamentalParameterData : EEFundamentalParameterData := EEFundamentalParameterData.init
  beamFunction : Int := 0
  highDensityTrackJam : Int := 0
  beamStatus : BeamStatus := BeamStatus.init
  jammingModeSequence : Int := 0
  trackJamRecords : List TrackJamData := []
  deriving DecidableEq

/-- Constructor `EmissionSystemBeamRecord(...)`, /repo/opendis/dis7.py:5178-5197. `x or T()` and `x or []` keep a given
value and replace `None` (absent) by a fresh one. -/
def EmissionSystemBeamRecord.init (beamDataLength : Int := 0) (beamIDNumber : Int := 0)
    (beamParameterIndex : Int := 0)
    (fundamentalParameterData : Option EEFundamentalParameterData := none)
    (beamFunction : Int := 0) (highDensityTrackJam : Int := 0)
    (beamStatus : Option BeamStatus := none) (jammingModeSequence : Int := 0)
    (trackJamRecords : List TrackJamData := []) : EmissionSystemBeamRecord :=
  { beamDataLength := beamDataLength,
    beamIDNumber := beamIDNumber,
    beamParameterIndex := beamParameterIndex,
    fundamentalParameterData := fundamentalParameterData.getD EEFundamentalParameterData.init,
    beamFunction := beamFunction,
    highDensityTrackJam := highDensityTrackJam,
    beamStatus := beamStatus.getD BeamStatus.init,
    jammingModeSequence := jammingModeSequence,
    trackJamRecords := trackJamRecords }

/-- `EmissionSystemBeamRecord.serialize`, /repo/opendis/dis7.py:5203-5215. -/
def EmissionSystemBeamRecord.serialize (self : EmissionSystemBeamRecord) : W Unit := do
  write_unsigned_byte self.beamDataLength
  write_unsigned_byte self.beamIDNumber
  write_unsigned_short self.beamParameterIndex
  EEFundamentalParameterData.serialize self.fundamentalParameterData
  write_unsigned_byte self.beamFunction
  write_unsigned_byte (self.trackJamRecords.length : Int)
  write_unsigned_byte self.highDensityTrackJam
  BeamStatus.serialize self.beamStatus
  write_unsigned_int self.jammingModeSequence
  W.forEach self.trackJamRecords TrackJamData.serialize

/-- `EmissionSystemBeamRecord.parse`, /repo/opendis/dis7.py:5217-5231; returns the updated object. -/
def EmissionSystemBeamRecord.parse (self : EmissionSystemBeamRecord) : R EmissionSystemBeamRecord := do
  let beamDataLength ← read_unsigned_byte
  let beamIDNumber ← read_unsigned_byte
  let beamParameterIndex ← read_unsigned_short
  let fundamentalParameterData ← EEFundamentalParameterData.parse self.fundamentalParameterData
  let beamFunction ← read_unsigned_byte
  let numberOfTargetsInTrackJam ← read_unsigned_byte
  let highDensityTrackJam ← read_unsigned_byte
  let beamStatus ← BeamStatus.parse self.beamStatus
  let jammingModeSequence ← read_unsigned_int
  let trackJamRecords ← R.times numberOfTargetsInTrackJam.toNat (TrackJamData.parse TrackJamData.init)
  return { self with
    beamDataLength := beamDataLength,
    beamIDNumber := beamIDNumber,
    beamParameterIndex := beamParameterIndex,
    fundamentalParameterData := fundamentalParameterData,
    beamFunction := beamFunction,
    highDensityTrackJam := highDensityTrackJam,
    beamStatus := beamStatus,
    jammingModeSequence := jammingModeSequence,
    trackJamRecords := self.trackJamRecords ++ trackJamRecords }

/-- Attributes of a `EmissionSystemRecord` object, /repo/opendis/dis7.py:5234-5276; default values are those of an
object made by `EmissionSystemRecord()`, /repo/opendis/dis7.py:5240-5252. -/
structure EmissionSystemRecord where
  systemDataLength : Int := 0
  paddingForEmissionsPdu : Int := 0
  emitterSystem : EmitterSystem := EmitterSystem.init
  location : Vector3Float := Vector3Float.init
  beamRecords : List EmissionSystemBeamRecord := []
  deriving DecidableEq

/-- Constructor `EmissionSystemRecord(...)`, /repo/opendis/dis7.py:5240-5252. `x or T()` and `x or []` keep a given
value and replace `None` (absent) by a fresh one. -/
def EmissionSystemRecord.init (systemDataLength : Int := 0)
    (emitterSystem : Option EmitterSystem := none) (location : Option Vector3Float := none)
    (beamRecords : List EmissionSystemBeamRecord := []) : EmissionSystemRecord :=
  { systemDataLength := systemDataLength,
    paddingForEmissionsPdu := 0,
    emitterSystem := emitterSystem.getD EmitterSystem.init,
    location := location.getD Vector3Float.init,
    beamRecords := beamRecords }

/-- `EmissionSystemRecord.serialize`, /repo/opendis/dis7.py:5258-5265. -/
def EmissionSystemRecord.serialize (self : EmissionSystemRecord) : W Unit := do
  write_unsigned_byte self.systemDataLength
  write_unsigned_byte (self.beamRecords.length : Int)
  write_unsigned_short 0
  EmitterSystem.serialize self.emitterSystem
  Vector3Float.serialize self.location
  W.forEach self.beamRecords EmissionSystemBeamRecord.serialize

/-- `EmissionSystemRecord.parse`, /repo/opendis/dis7.py:5267-5276; returns the updated object. -/
def EmissionSystemRecord.parse (self : EmissionSystemRecord) : R EmissionSystemRecord := do
  let systemDataLength ← read_unsigned_byte
  let numberOfBeams ← read_unsigned_byte
  let _ ← read_unsigned_short
  let emitterSystem ← EmitterSystem.parse self.emitterSystem
  let location ← Vector3Float.parse self.location
  let beamRecords ← R.times numberOfBeams.toNat (EmissionSystemBeamRecord.parse EmissionSystemBeamRecord.init)
  return { self with
    systemDataLength := systemDataLength,
    emitterSystem := emitterSystem,
    location := location,
    beamRecords := self.beamRecords ++ beamRecords }

end Dis
