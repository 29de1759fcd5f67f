import Verif.Model.Records5
import Verif.Spec.Records4

/-!
# Specification of: Records of `opendis/dis7.py`, part 5

Generated by `tools/genproof.py`.
-/

set_option linter.unusedVariables false
set_option linter.unusedSimpArgs false

namespace Dis

/-- The object `s` after it parsed what `o` serialized: fields of `o`, singles rounded, list elements
appended (/repo/opendis/dis7.py:3193-3200,3202-3209). -/
def EnvironmentGeneral.after (s o : EnvironmentGeneral) : EnvironmentGeneral :=
  { s with
    environmentType := o.environmentType,
    length := o.length,
    index := o.index,
    padding1 := some (o.padding1.getD 0),
    geometry := some (o.geometry.getD 0),
    padding2 := o.padding2 }

/-- Every field of `o` fits its wire type (/repo/opendis/dis7.py:3193-3200,3202-3209). -/
def EnvironmentGeneral.WireOk (o : EnvironmentGeneral) : Prop :=
  U32 o.environmentType ∧
  U8 o.length ∧
  U8 o.index ∧
  (∃ v, o.padding1 = some v ∧ U8 v) ∧
  (∃ v, o.geometry = some v ∧ U8 v) ∧
  U8 o.padding2

/-- `o` is in the form a fresh `EnvironmentGeneral` takes after parsing: singles exact, arrays of the fixed length,
attributes that are not on the wire at their initial value (/repo/opendis/dis7.py:3193-3200,3202-3209). -/
def EnvironmentGeneral.Canon (o : EnvironmentGeneral) : Prop :=
  (∃ v, o.padding1 = some v) ∧
  (∃ v, o.geometry = some v) ∧
  o.padding = 0

/-- No single-precision field of `o` is a NaN (/repo/opendis/dis7.py:3193-3200,3202-3209). -/
def EnvironmentGeneral.NoNaN (o : EnvironmentGeneral) : Prop :=
  True

/-- Number of bytes `serialize` writes (/repo/opendis/dis7.py:3193-3200,3202-3209). -/
def EnvironmentGeneral.wireSize (o : EnvironmentGeneral) : Nat := 9

/-- The object `s` after it parsed what `o` serialized: fields of `o`, singles rounded, list elements
appended (/repo/opendis/dis7.py:3241-3249,3251-3259). -/
def GridAxis.after (s o : GridAxis) : GridAxis :=
  { s with
    domainInitialXi := o.domainInitialXi,
    domainFinalXi := o.domainFinalXi,
    domainPointsXi := o.domainPointsXi,
    interleafFactor := o.interleafFactor,
    axisType := o.axisType,
    numberOfPointsOnXiAxis := o.numberOfPointsOnXiAxis,
    initialIndex := o.initialIndex }

/-- Every field of `o` fits its wire type (/repo/opendis/dis7.py:3241-3249,3251-3259). -/
def GridAxis.WireOk (o : GridAxis) : Prop :=
  U16 o.domainPointsXi ∧
  U8 o.interleafFactor ∧
  U8 o.axisType ∧
  U16 o.numberOfPointsOnXiAxis ∧
  U16 o.initialIndex

/-- `o` is in the form a fresh `GridAxis` takes after parsing: singles exact, arrays of the fixed length,
attributes that are not on the wire at their initial value (/repo/opendis/dis7.py:3241-3249,3251-3259). -/
def GridAxis.Canon (o : GridAxis) : Prop :=
  True

/-- No single-precision field of `o` is a NaN (/repo/opendis/dis7.py:3241-3249,3251-3259). -/
def GridAxis.NoNaN (o : GridAxis) : Prop :=
  True

/-- Number of bytes `serialize` writes (/repo/opendis/dis7.py:3241-3249,3251-3259). -/
def GridAxis.wireSize (o : GridAxis) : Nat := 24

/-- The object `s` after it parsed what `o` serialized: fields of `o`, singles rounded, list elements
appended (/repo/opendis/dis7.py:3278-3282,3284-3290). -/
def RecordSpecification.after (s o : RecordSpecification) : RecordSpecification :=
  { s with
    recordSets := s.recordSets ++ [] }

/-- Every field of `o` fits its wire type (/repo/opendis/dis7.py:3278-3282,3284-3290). -/
def RecordSpecification.WireOk (o : RecordSpecification) : Prop :=
  U32 ((o.recordSets.length : Int)) ∧
  (∀ x ∈ o.recordSets, RecordSpecificationElement.WireOk x)

/-- `o` is in the form a fresh `RecordSpecification` takes after parsing: singles exact, arrays of the fixed length,
attributes that are not on the wire at their initial value (/repo/opendis/dis7.py:3278-3282,3284-3290). -/
def RecordSpecification.Canon (o : RecordSpecification) : Prop :=
  o.recordSets = []

/-- No single-precision field of `o` is a NaN (/repo/opendis/dis7.py:3278-3282,3284-3290). -/
def RecordSpecification.NoNaN (o : RecordSpecification) : Prop :=
  True

/-- `o` avoids the lists that `parse` cannot read back (/repo/opendis/dis7.py:3278-3282,3284-3290). -/
def RecordSpecification.Decodable (o : RecordSpecification) : Prop :=
  o.recordSets = []

/-- Number of bytes `serialize` writes (/repo/opendis/dis7.py:3278-3282,3284-3290). -/
def RecordSpecification.wireSize (o : RecordSpecification) : Nat := 4 + 15 * o.recordSets.length

/-- The object `s` after it parsed what `o` serialized: fields of `o`, singles rounded, list elements
appended (/repo/opendis/dis7.py:3357-3361,3363-3367). -/
def EventIdentifierLiveEntity.after (s o : EventIdentifierLiveEntity) : EventIdentifierLiveEntity :=
  { s with
    siteNumber := o.siteNumber,
    applicationNumber := o.applicationNumber,
    eventNumber := o.eventNumber }

/-- Every field of `o` fits its wire type (/repo/opendis/dis7.py:3357-3361,3363-3367). -/
def EventIdentifierLiveEntity.WireOk (o : EventIdentifierLiveEntity) : Prop :=
  U8 o.siteNumber ∧
  U8 o.applicationNumber ∧
  U16 o.eventNumber

/-- `o` is in the form a fresh `EventIdentifierLiveEntity` takes after parsing: singles exact, arrays of the fixed length,
attributes that are not on the wire at their initial value (/repo/opendis/dis7.py:3357-3361,3363-3367). -/
def EventIdentifierLiveEntity.Canon (o : EventIdentifierLiveEntity) : Prop :=
  True

/-- No single-precision field of `o` is a NaN (/repo/opendis/dis7.py:3357-3361,3363-3367). -/
def EventIdentifierLiveEntity.NoNaN (o : EventIdentifierLiveEntity) : Prop :=
  True

/-- Number of bytes `serialize` writes (/repo/opendis/dis7.py:3357-3361,3363-3367). -/
def EventIdentifierLiveEntity.wireSize (o : EventIdentifierLiveEntity) : Nat := 4

/-- The object `s` after it parsed what `o` serialized: fields of `o`, singles rounded, list elements
appended (/repo/opendis/dis7.py:3515-3518,3520-3523). -/
def ExpendableDescriptor.after (s o : ExpendableDescriptor) : ExpendableDescriptor :=
  { s with
    expendableType := EntityType.after s.expendableType o.expendableType,
    padding := o.padding }

/-- Every field of `o` fits its wire type (/repo/opendis/dis7.py:3515-3518,3520-3523). -/
def ExpendableDescriptor.WireOk (o : ExpendableDescriptor) : Prop :=
  EntityType.WireOk o.expendableType ∧
  S64 o.padding

/-- `o` is in the form a fresh `ExpendableDescriptor` takes after parsing: singles exact, arrays of the fixed length,
attributes that are not on the wire at their initial value (/repo/opendis/dis7.py:3515-3518,3520-3523). -/
def ExpendableDescriptor.Canon (o : ExpendableDescriptor) : Prop :=
  True

/-- No single-precision field of `o` is a NaN (/repo/opendis/dis7.py:3515-3518,3520-3523). -/
def ExpendableDescriptor.NoNaN (o : ExpendableDescriptor) : Prop :=
  True

/-- Number of bytes `serialize` writes (/repo/opendis/dis7.py:3515-3518,3520-3523). -/
def ExpendableDescriptor.wireSize (o : ExpendableDescriptor) : Nat := 16

/-- The object `s` after it parsed what `o` serialized: fields of `o`, singles rounded, list elements
appended (/repo/opendis/dis7.py:3542-3545,3547-3550). -/
def PropulsionSystemData.after (s o : PropulsionSystemData) : PropulsionSystemData :=
  { s with
    powerSetting := quant o.powerSetting,
    engineRpm := quant o.engineRpm }

/-- Every field of `o` fits its wire type (/repo/opendis/dis7.py:3542-3545,3547-3550). -/
def PropulsionSystemData.WireOk (o : PropulsionSystemData) : Prop :=
  F32Fits o.powerSetting ∧
  F32Fits o.engineRpm

/-- `o` is in the form a fresh `PropulsionSystemData` takes after parsing: singles exact, arrays of the fixed length,
attributes that are not on the wire at their initial value (/repo/opendis/dis7.py:3542-3545,3547-3550). -/
def PropulsionSystemData.Canon (o : PropulsionSystemData) : Prop :=
  quant o.powerSetting = o.powerSetting ∧
  quant o.engineRpm = o.engineRpm

/-- No single-precision field of `o` is a NaN (/repo/opendis/dis7.py:3542-3545,3547-3550). -/
def PropulsionSystemData.NoNaN (o : PropulsionSystemData) : Prop :=
  ¬ o.powerSetting.isNaN ∧
  ¬ o.engineRpm.isNaN

/-- Number of bytes `serialize` writes (/repo/opendis/dis7.py:3542-3545,3547-3550). -/
def PropulsionSystemData.wireSize (o : PropulsionSystemData) : Nat := 8

/-- The object `s` after it parsed what `o` serialized: fields of `o`, singles rounded, list elements
appended (/repo/opendis/dis7.py:3569-3572,3574-3577). -/
def LiveEntityIdentifier.after (s o : LiveEntityIdentifier) : LiveEntityIdentifier :=
  { s with
    liveSimulationAddress := LiveSimulationAddress.after s.liveSimulationAddress o.liveSimulationAddress,
    entityNumber := o.entityNumber }

/-- Every field of `o` fits its wire type (/repo/opendis/dis7.py:3569-3572,3574-3577). -/
def LiveEntityIdentifier.WireOk (o : LiveEntityIdentifier) : Prop :=
  LiveSimulationAddress.WireOk o.liveSimulationAddress ∧
  U16 o.entityNumber

/-- `o` is in the form a fresh `LiveEntityIdentifier` takes after parsing: singles exact, arrays of the fixed length,
attributes that are not on the wire at their initial value (/repo/opendis/dis7.py:3569-3572,3574-3577). -/
def LiveEntityIdentifier.Canon (o : LiveEntityIdentifier) : Prop :=
  True

/-- No single-precision field of `o` is a NaN (/repo/opendis/dis7.py:3569-3572,3574-3577). -/
def LiveEntityIdentifier.NoNaN (o : LiveEntityIdentifier) : Prop :=
  True

/-- Number of bytes `serialize` writes (/repo/opendis/dis7.py:3569-3572,3574-3577). -/
def LiveEntityIdentifier.wireSize (o : LiveEntityIdentifier) : Nat := 4

/-- The object `s` after it parsed what `o` serialized: fields of `o`, singles rounded, list elements
appended (/repo/opendis/dis7.py:3603-3611,3613-3621). -/
def SeparationVP.after (s o : SeparationVP) : SeparationVP :=
  { s with
    recordType := o.recordType,
    reasonForSeparation := o.reasonForSeparation,
    preEntityIndicator := o.preEntityIndicator,
    padding1 := o.padding1,
    parentEntityID := EntityIdentifier.after s.parentEntityID o.parentEntityID,
    padding2 := o.padding2,
    stationLocation := .int (IntOr.toIntD o.stationLocation) }

/-- Every field of `o` fits its wire type (/repo/opendis/dis7.py:3603-3611,3613-3621). -/
def SeparationVP.WireOk (o : SeparationVP) : Prop :=
  U8 o.recordType ∧
  U8 o.reasonForSeparation ∧
  U8 o.preEntityIndicator ∧
  U8 o.padding1 ∧
  EntityIdentifier.WireOk o.parentEntityID ∧
  U16 o.padding2 ∧
  (∃ v, o.stationLocation = .int v ∧ U32 v)

/-- `o` is in the form a fresh `SeparationVP` takes after parsing: singles exact, arrays of the fixed length,
attributes that are not on the wire at their initial value (/repo/opendis/dis7.py:3603-3611,3613-3621). -/
def SeparationVP.Canon (o : SeparationVP) : Prop :=
  ∃ v, o.stationLocation = .int v

/-- No single-precision field of `o` is a NaN (/repo/opendis/dis7.py:3603-3611,3613-3621). -/
def SeparationVP.NoNaN (o : SeparationVP) : Prop :=
  True

/-- Number of bytes `serialize` writes (/repo/opendis/dis7.py:3603-3611,3613-3621). -/
def SeparationVP.wireSize (o : SeparationVP) : Nat := 16

/-- The object `s` after it parsed what `o` serialized: fields of `o`, singles rounded, list elements
appended (/repo/opendis/dis7.py:3638-3642,3644-3648). -/
def EmitterSystem.after (s o : EmitterSystem) : EmitterSystem :=
  { s with
    emitterName := o.emitterName,
    emitterFunction := o.emitterFunction,
    emitterIDNumber := o.emitterIDNumber }

/-- Every field of `o` fits its wire type (/repo/opendis/dis7.py:3638-3642,3644-3648). -/
def EmitterSystem.WireOk (o : EmitterSystem) : Prop :=
  U16 o.emitterName ∧
  U8 o.emitterFunction ∧
  U8 o.emitterIDNumber

/-- `o` is in the form a fresh `EmitterSystem` takes after parsing: singles exact, arrays of the fixed length,
attributes that are not on the wire at their initial value (/repo/opendis/dis7.py:3638-3642,3644-3648). -/
def EmitterSystem.Canon (o : EmitterSystem) : Prop :=
  True

/-- No single-precision field of `o` is a NaN (/repo/opendis/dis7.py:3638-3642,3644-3648). -/
def EmitterSystem.NoNaN (o : EmitterSystem) : Prop :=
  True

/-- Number of bytes `serialize` writes (/repo/opendis/dis7.py:3638-3642,3644-3648). -/
def EmitterSystem.wireSize (o : EmitterSystem) : Nat := 4

/-- The object `s` after it parsed what `o` serialized: fields of `o`, singles rounded, list elements
appended (/repo/opendis/dis7.py:3662-3664,3666-3668). -/
def PduStatus.after (s o : PduStatus) : PduStatus :=
  { s with
    pduStatus := o.pduStatus }

/-- Every field of `o` fits its wire type (/repo/opendis/dis7.py:3662-3664,3666-3668). -/
def PduStatus.WireOk (o : PduStatus) : Prop :=
  U8 o.pduStatus

/-- `o` is in the form a fresh `PduStatus` takes after parsing: singles exact, arrays of the fixed length,
attributes that are not on the wire at their initial value (/repo/opendis/dis7.py:3662-3664,3666-3668). -/
def PduStatus.Canon (o : PduStatus) : Prop :=
  True

/-- No single-precision field of `o` is a NaN (/repo/opendis/dis7.py:3662-3664,3666-3668). -/
def PduStatus.NoNaN (o : PduStatus) : Prop :=
  True

/-- Number of bytes `serialize` writes (/repo/opendis/dis7.py:3662-3664,3666-3668). -/
def PduStatus.wireSize (o : PduStatus) : Nat := 1

/-- The object `s` after it parsed what `o` serialized: fields of `o`, singles rounded, list elements
appended (/repo/opendis/dis7.py:5203-5215,5217-5231). -/
def EmissionSystemBeamRecord.after (s o : EmissionSystemBeamRecord) : EmissionSystemBeamRecord :=
  { s with
    beamDataLength := o.beamDataLength,
    beamIDNumber := o.beamIDNumber,
    beamParameterIndex := o.beamParameterIndex,
    fundamentalParameterData := EEFundamentalParameterData.after s.fundamentalParameterData o.fundamentalParameterData,
    beamFunction := o.beamFunction,
    highDensityTrackJam := o.highDensityTrackJam,
    beamStatus := BeamStatus.after s.beamStatus o.beamStatus,
    jammingModeSequence := o.jammingModeSequence,
    trackJamRecords := s.trackJamRecords ++ o.trackJamRecords.map (TrackJamData.after TrackJamData.init) }

/-- Every field of `o` fits its wire type (/repo/opendis/dis7.py:5203-5215,5217-5231). -/
def EmissionSystemBeamRecord.WireOk (o : EmissionSystemBeamRecord) : Prop :=
  U8 o.beamDataLength ∧
  U8 o.beamIDNumber ∧
  U16 o.beamParameterIndex ∧
  EEFundamentalParameterData.WireOk o.fundamentalParameterData ∧
  U8 o.beamFunction ∧
  U8 ((o.trackJamRecords.length : Int)) ∧
  U8 o.highDensityTrackJam ∧
  U32 o.jammingModeSequence ∧
  (∀ x ∈ o.trackJamRecords, TrackJamData.WireOk x)

/-- `o` is in the form a fresh `EmissionSystemBeamRecord` takes after parsing: singles exact, arrays of the fixed length,
attributes that are not on the wire at their initial value (/repo/opendis/dis7.py:5203-5215,5217-5231). -/
def EmissionSystemBeamRecord.Canon (o : EmissionSystemBeamRecord) : Prop :=
  EEFundamentalParameterData.Canon o.fundamentalParameterData ∧
  BeamStatus.Canon o.beamStatus

/-- No single-precision field of `o` is a NaN (/repo/opendis/dis7.py:5203-5215,5217-5231). -/
def EmissionSystemBeamRecord.NoNaN (o : EmissionSystemBeamRecord) : Prop :=
  EEFundamentalParameterData.NoNaN o.fundamentalParameterData

/-- Number of bytes `serialize` writes (/repo/opendis/dis7.py:5203-5215,5217-5231). -/
def EmissionSystemBeamRecord.wireSize (o : EmissionSystemBeamRecord) : Nat := 52 + 8 * o.trackJamRecords.length

/-- The object `s` after it parsed what `o` serialized: fields of `o`, singles rounded, list elements
appended (/repo/opendis/dis7.py:5258-5265,5267-5276). -/
def EmissionSystemRecord.after (s o : EmissionSystemRecord) : EmissionSystemRecord :=
  { s with
    systemDataLength := o.systemDataLength,
    emitterSystem := EmitterSystem.after s.emitterSystem o.emitterSystem,
    location := Vector3Float.after s.location o.location,
    beamRecords := s.beamRecords ++ o.beamRecords.map (EmissionSystemBeamRecord.after EmissionSystemBeamRecord.init) }

/-- Every field of `o` fits its wire type (/repo/opendis/dis7.py:5258-5265,5267-5276). -/
def EmissionSystemRecord.WireOk (o : EmissionSystemRecord) : Prop :=
  U8 o.systemDataLength ∧
  U8 ((o.beamRecords.length : Int)) ∧
  EmitterSystem.WireOk o.emitterSystem ∧
  Vector3Float.WireOk o.location ∧
  (∀ x ∈ o.beamRecords, EmissionSystemBeamRecord.WireOk x)

/-- `o` is in the form a fresh `EmissionSystemRecord` takes after parsing: singles exact, arrays of the fixed length,
attributes that are not on the wire at their initial value (/repo/opendis/dis7.py:5258-5265,5267-5276). -/
def EmissionSystemRecord.Canon (o : EmissionSystemRecord) : Prop :=
  Vector3Float.Canon o.location ∧
  (∀ x ∈ o.beamRecords, EmissionSystemBeamRecord.Canon x) ∧
  o.paddingForEmissionsPdu = 0

/-- No single-precision field of `o` is a NaN (/repo/opendis/dis7.py:5258-5265,5267-5276). -/
def EmissionSystemRecord.NoNaN (o : EmissionSystemRecord) : Prop :=
  Vector3Float.NoNaN o.location ∧
  ∀ x ∈ o.beamRecords, EmissionSystemBeamRecord.NoNaN x

/-- Number of bytes `serialize` writes (/repo/opendis/dis7.py:5258-5265,5267-5276). -/
def EmissionSystemRecord.wireSize (o : EmissionSystemRecord) : Nat := 20 + (o.beamRecords.map EmissionSystemBeamRecord.wireSize).sum

end Dis
