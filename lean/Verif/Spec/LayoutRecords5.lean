import Verif.Model.Records5
import Verif.Spec.LayoutRecords4

/-!
# Wire layouts of the classes of `Verif.Model.Records5`

Generated by `tools/genlayout.py`.
-/

set_option linter.unusedVariables false

namespace Dis

/-- Layout of `EnvironmentGeneral` on the wire (/repo/opendis/dis7.py:3193-3200). -/
def EnvironmentGeneral.wire (o : EnvironmentGeneral) : List Slot :=
  [[.u32 o.environmentType],
   [.u8 (o.length : Int)],
   [.u8 o.index],
   [Slot.orFail .attributeError Slot.u8 o.padding1],
   [Slot.orFail .structError Slot.u8 o.geometry],
   [.u8 o.padding2]].flatten

/-- Layout of `GridAxis` on the wire (/repo/opendis/dis7.py:3241-3249). -/
def GridAxis.wire (o : GridAxis) : List Slot :=
  [[.f64 o.domainInitialXi],
   [.f64 o.domainFinalXi],
   [.u16 o.domainPointsXi],
   [.u8 o.interleafFactor],
   [.u8 o.axisType],
   [.u16 o.numberOfPointsOnXiAxis],
   [.u16 o.initialIndex]].flatten

/-- Layout of `RecordSpecification` on the wire (/repo/opendis/dis7.py:3278-3282). -/
def RecordSpecification.wire (o : RecordSpecification) : List Slot :=
  [[.u32 (o.recordSets.length : Int)],
   o.recordSets.flatMap RecordSpecificationElement.wire].flatten

/-- Layout of `EventIdentifierLiveEntity` on the wire (/repo/opendis/dis7.py:3357-3361). -/
def EventIdentifierLiveEntity.wire (o : EventIdentifierLiveEntity) : List Slot :=
  [[.u8 o.siteNumber],
   [.u8 o.applicationNumber],
   [.u16 o.eventNumber]].flatten

/-- Layout of `ExpendableDescriptor` on the wire (/repo/opendis/dis7.py:3515-3518). -/
def ExpendableDescriptor.wire (o : ExpendableDescriptor) : List Slot :=
  [EntityType.wire o.expendableType,
   [.s64 o.padding]].flatten

/-- Layout of `PropulsionSystemData` on the wire (/repo/opendis/dis7.py:3542-3545). -/
def PropulsionSystemData.wire (o : PropulsionSystemData) : List Slot :=
  [[.f32 o.powerSetting],
   [.f32 o.engineRpm]].flatten

/-- Layout of `LiveEntityIdentifier` on the wire (/repo/opendis/dis7.py:3569-3572). -/
def LiveEntityIdentifier.wire (o : LiveEntityIdentifier) : List Slot :=
  [LiveSimulationAddress.wire o.liveSimulationAddress,
   [.u16 o.entityNumber]].flatten

/-- Layout of `SeparationVP` on the wire (/repo/opendis/dis7.py:3603-3611). -/
def SeparationVP.wire (o : SeparationVP) : List Slot :=
  [[.u8 o.recordType],
   [.u8 o.reasonForSeparation],
   [.u8 o.preEntityIndicator],
   [.u8 o.padding1],
   EntityIdentifier.wire o.parentEntityID,
   [.u16 o.padding2],
   [Slot.orFail .structError Slot.u32 o.stationLocation.int?]].flatten

/-- Layout of `EmitterSystem` on the wire (/repo/opendis/dis7.py:3638-3642). -/
def EmitterSystem.wire (o : EmitterSystem) : List Slot :=
  [[.u16 o.emitterName],
   [.u8 o.emitterFunction],
   [.u8 o.emitterIDNumber]].flatten

/-- Layout of `PduStatus` on the wire (/repo/opendis/dis7.py:3662-3664). -/
def PduStatus.wire (o : PduStatus) : List Slot :=
  [.u8 o.pduStatus]

/-- Layout of `EmissionSystemBeamRecord` on the wire (/repo/opendis/dis7.py:5203-5215). -/
def EmissionSystemBeamRecord.wire (o : EmissionSystemBeamRecord) : List Slot :=
  [[.u8 o.beamDataLength],
   [.u8 o.beamIDNumber],
   [.u16 o.beamParameterIndex],
   EEFundamentalParameterData.wire o.fundamentalParameterData,
   [.u8 o.beamFunction],
   [.u8 (o.trackJamRecords.length : Int)],
   [.u8 o.highDensityTrackJam],
   BeamStatus.wire o.beamStatus,
   [.u32 o.jammingModeSequence],
   o.trackJamRecords.flatMap TrackJamData.wire].flatten

/-- Layout of `EmissionSystemRecord` on the wire (/repo/opendis/dis7.py:5258-5265). -/
def EmissionSystemRecord.wire (o : EmissionSystemRecord) : List Slot :=
  [[.u8 o.systemDataLength],
   [.u8 (o.beamRecords.length : Int)],
   [.u16 0],
   EmitterSystem.wire o.emitterSystem,
   Vector3Float.wire o.location,
   o.beamRecords.flatMap EmissionSystemBeamRecord.wire].flatten

end Dis
