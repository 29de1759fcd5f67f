import Verif.Model.Radio
import Verif.Spec.LayoutPdus5

/-!
# Wire layouts of the classes of `Verif.Model.Radio`

Generated by `tools/genlayout.py`.
-/

set_option linter.unusedVariables false

namespace Dis

/-- Header that `StandardVariableRecord.serialize` writes (/repo/opendis/record/base.py:79-88). -/
def StandardVariableRecord.wire (recordType marshalledSize : Int) : List Slot :=
  [.u32 recordType, .u32 marshalledSize]

/-- Layout (/repo/opendis/record/radio/__init__.py:182-209). -/
def SpreadSpectrum.wire (o : SpreadSpectrum) : List Slot :=
  [.bits 2 [(1, o.frequencyHopping.toInt), (1, o.pseudoNoise.toInt), (1, o.timeHopping.toInt),
            (13, o.padding)]]

/-- Layout (/repo/opendis/record/radio/__init__.py:276-303). -/
def NetId.wire (o : NetId) : List Slot :=
  [.bits 2 [(10, o.netNumber), (2, o.frequencyTable), (2, o.mode), (2, o.padding)]]

/-- Layout (/repo/opendis/record/radio/__init__.py:67-69). -/
def UnknownRadio.wire (o : UnknownRadio) : List Slot := [.raw o.data]

/-- Layout (/repo/opendis/record/radio/__init__.py:89-91). -/
def UnknownAntennaPattern.wire (o : UnknownAntennaPattern) : List Slot := [.raw o.data]

/-- Layout of `BeamAntennaPattern` on the wire (/repo/opendis/record/radio/__init__.py:137-148). -/
def BeamAntennaPattern.wire (o : BeamAntennaPattern) : List Slot :=
  [EulerAngles.wire o.beamDirection,
   [.f32 o.azimuthBeamwidth],
   [.f32 o.elevationBeamwidth],
   [.u8 o.referenceSystem],
   [.u8 o.padding1],
   [.u16 o.padding2],
   [.f32 o.ez],
   [.f32 o.ex],
   [.f32 o.phase],
   [.u32 o.padding3]].flatten

/-- Layout of `ModulationType` on the wire (/repo/opendis/record/radio/__init__.py:243-247). -/
def ModulationType.wire (o : ModulationType) : List Slot :=
  [SpreadSpectrum.wire o.spreadSpectrum,
   [.u16 o.majorModulation],
   [.u16 o.detail],
   [.u16 o.radioSystem]].flatten

/-- Layout of `BasicHaveQuickMP` on the wire (/repo/opendis/record/radio/__init__.py:379-387). -/
def BasicHaveQuickMP.wire (o : BasicHaveQuickMP) : List Slot :=
  [NetId.wire o.net_id,
   [.u16 o.mwod_index],
   [.u16 o.reserved16],
   [.u8 o.reserved8_1],
   [.u8 o.reserved8_2],
   [.u32 o.time_of_day],
   [.u32 o.padding]].flatten

/-- Layout of `CCTTSincgarsMP` on the wire (/repo/opendis/record/radio/__init__.py:426-435). -/
def CCTTSincgarsMP.wire (o : CCTTSincgarsMP) : List Slot :=
  [[.u16 o.fh_net_id],
   [.u16 o.hop_set_id],
   [.u16 o.lockout_set_id],
   [.u8 o.start_of_message],
   [.u8 o.clear_channel],
   [.u32 o.fh_sync_time_offset],
   [.u16 o.transmission_security_key],
   [.u16 o.padding]].flatten

/-- Layout of `HighFidelityHAVEQUICKRadio` on the wire (/repo/opendis/record/radio/__init__.py:481-493). -/
def HighFidelityHAVEQUICKRadio.wire (o : HighFidelityHAVEQUICKRadio) : List Slot :=
  [StandardVariableRecord.wire HighFidelityHAVEQUICKRadio.recordType o.marshalledSize,
   [.u16 o.padding1],
   NetId.wire o.netId,
   [.u8 o.todTransmitIndicator],
   [.u8 o.padding2],
   [.u32 o.todDelta],
   [.u32 o.wod1],
   [.u32 o.wod2],
   [.u32 o.wod3],
   [.u32 o.wod4],
   [.u32 o.wod5],
   [.u32 o.wod6]].flatten

end Dis
