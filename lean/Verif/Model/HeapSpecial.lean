import Verif.Model.Heap5
import Verif.Model.InPlaceRecords

/-!
# Methods as programs on a memory of objects: records modelled by hand

Generated by `tools/genheap.py` from the Python source; each definition cites the lines it transliterates.
-/

set_option linter.unusedVariables false
set_option linter.unusedSimpArgs false

namespace Dis

/-- `SimulationAddress.marshalledSize`, /repo/opendis/record/common.py:130-131. -/
def SimulationAddress.marshalledSizeHeap (_self : Ref) : S Int := pure 4

/-- `EntityIdentifier.marshalledSize`, /repo/opendis/record/common.py:45-46. -/
def EntityIdentifier.marshalledSizeHeap (self : Ref) : S Int := do
  return (← SimulationAddress.marshalledSizeHeap (← S.obj self "simulationAddress")) + 2

/-- Attributes of a `NetId` object before `__init__` (/repo/opendis/record/radio/__init__.py:267-310). -/
def NetId.attrs : List (String × Scalar) :=
  [("netNumber", .absent), ("frequencyTable", .absent), ("mode", .absent), ("padding", .absent)]

/-- `NetId.__init__`, /repo/opendis/record/radio/__init__.py:283-292, statement by statement. -/
def NetId.initHeap (self : Ref) (netNumber : Val := .sc (.int 0))
    (frequencyTable : Val := .sc (.int 0)) (mode : Val := .sc (.int 0))
    (padding : Val := .sc (.int 0)) : H Unit := do
  H.setAttr self "netNumber" netNumber
  H.setAttr self "frequencyTable" frequencyTable
  H.setAttr self "mode" mode
  H.setAttr self "padding" padding

/-- `NetId(...)`, /repo/opendis/record/radio/__init__.py:283-292. -/
def NetId.newHeap (netNumber : Val := .sc (.int 0)) (frequencyTable : Val := .sc (.int 0))
    (mode : Val := .sc (.int 0)) (padding : Val := .sc (.int 0)) : H Ref :=
  H.new NetId.attrs fun self => NetId.initHeap self netNumber frequencyTable mode padding

/-- `NetId.parse`, /repo/opendis/record/radio/__init__.py:305-310, statement by statement. -/
def NetId.parseHeap (self : Ref) : H Unit := do
  let record_bitfield ← H.read (Bitfield.parse NetId.struct)
  H.setAttr self "netNumber" (.sc (.int (record_bitfield.getD 0 0)))
  H.setAttr self "frequencyTable" (.sc (.int (record_bitfield.getD 1 0)))
  H.setAttr self "mode" (.sc (.int (record_bitfield.getD 2 0)))
  H.setAttr self "padding" (.sc (.int (record_bitfield.getD 3 0)))
  return ()

/-- `NetId.serialize`, /repo/opendis/record/radio/__init__.py:297-303, statement by statement. -/
def NetId.serializeHeap (self : Ref) : S Unit := do
  S.putInts self ["netNumber", "frequencyTable", "mode", "padding"] (Bitfield.serialize NetId.struct)

/-- Attributes of a `SpreadSpectrum` object before `__init__` (/repo/opendis/record/radio/__init__.py:167-215). -/
def SpreadSpectrum.attrs : List (String × Scalar) :=
  [("frequencyHopping", .absent), ("pseudoNoise", .absent), ("timeHopping", .absent),
   ("padding", .absent)]

/-- `SpreadSpectrum.__init__`, /repo/opendis/record/radio/__init__.py:189-197, statement by statement. -/
def SpreadSpectrum.initHeap (self : Ref) (frequencyHopping : Val := .sc (.bool false))
    (pseudoNoise : Val := .sc (.bool false)) (timeHopping : Val := .sc (.bool false))
    (padding : Val := .sc (.int 0)) : H Unit := do
  H.setAttr self "frequencyHopping" frequencyHopping
  H.setAttr self "pseudoNoise" pseudoNoise
  H.setAttr self "timeHopping" timeHopping
  H.setAttr self "padding" padding

/-- `SpreadSpectrum(...)`, /repo/opendis/record/radio/__init__.py:189-197. -/
def SpreadSpectrum.newHeap (frequencyHopping : Val := .sc (.bool false))
    (pseudoNoise : Val := .sc (.bool false)) (timeHopping : Val := .sc (.bool false))
    (padding : Val := .sc (.int 0)) : H Ref :=
  H.new SpreadSpectrum.attrs fun self => SpreadSpectrum.initHeap self frequencyHopping pseudoNoise timeHopping padding

/-- `SpreadSpectrum.parse`, /repo/opendis/record/radio/__init__.py:211-215, statement by statement. -/
def SpreadSpectrum.parseHeap (self : Ref) : H Unit := do
  let record_bitfield ← H.read (Bitfield.parse SpreadSpectrum.struct)
  H.setAttr self "frequencyHopping" (.sc (.bool (record_bitfield.getD 0 0 ≠ 0)))
  H.setAttr self "pseudoNoise" (.sc (.bool (record_bitfield.getD 1 0 ≠ 0)))
  H.setAttr self "timeHopping" (.sc (.bool (record_bitfield.getD 2 0 ≠ 0)))
  return ()

/-- `SpreadSpectrum.serialize`, /repo/opendis/record/radio/__init__.py:202-209, statement by statement. -/
def SpreadSpectrum.serializeHeap (self : Ref) : S Unit := do
  S.putInts self ["frequencyHopping", "pseudoNoise", "timeHopping", "padding"] (Bitfield.serialize SpreadSpectrum.struct)

/-- Attributes of a `ModulationType` object before `__init__` (/repo/opendis/record/radio/__init__.py:218-253). -/
def ModulationType.attrs : List (String × Scalar) :=
  [("spreadSpectrum", .absent), ("majorModulation", .absent), ("detail", .absent),
   ("radioSystem", .absent)]

/-- `ModulationType.__init__`, /repo/opendis/record/radio/__init__.py:224-233, statement by statement. -/
def ModulationType.initHeap (self : Ref) (spreadSpectrum : Val := .sc .none)
    (majorModulation : Val := .sc (.int 0)) (detail : Val := .sc (.int 0))
    (radioSystem : Val := .sc (.int 0)) : H Unit := do
  H.setOr self "spreadSpectrum" spreadSpectrum SpreadSpectrum.newHeap
  H.setAttr self "majorModulation" majorModulation
  H.setAttr self "detail" detail
  H.setAttr self "radioSystem" radioSystem

/-- `ModulationType(...)`, /repo/opendis/record/radio/__init__.py:224-233. -/
def ModulationType.newHeap (spreadSpectrum : Val := .sc .none)
    (majorModulation : Val := .sc (.int 0)) (detail : Val := .sc (.int 0))
    (radioSystem : Val := .sc (.int 0)) : H Ref :=
  H.new ModulationType.attrs fun self => ModulationType.initHeap self spreadSpectrum majorModulation detail radioSystem

/-- `ModulationType.parse`, /repo/opendis/record/radio/__init__.py:249-253, statement by statement. -/
def ModulationType.parseHeap (self : Ref) : H Unit := do
  H.call self "spreadSpectrum" SpreadSpectrum.parseHeap
  let majorModulation ← H.read read_uint16
  H.setAttr self "majorModulation" (.sc (.int majorModulation))
  let detail ← H.read read_uint16
  H.setAttr self "detail" (.sc (.int detail))
  let radioSystem ← H.read read_uint16
  H.setAttr self "radioSystem" (.sc (.int radioSystem))
  return ()

/-- `ModulationType.serialize`, /repo/opendis/record/radio/__init__.py:243-247, statement by statement. -/
def ModulationType.serializeHeap (self : Ref) : S Unit := do
  S.call self "spreadSpectrum" SpreadSpectrum.serializeHeap
  S.putInt self "majorModulation" write_uint16
  S.putInt self "detail" write_uint16
  S.putInt self "radioSystem" write_uint16

/-- Attributes of a `BeamAntennaPattern` object before `__init__` (/repo/opendis/record/radio/__init__.py:104-164). -/
def BeamAntennaPattern.attrs : List (String × Scalar) :=
  [("__class__", .cls "BeamAntennaPattern"), ("beamDirection", .absent),
   ("azimuthBeamwidth", .absent), ("elevationBeamwidth", .absent), ("referenceSystem", .absent),
   ("padding1", .absent), ("padding2", .absent), ("ez", .absent), ("ex", .absent),
   ("phase", .absent), ("padding3", .absent)]

/-- `BeamAntennaPattern.__init__`, /repo/opendis/record/radio/__init__.py:111-132, statement by statement. -/
def BeamAntennaPattern.initHeap (self : Ref) (beamDirection : Val := .sc .none)
    (azimuthBeamwidth : Val := .sc (.float 0x0000000000000000))
    (elevationBeamwidth : Val := .sc (.float 0x0000000000000000))
    (referenceSystem : Val := .sc (.int 0)) (ez : Val := .sc (.float 0x0000000000000000))
    (ex : Val := .sc (.float 0x0000000000000000))
    (phase : Val := .sc (.float 0x0000000000000000)) : H Unit := do
  H.setOr self "beamDirection" beamDirection EulerAngles.newHeap
  H.setAttr self "azimuthBeamwidth" azimuthBeamwidth
  H.setAttr self "elevationBeamwidth" elevationBeamwidth
  H.setAttr self "referenceSystem" referenceSystem
  H.setAttr self "padding1" (.sc (.int 0))
  H.setAttr self "padding2" (.sc (.int 0))
  H.setAttr self "ez" ez
  H.setAttr self "ex" ex
  H.setAttr self "phase" phase
  H.setAttr self "padding3" (.sc (.int 0))

/-- `BeamAntennaPattern(...)`, /repo/opendis/record/radio/__init__.py:111-132. -/
def BeamAntennaPattern.newHeap (beamDirection : Val := .sc .none)
    (azimuthBeamwidth : Val := .sc (.float 0x0000000000000000))
    (elevationBeamwidth : Val := .sc (.float 0x0000000000000000))
    (referenceSystem : Val := .sc (.int 0)) (ez : Val := .sc (.float 0x0000000000000000))
    (ex : Val := .sc (.float 0x0000000000000000))
    (phase : Val := .sc (.float 0x0000000000000000)) : H Ref :=
  H.new BeamAntennaPattern.attrs fun self => BeamAntennaPattern.initHeap self beamDirection azimuthBeamwidth elevationBeamwidth referenceSystem ez ex phase

/-- `BeamAntennaPattern.parse`, /repo/opendis/record/radio/__init__.py:150-164, statement by statement. -/
def BeamAntennaPattern.parseHeap (bytelength : Option Int) (self : Ref) : H Unit := do
  H.read (VariableRecord.parse bytelength)
  H.call self "beamDirection" EulerAngles.parseHeap
  let azimuthBeamwidth ← H.read read_float32
  H.setAttr self "azimuthBeamwidth" (.sc (.float azimuthBeamwidth))
  let elevationBeamwidth ← H.read read_float32
  H.setAttr self "elevationBeamwidth" (.sc (.float elevationBeamwidth))
  let referenceSystem ← H.read read_uint8
  H.setAttr self "referenceSystem" (.sc (.int referenceSystem))
  let padding1 ← H.read read_uint8
  H.setAttr self "padding1" (.sc (.int padding1))
  let padding2 ← H.read read_uint16
  H.setAttr self "padding2" (.sc (.int padding2))
  let ez ← H.read read_float32
  H.setAttr self "ez" (.sc (.float ez))
  let ex ← H.read read_float32
  H.setAttr self "ex" (.sc (.float ex))
  let phase ← H.read read_float32
  H.setAttr self "phase" (.sc (.float phase))
  let padding3 ← H.read read_uint32
  H.setAttr self "padding3" (.sc (.int padding3))
  return ()

/-- `BeamAntennaPattern.marshalledSize`, /repo/opendis/record/radio/__init__.py:134-135. -/
def BeamAntennaPattern.marshalledSizeHeap (_self : Ref) : S Int := pure 40

/-- `BeamAntennaPattern.serialize`, /repo/opendis/record/radio/__init__.py:137-148, statement by statement. -/
def BeamAntennaPattern.serializeHeap (self : Ref) : S Unit := do
  S.call self "beamDirection" EulerAngles.serializeHeap
  S.putFloat self "azimuthBeamwidth" write_float32
  S.putFloat self "elevationBeamwidth" write_float32
  S.putInt self "referenceSystem" write_uint8
  S.putInt self "padding1" write_uint8
  S.putInt self "padding2" write_uint16
  S.putFloat self "ez" write_float32
  S.putFloat self "ex" write_float32
  S.putFloat self "phase" write_float32
  S.putInt self "padding3" write_uint32

/-- Attributes of a `BasicHaveQuickMP` object before `__init__` (/repo/opendis/record/radio/__init__.py:357-400). -/
def BasicHaveQuickMP.attrs : List (String × Scalar) :=
  [("__class__", .cls "BasicHaveQuickMP"), ("net_id", .absent), ("mwod_index", .absent),
   ("reserved16", .absent), ("reserved8_1", .absent), ("reserved8_2", .absent),
   ("time_of_day", .absent), ("padding", .absent)]

/-- `BasicHaveQuickMP.__init__`, /repo/opendis/record/radio/__init__.py:360-374, statement by statement. -/
def BasicHaveQuickMP.initHeap (self : Ref) (net_id : Val := .sc .none)
    (mwod_index : Val := .sc (.int 1)) (reserved16 : Val := .sc (.int 0))
    (reserved8_1 : Val := .sc (.int 0)) (reserved8_2 : Val := .sc (.int 0))
    (time_of_day : Val := .sc (.int 0)) (padding : Val := .sc (.int 0)) : H Unit := do
  H.setOr self "net_id" net_id NetId.newHeap
  H.setAttr self "mwod_index" mwod_index
  H.setAttr self "reserved16" reserved16
  H.setAttr self "reserved8_1" reserved8_1
  H.setAttr self "reserved8_2" reserved8_2
  H.setAttr self "time_of_day" time_of_day
  H.setAttr self "padding" padding

/-- `BasicHaveQuickMP(...)`, /repo/opendis/record/radio/__init__.py:360-374. -/
def BasicHaveQuickMP.newHeap (net_id : Val := .sc .none) (mwod_index : Val := .sc (.int 1))
    (reserved16 : Val := .sc (.int 0)) (reserved8_1 : Val := .sc (.int 0))
    (reserved8_2 : Val := .sc (.int 0)) (time_of_day : Val := .sc (.int 0))
    (padding : Val := .sc (.int 0)) : H Ref :=
  H.new BasicHaveQuickMP.attrs fun self => BasicHaveQuickMP.initHeap self net_id mwod_index reserved16 reserved8_1 reserved8_2 time_of_day padding

/-- `BasicHaveQuickMP.parse`, /repo/opendis/record/radio/__init__.py:389-400, statement by statement. -/
def BasicHaveQuickMP.parseHeap (bytelength : Option Int) (self : Ref) : H Unit := do
  H.read (VariableRecord.parse bytelength)
  H.call self "net_id" NetId.parseHeap
  let mwod_index ← H.read read_uint16
  H.setAttr self "mwod_index" (.sc (.int mwod_index))
  let reserved16 ← H.read read_uint16
  H.setAttr self "reserved16" (.sc (.int reserved16))
  let reserved8_1 ← H.read read_uint8
  H.setAttr self "reserved8_1" (.sc (.int reserved8_1))
  let reserved8_2 ← H.read read_uint8
  H.setAttr self "reserved8_2" (.sc (.int reserved8_2))
  let time_of_day ← H.read read_uint32
  H.setAttr self "time_of_day" (.sc (.int time_of_day))
  let padding ← H.read read_uint32
  H.setAttr self "padding" (.sc (.int padding))
  return ()

/-- `BasicHaveQuickMP.serialize`, /repo/opendis/record/radio/__init__.py:379-387, statement by statement. -/
def BasicHaveQuickMP.serializeHeap (self : Ref) : S Unit := do
  S.call self "net_id" NetId.serializeHeap
  S.putInt self "mwod_index" write_uint16
  S.putInt self "reserved16" write_uint16
  S.putInt self "reserved8_1" write_uint8
  S.putInt self "reserved8_2" write_uint8
  S.putInt self "time_of_day" write_uint32
  S.putInt self "padding" write_uint32

/-- Attributes of a `CCTTSincgarsMP` object before `__init__` (/repo/opendis/record/radio/__init__.py:403-449). -/
def CCTTSincgarsMP.attrs : List (String × Scalar) :=
  [("__class__", .cls "CCTTSincgarsMP"), ("fh_net_id", .absent), ("hop_set_id", .absent),
   ("lockout_set_id", .absent), ("start_of_message", .absent), ("clear_channel", .absent),
   ("fh_sync_time_offset", .absent), ("transmission_security_key", .absent), ("padding", .absent)]

/-- `CCTTSincgarsMP.__init__`, /repo/opendis/record/radio/__init__.py:406-421, statement by statement. -/
def CCTTSincgarsMP.initHeap (self : Ref) (fh_net_id : Val := .sc (.int 0))
    (hop_set_id : Val := .sc (.int 0)) (lockout_set_id : Val := .sc (.int 0))
    (start_of_message : Val := .sc (.int 0)) (clear_channel : Val := .sc (.int 0))
    (fh_sync_time_offset : Val := .sc (.int 0))
    (transmission_security_key : Val := .sc (.int 0)) : H Unit := do
  H.setAttr self "fh_net_id" fh_net_id
  H.setAttr self "hop_set_id" hop_set_id
  H.setAttr self "lockout_set_id" lockout_set_id
  H.setAttr self "start_of_message" start_of_message
  H.setAttr self "clear_channel" clear_channel
  H.setAttr self "fh_sync_time_offset" fh_sync_time_offset
  H.setAttr self "transmission_security_key" transmission_security_key
  H.setAttr self "padding" (.sc (.int 0))

/-- `CCTTSincgarsMP(...)`, /repo/opendis/record/radio/__init__.py:406-421. -/
def CCTTSincgarsMP.newHeap (fh_net_id : Val := .sc (.int 0)) (hop_set_id : Val := .sc (.int 0))
    (lockout_set_id : Val := .sc (.int 0)) (start_of_message : Val := .sc (.int 0))
    (clear_channel : Val := .sc (.int 0)) (fh_sync_time_offset : Val := .sc (.int 0))
    (transmission_security_key : Val := .sc (.int 0)) : H Ref :=
  H.new CCTTSincgarsMP.attrs fun self => CCTTSincgarsMP.initHeap self fh_net_id hop_set_id lockout_set_id start_of_message clear_channel fh_sync_time_offset transmission_security_key

/-- `CCTTSincgarsMP.parse`, /repo/opendis/record/radio/__init__.py:437-449, statement by statement. -/
def CCTTSincgarsMP.parseHeap (bytelength : Option Int) (self : Ref) : H Unit := do
  H.read (VariableRecord.parse bytelength)
  let fh_net_id ← H.read read_uint16
  H.setAttr self "fh_net_id" (.sc (.int fh_net_id))
  let hop_set_id ← H.read read_uint16
  H.setAttr self "hop_set_id" (.sc (.int hop_set_id))
  let lockout_set_id ← H.read read_uint16
  H.setAttr self "lockout_set_id" (.sc (.int lockout_set_id))
  let start_of_message ← H.read read_uint8
  H.setAttr self "start_of_message" (.sc (.int start_of_message))
  let clear_channel ← H.read read_uint8
  H.setAttr self "clear_channel" (.sc (.int clear_channel))
  let fh_sync_time_offset ← H.read read_uint32
  H.setAttr self "fh_sync_time_offset" (.sc (.int fh_sync_time_offset))
  let transmission_security_key ← H.read read_uint16
  H.setAttr self "transmission_security_key" (.sc (.int transmission_security_key))
  let padding ← H.read read_uint16
  H.setAttr self "padding" (.sc (.int padding))
  return ()

/-- `CCTTSincgarsMP.serialize`, /repo/opendis/record/radio/__init__.py:426-435, statement by statement. -/
def CCTTSincgarsMP.serializeHeap (self : Ref) : S Unit := do
  S.putInt self "fh_net_id" write_uint16
  S.putInt self "hop_set_id" write_uint16
  S.putInt self "lockout_set_id" write_uint16
  S.putInt self "start_of_message" write_uint8
  S.putInt self "clear_channel" write_uint8
  S.putInt self "fh_sync_time_offset" write_uint32
  S.putInt self "transmission_security_key" write_uint16
  S.putInt self "padding" write_uint16

/-- Attributes of a `HighFidelityHAVEQUICKRadio` object before `__init__` (/repo/opendis/record/radio/__init__.py:452-510). -/
def HighFidelityHAVEQUICKRadio.attrs : List (String × Scalar) :=
  [("__class__", .cls "HighFidelityHAVEQUICKRadio"), ("padding1", .absent), ("netId", .absent),
   ("todTransmitIndicator", .absent), ("padding2", .absent), ("todDelta", .absent),
   ("wod1", .absent), ("wod2", .absent), ("wod3", .absent), ("wod4", .absent), ("wod5", .absent),
   ("wod6", .absent)]

/-- `HighFidelityHAVEQUICKRadio.__init__`, /repo/opendis/record/radio/__init__.py:456-476, statement by statement. -/
def HighFidelityHAVEQUICKRadio.initHeap (self : Ref) (netId : Val := .sc .none)
    (todTransmitIndicator : Val := .sc (.int 0)) (todDelta : Val := .sc (.int 0))
    (wod1 : Val := .sc (.int 0)) (wod2 : Val := .sc (.int 0)) (wod3 : Val := .sc (.int 0))
    (wod4 : Val := .sc (.int 0)) (wod5 : Val := .sc (.int 0)) (wod6 : Val := .sc (.int 0))
    : H Unit := do
  H.setAttr self "padding1" (.sc (.int 0))
  H.setOr self "netId" netId NetId.newHeap
  H.setAttr self "todTransmitIndicator" todTransmitIndicator
  H.setAttr self "padding2" (.sc (.int 0))
  H.setAttr self "todDelta" todDelta
  H.setAttr self "wod1" wod1
  H.setAttr self "wod2" wod2
  H.setAttr self "wod3" wod3
  H.setAttr self "wod4" wod4
  H.setAttr self "wod5" wod5
  H.setAttr self "wod6" wod6

/-- `HighFidelityHAVEQUICKRadio(...)`, /repo/opendis/record/radio/__init__.py:456-476. -/
def HighFidelityHAVEQUICKRadio.newHeap (netId : Val := .sc .none)
    (todTransmitIndicator : Val := .sc (.int 0)) (todDelta : Val := .sc (.int 0))
    (wod1 : Val := .sc (.int 0)) (wod2 : Val := .sc (.int 0)) (wod3 : Val := .sc (.int 0))
    (wod4 : Val := .sc (.int 0)) (wod5 : Val := .sc (.int 0)) (wod6 : Val := .sc (.int 0))
    : H Ref :=
  H.new HighFidelityHAVEQUICKRadio.attrs fun self => HighFidelityHAVEQUICKRadio.initHeap self netId todTransmitIndicator todDelta wod1 wod2 wod3 wod4 wod5 wod6

/-- `HighFidelityHAVEQUICKRadio.parse`, /repo/opendis/record/radio/__init__.py:495-510, statement by statement. -/
def HighFidelityHAVEQUICKRadio.parseHeap (bytelength : Int) (self : Ref) : H Unit := do
  H.read (StandardVariableRecord.parse bytelength)
  let padding1 ← H.read read_uint16
  H.setAttr self "padding1" (.sc (.int padding1))
  H.call self "netId" NetId.parseHeap
  let todTransmitIndicator ← H.read read_uint8
  H.setAttr self "todTransmitIndicator" (.sc (.int todTransmitIndicator))
  let padding2 ← H.read read_uint8
  H.setAttr self "padding2" (.sc (.int padding2))
  let todDelta ← H.read read_uint32
  H.setAttr self "todDelta" (.sc (.int todDelta))
  let wod1 ← H.read read_uint32
  H.setAttr self "wod1" (.sc (.int wod1))
  let wod2 ← H.read read_uint32
  H.setAttr self "wod2" (.sc (.int wod2))
  let wod3 ← H.read read_uint32
  H.setAttr self "wod3" (.sc (.int wod3))
  let wod4 ← H.read read_uint32
  H.setAttr self "wod4" (.sc (.int wod4))
  let wod5 ← H.read read_uint32
  H.setAttr self "wod5" (.sc (.int wod5))
  let wod6 ← H.read read_uint32
  H.setAttr self "wod6" (.sc (.int wod6))
  return ()

/-- `HighFidelityHAVEQUICKRadio.serialize`, /repo/opendis/record/radio/__init__.py:481-493, statement by statement; `super().serialize`: /repo/opendis/record/base.py:83-88. -/
def HighFidelityHAVEQUICKRadio.serializeHeap (self : Ref) : S Unit := do
  (do S.write (write_uint32 HighFidelityHAVEQUICKRadio.recordType)
      S.write (write_uint32 40))
  S.putInt self "padding1" write_uint16
  S.call self "netId" NetId.serializeHeap
  S.putInt self "todTransmitIndicator" write_uint8
  S.putInt self "padding2" write_uint8
  S.putInt self "todDelta" write_uint32
  S.putInt self "wod1" write_uint32
  S.putInt self "wod2" write_uint32
  S.putInt self "wod3" write_uint32
  S.putInt self "wod4" write_uint32
  S.putInt self "wod5" write_uint32
  S.putInt self "wod6" write_uint32

/-- Attributes of a `DEFireFlags` object before `__init__` (/repo/opendis/record/warfare/enums.py:8-38). -/
def DEFireFlags.attrs : List (String × Scalar) :=
  [("weaponOn", .absent), ("stateUpdateFlag", .absent), ("padding", .absent)]

/-- `DEFireFlags.__init__`, /repo/opendis/record/warfare/enums.py:17-23, statement by statement; `weaponOn` is the integer 0 instead of `False`. -/
def DEFireFlags.initHeap (self : Ref) (weaponOn : Val := .sc (.int 0))
    (stateUpdateFlag : Val := .sc (.int 0)) : H Unit := do
  H.setAttr self "weaponOn" weaponOn
  H.setAttr self "stateUpdateFlag" stateUpdateFlag
  H.setAttr self "padding" (.sc (.int 0))

/-- `DEFireFlags(...)`, /repo/opendis/record/warfare/enums.py:17-23. -/
def DEFireFlags.newHeap (weaponOn : Val := .sc (.int 0)) (stateUpdateFlag : Val := .sc (.int 0))
    : H Ref :=
  H.new DEFireFlags.attrs fun self => DEFireFlags.initHeap self weaponOn stateUpdateFlag

/-- `DEFireFlags.parse`, /repo/opendis/record/warfare/enums.py:34-38, statement by statement. -/
def DEFireFlags.parseHeap (self : Ref) : H Unit := do
  let record_bitfield ← H.read (Bitfield.parse DEFireFlags.struct)
  H.setAttr self "weaponOn" (.sc (.int (record_bitfield.getD 0 0)))
  H.setAttr self "stateUpdateFlag" (.sc (.int (record_bitfield.getD 1 0)))
  H.setAttr self "padding" (.sc (.int (record_bitfield.getD 2 0)))
  return ()

/-- `DEFireFlags.serialize`, /repo/opendis/record/warfare/enums.py:28-32, statement by statement. -/
def DEFireFlags.serializeHeap (self : Ref) : S Unit := do
  S.putInts self ["weaponOn", "stateUpdateFlag"] (Bitfield.serialize DEFireFlags.struct)

/-- Attributes of a `DirectedEnergyTargetEnergyDeposition` object before `__init__` (/repo/opendis/record/warfare/__init__.py:251-280). -/
def DirectedEnergyTargetEnergyDeposition.attrs : List (String × Scalar) :=
  [("targetEntityID", .absent), ("padding", .absent), ("peakIrradiance", .absent)]

/-- `DirectedEnergyTargetEnergyDeposition.__init__`, /repo/opendis/record/warfare/__init__.py:260-265, statement by statement. -/
def DirectedEnergyTargetEnergyDeposition.initHeap (self : Ref)
    (targetEntityID : Val := .sc .none)
    (peakIrradiance : Val := .sc (.float 0x0000000000000000)) : H Unit := do
  H.setOr self "targetEntityID" targetEntityID EntityIdentifier.newHeap
  H.setAttr self "padding" (.sc (.int 0))
  H.setAttr self "peakIrradiance" peakIrradiance

/-- `DirectedEnergyTargetEnergyDeposition(...)`, /repo/opendis/record/warfare/__init__.py:260-265. -/
def DirectedEnergyTargetEnergyDeposition.newHeap (targetEntityID : Val := .sc .none)
    (peakIrradiance : Val := .sc (.float 0x0000000000000000)) : H Ref :=
  H.new DirectedEnergyTargetEnergyDeposition.attrs fun self => DirectedEnergyTargetEnergyDeposition.initHeap self targetEntityID peakIrradiance

/-- `DirectedEnergyTargetEnergyDeposition.parse`, /repo/opendis/record/warfare/__init__.py:276-280, statement by statement. -/
def DirectedEnergyTargetEnergyDeposition.parseHeap (self : Ref) : H Unit := do
  H.call self "targetEntityID" EntityIdentifier.parseHeap
  let padding ← H.read read_uint16
  H.setAttr self "padding" (.sc (.int padding))
  let peakIrradiance ← H.read read_float32
  H.setAttr self "peakIrradiance" (.sc (.float peakIrradiance))
  return ()

/-- `DirectedEnergyTargetEnergyDeposition.marshalledSize`, /repo/opendis/record/warfare/__init__.py:267-268. -/
def DirectedEnergyTargetEnergyDeposition.marshalledSizeHeap (self : Ref) : S Int := do
  return (← EntityIdentifier.marshalledSizeHeap (← S.obj self "targetEntityID")) + 6

/-- `DirectedEnergyTargetEnergyDeposition.serialize`, /repo/opendis/record/warfare/__init__.py:270-274, statement by statement. -/
def DirectedEnergyTargetEnergyDeposition.serializeHeap (self : Ref) : S Unit := do
  S.call self "targetEntityID" EntityIdentifier.serializeHeap
  S.putInt self "padding" write_uint16
  S.putFloat self "peakIrradiance" write_float32

/-- Attributes of a `DirectedEnergyDamage` object before `__init__` (/repo/opendis/record/warfare/__init__.py:43-104). -/
def DirectedEnergyDamage.attrs : List (String × Scalar) :=
  [("__class__", .cls "DirectedEnergyDamage"), ("padding", .absent), ("damageLocation", .absent),
   ("damageDiameter", .absent), ("temperature", .absent), ("componentIdentification", .absent),
   ("componentDamageStatus", .absent), ("componentVisualDamageStatus", .absent),
   ("componentVisualSmokeColor", .absent), ("fireEventID", .absent), ("padding2", .absent)]

/-- `DirectedEnergyDamage.__init__`, /repo/opendis/record/warfare/__init__.py:51-70, statement by statement. -/
def DirectedEnergyDamage.initHeap (self : Ref) (damageLocation : Val := .sc .none)
    (damageDiameter : Val := .sc (.float 0x0000000000000000))
    (temperature : Val := .sc (.float 0xc071126666666666))
    (componentIdentification : Val := .sc (.int 0))
    (componentDamageStatus : Val := .sc (.int 0))
    (componentVisualDamageStatus : Val := .sc (.int 0))
    (componentVisualSmokeColor : Val := .sc (.int 0)) (fireEventID : Val := .sc .none)
    : H Unit := do
  H.setAttr self "padding" (.sc (.int 0))
  H.setOr self "damageLocation" damageLocation Vector3Float.newHeap
  H.setAttr self "damageDiameter" damageDiameter
  H.setAttr self "temperature" temperature
  H.setAttr self "componentIdentification" componentIdentification
  H.setAttr self "componentDamageStatus" componentDamageStatus
  H.setAttr self "componentVisualDamageStatus" componentVisualDamageStatus
  H.setAttr self "componentVisualSmokeColor" componentVisualSmokeColor
  H.setOr self "fireEventID" fireEventID EventIdentifier.newHeap
  H.setAttr self "padding2" (.sc (.int 0))

/-- `DirectedEnergyDamage(...)`, /repo/opendis/record/warfare/__init__.py:51-70. -/
def DirectedEnergyDamage.newHeap (damageLocation : Val := .sc .none)
    (damageDiameter : Val := .sc (.float 0x0000000000000000))
    (temperature : Val := .sc (.float 0xc071126666666666))
    (componentIdentification : Val := .sc (.int 0))
    (componentDamageStatus : Val := .sc (.int 0))
    (componentVisualDamageStatus : Val := .sc (.int 0))
    (componentVisualSmokeColor : Val := .sc (.int 0)) (fireEventID : Val := .sc .none) : H Ref :=
  H.new DirectedEnergyDamage.attrs fun self => DirectedEnergyDamage.initHeap self damageLocation damageDiameter temperature componentIdentification componentDamageStatus componentVisualDamageStatus componentVisualSmokeColor fireEventID

/-- `DirectedEnergyDamage.parse`, /repo/opendis/record/warfare/__init__.py:90-104, statement by statement. -/
def DirectedEnergyDamage.parseHeap (bytelength : Int) (self : Ref) : H Unit := do
  H.read (StandardVariableRecord.parse bytelength)
  let padding ← H.read read_unsigned_short
  H.setAttr self "padding" (.sc (.int padding))
  H.call self "damageLocation" Vector3Float.parseHeap
  let damageDiameter ← H.read read_float32
  H.setAttr self "damageDiameter" (.sc (.float damageDiameter))
  let temperature ← H.read read_float32
  H.setAttr self "temperature" (.sc (.float temperature))
  let componentIdentification ← H.read read_uint8
  H.setAttr self "componentIdentification" (.sc (.int componentIdentification))
  let componentDamageStatus ← H.read read_uint8
  H.setAttr self "componentDamageStatus" (.sc (.int componentDamageStatus))
  let componentVisualDamageStatus ← H.read read_uint8
  H.setAttr self "componentVisualDamageStatus" (.sc (.int componentVisualDamageStatus))
  let componentVisualSmokeColor ← H.read read_uint8
  H.setAttr self "componentVisualSmokeColor" (.sc (.int componentVisualSmokeColor))
  H.call self "fireEventID" EventIdentifier.parseHeap
  let padding2 ← H.read read_uint16
  H.setAttr self "padding2" (.sc (.int padding2))
  return ()

/-- `DirectedEnergyDamage.serialize`, /repo/opendis/record/warfare/__init__.py:75-88, statement by statement; `super().serialize`: /repo/opendis/record/base.py:83-88. -/
def DirectedEnergyDamage.serializeHeap (self : Ref) : S Unit := do
  (do S.write (write_uint32 DirectedEnergyDamage.recordType)
      S.write (write_uint32 40))
  S.write (write_uint32 DirectedEnergyDamage.recordType)
  S.write (write_uint16 40)
  S.putInt self "padding" write_uint16
  S.call self "damageLocation" Vector3Float.serializeHeap
  S.putFloat self "damageDiameter" write_float32
  S.putFloat self "temperature" write_float32
  S.putInt self "componentIdentification" write_uint8
  S.putInt self "componentDamageStatus" write_uint8
  S.putInt self "componentVisualDamageStatus" write_uint8
  S.putInt self "componentVisualSmokeColor" write_uint8
  S.call self "fireEventID" EventIdentifier.serializeHeap
  S.putInt self "padding2" write_uint16

/-- Attributes of a `DirectedEnergyAreaAimpoint` object before `__init__` (/repo/opendis/record/warfare/__init__.py:107-169). -/
def DirectedEnergyAreaAimpoint.attrs : List (String × Scalar) :=
  [("__class__", .cls "DirectedEnergyAreaAimpoint"), ("padding", .absent),
   ("beamAntennaPatterns", .absent), ("directedEnergyTargetEnergyDepositions", .absent)]

/-- `DirectedEnergyAreaAimpoint.__init__`, /repo/opendis/record/warfare/__init__.py:116-121, statement by statement. -/
def DirectedEnergyAreaAimpoint.initHeap (self : Ref) (beamAntennaPatterns : Val := .sc .none)
    (directedEnergyTargetEnergyDepositions : Val := .sc .none) : H Unit := do
  H.setAttr self "padding" (.sc (.int 0))
  H.setOr self "beamAntennaPatterns" beamAntennaPatterns (H.alloc (.list []))
  H.setOr self "directedEnergyTargetEnergyDepositions" directedEnergyTargetEnergyDepositions (H.alloc (.list []))

/-- `DirectedEnergyAreaAimpoint(...)`, /repo/opendis/record/warfare/__init__.py:116-121. -/
def DirectedEnergyAreaAimpoint.newHeap (beamAntennaPatterns : Val := .sc .none)
    (directedEnergyTargetEnergyDepositions : Val := .sc .none) : H Ref :=
  H.new DirectedEnergyAreaAimpoint.attrs fun self => DirectedEnergyAreaAimpoint.initHeap self beamAntennaPatterns directedEnergyTargetEnergyDepositions

/-- `DirectedEnergyAreaAimpoint.parse`, /repo/opendis/record/warfare/__init__.py:154-169, statement by statement. -/
def DirectedEnergyAreaAimpoint.parseHeap (bytelength : Int) (self : Ref) : H Unit := do
  H.read (StandardVariableRecord.parse bytelength)
  let padding ← H.read read_uint16
  H.setAttr self "padding" (.sc (.int padding))
  let beamAntennaPatternCount ← H.read read_uint16
  let directedEnergyTargetEnergyDepositionCount ← H.read read_uint16
  H.appendObjs beamAntennaPatternCount.toNat BeamAntennaPattern.newHeap (BeamAntennaPattern.parseHeap (some 40)) self "beamAntennaPatterns"
  H.appendObjs directedEnergyTargetEnergyDepositionCount.toNat DirectedEnergyTargetEnergyDeposition.newHeap DirectedEnergyTargetEnergyDeposition.parseHeap self "directedEnergyTargetEnergyDepositions"
  return ()

/-- `DirectedEnergyAreaAimpoint.marshalledSize`, /repo/opendis/record/warfare/__init__.py:131-137. -/
def DirectedEnergyAreaAimpoint.marshalledSizeHeap (self : Ref) : S Int := do
  let size := 8
  let size ← S.sizes size (← S.list self "beamAntennaPatterns") BeamAntennaPattern.marshalledSizeHeap
  S.sizes size (← S.list self "directedEnergyTargetEnergyDepositions")
    DirectedEnergyTargetEnergyDeposition.marshalledSizeHeap

/-- `DirectedEnergyAreaAimpoint.serialize`, /repo/opendis/record/warfare/__init__.py:139-152, statement by statement; `super().serialize`: /repo/opendis/record/base.py:83-88. -/
def DirectedEnergyAreaAimpoint.serializeHeap (self : Ref) : S Unit := do
  (do S.write (write_uint32 DirectedEnergyAreaAimpoint.recordType)
      S.putSize self DirectedEnergyAreaAimpoint.marshalledSizeHeap write_uint32)
  S.write (write_uint32 DirectedEnergyAreaAimpoint.recordType)
  S.putSize self DirectedEnergyAreaAimpoint.marshalledSizeHeap write_uint16
  S.putInt self "padding" write_uint16
  S.putLen self "beamAntennaPatterns" write_uint16
  S.putLen self "directedEnergyTargetEnergyDepositions" write_uint16
  S.each self "beamAntennaPatterns" BeamAntennaPattern.serializeHeap
  S.each self "directedEnergyTargetEnergyDepositions" DirectedEnergyTargetEnergyDeposition.serializeHeap

/-- Attributes of a `DirectedEnergyPrecisionAimpoint` object before `__init__` (/repo/opendis/record/warfare/__init__.py:172-248). -/
def DirectedEnergyPrecisionAimpoint.attrs : List (String × Scalar) :=
  [("__class__", .cls "DirectedEnergyPrecisionAimpoint"), ("padding", .absent),
   ("targetSpotLocation", .absent), ("targetSpotEntityLocation", .absent),
   ("targetSpotVelocity", .absent), ("targetSpotAcceleration", .absent),
   ("targetEntityID", .absent), ("targetComponentID", .absent), ("beamSpotType", .absent),
   ("beamSpotCrossSectionSemiMajorAxis", .absent), ("beamSpotCrossSectionSemiMinorAxis", .absent),
   ("beamSpotCrossSectionOrientationAngle", .absent), ("peakIrradiance", .absent),
   ("padding2", .absent)]

/-- `DirectedEnergyPrecisionAimpoint.__init__`, /repo/opendis/record/warfare/__init__.py:181-205, statement by statement. -/
def DirectedEnergyPrecisionAimpoint.initHeap (self : Ref)
    (targetSpotLocation : Val := .sc .none) (targetSpotEntityLocation : Val := .sc .none)
    (targetSpotVelocity : Val := .sc .none) (targetSpotAcceleration : Val := .sc .none)
    (targetEntityID : Val := .sc .none) (targetComponentID : Val := .sc (.int 0))
    (beamSpotType : Val := .sc (.int 0))
    (beamSpotCrossSectionSemiMajorAxis : Val := .sc (.float 0x0000000000000000))
    (beamSpotCrossSectionSemiMinorAxis : Val := .sc (.float 0x0000000000000000))
    (beamSpotCrossSectionOrientationAngle : Val := .sc (.float 0x0000000000000000))
    (peakIrradiance : Val := .sc (.float 0x0000000000000000)) : H Unit := do
  H.setAttr self "padding" (.sc (.int 0))
  H.setOr self "targetSpotLocation" targetSpotLocation WorldCoordinates.newHeap
  H.setOr self "targetSpotEntityLocation" targetSpotEntityLocation Vector3Float.newHeap
  H.setOr self "targetSpotVelocity" targetSpotVelocity Vector3Float.newHeap
  H.setOr self "targetSpotAcceleration" targetSpotAcceleration Vector3Float.newHeap
  H.setOr self "targetEntityID" targetEntityID EntityIdentifier.newHeap
  H.setAttr self "targetComponentID" targetComponentID
  H.setAttr self "beamSpotType" beamSpotType
  H.setAttr self "beamSpotCrossSectionSemiMajorAxis" beamSpotCrossSectionSemiMajorAxis
  H.setAttr self "beamSpotCrossSectionSemiMinorAxis" beamSpotCrossSectionSemiMinorAxis
  H.setAttr self "beamSpotCrossSectionOrientationAngle" beamSpotCrossSectionOrientationAngle
  H.setAttr self "peakIrradiance" peakIrradiance
  H.setAttr self "padding2" (.sc (.int 0))

/-- `DirectedEnergyPrecisionAimpoint(...)`, /repo/opendis/record/warfare/__init__.py:181-205. -/
def DirectedEnergyPrecisionAimpoint.newHeap (targetSpotLocation : Val := .sc .none)
    (targetSpotEntityLocation : Val := .sc .none) (targetSpotVelocity : Val := .sc .none)
    (targetSpotAcceleration : Val := .sc .none) (targetEntityID : Val := .sc .none)
    (targetComponentID : Val := .sc (.int 0)) (beamSpotType : Val := .sc (.int 0))
    (beamSpotCrossSectionSemiMajorAxis : Val := .sc (.float 0x0000000000000000))
    (beamSpotCrossSectionSemiMinorAxis : Val := .sc (.float 0x0000000000000000))
    (beamSpotCrossSectionOrientationAngle : Val := .sc (.float 0x0000000000000000))
    (peakIrradiance : Val := .sc (.float 0x0000000000000000)) : H Ref :=
  H.new DirectedEnergyPrecisionAimpoint.attrs fun self => DirectedEnergyPrecisionAimpoint.initHeap self targetSpotLocation targetSpotEntityLocation targetSpotVelocity targetSpotAcceleration targetEntityID targetComponentID beamSpotType beamSpotCrossSectionSemiMajorAxis beamSpotCrossSectionSemiMinorAxis beamSpotCrossSectionOrientationAngle peakIrradiance

/-- `DirectedEnergyPrecisionAimpoint.parse`, /repo/opendis/record/warfare/__init__.py:228-248, statement by statement. -/
def DirectedEnergyPrecisionAimpoint.parseHeap (bytelength : Int) (self : Ref) : H Unit := do
  H.read (StandardVariableRecord.parse bytelength)
  let padding ← H.read read_uint16
  H.setAttr self "padding" (.sc (.int padding))
  H.call self "targetSpotLocation" WorldCoordinates.parseHeap
  H.call self "targetSpotEntityLocation" Vector3Float.parseHeap
  H.call self "targetSpotVelocity" Vector3Float.parseHeap
  H.call self "targetSpotAcceleration" Vector3Float.parseHeap
  H.call self "targetEntityID" EntityIdentifier.parseHeap
  let targetComponentID ← H.read read_uint8
  H.setAttr self "targetComponentID" (.sc (.int targetComponentID))
  let beamSpotType ← H.read read_uint8
  H.setAttr self "beamSpotType" (.sc (.int beamSpotType))
  let beamSpotCrossSectionSemiMajorAxis ← H.read read_float32
  H.setAttr self "beamSpotCrossSectionSemiMajorAxis" (.sc (.float beamSpotCrossSectionSemiMajorAxis))
  let beamSpotCrossSectionSemiMinorAxis ← H.read read_float32
  H.setAttr self "beamSpotCrossSectionSemiMinorAxis" (.sc (.float beamSpotCrossSectionSemiMinorAxis))
  let beamSpotCrossSectionOrientationAngle ← H.read read_float32
  H.setAttr self "beamSpotCrossSectionOrientationAngle" (.sc (.float beamSpotCrossSectionOrientationAngle))
  let peakIrradiance ← H.read read_float32
  H.setAttr self "peakIrradiance" (.sc (.float peakIrradiance))
  let padding2 ← H.read read_uint32
  H.setAttr self "padding2" (.sc (.int padding2))
  return ()

/-- `DirectedEnergyPrecisionAimpoint.serialize`, /repo/opendis/record/warfare/__init__.py:210-226, statement by statement; `super().serialize`: /repo/opendis/record/base.py:83-88. -/
def DirectedEnergyPrecisionAimpoint.serializeHeap (self : Ref) : S Unit := do
  (do S.write (write_uint32 DirectedEnergyPrecisionAimpoint.recordType)
      S.write (write_uint32 96))
  S.write (write_uint32 DirectedEnergyPrecisionAimpoint.recordType)
  S.write (write_uint16 96)
  S.putInt self "padding" write_uint16
  S.call self "targetSpotLocation" WorldCoordinates.serializeHeap
  S.call self "targetSpotEntityLocation" Vector3Float.serializeHeap
  S.call self "targetSpotVelocity" Vector3Float.serializeHeap
  S.call self "targetSpotAcceleration" Vector3Float.serializeHeap
  S.call self "targetEntityID" EntityIdentifier.serializeHeap
  S.putInt self "targetComponentID" write_uint8
  S.putInt self "beamSpotType" write_uint8
  S.putFloat self "beamSpotCrossSectionSemiMajorAxis" write_float32
  S.putFloat self "beamSpotCrossSectionSemiMinorAxis" write_float32
  S.putFloat self "beamSpotCrossSectionOrientationAngle" write_float32
  S.putFloat self "peakIrradiance" write_float32
  S.putInt self "padding2" write_uint32

/-- Attributes of a `UnknownStandardVariableRecord` object before `__init__` (/repo/opendis/record/__init__.py:48-69); the class is made for one value of `recordType`. -/
def UnknownStandardVariableRecord.attrs (recordType : Int) : List (String × Scalar) :=
  [("__class__", .cls "UnknownStandardVariableRecord"), ("recordType", .int recordType),
   ("data", .absent)]

/-- `UnknownStandardVariableRecord.__init__`, /repo/opendis/record/__init__.py:52-53, statement by statement. -/
def UnknownStandardVariableRecord.initHeap (self : Ref) (data : Val := .sc (.bytes []))
    : H Unit := do
  H.setAttr self "data" data

/-- `UnknownStandardVariableRecord(...)`, /repo/opendis/record/__init__.py:52-53. -/
def UnknownStandardVariableRecord.newHeap (recordType : Int) (data : Val := .sc (.bytes []))
    : H Ref :=
  H.new (UnknownStandardVariableRecord.attrs recordType) fun self => UnknownStandardVariableRecord.initHeap self data

/-- `UnknownStandardVariableRecord.parse`, /repo/opendis/record/__init__.py:64-69, statement by statement. -/
def UnknownStandardVariableRecord.parseHeap (bytelength : Int) (self : Ref) : H Unit := do
  H.read (StandardVariableRecord.parse bytelength)
  let data ← H.read (read_bytes (bytelength - 6))
  H.setAttr self "data" (.sc (.bytes data))
  return ()

/-- `UnknownStandardVariableRecord.marshalledSize`, /repo/opendis/record/__init__.py:55-56. -/
def UnknownStandardVariableRecord.marshalledSizeHeap (self : Ref) : S Int := do
  return 6 + ((← S.bytes self "data").length : Int)

/-- `UnknownStandardVariableRecord.serialize`, /repo/opendis/record/__init__.py:58-62, statement by statement; `super().serialize`: /repo/opendis/record/base.py:83-88. -/
def UnknownStandardVariableRecord.serializeHeap (self : Ref) : S Unit := do
  (do S.putInt self "recordType" write_uint32
      S.putSize self UnknownStandardVariableRecord.marshalledSizeHeap write_uint32)
  S.putInt self "recordType" write_uint32
  S.putSize self UnknownStandardVariableRecord.marshalledSizeHeap write_uint16
  S.putBytes self "data" write_bytes

/-- `svClass()` then `parse(inputStream, bytelength)`, /repo/opendis/dis7.py:66-67, for the class that was
found. -/
def SVClass.parseHeap (c : SVClass) (bytelength : Int) : H Ref :=
  match c with
  | .highFidelityHAVEQUICKRadio => H.load HighFidelityHAVEQUICKRadio.newHeap (HighFidelityHAVEQUICKRadio.parseHeap bytelength)
  | .directedEnergyPrecisionAimpoint => H.load DirectedEnergyPrecisionAimpoint.newHeap (DirectedEnergyPrecisionAimpoint.parseHeap bytelength)
  | .directedEnergyAreaAimpoint => H.load DirectedEnergyAreaAimpoint.newHeap (DirectedEnergyAreaAimpoint.parseHeap bytelength)
  | .directedEnergyDamage => H.load DirectedEnergyDamage.newHeap (DirectedEnergyDamage.parseHeap bytelength)
  | .unknown t => H.load (UnknownStandardVariableRecord.newHeap t) (UnknownStandardVariableRecord.parseHeap bytelength)

/-- `parseStandardVariableRecord`, /repo/opendis/dis7.py:49-68. -/
def parseStandardVariableRecordHeap (expectedType : SVBase) : H Ref := do
  let recordType ← H.read read_uint32
  let recordLength ← H.read read_uint16
  let svClass ← H.read (R.ofExcept (getStandardVariableClass recordType expectedType))
  SVClass.parseHeap svClass recordLength

/-- `record.serialize(outputStream)` for a standard variable record, by its class, /repo/opendis/dis7.py:6379,
:6664. -/
def SVRecord.serializeHeap (self : Ref) : S Unit := do
  S.dispatch (← S.attr self "__class__")
    [("HighFidelityHAVEQUICKRadio", HighFidelityHAVEQUICKRadio.serializeHeap self),
     ("DirectedEnergyPrecisionAimpoint", DirectedEnergyPrecisionAimpoint.serializeHeap self),
     ("DirectedEnergyAreaAimpoint", DirectedEnergyAreaAimpoint.serializeHeap self),
     ("DirectedEnergyDamage", DirectedEnergyDamage.serializeHeap self),
     ("UnknownStandardVariableRecord", UnknownStandardVariableRecord.serializeHeap self)]

/-- Attributes of a `DirectedEnergyFirePdu` object before `__init__` (/repo/opendis/dis7.py:6318-6403). -/
def DirectedEnergyFirePdu.attrs : List (String × Scalar) :=
  [("protocolVersion", .absent), ("exerciseID", .absent), ("pduType", .int 68),
   ("protocolFamily", .int 2), ("timestamp", .absent), ("length", .absent), ("pduStatus", .absent),
   ("padding", .absent), ("firingEntityID", .absent), ("targetEntityID", .absent),
   ("munitionType", .absent), ("shotStartTime", .absent), ("cumulativeShotTime", .absent),
   ("commulativeShotTime", .absent), ("apertureEmitterLocation", .absent),
   ("apertureDiameter", .absent), ("wavelength", .absent), ("padding1", .absent),
   ("pulseRepetitionFrequency", .absent), ("pulseWidth", .absent), ("flags", .absent),
   ("pulseShape", .absent), ("padding2", .absent), ("padding3", .absent), ("padding4", .absent),
   ("dERecords", .absent)]

/-- `DirectedEnergyFirePdu.__init__`, /repo/opendis/dis7.py:6326-6355, statement by statement. -/
def DirectedEnergyFirePdu.initHeap (self : Ref) (munitionType : Val := .sc .none)
    (shotStartTime : Val := .sc .none)
    (cumulativeShotTime : Val := .sc (.float 0x0000000000000000))
    (apertureEmitterLocation : Val := .sc .none)
    (apertureDiameter : Val := .sc (.float 0x0000000000000000))
    (wavelength : Val := .sc (.float 0x0000000000000000))
    (pulseRepetitionFrequency : Val := .sc (.float 0x0000000000000000))
    (pulseWidth : Val := .sc (.float 0x0000000000000000)) (flags : Val := .sc .none)
    (pulseShape : Val := .sc (.int 0)) (dERecords : Val := .sc .none) : H Unit := do
  WarfareFamilyPdu.initHeap self
  H.setOr self "munitionType" munitionType EntityType.newHeap
  H.setOr self "shotStartTime" shotStartTime ClockTime.newHeap
  H.setAttr self "cumulativeShotTime" cumulativeShotTime
  H.setOr self "apertureEmitterLocation" apertureEmitterLocation Vector3Float.newHeap
  H.setAttr self "apertureDiameter" apertureDiameter
  H.setAttr self "wavelength" wavelength
  H.setAttr self "padding1" (.sc (.int 0))
  H.setAttr self "pulseRepetitionFrequency" pulseRepetitionFrequency
  H.setAttr self "pulseWidth" pulseWidth
  H.setOr self "flags" flags DEFireFlags.newHeap
  H.setAttr self "pulseShape" pulseShape
  H.setAttr self "padding2" (.sc (.int 0))
  H.setAttr self "padding3" (.sc (.int 0))
  H.setAttr self "padding4" (.sc (.int 0))
  H.setOr self "dERecords" dERecords (H.alloc (.list []))

/-- `DirectedEnergyFirePdu(...)`, /repo/opendis/dis7.py:6326-6355. -/
def DirectedEnergyFirePdu.newHeap (munitionType : Val := .sc .none)
    (shotStartTime : Val := .sc .none)
    (cumulativeShotTime : Val := .sc (.float 0x0000000000000000))
    (apertureEmitterLocation : Val := .sc .none)
    (apertureDiameter : Val := .sc (.float 0x0000000000000000))
    (wavelength : Val := .sc (.float 0x0000000000000000))
    (pulseRepetitionFrequency : Val := .sc (.float 0x0000000000000000))
    (pulseWidth : Val := .sc (.float 0x0000000000000000)) (flags : Val := .sc .none)
    (pulseShape : Val := .sc (.int 0)) (dERecords : Val := .sc .none) : H Ref :=
  H.new DirectedEnergyFirePdu.attrs fun self => DirectedEnergyFirePdu.initHeap self munitionType shotStartTime cumulativeShotTime apertureEmitterLocation apertureDiameter wavelength pulseRepetitionFrequency pulseWidth flags pulseShape dERecords

/-- `DirectedEnergyFirePdu.parse`, /repo/opendis/dis7.py:6381-6403, statement by statement. -/
def DirectedEnergyFirePdu.parseHeap (self : Ref) : H Unit := do
  WarfareFamilyPdu.parseHeap self
  H.call self "munitionType" EntityType.parseHeap
  H.call self "shotStartTime" ClockTime.parseHeap
  let commulativeShotTime ← H.read read_float32
  H.setAttr self "commulativeShotTime" (.sc (.float commulativeShotTime))
  H.call self "apertureEmitterLocation" Vector3Float.parseHeap
  let apertureDiameter ← H.read read_float32
  H.setAttr self "apertureDiameter" (.sc (.float apertureDiameter))
  let wavelength ← H.read read_float32
  H.setAttr self "wavelength" (.sc (.float wavelength))
  let padding1 ← H.read read_uint32
  H.setAttr self "padding1" (.sc (.int padding1))
  let pulseRepetitionFrequency ← H.read read_float32
  H.setAttr self "pulseRepetitionFrequency" (.sc (.float pulseRepetitionFrequency))
  let pulseWidth ← H.read read_float32
  H.setAttr self "pulseWidth" (.sc (.float pulseWidth))
  H.call self "flags" DEFireFlags.parseHeap
  let pulseShape ← H.read read_uint8
  H.setAttr self "pulseShape" (.sc (.int pulseShape))
  let padding2 ← H.read read_uint8
  H.setAttr self "padding2" (.sc (.int padding2))
  let padding3 ← H.read read_uint32
  H.setAttr self "padding3" (.sc (.int padding3))
  let padding4 ← H.read read_uint16
  H.setAttr self "padding4" (.sc (.int padding4))
  let numberOfDERecords ← H.read read_uint16
  H.appendLoads numberOfDERecords.toNat (parseStandardVariableRecordHeap .damageDescription) self "dERecords"
  return ()

/-- `DirectedEnergyFirePdu.serialize`, /repo/opendis/dis7.py:6361-6379, statement by statement. -/
def DirectedEnergyFirePdu.serializeHeap (self : Ref) : S Unit := do
  WarfareFamilyPdu.serializeHeap self
  S.call self "munitionType" EntityType.serializeHeap
  S.call self "shotStartTime" ClockTime.serializeHeap
  S.putFloat self "commulativeShotTime" write_float32
  S.call self "apertureEmitterLocation" Vector3Float.serializeHeap
  S.putFloat self "apertureDiameter" write_float32
  S.putFloat self "wavelength" write_float32
  S.putInt self "padding1" write_uint32
  S.putFloat self "pulseRepetitionFrequency" write_float32
  S.putFloat self "pulseWidth" write_float32
  S.call self "flags" DEFireFlags.serializeHeap
  S.putInt self "pulseShape" write_uint8
  S.putInt self "padding2" write_uint8
  S.putInt self "padding3" write_uint32
  S.putInt self "padding4" write_uint16
  S.putLen self "dERecords" write_uint16
  S.each self "dERecords" SVRecord.serializeHeap

/-- Attributes of a `EntityDamageStatusPdu` object before `__init__` (/repo/opendis/dis7.py:6635-6677). -/
def EntityDamageStatusPdu.attrs : List (String × Scalar) :=
  [("protocolVersion", .absent), ("exerciseID", .absent), ("pduType", .int 69),
   ("protocolFamily", .int 2), ("timestamp", .absent), ("length", .absent), ("pduStatus", .absent),
   ("padding", .absent), ("firingEntityID", .absent), ("targetEntityID", .absent),
   ("damagedEntityID", .absent), ("padding1", .absent), ("padding2", .absent),
   ("damageDescriptions", .absent)]

/-- `EntityDamageStatusPdu.__init__`, /repo/opendis/dis7.py:6643-6651, statement by statement. -/
def EntityDamageStatusPdu.initHeap (self : Ref) (damagedEntityID : Val := .sc .none)
    (damageDescriptions : Val := .sc .none) : H Unit := do
  WarfareFamilyPdu.initHeap self
  H.setOr self "damagedEntityID" damagedEntityID EntityIdentifier.newHeap
  H.setAttr self "padding1" (.sc (.int 0))
  H.setAttr self "padding2" (.sc (.int 0))
  H.setOr self "damageDescriptions" damageDescriptions (H.alloc (.list []))

/-- `EntityDamageStatusPdu(...)`, /repo/opendis/dis7.py:6643-6651. -/
def EntityDamageStatusPdu.newHeap (damagedEntityID : Val := .sc .none)
    (damageDescriptions : Val := .sc .none) : H Ref :=
  H.new EntityDamageStatusPdu.attrs fun self => EntityDamageStatusPdu.initHeap self damagedEntityID damageDescriptions

/-- `EntityDamageStatusPdu.parse`, /repo/opendis/dis7.py:6666-6677, statement by statement. -/
def EntityDamageStatusPdu.parseHeap (self : Ref) : H Unit := do
  WarfareFamilyPdu.parseHeap self
  H.call self "damagedEntityID" EntityIdentifier.parseHeap
  let padding1 ← H.read read_uint16
  H.setAttr self "padding1" (.sc (.int padding1))
  let padding2 ← H.read read_uint16
  H.setAttr self "padding2" (.sc (.int padding2))
  let damageDescriptionCount ← H.read read_uint16
  H.appendLoads damageDescriptionCount.toNat (parseStandardVariableRecordHeap .damageDescription) self "damageDescriptions"
  return ()

/-- `EntityDamageStatusPdu.serialize`, /repo/opendis/dis7.py:6657-6664, statement by statement. -/
def EntityDamageStatusPdu.serializeHeap (self : Ref) : S Unit := do
  WarfareFamilyPdu.serializeHeap self
  S.call self "damagedEntityID" EntityIdentifier.serializeHeap
  S.putInt self "padding1" write_uint16
  S.putInt self "padding2" write_uint16
  S.putLen self "damageDescriptions" write_uint16
  S.each self "damageDescriptions" SVRecord.serializeHeap

/-- Attributes of a `UnknownRadio` object before `__init__` (/repo/opendis/record/radio/__init__.py:58-77). -/
def UnknownRadio.attrs : List (String × Scalar) :=
  [("__class__", .cls "UnknownRadio"), ("data", .absent)]

/-- `UnknownRadio.__init__`, /repo/opendis/record/radio/__init__.py:61-62, statement by statement. -/
def UnknownRadio.initHeap (self : Ref) (data : Val := .sc (.bytes [])) : H Unit := do
  H.setAttr self "data" data

/-- `UnknownRadio(...)`, /repo/opendis/record/radio/__init__.py:61-62. -/
def UnknownRadio.newHeap (data : Val := .sc (.bytes [])) : H Ref :=
  H.new UnknownRadio.attrs fun self => UnknownRadio.initHeap self data

/-- `UnknownRadio.parse`, /repo/opendis/record/radio/__init__.py:71-77, statement by statement. -/
def UnknownRadio.parseHeap (bytelength : Option Int) (self : Ref) : H Unit := do
  H.read (VariableRecord.parse bytelength)
  let bytelength ← H.read (assertInt bytelength)
  let data ← H.read (read_bytes (bytelength))
  H.setAttr self "data" (.sc (.bytes data))
  return ()

/-- `UnknownRadio.marshalledSize`, /repo/opendis/record/radio/__init__.py:64-65. -/
def UnknownRadio.marshalledSizeHeap (self : Ref) : S Int := do
  return ((← S.bytes self "data").length : Int)

/-- `UnknownRadio.serialize`, /repo/opendis/record/radio/__init__.py:67-69, statement by statement. -/
def UnknownRadio.serializeHeap (self : Ref) : S Unit := do
  S.putBytes self "data" write_bytes

/-- Attributes of a `UnknownAntennaPattern` object before `__init__` (/repo/opendis/record/radio/__init__.py:80-99). -/
def UnknownAntennaPattern.attrs : List (String × Scalar) :=
  [("__class__", .cls "UnknownAntennaPattern"), ("data", .absent)]

/-- `UnknownAntennaPattern.__init__`, /repo/opendis/record/radio/__init__.py:83-84, statement by statement. -/
def UnknownAntennaPattern.initHeap (self : Ref) (data : Val := .sc (.bytes [])) : H Unit := do
  H.setAttr self "data" data

/-- `UnknownAntennaPattern(...)`, /repo/opendis/record/radio/__init__.py:83-84. -/
def UnknownAntennaPattern.newHeap (data : Val := .sc (.bytes [])) : H Ref :=
  H.new UnknownAntennaPattern.attrs fun self => UnknownAntennaPattern.initHeap self data

/-- `UnknownAntennaPattern.parse`, /repo/opendis/record/radio/__init__.py:93-99, statement by statement. -/
def UnknownAntennaPattern.parseHeap (bytelength : Int) (self : Ref) : H Unit := do
  H.read (VariableRecord.parse (some bytelength))
  let data ← H.read (read_bytes (bytelength - 6))
  H.setAttr self "data" (.sc (.bytes data))
  return ()

/-- `UnknownAntennaPattern.marshalledSize`, /repo/opendis/record/radio/__init__.py:86-87. -/
def UnknownAntennaPattern.marshalledSizeHeap (self : Ref) : S Int := do
  return ((← S.bytes self "data").length : Int)

/-- `UnknownAntennaPattern.serialize`, /repo/opendis/record/radio/__init__.py:89-91, statement by statement. -/
def UnknownAntennaPattern.serializeHeap (self : Ref) : S Unit := do
  S.putBytes self "data" write_bytes

/-- `GenericRadio()`, /repo/opendis/record/radio/__init__.py:313 (there is no `__init__`). -/
def GenericRadio.newHeap : H Ref := H.new [("__class__", .cls "GenericRadio")] fun _ => pure ()

/-- `GenericRadio.parse`, /repo/opendis/record/radio/__init__.py:326-329. -/
def GenericRadio.parseHeap (_self : Ref) : H Unit := pure ()

/-- `SimpleIntercomRadio()`, /repo/opendis/record/radio/__init__.py:332 (there is no `__init__`). -/
def SimpleIntercomRadio.newHeap : H Ref := H.new [("__class__", .cls "SimpleIntercomRadio")] fun _ => pure ()

/-- `SimpleIntercomRadio.parse`, /repo/opendis/record/radio/__init__.py:349-352. -/
def SimpleIntercomRadio.parseHeap (_self : Ref) : H Unit := pure ()

/-- `BasicHaveQuickMP.marshalledSize`, /repo/opendis/record/radio/__init__.py:376-377. -/
def BasicHaveQuickMP.marshalledSizeHeap (_self : Ref) : S Int := pure 16

/-- `CCTTSincgarsMP.marshalledSize`, /repo/opendis/record/radio/__init__.py:423-424. -/
def CCTTSincgarsMP.marshalledSizeHeap (_self : Ref) : S Int := pure 16

/-- `radio.marshalledSize()` by the class of the modulation parameters, /repo/opendis/dis7.py:5008. -/
def ModulationParametersRecord.marshalledSizeHeap (self : Ref) : S Int := do
  S.dispatch (← S.attr self "__class__")
    [("UnknownRadio", UnknownRadio.marshalledSizeHeap self),
     ("GenericRadio", pure 0),  -- /repo/opendis/record/radio/__init__.py:320-321
     ("SimpleIntercomRadio", pure 0),  -- /repo/opendis/record/radio/__init__.py:343-344
     ("BasicHaveQuickMP", BasicHaveQuickMP.marshalledSizeHeap self),
     ("CCTTSincgarsMP", CCTTSincgarsMP.marshalledSizeHeap self)]

/-- `radio.serialize(outputStream)` by the class of the modulation parameters, /repo/opendis/dis7.py:5042. -/
def ModulationParametersRecord.serializeHeap (self : Ref) : S Unit := do
  S.dispatch (← S.attr self "__class__")
    [("UnknownRadio", UnknownRadio.serializeHeap self),
     ("GenericRadio", pure ()),  -- /repo/opendis/record/radio/__init__.py:323-324
     ("SimpleIntercomRadio", pure ()),  -- /repo/opendis/record/radio/__init__.py:346-347
     ("BasicHaveQuickMP", BasicHaveQuickMP.serializeHeap self),
     ("CCTTSincgarsMP", CCTTSincgarsMP.serializeHeap self)]

/-- `pattern.marshalledSize()` by the class of the antenna pattern, /repo/opendis/dis7.py:5001. -/
def AntennaPatternRecord.marshalledSizeHeap (self : Ref) : S Int := do
  S.dispatch (← S.attr self "__class__")
    [("UnknownAntennaPattern", UnknownAntennaPattern.marshalledSizeHeap self),
     ("BeamAntennaPattern", BeamAntennaPattern.marshalledSizeHeap self)]

/-- `pattern.serialize(outputStream)` by the class of the antenna pattern, /repo/opendis/dis7.py:5046. -/
def AntennaPatternRecord.serializeHeap (self : Ref) : S Unit := do
  S.dispatch (← S.attr self "__class__")
    [("UnknownAntennaPattern", UnknownAntennaPattern.serializeHeap self),
     ("BeamAntennaPattern", BeamAntennaPattern.serializeHeap self)]

/-- The local variable `radio` of `TransmitterPdu.parse`, /repo/opendis/dis7.py:5077-5092. -/
def TransmitterPdu.radioHeap (modulationParametersLength : Int) (self : Ref) : H Ref := do
  let radioSystem ← H.intAttr (← H.objAttr self "modulationType") "radioSystem"
  if radioSystem = 1 then
    let majorModulation ← H.intAttr (← H.objAttr self "modulationType") "majorModulation"
    if majorModulation = 0 then H.load SimpleIntercomRadio.newHeap SimpleIntercomRadio.parseHeap
    else H.load GenericRadio.newHeap GenericRadio.parseHeap
  else if radioSystem = 2 ∨ radioSystem = 3 ∨ radioSystem = 4 then
    H.load BasicHaveQuickMP.newHeap (BasicHaveQuickMP.parseHeap none)
  else if radioSystem = 6 then H.load CCTTSincgarsMP.newHeap (CCTTSincgarsMP.parseHeap none)
  else H.load UnknownRadio.newHeap (UnknownRadio.parseHeap (some modulationParametersLength))

/-- The statements on the modulation parameters in `TransmitterPdu.parse`, /repo/opendis/dis7.py:5076-5095. -/
def TransmitterPdu.parseModulationParametersHeap (modulationParametersLength : Int) (self : Ref) : H Unit :=
  if modulationParametersLength > 0 then do
    let radio ← TransmitterPdu.radioHeap modulationParametersLength self
    H.setAttr self "modulationParameters" (.ref radio)
  else H.setAttr self "modulationParameters" (.sc .none)

/-- The statements on the antenna pattern in `TransmitterPdu.parse`, /repo/opendis/dis7.py:5097-5109. -/
def TransmitterPdu.parseAntennaPatternHeap (antennaPatternLength : Int) (self : Ref) : H Unit :=
  if antennaPatternLength > 0 then do
    let antennaPatternType ← H.intAttr self "antennaPatternType"
    if antennaPatternType = 1 then
      H.setNew self "antennaPattern" BeamAntennaPattern.newHeap
      H.call self "antennaPattern" (BeamAntennaPattern.parseHeap (some 40))
    else
      H.setNew self "antennaPattern" UnknownAntennaPattern.newHeap
      H.call self "antennaPattern" (UnknownAntennaPattern.parseHeap antennaPatternLength)
  else H.setAttr self "antennaPattern" (.sc .none)

/-- Attributes of a `TransmitterPdu` object before `__init__` (/repo/opendis/dis7.py:4943-5116). -/
def TransmitterPdu.attrs : List (String × Scalar) :=
  [("protocolVersion", .absent), ("exerciseID", .absent), ("pduType", .int 25),
   ("protocolFamily", .int 4), ("timestamp", .absent), ("length", .absent), ("pduStatus", .absent),
   ("padding", .absent), ("radioReferenceID", .absent), ("radioNumber", .absent),
   ("radioEntityType", .absent), ("transmitState", .absent), ("inputSource", .absent),
   ("antennaLocation", .absent), ("relativeAntennaLocation", .absent),
   ("antennaPatternType", .absent), ("frequency", .absent), ("transmitFrequencyBandwidth", .absent),
   ("power", .absent), ("modulationType", .absent), ("cryptoSystem", .absent),
   ("cryptoKeyId", .absent), ("padding2", .absent), ("padding3", .absent),
   ("modulationParameters", .absent), ("antennaPattern", .absent),
   ("variableTransmitterParameters", .absent)]

/-- `TransmitterPdu.__init__`, /repo/opendis/dis7.py:4952-4996, statement by statement. -/
def TransmitterPdu.initHeap (self : Ref) (radioReferenceID : Val := .sc .none)
    (radioNumber : Val := .sc (.int 0)) (radioEntityType : Val := .sc .none)
    (transmitState : Val := .sc (.int 0)) (inputSource : Val := .sc (.int 0))
    (antennaLocation : Val := .sc .none) (relativeAntennaLocation : Val := .sc .none)
    (antennaPatternType : Val := .sc (.int 0)) (frequency : Val := .sc (.int 0))
    (transmitFrequencyBandwidth : Val := .sc (.float 0x0000000000000000))
    (power : Val := .sc (.float 0x0000000000000000)) (modulationType : Val := .sc .none)
    (cryptoSystem : Val := .sc (.int 0)) (cryptoKeyId : Val := .sc (.int 0))
    (modulationParameters : Val := .sc .none) (antennaPattern : Val := .sc .none)
    (variableTransmitterParameters : Val := .sc .none) : H Unit := do
  RadioCommunicationsFamilyPdu.initHeap self
  H.setOr self "radioReferenceID" radioReferenceID EntityIdentifier.newHeap
  H.setAttr self "radioNumber" radioNumber
  H.setOr self "radioEntityType" radioEntityType EntityType.newHeap
  H.setAttr self "transmitState" transmitState
  H.setAttr self "inputSource" inputSource
  H.setOr self "antennaLocation" antennaLocation WorldCoordinates.newHeap
  H.setOr self "relativeAntennaLocation" relativeAntennaLocation Vector3Float.newHeap
  H.setAttr self "antennaPatternType" antennaPatternType
  H.setAttr self "frequency" frequency
  H.setAttr self "transmitFrequencyBandwidth" transmitFrequencyBandwidth
  H.setAttr self "power" power
  H.setOr self "modulationType" modulationType ModulationType.newHeap
  H.setAttr self "cryptoSystem" cryptoSystem
  H.setAttr self "cryptoKeyId" cryptoKeyId
  H.setAttr self "padding2" (.sc (.int 0))
  H.setAttr self "padding3" (.sc (.int 0))
  H.setAttr self "modulationParameters" modulationParameters
  H.setAttr self "antennaPattern" antennaPattern
  H.setNew self "variableTransmitterParameters" (H.listOrNew variableTransmitterParameters)

/-- `TransmitterPdu(...)`, /repo/opendis/dis7.py:4952-4996. -/
def TransmitterPdu.newHeap (radioReferenceID : Val := .sc .none)
    (radioNumber : Val := .sc (.int 0)) (radioEntityType : Val := .sc .none)
    (transmitState : Val := .sc (.int 0)) (inputSource : Val := .sc (.int 0))
    (antennaLocation : Val := .sc .none) (relativeAntennaLocation : Val := .sc .none)
    (antennaPatternType : Val := .sc (.int 0)) (frequency : Val := .sc (.int 0))
    (transmitFrequencyBandwidth : Val := .sc (.float 0x0000000000000000))
    (power : Val := .sc (.float 0x0000000000000000)) (modulationType : Val := .sc .none)
    (cryptoSystem : Val := .sc (.int 0)) (cryptoKeyId : Val := .sc (.int 0))
    (modulationParameters : Val := .sc .none) (antennaPattern : Val := .sc .none)
    (variableTransmitterParameters : Val := .sc .none) : H Ref :=
  H.new TransmitterPdu.attrs fun self => TransmitterPdu.initHeap self radioReferenceID radioNumber radioEntityType transmitState inputSource antennaLocation relativeAntennaLocation antennaPatternType frequency transmitFrequencyBandwidth power modulationType cryptoSystem cryptoKeyId modulationParameters antennaPattern variableTransmitterParameters

/-- `TransmitterPdu.parse`, /repo/opendis/dis7.py:5052-5116, statement by statement. -/
def TransmitterPdu.parseHeap (self : Ref) : H Unit := do
  RadioCommunicationsFamilyPdu.parseHeap self
  H.call self "radioReferenceID" EntityIdentifier.parseHeap
  let radioNumber ← H.read read_uint16
  H.setAttr self "radioNumber" (.sc (.int radioNumber))
  H.call self "radioEntityType" EntityType.parseHeap
  let transmitState ← H.read read_uint8
  H.setAttr self "transmitState" (.sc (.int transmitState))
  let inputSource ← H.read read_uint8
  H.setAttr self "inputSource" (.sc (.int inputSource))
  let variableTransmitterParameterCount ← H.read read_uint16
  H.call self "antennaLocation" WorldCoordinates.parseHeap
  H.call self "relativeAntennaLocation" Vector3Float.parseHeap
  let antennaPatternType ← H.read read_uint16
  H.setAttr self "antennaPatternType" (.sc (.int antennaPatternType))
  let antennaPatternLength ← H.read read_uint16
  let frequency ← H.read read_uint64
  H.setAttr self "frequency" (.sc (.int frequency))
  let transmitFrequencyBandwidth ← H.read read_float32
  H.setAttr self "transmitFrequencyBandwidth" (.sc (.float transmitFrequencyBandwidth))
  let power ← H.read read_float32
  H.setAttr self "power" (.sc (.float power))
  H.call self "modulationType" ModulationType.parseHeap
  let cryptoSystem ← H.read read_uint16
  H.setAttr self "cryptoSystem" (.sc (.int cryptoSystem))
  let cryptoKeyId ← H.read read_uint16
  H.setAttr self "cryptoKeyId" (.sc (.int cryptoKeyId))
  let modulationParametersLength ← H.read read_uint8
  let padding2 ← H.read read_uint16
  H.setAttr self "padding2" (.sc (.int padding2))
  let padding3 ← H.read read_uint8
  H.setAttr self "padding3" (.sc (.int padding3))
  TransmitterPdu.parseModulationParametersHeap modulationParametersLength self
  TransmitterPdu.parseAntennaPatternHeap antennaPatternLength self
  H.appendLoads variableTransmitterParameterCount.toNat (parseStandardVariableRecordHeap .variableTransmitterParameters) self "variableTransmitterParameters"
  return ()

/-- `TransmitterPdu.antennaPatternLength`, /repo/opendis/dis7.py:4999-5003. -/
def TransmitterPdu.antennaPatternLengthHeap (self : Ref) : S Int :=
  S.sizeOrZero self "antennaPattern" AntennaPatternRecord.marshalledSizeHeap

/-- `TransmitterPdu.modulationParametersLength`, /repo/opendis/dis7.py:5006-5010. -/
def TransmitterPdu.modulationParametersLengthHeap (self : Ref) : S Int :=
  S.sizeOrZero self "modulationParameters" ModulationParametersRecord.marshalledSizeHeap

/-- `TransmitterPdu.serialize`, /repo/opendis/dis7.py:5016-5050, statement by statement. -/
def TransmitterPdu.serializeHeap (self : Ref) : S Unit := do
  RadioCommunicationsFamilyPdu.serializeHeap self
  S.call self "radioReferenceID" EntityIdentifier.serializeHeap
  S.putInt self "radioNumber" write_uint16
  S.call self "radioEntityType" EntityType.serializeHeap
  S.putInt self "transmitState" write_uint8
  S.putInt self "inputSource" write_uint8
  S.putLen self "variableTransmitterParameters" write_uint16
  S.call self "antennaLocation" WorldCoordinates.serializeHeap
  S.call self "relativeAntennaLocation" Vector3Float.serializeHeap
  S.putInt self "antennaPatternType" write_uint16
  S.putSize self TransmitterPdu.antennaPatternLengthHeap write_uint16
  S.putInt self "frequency" write_uint64
  S.putFloat self "transmitFrequencyBandwidth" write_float32
  S.putFloat self "power" write_float32
  S.call self "modulationType" ModulationType.serializeHeap
  S.putInt self "cryptoSystem" write_uint16
  S.putInt self "cryptoKeyId" write_uint16
  S.putSize self TransmitterPdu.modulationParametersLengthHeap write_uint8
  S.putInt self "padding2" write_uint16
  S.putInt self "padding3" write_uint8
  S.whenTrue self "modulationParameters" ModulationParametersRecord.serializeHeap
  S.whenTrue self "antennaPattern" AntennaPatternRecord.serializeHeap
  S.each self "variableTransmitterParameters" SVRecord.serializeHeap

/-- Attributes of a `IntercomControlPdu` object before `__init__` (/repo/opendis/dis7.py:6873-6954). -/
def IntercomControlPdu.attrs : List (String × Scalar) :=
  [("protocolVersion", .absent), ("exerciseID", .absent), ("pduType", .int 32),
   ("protocolFamily", .int 4), ("timestamp", .absent), ("length", .absent), ("pduStatus", .absent),
   ("padding", .absent), ("controlType", .absent), ("communicationsChannelType", .absent),
   ("sourceEntityID", .absent), ("sourceCommunicationsDeviceID", .absent),
   ("sourceLineID", .absent), ("transmitPriority", .absent), ("transmitLineState", .absent),
   ("command", .absent), ("masterEntityID", .absent), ("masterCommunicationsDeviceID", .absent),
   ("intercomParameters", .absent)]

/-- `IntercomControlPdu.__init__`, /repo/opendis/dis7.py:6883-6914, statement by statement. -/
def IntercomControlPdu.initHeap (self : Ref) (controlType : Val := .sc (.int 0))
    (communicationsChannelType : Val := .sc (.int 0)) (sourceEntityID : Val := .sc .none)
    (sourceCommunicationsDeviceID : Val := .sc (.int 0)) (sourceLineID : Val := .sc (.int 0))
    (transmitPriority : Val := .sc (.int 0)) (transmitLineState : Val := .sc (.int 0))
    (command : Val := .sc (.int 0)) (masterEntityID : Val := .sc .none)
    (masterCommunicationsDeviceID : Val := .sc (.int 0)) (intercomParameters : Val := .sc .none)
    : H Unit := do
  RadioCommunicationsFamilyPdu.initHeap self
  H.setAttr self "controlType" controlType
  H.setAttr self "communicationsChannelType" communicationsChannelType
  H.setOr self "sourceEntityID" sourceEntityID EntityIdentifier.newHeap
  H.setAttr self "sourceCommunicationsDeviceID" sourceCommunicationsDeviceID
  H.setAttr self "sourceLineID" sourceLineID
  H.setAttr self "transmitPriority" transmitPriority
  H.setAttr self "transmitLineState" transmitLineState
  H.setAttr self "command" command
  H.setOr self "masterEntityID" masterEntityID EntityIdentifier.newHeap
  H.setAttr self "masterCommunicationsDeviceID" masterCommunicationsDeviceID
  H.setAttr self "intercomParameters" intercomParameters

/-- `IntercomControlPdu(...)`, /repo/opendis/dis7.py:6883-6914. -/
def IntercomControlPdu.newHeap (controlType : Val := .sc (.int 0))
    (communicationsChannelType : Val := .sc (.int 0)) (sourceEntityID : Val := .sc .none)
    (sourceCommunicationsDeviceID : Val := .sc (.int 0)) (sourceLineID : Val := .sc (.int 0))
    (transmitPriority : Val := .sc (.int 0)) (transmitLineState : Val := .sc (.int 0))
    (command : Val := .sc (.int 0)) (masterEntityID : Val := .sc .none)
    (masterCommunicationsDeviceID : Val := .sc (.int 0)) (intercomParameters : Val := .sc .none)
    : H Ref :=
  H.new IntercomControlPdu.attrs fun self => IntercomControlPdu.initHeap self controlType communicationsChannelType sourceEntityID sourceCommunicationsDeviceID sourceLineID transmitPriority transmitLineState command masterEntityID masterCommunicationsDeviceID intercomParameters

/-- `IntercomControlPdu.parse`, /repo/opendis/dis7.py:6939-6954, statement by statement; the last one calls a method with too few arguments. -/
def IntercomControlPdu.parseHeap (self : Ref) : H Unit := do
  RadioCommunicationsFamilyPdu.parseHeap self
  let controlType ← H.read read_unsigned_byte
  H.setAttr self "controlType" (.sc (.int controlType))
  let communicationsChannelType ← H.read read_unsigned_byte
  H.setAttr self "communicationsChannelType" (.sc (.int communicationsChannelType))
  H.call self "sourceEntityID" EntityIdentifier.parseHeap
  let sourceCommunicationsDeviceID ← H.read read_unsigned_byte
  H.setAttr self "sourceCommunicationsDeviceID" (.sc (.int sourceCommunicationsDeviceID))
  let sourceLineID ← H.read read_unsigned_byte
  H.setAttr self "sourceLineID" (.sc (.int sourceLineID))
  let transmitPriority ← H.read read_unsigned_byte
  H.setAttr self "transmitPriority" (.sc (.int transmitPriority))
  let transmitLineState ← H.read read_unsigned_byte
  H.setAttr self "transmitLineState" (.sc (.int transmitLineState))
  let command ← H.read read_unsigned_byte
  H.setAttr self "command" (.sc (.int command))
  H.call self "masterEntityID" EntityIdentifier.parseHeap
  let masterCommunicationsDeviceID ← H.read read_unsigned_short
  H.setAttr self "masterCommunicationsDeviceID" (.sc (.int masterCommunicationsDeviceID))
  let intercomParametersLength ← H.read read_unsigned_int
  H.throw .typeError

/-- `IntercomControlPdu.serialize`, /repo/opendis/dis7.py:6922-6937, statement by statement. -/
def IntercomControlPdu.serializeHeap (self : Ref) : S Unit := do
  RadioCommunicationsFamilyPdu.serializeHeap self
  S.putInt self "controlType" write_unsigned_byte
  S.putInt self "communicationsChannelType" write_unsigned_byte
  S.call self "sourceEntityID" EntityIdentifier.serializeHeap
  S.putInt self "sourceCommunicationsDeviceID" write_unsigned_byte
  S.putInt self "sourceLineID" write_unsigned_byte
  S.putInt self "transmitPriority" write_unsigned_byte
  S.putInt self "transmitLineState" write_unsigned_byte
  S.putInt self "command" write_unsigned_byte
  S.call self "masterEntityID" EntityIdentifier.serializeHeap
  S.putInt self "masterCommunicationsDeviceID" write_unsigned_short
  S.putLen self "intercomParameters" write_unsigned_int
  S.each self "intercomParameters" IntercomCommunicationsParameters.serializeHeap

end Dis
