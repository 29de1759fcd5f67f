import Verif.Model.Bitfield
import Verif.Model.Common

/-!
# `opendis/record/base.py` and `opendis/record/radio/__init__.py`

Hand-written transliteration. `super().serialize` of `Record` and `VariableRecord` has an empty
body (/repo/opendis/record/base.py:21-22, :43-44) and is left out.
-/

namespace Dis

/-- `VariableRecord.parse`, /repo/opendis/record/base.py:46-57: only validates `bytelength`
(`none` is Python's `None`; values that are neither `None` nor an `int` are not modelled). -/
def VariableRecord.parse (bytelength : Option Int) : R Unit :=
  match bytelength with
  | none => pure ()
  | some n => if n ≥ 0 then pure () else R.throw .valueError

/-- `StandardVariableRecord.parse`, /repo/opendis/record/base.py:90-107. -/
def StandardVariableRecord.parse (bytelength : Int) : R Unit := do
  VariableRecord.parse (some bytelength)
  if bytelength % 8 = 0 then pure () else R.throw .valueError

/-- `StandardVariableRecord.serialize` for a record of class attribute `recordType` and size
`marshalledSize()`, /repo/opendis/record/base.py:79-88. -/
def StandardVariableRecord.serialize (recordType marshalledSize : Int) : W Unit := do
  write_uint32 recordType
  write_uint32 marshalledSize

/-! ## Placeholders -/

/-- Attributes of `UnknownRadio`, /repo/opendis/record/radio/__init__.py:58-62. -/
structure UnknownRadio where
  data : Bytes := []
  deriving DecidableEq

/-- `UnknownRadio.marshalledSize`, /repo/opendis/record/radio/__init__.py:64-65. -/
def UnknownRadio.marshalledSize (self : UnknownRadio) : Int := self.data.length

/-- `UnknownRadio.serialize`, /repo/opendis/record/radio/__init__.py:67-69. -/
def UnknownRadio.serialize (self : UnknownRadio) : W Unit := write_bytes self.data

/-- `UnknownRadio.parse`, /repo/opendis/record/radio/__init__.py:71-77. -/
def UnknownRadio.parse (self : UnknownRadio) (bytelength : Option Int := none) : R UnknownRadio := do
  VariableRecord.parse bytelength
  match bytelength with
  | none => R.throw .assertionError
  | some n => do
    let data ← read_bytes n
    return { self with data := data }

/-- Attributes of `UnknownAntennaPattern`, /repo/opendis/record/radio/__init__.py:80-84. -/
structure UnknownAntennaPattern where
  data : Bytes := []
  deriving DecidableEq

/-- `UnknownAntennaPattern.marshalledSize`, /repo/opendis/record/radio/__init__.py:86-87. -/
def UnknownAntennaPattern.marshalledSize (self : UnknownAntennaPattern) : Int := self.data.length

/-- `UnknownAntennaPattern.serialize`, /repo/opendis/record/radio/__init__.py:89-91. -/
def UnknownAntennaPattern.serialize (self : UnknownAntennaPattern) : W Unit := write_bytes self.data

/-- `UnknownAntennaPattern.parse`, /repo/opendis/record/radio/__init__.py:93-99. -/
def UnknownAntennaPattern.parse (self : UnknownAntennaPattern) (bytelength : Int) :
    R UnknownAntennaPattern := do
  VariableRecord.parse (some bytelength)
  let data ← read_bytes (bytelength - 6)
  return { self with data := data }

/-! ## Implementations -/

/-- Attributes of `BeamAntennaPattern`, /repo/opendis/record/radio/__init__.py:104-132; default values
are those of `BeamAntennaPattern()`. -/
structure BeamAntennaPattern where
  beamDirection : EulerAngles := EulerAngles.init
  azimuthBeamwidth : F64 := 0x0000000000000000
  elevationBeamwidth : F64 := 0x0000000000000000
  referenceSystem : Int := 0
  padding1 : Int := 0
  padding2 : Int := 0
  ez : F64 := 0x0000000000000000
  ex : F64 := 0x0000000000000000
  phase : F64 := 0x0000000000000000
  padding3 : Int := 0
  deriving DecidableEq

/-- `BeamAntennaPattern(...)`, /repo/opendis/record/radio/__init__.py:111-132. -/
def BeamAntennaPattern.init (beamDirection : Option EulerAngles := none)
    (azimuthBeamwidth : F64 := 0x0000000000000000) (elevationBeamwidth : F64 := 0x0000000000000000)
    (referenceSystem : Int := 0) (ez : F64 := 0x0000000000000000) (ex : F64 := 0x0000000000000000)
    (phase : F64 := 0x0000000000000000) : BeamAntennaPattern :=
  { beamDirection := beamDirection.getD EulerAngles.init, azimuthBeamwidth := azimuthBeamwidth,
    elevationBeamwidth := elevationBeamwidth, referenceSystem := referenceSystem, padding1 := 0,
    padding2 := 0, ez := ez, ex := ex, phase := phase, padding3 := 0 }

/-- `BeamAntennaPattern.marshalledSize`, /repo/opendis/record/radio/__init__.py:134-135. -/
def BeamAntennaPattern.marshalledSize (_self : BeamAntennaPattern) : Int := 40

/-- `BeamAntennaPattern.serialize`, /repo/opendis/record/radio/__init__.py:137-148. -/
def BeamAntennaPattern.serialize (self : BeamAntennaPattern) : W Unit := do
  EulerAngles.serialize self.beamDirection
  write_float32 self.azimuthBeamwidth
  write_float32 self.elevationBeamwidth
  write_uint8 self.referenceSystem
  write_uint8 self.padding1
  write_uint16 self.padding2
  write_float32 self.ez
  write_float32 self.ex
  write_float32 self.phase
  write_uint32 self.padding3

/-- `BeamAntennaPattern.parse`, /repo/opendis/record/radio/__init__.py:150-164. -/
def BeamAntennaPattern.parse (self : BeamAntennaPattern) (bytelength : Option Int := some 40) :
    R BeamAntennaPattern := do
  VariableRecord.parse bytelength
  let beamDirection ← EulerAngles.parse self.beamDirection
  let azimuthBeamwidth ← read_float32
  let elevationBeamwidth ← read_float32
  let referenceSystem ← read_uint8
  let padding1 ← read_uint8
  let padding2 ← read_uint16
  let ez ← read_float32
  let ex ← read_float32
  let phase ← read_float32
  let padding3 ← read_uint32
  return { beamDirection, azimuthBeamwidth, elevationBeamwidth, referenceSystem, padding1, padding2,
           ez, ex, phase, padding3 }

/-- Field widths of `SpreadSpectrum._struct`, /repo/opendis/record/radio/__init__.py:182-187. -/
def SpreadSpectrum.fields : List FieldDescription :=
  [{ bits := some 1 }, { bits := some 1 }, { bits := some 1 }, { bits := some 13 }]

/-- Widths of the class made by `bitfield` from `SpreadSpectrum.fields`,
/repo/opendis/record/radio/__init__.py:182-187 (`C25_bitfield_classes` relates the two). -/
def SpreadSpectrum.struct : List Nat := [1, 1, 1, 13]

/-- Attributes of `SpreadSpectrum`, /repo/opendis/record/radio/__init__.py:189-197. -/
structure SpreadSpectrum where
  frequencyHopping : Bool := false
  pseudoNoise : Bool := false
  timeHopping : Bool := false
  padding : Int := 0
  deriving DecidableEq

/-- `SpreadSpectrum(...)`, /repo/opendis/record/radio/__init__.py:189-197. -/
def SpreadSpectrum.init (frequencyHopping pseudoNoise timeHopping : Bool := false)
    (padding : Int := 0) : SpreadSpectrum :=
  { frequencyHopping, pseudoNoise, timeHopping, padding }

/-- `SpreadSpectrum.marshalledSize`, /repo/opendis/record/radio/__init__.py:199-200. -/
def SpreadSpectrum.marshalledSize (_self : SpreadSpectrum) : Int :=
  Bitfield.marshalledSize SpreadSpectrum.struct

/-- `SpreadSpectrum.serialize`, /repo/opendis/record/radio/__init__.py:202-209. -/
def SpreadSpectrum.serialize (self : SpreadSpectrum) : W Unit :=
  Bitfield.serialize SpreadSpectrum.struct
    [self.frequencyHopping.toInt, self.pseudoNoise.toInt, self.timeHopping.toInt, self.padding]

/-- `SpreadSpectrum.parse`, /repo/opendis/record/radio/__init__.py:211-215: `padding` is not
assigned. -/
def SpreadSpectrum.parse (self : SpreadSpectrum) : R SpreadSpectrum := do
  let record_bitfield ← Bitfield.parse SpreadSpectrum.struct
  return { self with
    frequencyHopping := record_bitfield.getD 0 0 ≠ 0
    pseudoNoise := record_bitfield.getD 1 0 ≠ 0
    timeHopping := record_bitfield.getD 2 0 ≠ 0 }

/-- Attributes of `ModulationType`, /repo/opendis/record/radio/__init__.py:218-233. -/
structure ModulationType where
  spreadSpectrum : SpreadSpectrum := SpreadSpectrum.init
  majorModulation : Int := 0
  detail : Int := 0
  radioSystem : Int := 0
  deriving DecidableEq

/-- `ModulationType(...)`, /repo/opendis/record/radio/__init__.py:224-233. -/
def ModulationType.init (spreadSpectrum : Option SpreadSpectrum := none)
    (majorModulation detail radioSystem : Int := 0) : ModulationType :=
  { spreadSpectrum := spreadSpectrum.getD SpreadSpectrum.init, majorModulation, detail, radioSystem }

/-- `ModulationType.marshalledSize`, /repo/opendis/record/radio/__init__.py:235-241. -/
def ModulationType.marshalledSize (self : ModulationType) : Int :=
  0 + self.spreadSpectrum.marshalledSize + 2 + 2 + 2

/-- `ModulationType.serialize`, /repo/opendis/record/radio/__init__.py:243-247. -/
def ModulationType.serialize (self : ModulationType) : W Unit := do
  SpreadSpectrum.serialize self.spreadSpectrum
  write_uint16 self.majorModulation
  write_uint16 self.detail
  write_uint16 self.radioSystem

/-- `ModulationType.parse`, /repo/opendis/record/radio/__init__.py:249-253. -/
def ModulationType.parse (self : ModulationType) : R ModulationType := do
  let spreadSpectrum ← SpreadSpectrum.parse self.spreadSpectrum
  let majorModulation ← read_uint16
  let detail ← read_uint16
  let radioSystem ← read_uint16
  return { spreadSpectrum, majorModulation, detail, radioSystem }

/-- Fields of `NetId._struct`, /repo/opendis/record/radio/__init__.py:276-281. -/
def NetId.fields : List FieldDescription :=
  [{ bits := some 10 }, { bits := some 2 }, { bits := some 2 }, { bits := some 2 }]

/-- Widths of the class made by `bitfield` from `NetId.fields`,
/repo/opendis/record/radio/__init__.py:276-281 (`C25_bitfield_classes` relates the two). -/
def NetId.struct : List Nat := [10, 2, 2, 2]

/-- Attributes of `NetId`, /repo/opendis/record/radio/__init__.py:283-292. -/
structure NetId where
  netNumber : Int := 0
  frequencyTable : Int := 0
  mode : Int := 0
  padding : Int := 0
  deriving DecidableEq

/-- `NetId(...)`, /repo/opendis/record/radio/__init__.py:283-292. -/
def NetId.init (netNumber frequencyTable mode padding : Int := 0) : NetId :=
  { netNumber, frequencyTable, mode, padding }

/-- `NetId.marshalledSize`, /repo/opendis/record/radio/__init__.py:294-295. -/
def NetId.marshalledSize (_self : NetId) : Int := Bitfield.marshalledSize NetId.struct

/-- `NetId.serialize`, /repo/opendis/record/radio/__init__.py:297-303. -/
def NetId.serialize (self : NetId) : W Unit :=
  Bitfield.serialize NetId.struct [self.netNumber, self.frequencyTable, self.mode, self.padding]

/-- `NetId.parse`, /repo/opendis/record/radio/__init__.py:305-310. -/
def NetId.parse (_self : NetId) : R NetId := do
  let record_bitfield ← Bitfield.parse NetId.struct
  return {
    netNumber := record_bitfield.getD 0 0
    frequencyTable := record_bitfield.getD 1 0
    mode := record_bitfield.getD 2 0
    padding := record_bitfield.getD 3 0 }

/-- Attributes of `BasicHaveQuickMP`, /repo/opendis/record/radio/__init__.py:357-374. -/
structure BasicHaveQuickMP where
  net_id : NetId := NetId.init
  mwod_index : Int := 1
  reserved16 : Int := 0
  reserved8_1 : Int := 0
  reserved8_2 : Int := 0
  time_of_day : Int := 0
  padding : Int := 0
  deriving DecidableEq

/-- `BasicHaveQuickMP(...)`, /repo/opendis/record/radio/__init__.py:360-374. -/
def BasicHaveQuickMP.init (net_id : Option NetId := none) (mwod_index : Int := 1)
    (reserved16 reserved8_1 reserved8_2 time_of_day padding : Int := 0) : BasicHaveQuickMP :=
  { net_id := net_id.getD NetId.init, mwod_index, reserved16, reserved8_1, reserved8_2,
    time_of_day, padding }

/-- `BasicHaveQuickMP.marshalledSize`, /repo/opendis/record/radio/__init__.py:376-377. -/
def BasicHaveQuickMP.marshalledSize (_self : BasicHaveQuickMP) : Int := 16

/-- `BasicHaveQuickMP.serialize`, /repo/opendis/record/radio/__init__.py:379-387. -/
def BasicHaveQuickMP.serialize (self : BasicHaveQuickMP) : W Unit := do
  NetId.serialize self.net_id
  write_uint16 self.mwod_index
  write_uint16 self.reserved16
  write_uint8 self.reserved8_1
  write_uint8 self.reserved8_2
  write_uint32 self.time_of_day
  write_uint32 self.padding

/-- `BasicHaveQuickMP.parse`, /repo/opendis/record/radio/__init__.py:389-400. -/
def BasicHaveQuickMP.parse (self : BasicHaveQuickMP) (bytelength : Option Int := none) :
    R BasicHaveQuickMP := do
  VariableRecord.parse bytelength
  let net_id ← NetId.parse self.net_id
  let mwod_index ← read_uint16
  let reserved16 ← read_uint16
  let reserved8_1 ← read_uint8
  let reserved8_2 ← read_uint8
  let time_of_day ← read_uint32
  let padding ← read_uint32
  return { net_id, mwod_index, reserved16, reserved8_1, reserved8_2, time_of_day, padding }

/-- Attributes of `CCTTSincgarsMP`, /repo/opendis/record/radio/__init__.py:403-421. -/
structure CCTTSincgarsMP where
  fh_net_id : Int := 0
  hop_set_id : Int := 0
  lockout_set_id : Int := 0
  start_of_message : Int := 0
  clear_channel : Int := 0
  fh_sync_time_offset : Int := 0
  transmission_security_key : Int := 0
  padding : Int := 0
  deriving DecidableEq

/-- `CCTTSincgarsMP(...)`, /repo/opendis/record/radio/__init__.py:406-421. -/
def CCTTSincgarsMP.init (fh_net_id hop_set_id lockout_set_id start_of_message clear_channel
    fh_sync_time_offset transmission_security_key : Int := 0) : CCTTSincgarsMP :=
  { fh_net_id, hop_set_id, lockout_set_id, start_of_message, clear_channel, fh_sync_time_offset,
    transmission_security_key, padding := 0 }

/-- `CCTTSincgarsMP.marshalledSize`, /repo/opendis/record/radio/__init__.py:423-424. -/
def CCTTSincgarsMP.marshalledSize (_self : CCTTSincgarsMP) : Int := 16

/-- `CCTTSincgarsMP.serialize`, /repo/opendis/record/radio/__init__.py:426-435. -/
def CCTTSincgarsMP.serialize (self : CCTTSincgarsMP) : W Unit := do
  write_uint16 self.fh_net_id
  write_uint16 self.hop_set_id
  write_uint16 self.lockout_set_id
  write_uint8 self.start_of_message
  write_uint8 self.clear_channel
  write_uint32 self.fh_sync_time_offset
  write_uint16 self.transmission_security_key
  write_uint16 self.padding

/-- `CCTTSincgarsMP.parse`, /repo/opendis/record/radio/__init__.py:437-449. -/
def CCTTSincgarsMP.parse (_self : CCTTSincgarsMP) (bytelength : Option Int := none) :
    R CCTTSincgarsMP := do
  VariableRecord.parse bytelength
  let fh_net_id ← read_uint16
  let hop_set_id ← read_uint16
  let lockout_set_id ← read_uint16
  let start_of_message ← read_uint8
  let clear_channel ← read_uint8
  let fh_sync_time_offset ← read_uint32
  let transmission_security_key ← read_uint16
  let padding ← read_uint16
  return { fh_net_id, hop_set_id, lockout_set_id, start_of_message, clear_channel,
           fh_sync_time_offset, transmission_security_key, padding }

/-- Attributes of `HighFidelityHAVEQUICKRadio`, /repo/opendis/record/radio/__init__.py:452-476. -/
structure HighFidelityHAVEQUICKRadio where
  padding1 : Int := 0
  netId : NetId := NetId.init
  todTransmitIndicator : Int := 0
  padding2 : Int := 0
  todDelta : Int := 0
  wod1 : Int := 0
  wod2 : Int := 0
  wod3 : Int := 0
  wod4 : Int := 0
  wod5 : Int := 0
  wod6 : Int := 0
  deriving DecidableEq

/-- `HighFidelityHAVEQUICKRadio(...)`, /repo/opendis/record/radio/__init__.py:456-476. -/
def HighFidelityHAVEQUICKRadio.init (netId : Option NetId := none)
    (todTransmitIndicator todDelta wod1 wod2 wod3 wod4 wod5 wod6 : Int := 0) :
    HighFidelityHAVEQUICKRadio :=
  { padding1 := 0, netId := netId.getD NetId.init, todTransmitIndicator, padding2 := 0, todDelta,
    wod1, wod2, wod3, wod4, wod5, wod6 }

/-- `HighFidelityHAVEQUICKRadio.recordType`, /repo/opendis/record/radio/__init__.py:454. -/
def HighFidelityHAVEQUICKRadio.recordType : Int := 3000

/-- `HighFidelityHAVEQUICKRadio.marshalledSize`, /repo/opendis/record/radio/__init__.py:478-479. -/
def HighFidelityHAVEQUICKRadio.marshalledSize (_self : HighFidelityHAVEQUICKRadio) : Int := 40

/-- `HighFidelityHAVEQUICKRadio.serialize`, /repo/opendis/record/radio/__init__.py:481-493. -/
def HighFidelityHAVEQUICKRadio.serialize (self : HighFidelityHAVEQUICKRadio) : W Unit := do
  StandardVariableRecord.serialize HighFidelityHAVEQUICKRadio.recordType self.marshalledSize
  write_uint16 self.padding1
  NetId.serialize self.netId
  write_uint8 self.todTransmitIndicator
  write_uint8 self.padding2
  write_uint32 self.todDelta
  write_uint32 self.wod1
  write_uint32 self.wod2
  write_uint32 self.wod3
  write_uint32 self.wod4
  write_uint32 self.wod5
  write_uint32 self.wod6

/-- `HighFidelityHAVEQUICKRadio.parse`, /repo/opendis/record/radio/__init__.py:495-510. -/
def HighFidelityHAVEQUICKRadio.parse (self : HighFidelityHAVEQUICKRadio) (bytelength : Int) :
    R HighFidelityHAVEQUICKRadio := do
  StandardVariableRecord.parse bytelength
  let padding1 ← read_uint16
  let netId ← NetId.parse self.netId
  let todTransmitIndicator ← read_uint8
  let padding2 ← read_uint8
  let todDelta ← read_uint32
  let wod1 ← read_uint32
  let wod2 ← read_uint32
  let wod3 ← read_uint32
  let wod4 ← read_uint32
  let wod5 ← read_uint32
  let wod6 ← read_uint32
  return { padding1, netId, todTransmitIndicator, padding2, todDelta, wod1, wod2, wod3, wod4, wod5,
           wod6 }

end Dis
