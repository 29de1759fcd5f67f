import Verif.Model.InPlace4
import Verif.Model.Special

/-!
# Parse methods as programs that change their object: classes modelled by hand

Generated by `tools/geninplace.py`; each definition cites the lines it transliterates.
-/

set_option linter.unusedVariables false
set_option linter.unusedSimpArgs false

namespace Dis

/-- `NetId.parse`, /repo/opendis/record/radio/__init__.py:305-310, statement by statement. -/
def NetId.parseInto : P NetId Unit := do
  let record_bitfield ← P.read (Bitfield.parse NetId.struct)
  P.set fun o => { o with netNumber := record_bitfield.getD 0 0 }
  P.set fun o => { o with frequencyTable := record_bitfield.getD 1 0 }
  P.set fun o => { o with mode := record_bitfield.getD 2 0 }
  P.set fun o => { o with padding := record_bitfield.getD 3 0 }
  return ()

/-- `SpreadSpectrum.parse`, /repo/opendis/record/radio/__init__.py:211-215, statement by statement. -/
def SpreadSpectrum.parseInto : P SpreadSpectrum Unit := do
  let record_bitfield ← P.read (Bitfield.parse SpreadSpectrum.struct)
  P.set fun o => { o with frequencyHopping := record_bitfield.getD 0 0 ≠ 0 }
  P.set fun o => { o with pseudoNoise := record_bitfield.getD 1 0 ≠ 0 }
  P.set fun o => { o with timeHopping := record_bitfield.getD 2 0 ≠ 0 }
  return ()

/-- `ModulationType.parse`, /repo/opendis/record/radio/__init__.py:249-253, statement by statement. -/
def ModulationType.parseInto : P ModulationType Unit := do
  P.call ⟨(·.spreadSpectrum), fun o v => { o with spreadSpectrum := v }⟩ SpreadSpectrum.parseInto
  let majorModulation ← P.read read_uint16
  P.set fun o => { o with majorModulation := majorModulation }
  let detail ← P.read read_uint16
  P.set fun o => { o with detail := detail }
  let radioSystem ← P.read read_uint16
  P.set fun o => { o with radioSystem := radioSystem }
  return ()

/-- `BeamAntennaPattern.parse`, /repo/opendis/record/radio/__init__.py:150-164, statement by statement. -/
def BeamAntennaPattern.parseInto (bytelength : Option Int) : P BeamAntennaPattern Unit := do
  P.read (VariableRecord.parse bytelength)
  P.call ⟨(·.beamDirection), fun o v => { o with beamDirection := v }⟩ EulerAngles.parseInto
  let azimuthBeamwidth ← P.read read_float32
  P.set fun o => { o with azimuthBeamwidth := azimuthBeamwidth }
  let elevationBeamwidth ← P.read read_float32
  P.set fun o => { o with elevationBeamwidth := elevationBeamwidth }
  let referenceSystem ← P.read read_uint8
  P.set fun o => { o with referenceSystem := referenceSystem }
  let padding1 ← P.read read_uint8
  P.set fun o => { o with padding1 := padding1 }
  let padding2 ← P.read read_uint16
  P.set fun o => { o with padding2 := padding2 }
  let ez ← P.read read_float32
  P.set fun o => { o with ez := ez }
  let ex ← P.read read_float32
  P.set fun o => { o with ex := ex }
  let phase ← P.read read_float32
  P.set fun o => { o with phase := phase }
  let padding3 ← P.read read_uint32
  P.set fun o => { o with padding3 := padding3 }
  return ()

/-- `BasicHaveQuickMP.parse`, /repo/opendis/record/radio/__init__.py:389-400, statement by statement. -/
def BasicHaveQuickMP.parseInto (bytelength : Option Int) : P BasicHaveQuickMP Unit := do
  P.read (VariableRecord.parse bytelength)
  P.call ⟨(·.net_id), fun o v => { o with net_id := v }⟩ NetId.parseInto
  let mwod_index ← P.read read_uint16
  P.set fun o => { o with mwod_index := mwod_index }
  let reserved16 ← P.read read_uint16
  P.set fun o => { o with reserved16 := reserved16 }
  let reserved8_1 ← P.read read_uint8
  P.set fun o => { o with reserved8_1 := reserved8_1 }
  let reserved8_2 ← P.read read_uint8
  P.set fun o => { o with reserved8_2 := reserved8_2 }
  let time_of_day ← P.read read_uint32
  P.set fun o => { o with time_of_day := time_of_day }
  let padding ← P.read read_uint32
  P.set fun o => { o with padding := padding }
  return ()

/-- `CCTTSincgarsMP.parse`, /repo/opendis/record/radio/__init__.py:437-449, statement by statement. -/
def CCTTSincgarsMP.parseInto (bytelength : Option Int) : P CCTTSincgarsMP Unit := do
  P.read (VariableRecord.parse bytelength)
  let fh_net_id ← P.read read_uint16
  P.set fun o => { o with fh_net_id := fh_net_id }
  let hop_set_id ← P.read read_uint16
  P.set fun o => { o with hop_set_id := hop_set_id }
  let lockout_set_id ← P.read read_uint16
  P.set fun o => { o with lockout_set_id := lockout_set_id }
  let start_of_message ← P.read read_uint8
  P.set fun o => { o with start_of_message := start_of_message }
  let clear_channel ← P.read read_uint8
  P.set fun o => { o with clear_channel := clear_channel }
  let fh_sync_time_offset ← P.read read_uint32
  P.set fun o => { o with fh_sync_time_offset := fh_sync_time_offset }
  let transmission_security_key ← P.read read_uint16
  P.set fun o => { o with transmission_security_key := transmission_security_key }
  let padding ← P.read read_uint16
  P.set fun o => { o with padding := padding }
  return ()

/-- `DEFireFlags.parse`, /repo/opendis/record/warfare/enums.py:34-38, statement by statement. -/
def DEFireFlags.parseInto : P DEFireFlags Unit := do
  let record_bitfield ← P.read (Bitfield.parse DEFireFlags.struct)
  P.set fun o => { o with weaponOn := record_bitfield.getD 0 0 }
  P.set fun o => { o with stateUpdateFlag := record_bitfield.getD 1 0 }
  P.set fun o => { o with padding := record_bitfield.getD 2 0 }
  return ()

/-- `DirectedEnergyTargetEnergyDeposition.parse`, /repo/opendis/record/warfare/__init__.py:276-280, statement by statement. -/
def DirectedEnergyTargetEnergyDeposition.parseInto : P DirectedEnergyTargetEnergyDeposition Unit := do
  P.call ⟨(·.targetEntityID), fun o v => { o with targetEntityID := v }⟩ EntityIdentifier.parseInto
  let padding ← P.read read_uint16
  P.set fun o => { o with padding := padding }
  let peakIrradiance ← P.read read_float32
  P.set fun o => { o with peakIrradiance := peakIrradiance }
  return ()

/-- The statements on the antenna pattern in `TransmitterPdu.parse`, /repo/opendis/dis7.py:5097-5109: the
new pattern is assigned before it is parsed. -/
def TransmitterPdu.parseAntennaPatternInto (antennaPatternType antennaPatternLength : Int) :
    P TransmitterPdu Unit :=
  if antennaPatternLength > 0 then
    if antennaPatternType = 1 then do
      P.set fun o => { o with antennaPattern := some (.beam BeamAntennaPattern.init) }
      P.call ⟨fun _ => BeamAntennaPattern.init, fun o v => { o with antennaPattern := some (.beam v) }⟩
        (BeamAntennaPattern.parseInto (some 40))
    else do
      P.set fun o => { o with antennaPattern := some (.unknown {}) }
      let p ← P.read (UnknownAntennaPattern.parse {} antennaPatternLength)
      P.set fun o => { o with antennaPattern := some (.unknown p) }
  else P.set fun o => { o with antennaPattern := none }

/-- `TransmitterPdu.parse`, /repo/opendis/dis7.py:5052-5116, statement by statement. -/
def TransmitterPdu.parseInto : P TransmitterPdu Unit := do
  P.call ⟨(·.toRadioCommunicationsFamilyPdu), fun o v => { o with toRadioCommunicationsFamilyPdu := v }⟩ RadioCommunicationsFamilyPdu.parseInto
  P.call ⟨(·.radioReferenceID), fun o v => { o with radioReferenceID := v }⟩ EntityIdentifier.parseInto
  let radioNumber ← P.read read_uint16
  P.set fun o => { o with radioNumber := radioNumber }
  P.call ⟨(·.radioEntityType), fun o v => { o with radioEntityType := v }⟩ EntityType.parseInto
  let transmitState ← P.read read_uint8
  P.set fun o => { o with transmitState := transmitState }
  let inputSource ← P.read read_uint8
  P.set fun o => { o with inputSource := inputSource }
  let variableTransmitterParameterCount ← P.read read_uint16
  P.call ⟨(·.antennaLocation), fun o v => { o with antennaLocation := v }⟩ WorldCoordinates.parseInto
  P.call ⟨(·.relativeAntennaLocation), fun o v => { o with relativeAntennaLocation := v }⟩ Vector3Float.parseInto
  let antennaPatternType ← P.read read_uint16
  P.set fun o => { o with antennaPatternType := antennaPatternType }
  let antennaPatternLength ← P.read read_uint16
  let frequency ← P.read read_uint64
  P.set fun o => { o with frequency := frequency }
  let transmitFrequencyBandwidth ← P.read read_float32
  P.set fun o => { o with transmitFrequencyBandwidth := transmitFrequencyBandwidth }
  let power ← P.read read_float32
  P.set fun o => { o with power := power }
  P.call ⟨(·.modulationType), fun o v => { o with modulationType := v }⟩ ModulationType.parseInto
  let cryptoSystem ← P.read read_uint16
  P.set fun o => { o with cryptoSystem := cryptoSystem }
  let cryptoKeyId ← P.read read_uint16
  P.set fun o => { o with cryptoKeyId := cryptoKeyId }
  let modulationParametersLength ← P.read read_uint8
  let padding2 ← P.read read_uint16
  P.set fun o => { o with padding2 := padding2 }
  let padding3 ← P.read read_uint8
  P.set fun o => { o with padding3 := padding3 }
  let modulationType ← P.get (·.modulationType)
  let modulationParameters ← P.read (TransmitterPdu.parseModulationParameters modulationType modulationParametersLength)
  P.set fun o => { o with modulationParameters := modulationParameters }
  let antennaPatternType ← P.get (·.antennaPatternType)
  TransmitterPdu.parseAntennaPatternInto antennaPatternType antennaPatternLength
  P.appendReads variableTransmitterParameterCount.toNat (parseStandardVariableRecord .variableTransmitterParameters) ⟨(·.variableTransmitterParameters), fun o v => { o with variableTransmitterParameters := v }⟩
  return ()

/-- `DirectedEnergyFirePdu.parse`, /repo/opendis/dis7.py:6381-6403, statement by statement. -/
def DirectedEnergyFirePdu.parseInto : P DirectedEnergyFirePdu Unit := do
  P.call ⟨(·.toWarfareFamilyPdu), fun o v => { o with toWarfareFamilyPdu := v }⟩ WarfareFamilyPdu.parseInto
  P.call ⟨(·.munitionType), fun o v => { o with munitionType := v }⟩ EntityType.parseInto
  P.call ⟨(·.shotStartTime), fun o v => { o with shotStartTime := v }⟩ ClockTime.parseInto
  let commulativeShotTime ← P.read read_float32
  P.set fun o => { o with commulativeShotTime := some commulativeShotTime }
  P.call ⟨(·.apertureEmitterLocation), fun o v => { o with apertureEmitterLocation := v }⟩ Vector3Float.parseInto
  let apertureDiameter ← P.read read_float32
  P.set fun o => { o with apertureDiameter := apertureDiameter }
  let wavelength ← P.read read_float32
  P.set fun o => { o with wavelength := wavelength }
  let padding1 ← P.read read_uint32
  P.set fun o => { o with padding1 := padding1 }
  let pulseRepetitionFrequency ← P.read read_float32
  P.set fun o => { o with pulseRepetitionFrequency := pulseRepetitionFrequency }
  let pulseWidth ← P.read read_float32
  P.set fun o => { o with pulseWidth := pulseWidth }
  P.call ⟨(·.flags), fun o v => { o with flags := v }⟩ DEFireFlags.parseInto
  let pulseShape ← P.read read_uint8
  P.set fun o => { o with pulseShape := pulseShape }
  let padding2 ← P.read read_uint8
  P.set fun o => { o with padding2 := padding2 }
  let padding3 ← P.read read_uint32
  P.set fun o => { o with padding3 := padding3 }
  let padding4 ← P.read read_uint16
  P.set fun o => { o with padding4 := padding4 }
  let numberOfDERecords ← P.read read_uint16
  P.appendReads numberOfDERecords.toNat (parseStandardVariableRecord .damageDescription) ⟨(·.dERecords), fun o v => { o with dERecords := v }⟩
  return ()

/-- `EntityDamageStatusPdu.parse`, /repo/opendis/dis7.py:6666-6677, statement by statement. -/
def EntityDamageStatusPdu.parseInto : P EntityDamageStatusPdu Unit := do
  P.call ⟨(·.toWarfareFamilyPdu), fun o v => { o with toWarfareFamilyPdu := v }⟩ WarfareFamilyPdu.parseInto
  P.call ⟨(·.damagedEntityID), fun o v => { o with damagedEntityID := v }⟩ EntityIdentifier.parseInto
  let padding1 ← P.read read_uint16
  P.set fun o => { o with padding1 := padding1 }
  let padding2 ← P.read read_uint16
  P.set fun o => { o with padding2 := padding2 }
  let damageDescriptionCount ← P.read read_uint16
  P.appendReads damageDescriptionCount.toNat (parseStandardVariableRecord .damageDescription) ⟨(·.damageDescriptions), fun o v => { o with damageDescriptions := v }⟩
  return ()

/-- `IntercomControlPdu.parse`, /repo/opendis/dis7.py:6939-6954, statement by statement. -/
def IntercomControlPdu.parseInto : P IntercomControlPdu Unit := do
  P.call ⟨(·.toRadioCommunicationsFamilyPdu), fun o v => { o with toRadioCommunicationsFamilyPdu := v }⟩ RadioCommunicationsFamilyPdu.parseInto
  let controlType ← P.read read_unsigned_byte
  P.set fun o => { o with controlType := controlType }
  let communicationsChannelType ← P.read read_unsigned_byte
  P.set fun o => { o with communicationsChannelType := communicationsChannelType }
  P.call ⟨(·.sourceEntityID), fun o v => { o with sourceEntityID := v }⟩ EntityIdentifier.parseInto
  let sourceCommunicationsDeviceID ← P.read read_unsigned_byte
  P.set fun o => { o with sourceCommunicationsDeviceID := sourceCommunicationsDeviceID }
  let sourceLineID ← P.read read_unsigned_byte
  P.set fun o => { o with sourceLineID := sourceLineID }
  let transmitPriority ← P.read read_unsigned_byte
  P.set fun o => { o with transmitPriority := transmitPriority }
  let transmitLineState ← P.read read_unsigned_byte
  P.set fun o => { o with transmitLineState := transmitLineState }
  let command ← P.read read_unsigned_byte
  P.set fun o => { o with command := command }
  P.call ⟨(·.masterEntityID), fun o v => { o with masterEntityID := v }⟩ EntityIdentifier.parseInto
  let masterCommunicationsDeviceID ← P.read read_unsigned_short
  P.set fun o => { o with masterCommunicationsDeviceID := masterCommunicationsDeviceID }
  let _intercomParametersLength ← P.read read_unsigned_int
  let intercomParameters ← P.read (R.throw .typeError)
  P.set fun o => { o with intercomParameters := intercomParameters }
  return ()

end Dis
