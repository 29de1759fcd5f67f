import Verif.Model.Pdus5
import Verif.Model.Warfare

/-!
# PDUs of `opendis/dis7.py` with variable records

Hand-written transliteration of `TransmitterPdu`, `DirectedEnergyFirePdu`, `EntityDamageStatusPdu`
and `IntercomControlPdu`.
-/

namespace Dis

/-! ## TransmitterPdu -/

/-- Values of `TransmitterPdu.modulationParameters` other than `None`: instances of the subclasses of
`ModulationParametersRecord`, /repo/opendis/record/radio/__init__.py:58-77 and :313-449. -/
inductive ModulationParametersRecord where
  | unknown (r : UnknownRadio)
  | generic
  | simpleIntercom
  | haveQuick (r : BasicHaveQuickMP)
  | sincgars (r : CCTTSincgarsMP)
  deriving DecidableEq

/-- Dynamic dispatch of `marshalledSize()`, /repo/opendis/record/radio/__init__.py:64, :320, :343,
:376, :423. -/
def ModulationParametersRecord.marshalledSize : ModulationParametersRecord → Int
  | .unknown r => r.marshalledSize
  | .generic => 0
  | .simpleIntercom => 0
  | .haveQuick r => r.marshalledSize
  | .sincgars r => r.marshalledSize

/-- Dynamic dispatch of `serialize`, /repo/opendis/record/radio/__init__.py:67, :323-324, :346-347,
:379, :426. -/
def ModulationParametersRecord.serialize : ModulationParametersRecord → W Unit
  | .unknown r => r.serialize
  | .generic => pure ()
  | .simpleIntercom => pure ()
  | .haveQuick r => r.serialize
  | .sincgars r => r.serialize

/-- Values of `TransmitterPdu.antennaPattern` other than `None`: instances of the subclasses of
`AntennaPatternRecord`, /repo/opendis/record/radio/__init__.py:80-164. -/
inductive AntennaPatternRecord where
  | unknown (r : UnknownAntennaPattern)
  | beam (r : BeamAntennaPattern)
  deriving DecidableEq

/-- Dynamic dispatch of `marshalledSize()`, /repo/opendis/record/radio/__init__.py:86, :134. -/
def AntennaPatternRecord.marshalledSize : AntennaPatternRecord → Int
  | .unknown r => r.marshalledSize
  | .beam r => r.marshalledSize

/-- Dynamic dispatch of `serialize`, /repo/opendis/record/radio/__init__.py:89, :137. -/
def AntennaPatternRecord.serialize : AntennaPatternRecord → W Unit
  | .unknown r => r.serialize
  | .beam r => r.serialize

/-- Attributes of `TransmitterPdu`, /repo/opendis/dis7.py:4943-4996. `radioReferenceID` is an
`EntityIdentifier` (an `ObjectIdentifier` is not modelled here). -/
structure TransmitterPdu extends RadioCommunicationsFamilyPdu where
  radioReferenceID : EntityIdentifier := EntityIdentifier.init
  radioNumber : Int := 0
  radioEntityType : EntityType := EntityType.init
  transmitState : Int := 0
  inputSource : Int := 0
  antennaLocation : WorldCoordinates := WorldCoordinates.init
  relativeAntennaLocation : Vector3Float := Vector3Float.init
  antennaPatternType : Int := 0
  frequency : Int := 0
  transmitFrequencyBandwidth : F64 := 0x0000000000000000
  power : F64 := 0x0000000000000000
  modulationType : ModulationType := ModulationType.init
  cryptoSystem : Int := 0
  cryptoKeyId : Int := 0
  padding2 : Int := 0
  padding3 : Int := 0
  modulationParameters : Option ModulationParametersRecord := none
  antennaPattern : Option AntennaPatternRecord := none
  variableTransmitterParameters : List SVRecord := []
  pduType := 25
  deriving DecidableEq

/-- `TransmitterPdu(...)`, /repo/opendis/dis7.py:4952-4996. -/
def TransmitterPdu.init (radioReferenceID : Option EntityIdentifier := none) (radioNumber : Int := 0)
    (radioEntityType : Option EntityType := none) (transmitState inputSource : Int := 0)
    (antennaLocation : Option WorldCoordinates := none)
    (relativeAntennaLocation : Option Vector3Float := none)
    (antennaPatternType frequency : Int := 0)
    (transmitFrequencyBandwidth power : F64 := 0x0000000000000000)
    (modulationType : Option ModulationType := none) (cryptoSystem cryptoKeyId : Int := 0)
    (modulationParameters : Option ModulationParametersRecord := none)
    (antennaPattern : Option AntennaPatternRecord := none)
    (variableTransmitterParameters : List SVRecord := []) : TransmitterPdu :=
  { radioReferenceID := radioReferenceID.getD EntityIdentifier.init, radioNumber,
    radioEntityType := radioEntityType.getD EntityType.init, transmitState, inputSource,
    antennaLocation := antennaLocation.getD WorldCoordinates.init,
    relativeAntennaLocation := relativeAntennaLocation.getD Vector3Float.init,
    antennaPatternType, frequency, transmitFrequencyBandwidth, power,
    modulationType := modulationType.getD ModulationType.init, cryptoSystem, cryptoKeyId,
    padding2 := 0, padding3 := 0, modulationParameters, antennaPattern,
    variableTransmitterParameters }

/-- `TransmitterPdu.antennaPatternLength`, /repo/opendis/dis7.py:4998-5003 (an object is always
true). -/
def TransmitterPdu.antennaPatternLength (self : TransmitterPdu) : Int :=
  match self.antennaPattern with
  | some p => p.marshalledSize
  | none => 0

/-- `TransmitterPdu.modulationParametersLength`, /repo/opendis/dis7.py:5005-5010. -/
def TransmitterPdu.modulationParametersLength (self : TransmitterPdu) : Int :=
  match self.modulationParameters with
  | some p => p.marshalledSize
  | none => 0

/-- `if self.x: self.x.serialize(outputStream)`, /repo/opendis/dis7.py:5041-5046. -/
def W.whenSome {α : Type} (o : Option α) (k : α → W Unit) : W Unit :=
  match o with
  | some x => k x
  | none => pure ()

/-- `TransmitterPdu.serialize`, /repo/opendis/dis7.py:5016-5050. -/
def TransmitterPdu.serialize (self : TransmitterPdu) : W Unit := do
  RadioCommunicationsFamilyPdu.serialize self.toRadioCommunicationsFamilyPdu
  EntityIdentifier.serialize self.radioReferenceID
  write_uint16 self.radioNumber
  EntityType.serialize self.radioEntityType
  write_uint8 self.transmitState
  write_uint8 self.inputSource
  write_uint16 self.variableTransmitterParameters.length
  WorldCoordinates.serialize self.antennaLocation
  Vector3Float.serialize self.relativeAntennaLocation
  write_uint16 self.antennaPatternType
  write_uint16 self.antennaPatternLength
  write_uint64 self.frequency
  write_float32 self.transmitFrequencyBandwidth
  write_float32 self.power
  ModulationType.serialize self.modulationType
  write_uint16 self.cryptoSystem
  write_uint16 self.cryptoKeyId
  write_uint8 self.modulationParametersLength
  write_uint16 self.padding2
  write_uint8 self.padding3
  W.whenSome self.modulationParameters ModulationParametersRecord.serialize
  W.whenSome self.antennaPattern AntennaPatternRecord.serialize
  W.forEach self.variableTransmitterParameters SVRecord.serialize

/-- The branch on `radioSystem` in `TransmitterPdu.parse`, /repo/opendis/dis7.py:5076-5095: the new
value of `modulationParameters`. -/
def TransmitterPdu.parseModulationParameters (modulationType : ModulationType)
    (modulationParametersLength : Int) : R (Option ModulationParametersRecord) :=
  if modulationParametersLength > 0 then
    if modulationType.radioSystem = 1 then
      if modulationType.majorModulation = 0 then pure (some .simpleIntercom)
      else pure (some .generic)
    else if modulationType.radioSystem = 2 ∨ modulationType.radioSystem = 3
        ∨ modulationType.radioSystem = 4 then do
      let radio ← BasicHaveQuickMP.parse BasicHaveQuickMP.init
      return some (.haveQuick radio)
    else if modulationType.radioSystem = 6 then do
      let radio ← CCTTSincgarsMP.parse CCTTSincgarsMP.init
      return some (.sincgars radio)
    else do
      let radio ← UnknownRadio.parse {} (some modulationParametersLength)
      return some (.unknown radio)
  else pure none

/-- The branch on `antennaPatternType` in `TransmitterPdu.parse`, /repo/opendis/dis7.py:5097-5109:
the new value of `antennaPattern`. -/
def TransmitterPdu.parseAntennaPattern (antennaPatternType antennaPatternLength : Int) :
    R (Option AntennaPatternRecord) :=
  if antennaPatternLength > 0 then
    if antennaPatternType = 1 then do
      let p ← BeamAntennaPattern.parse BeamAntennaPattern.init
      return some (.beam p)
    else do
      let p ← UnknownAntennaPattern.parse {} antennaPatternLength
      return some (.unknown p)
  else pure none

/-- `TransmitterPdu.parse`, /repo/opendis/dis7.py:5052-5116. -/
def TransmitterPdu.parse (self : TransmitterPdu) : R TransmitterPdu := do
  let base ← RadioCommunicationsFamilyPdu.parse self.toRadioCommunicationsFamilyPdu
  let radioReferenceID ← EntityIdentifier.parse self.radioReferenceID
  let radioNumber ← read_uint16
  let radioEntityType ← EntityType.parse self.radioEntityType
  let transmitState ← read_uint8
  let inputSource ← read_uint8
  let variableTransmitterParameterCount ← read_uint16
  let antennaLocation ← WorldCoordinates.parse self.antennaLocation
  let relativeAntennaLocation ← Vector3Float.parse self.relativeAntennaLocation
  let antennaPatternType ← read_uint16
  let antennaPatternLength ← read_uint16
  let frequency ← read_uint64
  let transmitFrequencyBandwidth ← read_float32
  let power ← read_float32
  let modulationType ← ModulationType.parse self.modulationType
  let cryptoSystem ← read_uint16
  let cryptoKeyId ← read_uint16
  let modulationParametersLength ← read_uint8
  let padding2 ← read_uint16
  let padding3 ← read_uint8
  let modulationParameters ←
    TransmitterPdu.parseModulationParameters modulationType modulationParametersLength
  let antennaPattern ← TransmitterPdu.parseAntennaPattern antennaPatternType antennaPatternLength
  let vtps ← R.times variableTransmitterParameterCount.toNat
    (parseStandardVariableRecord .variableTransmitterParameters)
  return { self with
    toRadioCommunicationsFamilyPdu := base
    radioReferenceID, radioNumber, radioEntityType, transmitState, inputSource, antennaLocation
    relativeAntennaLocation, antennaPatternType, frequency, transmitFrequencyBandwidth, power
    modulationType, cryptoSystem, cryptoKeyId, padding2, padding3, modulationParameters
    antennaPattern
    variableTransmitterParameters := self.variableTransmitterParameters ++ vtps }

/-! ## DirectedEnergyFirePdu -/

/-- Attributes of `DirectedEnergyFirePdu`, /repo/opendis/dis7.py:6318-6355. `commulativeShotTime` is
the differently spelled attribute used by `serialize` and `parse` (lines 6365, 6385), which the
constructor does not create. -/
structure DirectedEnergyFirePdu extends WarfareFamilyPdu where
  munitionType : EntityType := EntityType.init
  shotStartTime : ClockTime := ClockTime.init
  cumulativeShotTime : F64 := 0x0000000000000000
  commulativeShotTime : Option F64 := none
  apertureEmitterLocation : Vector3Float := Vector3Float.init
  apertureDiameter : F64 := 0x0000000000000000
  wavelength : F64 := 0x0000000000000000
  padding1 : Int := 0
  pulseRepetitionFrequency : F64 := 0x0000000000000000
  pulseWidth : F64 := 0x0000000000000000
  flags : DEFireFlags := DEFireFlags.init
  pulseShape : Int := 0
  padding2 : Int := 0
  padding3 : Int := 0
  padding4 : Int := 0
  dERecords : List SVRecord := []
  pduType := 68
  deriving DecidableEq

/-- `DirectedEnergyFirePdu(...)`, /repo/opendis/dis7.py:6326-6355. -/
def DirectedEnergyFirePdu.init (munitionType : Option EntityType := none)
    (shotStartTime : Option ClockTime := none) (cumulativeShotTime : F64 := 0x0000000000000000)
    (apertureEmitterLocation : Option Vector3Float := none)
    (apertureDiameter wavelength pulseRepetitionFrequency pulseWidth : F64 := 0x0000000000000000)
    (flags : Option DEFireFlags := none) (pulseShape : Int := 0) (dERecords : List SVRecord := []) :
    DirectedEnergyFirePdu :=
  { munitionType := munitionType.getD EntityType.init,
    shotStartTime := shotStartTime.getD ClockTime.init, cumulativeShotTime,
    apertureEmitterLocation := apertureEmitterLocation.getD Vector3Float.init, apertureDiameter,
    wavelength, padding1 := 0, pulseRepetitionFrequency, pulseWidth,
    flags := flags.getD DEFireFlags.init, pulseShape, padding2 := 0, padding3 := 0, padding4 := 0,
    dERecords }

/-- `DirectedEnergyFirePdu.serialize`, /repo/opendis/dis7.py:6361-6379. -/
def DirectedEnergyFirePdu.serialize (self : DirectedEnergyFirePdu) : W Unit := do
  WarfareFamilyPdu.serialize self.toWarfareFamilyPdu
  EntityType.serialize self.munitionType
  ClockTime.serialize self.shotStartTime
  W.using (attr self.commulativeShotTime) write_float32
  Vector3Float.serialize self.apertureEmitterLocation
  write_float32 self.apertureDiameter
  write_float32 self.wavelength
  write_uint32 self.padding1
  write_float32 self.pulseRepetitionFrequency
  write_float32 self.pulseWidth
  DEFireFlags.serialize self.flags
  write_uint8 self.pulseShape
  write_uint8 self.padding2
  write_uint32 self.padding3
  write_uint16 self.padding4
  write_uint16 self.dERecords.length
  W.forEach self.dERecords SVRecord.serialize

/-- `DirectedEnergyFirePdu.parse`, /repo/opendis/dis7.py:6381-6403. -/
def DirectedEnergyFirePdu.parse (self : DirectedEnergyFirePdu) : R DirectedEnergyFirePdu := do
  let base ← WarfareFamilyPdu.parse self.toWarfareFamilyPdu
  let munitionType ← EntityType.parse self.munitionType
  let shotStartTime ← ClockTime.parse self.shotStartTime
  let commulativeShotTime ← read_float32
  let apertureEmitterLocation ← Vector3Float.parse self.apertureEmitterLocation
  let apertureDiameter ← read_float32
  let wavelength ← read_float32
  let padding1 ← read_uint32
  let pulseRepetitionFrequency ← read_float32
  let pulseWidth ← read_float32
  let flags ← DEFireFlags.parse self.flags
  let pulseShape ← read_uint8
  let padding2 ← read_uint8
  let padding3 ← read_uint32
  let padding4 ← read_uint16
  let numberOfDERecords ← read_uint16
  let rs ← R.times numberOfDERecords.toNat (parseStandardVariableRecord .damageDescription)
  return { self with
    toWarfareFamilyPdu := base
    munitionType, shotStartTime
    commulativeShotTime := some commulativeShotTime
    apertureEmitterLocation, apertureDiameter, wavelength, padding1, pulseRepetitionFrequency
    pulseWidth, flags, pulseShape, padding2, padding3, padding4
    dERecords := self.dERecords ++ rs }

/-! ## EntityDamageStatusPdu -/

/-- Attributes of `EntityDamageStatusPdu`, /repo/opendis/dis7.py:6635-6651. -/
structure EntityDamageStatusPdu extends WarfareFamilyPdu where
  damagedEntityID : EntityIdentifier := EntityIdentifier.init
  padding1 : Int := 0
  padding2 : Int := 0
  damageDescriptions : List SVRecord := []
  pduType := 69
  deriving DecidableEq

/-- `EntityDamageStatusPdu(...)`, /repo/opendis/dis7.py:6643-6651. -/
def EntityDamageStatusPdu.init (damagedEntityID : Option EntityIdentifier := none)
    (damageDescriptions : List SVRecord := []) : EntityDamageStatusPdu :=
  { damagedEntityID := damagedEntityID.getD EntityIdentifier.init, padding1 := 0, padding2 := 0,
    damageDescriptions }

/-- `EntityDamageStatusPdu.serialize`, /repo/opendis/dis7.py:6657-6664. -/
def EntityDamageStatusPdu.serialize (self : EntityDamageStatusPdu) : W Unit := do
  WarfareFamilyPdu.serialize self.toWarfareFamilyPdu
  EntityIdentifier.serialize self.damagedEntityID
  write_uint16 self.padding1
  write_uint16 self.padding2
  write_uint16 self.damageDescriptions.length
  W.forEach self.damageDescriptions SVRecord.serialize

/-- `EntityDamageStatusPdu.parse`, /repo/opendis/dis7.py:6666-6677. -/
def EntityDamageStatusPdu.parse (self : EntityDamageStatusPdu) : R EntityDamageStatusPdu := do
  let base ← WarfareFamilyPdu.parse self.toWarfareFamilyPdu
  let damagedEntityID ← EntityIdentifier.parse self.damagedEntityID
  let padding1 ← read_uint16
  let padding2 ← read_uint16
  let damageDescriptionCount ← read_uint16
  let rs ← R.times damageDescriptionCount.toNat (parseStandardVariableRecord .damageDescription)
  return { self with
    toWarfareFamilyPdu := base
    damagedEntityID, padding1, padding2
    damageDescriptions := self.damageDescriptions ++ rs }

/-! ## IntercomControlPdu -/

/-- Values of `IntercomControlPdu.intercomParameters`: `None`, a record as the annotation says, or a
list of records as `serialize` expects (/repo/opendis/dis7.py:6894, :6913, :6936). -/
inductive IntercomParametersValue where
  | none
  | record (r : IntercomCommunicationsParameters)
  | records (l : List IntercomCommunicationsParameters)
  deriving DecidableEq

/-- `len(self.intercomParameters)`: `TypeError` unless it is a list, /repo/opendis/dis7.py:6916-6920. -/
def IntercomParametersValue.len : IntercomParametersValue → Except PyErr Int
  | .records l => .ok l.length
  | .none => .error .typeError
  | .record _ => .error .typeError

/-- `for anObj in self.intercomParameters: anObj.serialize(outputStream)`,
/repo/opendis/dis7.py:6936-6937. -/
def IntercomParametersValue.serializeAll : IntercomParametersValue → W Unit
  | .records l => W.forEach l IntercomCommunicationsParameters.serialize
  | .none => W.throw .typeError
  | .record _ => W.throw .typeError

/-- Attributes of `IntercomControlPdu`, /repo/opendis/dis7.py:6873-6914. `sourceEntityID` and
`masterEntityID` are `EntityIdentifier`s (`UnattachedIdentifier` is not modelled here). -/
structure IntercomControlPdu extends RadioCommunicationsFamilyPdu where
  controlType : Int := 0
  communicationsChannelType : Int := 0
  sourceEntityID : EntityIdentifier := EntityIdentifier.init
  sourceCommunicationsDeviceID : Int := 0
  sourceLineID : Int := 0
  transmitPriority : Int := 0
  transmitLineState : Int := 0
  command : Int := 0
  masterEntityID : EntityIdentifier := EntityIdentifier.init
  masterCommunicationsDeviceID : Int := 0
  intercomParameters : IntercomParametersValue := .none
  pduType := 32
  deriving DecidableEq

/-- `IntercomControlPdu(...)`, /repo/opendis/dis7.py:6883-6914. -/
def IntercomControlPdu.init (controlType communicationsChannelType : Int := 0)
    (sourceEntityID : Option EntityIdentifier := none)
    (sourceCommunicationsDeviceID sourceLineID transmitPriority transmitLineState command : Int := 0)
    (masterEntityID : Option EntityIdentifier := none) (masterCommunicationsDeviceID : Int := 0)
    (intercomParameters : IntercomParametersValue := .none) : IntercomControlPdu :=
  { controlType, communicationsChannelType,
    sourceEntityID := sourceEntityID.getD EntityIdentifier.init, sourceCommunicationsDeviceID,
    sourceLineID, transmitPriority, transmitLineState, command,
    masterEntityID := masterEntityID.getD EntityIdentifier.init, masterCommunicationsDeviceID,
    intercomParameters }

/-- `IntercomControlPdu.serialize`, /repo/opendis/dis7.py:6922-6937. -/
def IntercomControlPdu.serialize (self : IntercomControlPdu) : W Unit := do
  RadioCommunicationsFamilyPdu.serialize self.toRadioCommunicationsFamilyPdu
  write_unsigned_byte self.controlType
  write_unsigned_byte self.communicationsChannelType
  EntityIdentifier.serialize self.sourceEntityID
  write_unsigned_byte self.sourceCommunicationsDeviceID
  write_unsigned_byte self.sourceLineID
  write_unsigned_byte self.transmitPriority
  write_unsigned_byte self.transmitLineState
  write_unsigned_byte self.command
  EntityIdentifier.serialize self.masterEntityID
  write_unsigned_short self.masterCommunicationsDeviceID
  W.using self.intercomParameters.len write_unsigned_int
  self.intercomParameters.serializeAll

/-- `IntercomControlPdu.parse`, /repo/opendis/dis7.py:6939-6954: the last statement calls the
instance method `IntercomCommunicationsParameters.parse` on the class with one argument, which
raises `TypeError` (missing argument). -/
def IntercomControlPdu.parse (self : IntercomControlPdu) : R IntercomControlPdu := do
  let base ← RadioCommunicationsFamilyPdu.parse self.toRadioCommunicationsFamilyPdu
  let controlType ← read_unsigned_byte
  let communicationsChannelType ← read_unsigned_byte
  let sourceEntityID ← EntityIdentifier.parse self.sourceEntityID
  let sourceCommunicationsDeviceID ← read_unsigned_byte
  let sourceLineID ← read_unsigned_byte
  let transmitPriority ← read_unsigned_byte
  let transmitLineState ← read_unsigned_byte
  let command ← read_unsigned_byte
  let masterEntityID ← EntityIdentifier.parse self.masterEntityID
  let masterCommunicationsDeviceID ← read_unsigned_short
  let _intercomParametersLength ← read_unsigned_int
  let intercomParameters ← R.throw .typeError
  return { self with
    toRadioCommunicationsFamilyPdu := base
    controlType, communicationsChannelType, sourceEntityID, sourceCommunicationsDeviceID
    sourceLineID, transmitPriority, transmitLineState, command, masterEntityID
    masterCommunicationsDeviceID, intercomParameters }

end Dis
