import Verif.Spec.Variable
import Verif.Spec.Pdus5
import Verif.Model.Special

/-! # Specification of the variable records and of the PDUs that carry them -/

namespace Dis

/-! ## DirectedEnergyAreaAimpoint -/

/-- The part of the record after type and length, in the layout its `parse` expects
(/repo/opendis/record/warfare/__init__.py:154-169). -/
def DirectedEnergyAreaAimpoint.body (o : DirectedEnergyAreaAimpoint) : W Unit := do
  write_uint16 o.padding
  write_uint16 o.beamAntennaPatterns.length
  write_uint16 o.directedEnergyTargetEnergyDepositions.length
  W.forEach o.beamAntennaPatterns BeamAntennaPattern.serialize
  W.forEach o.directedEnergyTargetEnergyDepositions DirectedEnergyTargetEnergyDeposition.serialize

/-- The object `s` after it parsed what `o` serialized
(/repo/opendis/record/warfare/__init__.py:139-169). -/
def DirectedEnergyAreaAimpoint.after (s o : DirectedEnergyAreaAimpoint) :
    DirectedEnergyAreaAimpoint :=
  { padding := o.padding,
    beamAntennaPatterns := s.beamAntennaPatterns ++
      o.beamAntennaPatterns.map (BeamAntennaPattern.after BeamAntennaPattern.init),
    directedEnergyTargetEnergyDepositions := s.directedEnergyTargetEnergyDepositions ++
      o.directedEnergyTargetEnergyDepositions.map
        (DirectedEnergyTargetEnergyDeposition.after DirectedEnergyTargetEnergyDeposition.init) }

/-- Every field of `o` fits its wire type (/repo/opendis/record/warfare/__init__.py:139-152). -/
def DirectedEnergyAreaAimpoint.WireOk (o : DirectedEnergyAreaAimpoint) : Prop :=
  U16 o.padding ∧ U16 o.beamAntennaPatterns.length ∧
  U16 o.directedEnergyTargetEnergyDepositions.length ∧
  (∀ x ∈ o.beamAntennaPatterns, BeamAntennaPattern.WireOk x) ∧
  ∀ x ∈ o.directedEnergyTargetEnergyDepositions, DirectedEnergyTargetEnergyDeposition.WireOk x

/-- Form of a fresh object after parsing (/repo/opendis/record/warfare/__init__.py:154-169). -/
def DirectedEnergyAreaAimpoint.Canon (o : DirectedEnergyAreaAimpoint) : Prop :=
  (∀ x ∈ o.beamAntennaPatterns, BeamAntennaPattern.Canon x) ∧
  ∀ x ∈ o.directedEnergyTargetEnergyDepositions, DirectedEnergyTargetEnergyDeposition.Canon x

/-- No single-precision field is a NaN (/repo/opendis/record/warfare/__init__.py:154-169). -/
def DirectedEnergyAreaAimpoint.NoNaN (o : DirectedEnergyAreaAimpoint) : Prop :=
  (∀ x ∈ o.beamAntennaPatterns, BeamAntennaPattern.NoNaN x) ∧
  ∀ x ∈ o.directedEnergyTargetEnergyDepositions, DirectedEnergyTargetEnergyDeposition.NoNaN x

/-- Number of bytes that follow type and length (/repo/opendis/record/warfare/__init__.py:146-152). -/
def DirectedEnergyAreaAimpoint.wireSize (o : DirectedEnergyAreaAimpoint) : Nat :=
  6 + 40 * o.beamAntennaPatterns.length + 12 * o.directedEnergyTargetEnergyDepositions.length

/-! ## Standard variable records -/

/-- The type number of a record (/repo/opendis/record/radio/__init__.py:454,
/repo/opendis/record/warfare/__init__.py:49, :114, :179, /repo/opendis/record/__init__.py:75). -/
def SVRecord.recordType : SVRecord → Int
  | .highFidelityHAVEQUICKRadio _ => 3000
  | .directedEnergyPrecisionAimpoint _ => 4000
  | .directedEnergyAreaAimpoint _ => 4001
  | .directedEnergyDamage _ => 4500
  | .unknown r => r.recordType

/-- The record as `parseStandardVariableRecord` (/repo/opendis/dis7.py:49-68) and IEEE 1278.1 lay it
out: 32-bit type, 16-bit length, contents. (This is not what `serialize` writes.) -/
def SVRecord.conforming (recordLength : Int) (r : SVRecord) : W Unit := do
  write_uint32 r.recordType
  write_uint16 recordLength
  match r with
  | .highFidelityHAVEQUICKRadio r => r.body
  | .directedEnergyPrecisionAimpoint r => r.body
  | .directedEnergyAreaAimpoint r => r.body
  | .directedEnergyDamage r => r.body
  | .unknown r => write_bytes r.data

/-- The record a reader should get back: singles rounded, bit fields reduced to their widths
(/repo/opendis/dis7.py:49-68). -/
def SVRecord.after : SVRecord → SVRecord
  | .highFidelityHAVEQUICKRadio r =>
    .highFidelityHAVEQUICKRadio (HighFidelityHAVEQUICKRadio.after HighFidelityHAVEQUICKRadio.init r)
  | .directedEnergyPrecisionAimpoint r => .directedEnergyPrecisionAimpoint
      (DirectedEnergyPrecisionAimpoint.after DirectedEnergyPrecisionAimpoint.init r)
  | .directedEnergyAreaAimpoint r => .directedEnergyAreaAimpoint
      (DirectedEnergyAreaAimpoint.after DirectedEnergyAreaAimpoint.init r)
  | .directedEnergyDamage r =>
    .directedEnergyDamage (DirectedEnergyDamage.after DirectedEnergyDamage.init r)
  | .unknown r => .unknown r

/-- The classes whose records a list of the given element type may hold
(/repo/opendis/record/radio/__init__.py:452, /repo/opendis/record/warfare/__init__.py:43, :107,
:172). -/
def SVRecord.Admissible : SVBase → SVRecord → Prop
  | .standardVariable, _ => True
  | .variableTransmitterParameters, .highFidelityHAVEQUICKRadio _ => True
  | .variableTransmitterParameters, _ => False
  | .damageDescription, .directedEnergyPrecisionAimpoint _ => True
  | .damageDescription, .directedEnergyAreaAimpoint _ => True
  | .damageDescription, .directedEnergyDamage _ => True
  | .damageDescription, _ => False

/-- Nothing else is registered under the type number of the record: a placeholder record has none of
the four registered type numbers and its length field matches its data
(/repo/opendis/record/__init__.py:33-38, :64-69). -/
def SVRecord.Proper (recordLength : Int) : SVRecord → Prop
  | .unknown r => r.recordType ≠ 3000 ∧ r.recordType ≠ 4000 ∧ r.recordType ≠ 4001 ∧
      r.recordType ≠ 4500 ∧ recordLength = 6 + r.data.length
  | _ => True

/-- `serialize` of the record succeeds
(/repo/opendis/record/radio/__init__.py:481-493, /repo/opendis/record/warfare/__init__.py:75-88,
:139-152, :210-226, /repo/opendis/record/__init__.py:58-62). -/
def SVRecord.WireOk : SVRecord → Prop
  | .highFidelityHAVEQUICKRadio r => r.WireOk
  | .directedEnergyPrecisionAimpoint r => r.WireOk
  | .directedEnergyAreaAimpoint r => r.WireOk ∧
      8 + 40 * r.beamAntennaPatterns.length
        + 12 * r.directedEnergyTargetEnergyDepositions.length ≤ 65535
  | .directedEnergyDamage r => r.WireOk
  | .unknown r => U32 r.recordType ∧ 6 + r.data.length ≤ 65535

/-- Number of bytes `serialize` writes: a 32-bit type and a 32-bit length, again type and 16-bit
length (not for the radio record), and the contents
(/repo/opendis/record/base.py:79-88, /repo/opendis/record/radio/__init__.py:481-493,
/repo/opendis/record/warfare/__init__.py:75-88, :139-152, :210-226,
/repo/opendis/record/__init__.py:58-62). -/
def SVRecord.wireSize : SVRecord → Nat
  | .highFidelityHAVEQUICKRadio _ => 42
  | .directedEnergyPrecisionAimpoint _ => 104
  | .directedEnergyAreaAimpoint r => 14 + r.wireSize
  | .directedEnergyDamage _ => 48
  | .unknown r => 14 + r.data.length

/-- The padding with which the contents of the record begin; a placeholder record has none
(/repo/opendis/record/radio/__init__.py:466, /repo/opendis/record/warfare/__init__.py:61, :119,
:193). -/
def SVRecord.firstPadding : SVRecord → Option Int
  | .highFidelityHAVEQUICKRadio r => some r.padding1
  | .directedEnergyPrecisionAimpoint r => some r.padding
  | .directedEnergyAreaAimpoint r => some r.padding
  | .directedEnergyDamage r => some r.padding
  | .unknown _ => none

/-- The number the record writes as its length
(/repo/opendis/record/radio/__init__.py:478-479, /repo/opendis/record/warfare/__init__.py:72-73,
:131-137, :207-208, /repo/opendis/record/__init__.py:55-56). -/
def SVRecord.announced : SVRecord → Int
  | .highFidelityHAVEQUICKRadio _ => 40
  | .directedEnergyPrecisionAimpoint _ => 96
  | .directedEnergyAreaAimpoint r => 8 + 40 * r.beamAntennaPatterns.length
      + 12 * r.directedEnergyTargetEnergyDepositions.length
  | .directedEnergyDamage _ => 40
  | .unknown r => 6 + r.data.length

/-! ## TransmitterPdu -/

/-- What an unsigned 64-bit number becomes when its bytes are read as a signed one
(/repo/opendis/stream.py:103-104, :184). -/
def signed64 (v : Int) : Int := if v < 9223372036854775808 then v else v - 18446744073709551616

/-- The modulation parameters can be told from the radio system and length fields alone
(/repo/opendis/dis7.py:5076-5095). -/
def TransmitterPdu.ModulationDecodable (o : TransmitterPdu) : Prop :=
  match o.modulationParameters with
  | none => True
  | some (.haveQuick _) => o.modulationType.radioSystem = 2 ∨ o.modulationType.radioSystem = 3 ∨
      o.modulationType.radioSystem = 4
  | some (.sincgars _) => o.modulationType.radioSystem = 6
  | some (.unknown r) => r.data ≠ [] ∧ o.modulationType.radioSystem ≠ 1 ∧
      o.modulationType.radioSystem ≠ 2 ∧ o.modulationType.radioSystem ≠ 3 ∧
      o.modulationType.radioSystem ≠ 4 ∧ o.modulationType.radioSystem ≠ 6
  | some .generic => False
  | some .simpleIntercom => False

/-- The antenna pattern is absent or a beam announced as such (/repo/opendis/dis7.py:5097-5109). -/
def TransmitterPdu.AntennaDecodable (o : TransmitterPdu) : Prop :=
  match o.antennaPattern with
  | none => True
  | some (.beam _) => o.antennaPatternType = 1
  | some (.unknown _) => False

/-- The PDUs the parser can read back (/repo/opendis/dis7.py:5052-5116). -/
def TransmitterPdu.Decodable (o : TransmitterPdu) : Prop :=
  o.ModulationDecodable ∧ o.AntennaDecodable ∧ o.variableTransmitterParameters = []

/-- Modulation parameters after parsing (/repo/opendis/dis7.py:5076-5095). -/
def ModulationParametersRecord.after : ModulationParametersRecord → ModulationParametersRecord
  | .haveQuick r => .haveQuick (BasicHaveQuickMP.after BasicHaveQuickMP.init r)
  | .sincgars r => .sincgars (CCTTSincgarsMP.after CCTTSincgarsMP.init r)
  | r => r

/-- Antenna pattern after parsing (/repo/opendis/dis7.py:5097-5109). -/
def AntennaPatternRecord.after : AntennaPatternRecord → AntennaPatternRecord
  | .beam r => .beam (BeamAntennaPattern.after BeamAntennaPattern.init r)
  | r => r

/-- The object `s` after it parsed what `o` serialized (/repo/opendis/dis7.py:5016-5116). -/
def TransmitterPdu.after (s o : TransmitterPdu) : TransmitterPdu :=
  { s with
    toRadioCommunicationsFamilyPdu := RadioCommunicationsFamilyPdu.after
      s.toRadioCommunicationsFamilyPdu o.toRadioCommunicationsFamilyPdu
    radioReferenceID := EntityIdentifier.after s.radioReferenceID o.radioReferenceID
    radioNumber := o.radioNumber
    radioEntityType := EntityType.after s.radioEntityType o.radioEntityType
    transmitState := o.transmitState
    inputSource := o.inputSource
    antennaLocation := WorldCoordinates.after s.antennaLocation o.antennaLocation
    relativeAntennaLocation := Vector3Float.after s.relativeAntennaLocation o.relativeAntennaLocation
    antennaPatternType := o.antennaPatternType
    frequency := signed64 o.frequency
    transmitFrequencyBandwidth := quant o.transmitFrequencyBandwidth
    power := quant o.power
    modulationType := ModulationType.after s.modulationType o.modulationType
    cryptoSystem := o.cryptoSystem
    cryptoKeyId := o.cryptoKeyId
    padding2 := o.padding2
    padding3 := o.padding3
    modulationParameters := o.modulationParameters.map ModulationParametersRecord.after
    antennaPattern := o.antennaPattern.map AntennaPatternRecord.after }

/-- `serialize` of the record succeeds (/repo/opendis/record/radio/__init__.py:67-69, :379-387,
:426-435). -/
def ModulationParametersRecord.WireOk : ModulationParametersRecord → Prop
  | .haveQuick r => r.WireOk
  | .sincgars r => r.WireOk
  | _ => True

/-- `serialize` of the record succeeds (/repo/opendis/record/radio/__init__.py:89-91, :137-148). -/
def AntennaPatternRecord.WireOk : AntennaPatternRecord → Prop
  | .beam r => r.WireOk
  | .unknown _ => True

/-- Bytes of the record on the wire (/repo/opendis/record/radio/__init__.py:67-69, :379-387,
:426-435). -/
def ModulationParametersRecord.wireSize : ModulationParametersRecord → Nat
  | .haveQuick _ => 16
  | .sincgars _ => 16
  | .unknown r => r.data.length
  | _ => 0

/-- Bytes of the record on the wire (/repo/opendis/record/radio/__init__.py:89-91, :137-148). -/
def AntennaPatternRecord.wireSize : AntennaPatternRecord → Nat
  | .beam _ => 40
  | .unknown r => r.data.length

/-- Every field of `o` fits its wire type (/repo/opendis/dis7.py:5016-5050). -/
def TransmitterPdu.WireOk (o : TransmitterPdu) : Prop :=
  RadioCommunicationsFamilyPdu.WireOk o.toRadioCommunicationsFamilyPdu ∧
  EntityIdentifier.WireOk o.radioReferenceID ∧
  U16 o.radioNumber ∧
  EntityType.WireOk o.radioEntityType ∧
  U8 o.transmitState ∧
  U8 o.inputSource ∧
  U16 o.variableTransmitterParameters.length ∧
  WorldCoordinates.WireOk o.antennaLocation ∧
  Vector3Float.WireOk o.relativeAntennaLocation ∧
  U16 o.antennaPatternType ∧
  (∀ p, o.antennaPattern = some p → p.wireSize ≤ 65535) ∧
  U64 o.frequency ∧
  F32Fits o.transmitFrequencyBandwidth ∧
  F32Fits o.power ∧
  ModulationType.WireOk o.modulationType ∧
  U16 o.cryptoSystem ∧
  U16 o.cryptoKeyId ∧
  (∀ p, o.modulationParameters = some p → p.wireSize ≤ 255) ∧
  U16 o.padding2 ∧
  U8 o.padding3 ∧
  (∀ p, o.modulationParameters = some p → p.WireOk) ∧
  (∀ p, o.antennaPattern = some p → p.WireOk) ∧
  ∀ x ∈ o.variableTransmitterParameters, SVRecord.WireOk x

/-- Modulation parameters that come back unchanged (/repo/opendis/dis7.py:5076-5095). -/
def ModulationParametersRecord.Canon : ModulationParametersRecord → Prop
  | .haveQuick r => r.Canon
  | .sincgars r => r.Canon
  | _ => True

/-- Antenna patterns that come back unchanged (/repo/opendis/dis7.py:5097-5109). -/
def AntennaPatternRecord.Canon : AntennaPatternRecord → Prop
  | .beam r => r.Canon
  | .unknown _ => True

/-- `o` is in the form a fresh `TransmitterPdu` takes after parsing (/repo/opendis/dis7.py:5052-5116):
singles exact, bit fields within their widths, attributes that are not on the wire at their initial
value, frequency below 2^63. -/
def TransmitterPdu.Canon (o : TransmitterPdu) : Prop :=
  RadioCommunicationsFamilyPdu.Canon o.toRadioCommunicationsFamilyPdu ∧
  Vector3Float.Canon o.relativeAntennaLocation ∧
  o.frequency < 9223372036854775808 ∧
  quant o.transmitFrequencyBandwidth = o.transmitFrequencyBandwidth ∧
  quant o.power = o.power ∧
  ModulationType.Canon o.modulationType ∧
  (∀ p, o.modulationParameters = some p → p.Canon) ∧
  (∀ p, o.antennaPattern = some p → p.Canon) ∧
  o.variableTransmitterParameters = []

/-- Number of bytes `serialize` writes (/repo/opendis/dis7.py:5016-5050). -/
def TransmitterPdu.wireSize (o : TransmitterPdu) : Nat :=
  104 + (o.modulationParameters.map ModulationParametersRecord.wireSize).getD 0
    + (o.antennaPattern.map AntennaPatternRecord.wireSize).getD 0
    + (o.variableTransmitterParameters.map SVRecord.wireSize).sum

/-! ## DirectedEnergyFirePdu -/

/-- No records, which cannot be read back (/repo/opendis/dis7.py:6399-6403). -/
def DirectedEnergyFirePdu.Decodable (o : DirectedEnergyFirePdu) : Prop := o.dERecords = []

/-- The object `s` after it parsed what `o` serialized (/repo/opendis/dis7.py:6361-6403); the time is
kept in the attribute with the misspelled name. -/
def DirectedEnergyFirePdu.after (s o : DirectedEnergyFirePdu) : DirectedEnergyFirePdu :=
  { s with
    toWarfareFamilyPdu := WarfareFamilyPdu.after s.toWarfareFamilyPdu o.toWarfareFamilyPdu
    munitionType := EntityType.after s.munitionType o.munitionType
    shotStartTime := ClockTime.after s.shotStartTime o.shotStartTime
    commulativeShotTime := some (quant (o.commulativeShotTime.getD 0x0000000000000000))
    apertureEmitterLocation := Vector3Float.after s.apertureEmitterLocation o.apertureEmitterLocation
    apertureDiameter := quant o.apertureDiameter
    wavelength := quant o.wavelength
    padding1 := o.padding1
    pulseRepetitionFrequency := quant o.pulseRepetitionFrequency
    pulseWidth := quant o.pulseWidth
    flags := DEFireFlags.after s.flags o.flags
    pulseShape := o.pulseShape
    padding2 := o.padding2
    padding3 := o.padding3
    padding4 := o.padding4 }

/-- Every field of `o` fits its wire type, and the attribute `commulativeShotTime`, which the
constructor does not set, exists (/repo/opendis/dis7.py:6361-6379). -/
def DirectedEnergyFirePdu.WireOk (o : DirectedEnergyFirePdu) : Prop :=
  WarfareFamilyPdu.WireOk o.toWarfareFamilyPdu ∧
  EntityType.WireOk o.munitionType ∧
  ClockTime.WireOk o.shotStartTime ∧
  (∃ v, o.commulativeShotTime = some v ∧ F32Fits v) ∧
  Vector3Float.WireOk o.apertureEmitterLocation ∧
  F32Fits o.apertureDiameter ∧
  F32Fits o.wavelength ∧
  U32 o.padding1 ∧
  F32Fits o.pulseRepetitionFrequency ∧
  F32Fits o.pulseWidth ∧
  DEFireFlags.WireOk o.flags ∧
  U8 o.pulseShape ∧
  U8 o.padding2 ∧
  U32 o.padding3 ∧
  U16 o.padding4 ∧
  U16 o.dERecords.length ∧
  ∀ x ∈ o.dERecords, SVRecord.WireOk x

/-- `o` is in the form a fresh object takes after parsing (/repo/opendis/dis7.py:6381-6403). -/
def DirectedEnergyFirePdu.Canon (o : DirectedEnergyFirePdu) : Prop :=
  WarfareFamilyPdu.Canon o.toWarfareFamilyPdu ∧
  (∃ v, o.commulativeShotTime = some v ∧ quant v = v) ∧
  o.cumulativeShotTime = 0x0000000000000000 ∧
  Vector3Float.Canon o.apertureEmitterLocation ∧
  quant o.apertureDiameter = o.apertureDiameter ∧
  quant o.wavelength = o.wavelength ∧
  quant o.pulseRepetitionFrequency = o.pulseRepetitionFrequency ∧
  quant o.pulseWidth = o.pulseWidth ∧
  DEFireFlags.Canon o.flags ∧
  o.dERecords = []

/-- No single-precision field is a NaN (/repo/opendis/dis7.py:6381-6403). -/
def DirectedEnergyFirePdu.NoNaN (o : DirectedEnergyFirePdu) : Prop :=
  (∀ v, o.commulativeShotTime = some v → ¬ v.isNaN) ∧
  Vector3Float.NoNaN o.apertureEmitterLocation ∧
  ¬ o.apertureDiameter.isNaN ∧
  ¬ o.wavelength.isNaN ∧
  ¬ o.pulseRepetitionFrequency.isNaN ∧
  ¬ o.pulseWidth.isNaN

/-- The parts that are written differently from how they are read are absent
(/repo/opendis/dis7.py:6361-6403, /repo/opendis/record/warfare/enums.py:28-38). -/
def DirectedEnergyFirePdu.Live (o : DirectedEnergyFirePdu) : Prop :=
  DEFireFlags.Live o.flags ∧ o.dERecords = []

/-- Number of bytes `serialize` writes (/repo/opendis/dis7.py:6361-6379). -/
def DirectedEnergyFirePdu.wireSize (o : DirectedEnergyFirePdu) : Nat :=
  88 + (o.dERecords.map SVRecord.wireSize).sum

/-! ## EntityDamageStatusPdu -/

/-- No records, which cannot be read back (/repo/opendis/dis7.py:6673-6677). -/
def EntityDamageStatusPdu.Decodable (o : EntityDamageStatusPdu) : Prop := o.damageDescriptions = []

/-- The object `s` after it parsed what `o` serialized (/repo/opendis/dis7.py:6657-6677). -/
def EntityDamageStatusPdu.after (s o : EntityDamageStatusPdu) : EntityDamageStatusPdu :=
  { s with
    toWarfareFamilyPdu := WarfareFamilyPdu.after s.toWarfareFamilyPdu o.toWarfareFamilyPdu
    damagedEntityID := EntityIdentifier.after s.damagedEntityID o.damagedEntityID
    padding1 := o.padding1
    padding2 := o.padding2 }

/-- Every field of `o` fits its wire type (/repo/opendis/dis7.py:6657-6664). -/
def EntityDamageStatusPdu.WireOk (o : EntityDamageStatusPdu) : Prop :=
  WarfareFamilyPdu.WireOk o.toWarfareFamilyPdu ∧
  EntityIdentifier.WireOk o.damagedEntityID ∧
  U16 o.padding1 ∧
  U16 o.padding2 ∧
  U16 o.damageDescriptions.length ∧
  ∀ x ∈ o.damageDescriptions, SVRecord.WireOk x

/-- Form of a fresh object after parsing (/repo/opendis/dis7.py:6666-6677). -/
def EntityDamageStatusPdu.Canon (o : EntityDamageStatusPdu) : Prop :=
  WarfareFamilyPdu.Canon o.toWarfareFamilyPdu ∧ o.damageDescriptions = []

/-- No single-precision fields (/repo/opendis/dis7.py:6666-6677). -/
def EntityDamageStatusPdu.NoNaN (_o : EntityDamageStatusPdu) : Prop := True

/-- No records (/repo/opendis/dis7.py:6657-6677). -/
def EntityDamageStatusPdu.Live (o : EntityDamageStatusPdu) : Prop := o.damageDescriptions = []

/-- Number of bytes `serialize` writes (/repo/opendis/dis7.py:6657-6664). -/
def EntityDamageStatusPdu.wireSize (o : EntityDamageStatusPdu) : Nat :=
  36 + (o.damageDescriptions.map SVRecord.wireSize).sum

/-! ## IntercomControlPdu -/

/-- Every field of `o` fits its wire type and `intercomParameters` is a list
(/repo/opendis/dis7.py:6922-6937). -/
def IntercomControlPdu.WireOk (o : IntercomControlPdu) : Prop :=
  RadioCommunicationsFamilyPdu.WireOk o.toRadioCommunicationsFamilyPdu ∧
  U8 o.controlType ∧
  U8 o.communicationsChannelType ∧
  EntityIdentifier.WireOk o.sourceEntityID ∧
  U8 o.sourceCommunicationsDeviceID ∧
  U8 o.sourceLineID ∧
  U8 o.transmitPriority ∧
  U8 o.transmitLineState ∧
  U8 o.command ∧
  EntityIdentifier.WireOk o.masterEntityID ∧
  U16 o.masterCommunicationsDeviceID ∧
  ∃ l, o.intercomParameters = .records l ∧ U32 l.length ∧
    ∀ x ∈ l, IntercomCommunicationsParameters.WireOk x

end Dis
