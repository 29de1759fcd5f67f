import Verif.Model.Special
import Verif.Spec.LayoutWarfare

/-!
# Wire layouts of the classes of `Verif.Model.Special`

Generated by `tools/genlayout.py`.
-/

set_option linter.unusedVariables false

namespace Dis

/-- Layout (/repo/opendis/dis7.py:5050, :6379, :6664). -/
def SVRecord.wire : SVRecord → List Slot
  | .highFidelityHAVEQUICKRadio r => r.wire
  | .directedEnergyPrecisionAimpoint r => r.wire
  | .directedEnergyAreaAimpoint r => r.wire
  | .directedEnergyDamage r => r.wire
  | .unknown r => r.wire

/-- Layout (/repo/opendis/record/radio/__init__.py:67, :323-324, :346-347, :379, :426). -/
def ModulationParametersRecord.wire : ModulationParametersRecord → List Slot
  | .unknown r => r.wire
  | .generic => []
  | .simpleIntercom => []
  | .haveQuick r => r.wire
  | .sincgars r => r.wire

/-- Layout (/repo/opendis/record/radio/__init__.py:89, :137). -/
def AntennaPatternRecord.wire : AntennaPatternRecord → List Slot
  | .unknown r => r.wire
  | .beam r => r.wire

/-- The list in this attribute if it holds one (/repo/opendis/dis7.py:6894, :6913). -/
def IntercomParametersValue.list? : IntercomParametersValue → Option (List IntercomCommunicationsParameters)
  | .records l => some l
  | _ => Option.none

/-- Layout of `TransmitterPdu` on the wire (/repo/opendis/dis7.py:5016-5050). -/
def TransmitterPdu.wire (o : TransmitterPdu) : List Slot :=
  [RadioCommunicationsFamilyPdu.wire o.toRadioCommunicationsFamilyPdu,
   EntityIdentifier.wire o.radioReferenceID,
   [.u16 o.radioNumber],
   EntityType.wire o.radioEntityType,
   [.u8 o.transmitState],
   [.u8 o.inputSource],
   [.u16 o.variableTransmitterParameters.length],
   WorldCoordinates.wire o.antennaLocation,
   Vector3Float.wire o.relativeAntennaLocation,
   [.u16 o.antennaPatternType],
   [.u16 o.antennaPatternLength],
   [.u64 o.frequency],
   [.f32 o.transmitFrequencyBandwidth],
   [.f32 o.power],
   ModulationType.wire o.modulationType,
   [.u16 o.cryptoSystem],
   [.u16 o.cryptoKeyId],
   [.u8 o.modulationParametersLength],
   [.u16 o.padding2],
   [.u8 o.padding3],
   (o.modulationParameters.map ModulationParametersRecord.wire).getD [],
   (o.antennaPattern.map AntennaPatternRecord.wire).getD [],
   o.variableTransmitterParameters.flatMap SVRecord.wire].flatten

/-- Layout of `DirectedEnergyFirePdu` on the wire (/repo/opendis/dis7.py:6361-6379). -/
def DirectedEnergyFirePdu.wire (o : DirectedEnergyFirePdu) : List Slot :=
  [WarfareFamilyPdu.wire o.toWarfareFamilyPdu,
   EntityType.wire o.munitionType,
   ClockTime.wire o.shotStartTime,
   [Slot.orFail .attributeError Slot.f32 o.commulativeShotTime],
   Vector3Float.wire o.apertureEmitterLocation,
   [.f32 o.apertureDiameter],
   [.f32 o.wavelength],
   [.u32 o.padding1],
   [.f32 o.pulseRepetitionFrequency],
   [.f32 o.pulseWidth],
   DEFireFlags.wire o.flags,
   [.u8 o.pulseShape],
   [.u8 o.padding2],
   [.u32 o.padding3],
   [.u16 o.padding4],
   [.u16 o.dERecords.length],
   o.dERecords.flatMap SVRecord.wire].flatten

/-- Layout of `EntityDamageStatusPdu` on the wire (/repo/opendis/dis7.py:6657-6664). -/
def EntityDamageStatusPdu.wire (o : EntityDamageStatusPdu) : List Slot :=
  [WarfareFamilyPdu.wire o.toWarfareFamilyPdu,
   EntityIdentifier.wire o.damagedEntityID,
   [.u16 o.padding1],
   [.u16 o.padding2],
   [.u16 o.damageDescriptions.length],
   o.damageDescriptions.flatMap SVRecord.wire].flatten

/-- Layout of `IntercomControlPdu` on the wire (/repo/opendis/dis7.py:6922-6937). -/
def IntercomControlPdu.wire (o : IntercomControlPdu) : List Slot :=
  [RadioCommunicationsFamilyPdu.wire o.toRadioCommunicationsFamilyPdu,
   [.u8 o.controlType],
   [.u8 o.communicationsChannelType],
   EntityIdentifier.wire o.sourceEntityID,
   [.u8 o.sourceCommunicationsDeviceID],
   [.u8 o.sourceLineID],
   [.u8 o.transmitPriority],
   [.u8 o.transmitLineState],
   [.u8 o.command],
   EntityIdentifier.wire o.masterEntityID,
   [.u16 o.masterCommunicationsDeviceID],
   [Slot.orFail .typeError (fun l => .u32 l.length) o.intercomParameters.list?],
   Slot.orFailAll .typeError (·.flatMap IntercomCommunicationsParameters.wire) o.intercomParameters.list?].flatten

end Dis
