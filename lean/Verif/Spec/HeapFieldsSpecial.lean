import Verif.Model.Special
import Verif.Spec.HeapFields

/-!
# The attributes of objects by name: records modelled by hand

Generated by `tools/genheap.py`.
-/

set_option linter.unusedVariables false
set_option linter.unusedSimpArgs false

namespace Dis

/-- A float in an attribute that may be absent (/repo/opendis/dis7.py:6365, :6385). -/
def Tree.optFloat : Option F64 → Tree
  | none => .sc .absent
  | some v => .sc (.float v)

/-- An object in an attribute that may be `None` (/repo/opendis/dis7.py:4990-4991). -/
def Tree.noneOr {α : Type} (fs : α → List (String × Tree)) : Option α → Tree
  | none => .sc .none
  | some v => .obj (fs v)

/-- The attributes of a `NetId` object by name (/repo/opendis/record/radio/__init__.py:267-310). -/
def NetId.members (o : NetId) : List (String × Tree) :=
  [("netNumber", .sc (.int o.netNumber)), ("frequencyTable", .sc (.int o.frequencyTable)),
   ("mode", .sc (.int o.mode)), ("padding", .sc (.int o.padding))]

/-- The attributes of a `SpreadSpectrum` object by name (/repo/opendis/record/radio/__init__.py:167-215). -/
def SpreadSpectrum.members (o : SpreadSpectrum) : List (String × Tree) :=
  [("frequencyHopping", .sc (.bool o.frequencyHopping)), ("pseudoNoise", .sc (.bool o.pseudoNoise)),
   ("timeHopping", .sc (.bool o.timeHopping)), ("padding", .sc (.int o.padding))]

/-- The attributes of a `ModulationType` object by name (/repo/opendis/record/radio/__init__.py:218-253). -/
def ModulationType.members (o : ModulationType) : List (String × Tree) :=
  [("spreadSpectrum", .obj (SpreadSpectrum.members o.spreadSpectrum)),
   ("majorModulation", .sc (.int o.majorModulation)), ("detail", .sc (.int o.detail)),
   ("radioSystem", .sc (.int o.radioSystem))]

/-- The attributes of a `BeamAntennaPattern` object by name (/repo/opendis/record/radio/__init__.py:104-164). -/
def BeamAntennaPattern.members (o : BeamAntennaPattern) : List (String × Tree) :=
  [("__class__", .sc (.cls "BeamAntennaPattern")),
   ("beamDirection", .obj (EulerAngles.members o.beamDirection)),
   ("azimuthBeamwidth", .sc (.float o.azimuthBeamwidth)),
   ("elevationBeamwidth", .sc (.float o.elevationBeamwidth)),
   ("referenceSystem", .sc (.int o.referenceSystem)), ("padding1", .sc (.int o.padding1)),
   ("padding2", .sc (.int o.padding2)), ("ez", .sc (.float o.ez)), ("ex", .sc (.float o.ex)),
   ("phase", .sc (.float o.phase)), ("padding3", .sc (.int o.padding3))]

/-- The attributes of a `BasicHaveQuickMP` object by name (/repo/opendis/record/radio/__init__.py:357-400). -/
def BasicHaveQuickMP.members (o : BasicHaveQuickMP) : List (String × Tree) :=
  [("__class__", .sc (.cls "BasicHaveQuickMP")), ("net_id", .obj (NetId.members o.net_id)),
   ("mwod_index", .sc (.int o.mwod_index)), ("reserved16", .sc (.int o.reserved16)),
   ("reserved8_1", .sc (.int o.reserved8_1)), ("reserved8_2", .sc (.int o.reserved8_2)),
   ("time_of_day", .sc (.int o.time_of_day)), ("padding", .sc (.int o.padding))]

/-- The attributes of a `CCTTSincgarsMP` object by name (/repo/opendis/record/radio/__init__.py:403-449). -/
def CCTTSincgarsMP.members (o : CCTTSincgarsMP) : List (String × Tree) :=
  [("__class__", .sc (.cls "CCTTSincgarsMP")), ("fh_net_id", .sc (.int o.fh_net_id)),
   ("hop_set_id", .sc (.int o.hop_set_id)), ("lockout_set_id", .sc (.int o.lockout_set_id)),
   ("start_of_message", .sc (.int o.start_of_message)),
   ("clear_channel", .sc (.int o.clear_channel)),
   ("fh_sync_time_offset", .sc (.int o.fh_sync_time_offset)),
   ("transmission_security_key", .sc (.int o.transmission_security_key)),
   ("padding", .sc (.int o.padding))]

/-- The attributes of a `HighFidelityHAVEQUICKRadio` object by name (/repo/opendis/record/radio/__init__.py:452-510). -/
def HighFidelityHAVEQUICKRadio.members (o : HighFidelityHAVEQUICKRadio) : List (String × Tree) :=
  [("__class__", .sc (.cls "HighFidelityHAVEQUICKRadio")), ("padding1", .sc (.int o.padding1)),
   ("netId", .obj (NetId.members o.netId)),
   ("todTransmitIndicator", .sc (.int o.todTransmitIndicator)), ("padding2", .sc (.int o.padding2)),
   ("todDelta", .sc (.int o.todDelta)), ("wod1", .sc (.int o.wod1)), ("wod2", .sc (.int o.wod2)),
   ("wod3", .sc (.int o.wod3)), ("wod4", .sc (.int o.wod4)), ("wod5", .sc (.int o.wod5)),
   ("wod6", .sc (.int o.wod6))]

/-- The attributes of a `DEFireFlags` object by name (/repo/opendis/record/warfare/enums.py:8-38). -/
def DEFireFlags.members (o : DEFireFlags) : List (String × Tree) :=
  [("weaponOn", .sc (.int o.weaponOn)), ("stateUpdateFlag", .sc (.int o.stateUpdateFlag)),
   ("padding", .sc (.int o.padding))]

/-- The attributes of a `DirectedEnergyTargetEnergyDeposition` object by name (/repo/opendis/record/warfare/__init__.py:251-280). -/
def DirectedEnergyTargetEnergyDeposition.members (o : DirectedEnergyTargetEnergyDeposition) : List (String × Tree) :=
  [("targetEntityID", .obj (EntityIdentifier.members o.targetEntityID)),
   ("padding", .sc (.int o.padding)), ("peakIrradiance", .sc (.float o.peakIrradiance))]

/-- The attributes of a `DirectedEnergyDamage` object by name (/repo/opendis/record/warfare/__init__.py:43-104). -/
def DirectedEnergyDamage.members (o : DirectedEnergyDamage) : List (String × Tree) :=
  [("__class__", .sc (.cls "DirectedEnergyDamage")), ("padding", .sc (.int o.padding)),
   ("damageLocation", .obj (Vector3Float.members o.damageLocation)),
   ("damageDiameter", .sc (.float o.damageDiameter)), ("temperature", .sc (.float o.temperature)),
   ("componentIdentification", .sc (.int o.componentIdentification)),
   ("componentDamageStatus", .sc (.int o.componentDamageStatus)),
   ("componentVisualDamageStatus", .sc (.int o.componentVisualDamageStatus)),
   ("componentVisualSmokeColor", .sc (.int o.componentVisualSmokeColor)),
   ("fireEventID", .obj (EventIdentifier.members o.fireEventID)),
   ("padding2", .sc (.int o.padding2))]

/-- The attributes of a `DirectedEnergyAreaAimpoint` object by name (/repo/opendis/record/warfare/__init__.py:107-169). -/
def DirectedEnergyAreaAimpoint.members (o : DirectedEnergyAreaAimpoint) : List (String × Tree) :=
  [("__class__", .sc (.cls "DirectedEnergyAreaAimpoint")), ("padding", .sc (.int o.padding)),
   ("beamAntennaPatterns", .objs BeamAntennaPattern.members o.beamAntennaPatterns),
   ("directedEnergyTargetEnergyDepositions", .objs DirectedEnergyTargetEnergyDeposition.members o.directedEnergyTargetEnergyDepositions)]

/-- The attributes of a `DirectedEnergyPrecisionAimpoint` object by name (/repo/opendis/record/warfare/__init__.py:172-248). -/
def DirectedEnergyPrecisionAimpoint.members (o : DirectedEnergyPrecisionAimpoint) : List (String × Tree) :=
  [("__class__", .sc (.cls "DirectedEnergyPrecisionAimpoint")), ("padding", .sc (.int o.padding)),
   ("targetSpotLocation", .obj (WorldCoordinates.members o.targetSpotLocation)),
   ("targetSpotEntityLocation", .obj (Vector3Float.members o.targetSpotEntityLocation)),
   ("targetSpotVelocity", .obj (Vector3Float.members o.targetSpotVelocity)),
   ("targetSpotAcceleration", .obj (Vector3Float.members o.targetSpotAcceleration)),
   ("targetEntityID", .obj (EntityIdentifier.members o.targetEntityID)),
   ("targetComponentID", .sc (.int o.targetComponentID)),
   ("beamSpotType", .sc (.int o.beamSpotType)),
   ("beamSpotCrossSectionSemiMajorAxis", .sc (.float o.beamSpotCrossSectionSemiMajorAxis)),
   ("beamSpotCrossSectionSemiMinorAxis", .sc (.float o.beamSpotCrossSectionSemiMinorAxis)),
   ("beamSpotCrossSectionOrientationAngle", .sc (.float o.beamSpotCrossSectionOrientationAngle)),
   ("peakIrradiance", .sc (.float o.peakIrradiance)), ("padding2", .sc (.int o.padding2))]

/-- The attributes of a `UnknownStandardVariableRecord` object by name (/repo/opendis/record/__init__.py:48-69). -/
def UnknownStandardVariableRecord.members (o : UnknownStandardVariableRecord) : List (String × Tree) :=
  [("__class__", .sc (.cls "UnknownStandardVariableRecord")),
   ("recordType", .sc (.int o.recordType)), ("data", .sc (.bytes o.data))]

/-- The attributes of a standard variable record by name, with its class (/repo/opendis/dis7.py:49-68). -/
def SVRecord.members : SVRecord → List (String × Tree)
  | .highFidelityHAVEQUICKRadio r => HighFidelityHAVEQUICKRadio.members r
  | .directedEnergyPrecisionAimpoint r => DirectedEnergyPrecisionAimpoint.members r
  | .directedEnergyAreaAimpoint r => DirectedEnergyAreaAimpoint.members r
  | .directedEnergyDamage r => DirectedEnergyDamage.members r
  | .unknown r => UnknownStandardVariableRecord.members r

/-- The attributes of a `DirectedEnergyFirePdu` object by name (/repo/opendis/dis7.py:6318-6403). -/
def DirectedEnergyFirePdu.members (o : DirectedEnergyFirePdu) : List (String × Tree) :=
  WarfareFamilyPdu.members o.toWarfareFamilyPdu ++
    [("munitionType", .obj (EntityType.members o.munitionType)),
     ("shotStartTime", .obj (ClockTime.members o.shotStartTime)),
     ("cumulativeShotTime", .sc (.float o.cumulativeShotTime)),
     ("commulativeShotTime", .optFloat o.commulativeShotTime),
     ("apertureEmitterLocation", .obj (Vector3Float.members o.apertureEmitterLocation)),
     ("apertureDiameter", .sc (.float o.apertureDiameter)),
     ("wavelength", .sc (.float o.wavelength)), ("padding1", .sc (.int o.padding1)),
     ("pulseRepetitionFrequency", .sc (.float o.pulseRepetitionFrequency)),
     ("pulseWidth", .sc (.float o.pulseWidth)), ("flags", .obj (DEFireFlags.members o.flags)),
     ("pulseShape", .sc (.int o.pulseShape)), ("padding2", .sc (.int o.padding2)),
     ("padding3", .sc (.int o.padding3)), ("padding4", .sc (.int o.padding4)),
     ("dERecords", .objs SVRecord.members o.dERecords)]

/-- The attributes of a `EntityDamageStatusPdu` object by name (/repo/opendis/dis7.py:6635-6677). -/
def EntityDamageStatusPdu.members (o : EntityDamageStatusPdu) : List (String × Tree) :=
  WarfareFamilyPdu.members o.toWarfareFamilyPdu ++
    [("damagedEntityID", .obj (EntityIdentifier.members o.damagedEntityID)),
     ("padding1", .sc (.int o.padding1)), ("padding2", .sc (.int o.padding2)),
     ("damageDescriptions", .objs SVRecord.members o.damageDescriptions)]

/-- The attributes of a `UnknownRadio` object by name (/repo/opendis/record/radio/__init__.py:58-77). -/
def UnknownRadio.members (o : UnknownRadio) : List (String × Tree) :=
  [("__class__", .sc (.cls "UnknownRadio")), ("data", .sc (.bytes o.data))]

/-- The attributes of a `UnknownAntennaPattern` object by name (/repo/opendis/record/radio/__init__.py:80-99). -/
def UnknownAntennaPattern.members (o : UnknownAntennaPattern) : List (String × Tree) :=
  [("__class__", .sc (.cls "UnknownAntennaPattern")), ("data", .sc (.bytes o.data))]

/-- The attributes of modulation parameters by name, with their class
(/repo/opendis/record/radio/__init__.py:58-77, :313-449). -/
def ModulationParametersRecord.members : ModulationParametersRecord → List (String × Tree)
  | .unknown r => UnknownRadio.members r
  | .generic => [("__class__", .sc (.cls "GenericRadio"))]
  | .simpleIntercom => [("__class__", .sc (.cls "SimpleIntercomRadio"))]
  | .haveQuick r => BasicHaveQuickMP.members r
  | .sincgars r => CCTTSincgarsMP.members r

/-- The attributes of an antenna pattern by name, with its class
(/repo/opendis/record/radio/__init__.py:80-164). -/
def AntennaPatternRecord.members : AntennaPatternRecord → List (String × Tree)
  | .unknown r => UnknownAntennaPattern.members r
  | .beam r => BeamAntennaPattern.members r

/-- The attributes of a `TransmitterPdu` object by name (/repo/opendis/dis7.py:4943-5116). -/
def TransmitterPdu.members (o : TransmitterPdu) : List (String × Tree) :=
  RadioCommunicationsFamilyPdu.members o.toRadioCommunicationsFamilyPdu ++
    [("radioReferenceID", .obj (EntityIdentifier.members o.radioReferenceID)),
     ("radioNumber", .sc (.int o.radioNumber)),
     ("radioEntityType", .obj (EntityType.members o.radioEntityType)),
     ("transmitState", .sc (.int o.transmitState)), ("inputSource", .sc (.int o.inputSource)),
     ("antennaLocation", .obj (WorldCoordinates.members o.antennaLocation)),
     ("relativeAntennaLocation", .obj (Vector3Float.members o.relativeAntennaLocation)),
     ("antennaPatternType", .sc (.int o.antennaPatternType)), ("frequency", .sc (.int o.frequency)),
     ("transmitFrequencyBandwidth", .sc (.float o.transmitFrequencyBandwidth)),
     ("power", .sc (.float o.power)),
     ("modulationType", .obj (ModulationType.members o.modulationType)),
     ("cryptoSystem", .sc (.int o.cryptoSystem)), ("cryptoKeyId", .sc (.int o.cryptoKeyId)),
     ("padding2", .sc (.int o.padding2)), ("padding3", .sc (.int o.padding3)),
     ("modulationParameters", .noneOr ModulationParametersRecord.members o.modulationParameters),
     ("antennaPattern", .noneOr AntennaPatternRecord.members o.antennaPattern),
     ("variableTransmitterParameters", .objs SVRecord.members o.variableTransmitterParameters)]

/-- The values of `intercomParameters` (/repo/opendis/dis7.py:6894, :6936). -/
def IntercomParametersValue.tree : IntercomParametersValue → Tree
  | .none => .sc .none
  | .record r => .obj (IntercomCommunicationsParameters.members r)
  | .records l => .objs IntercomCommunicationsParameters.members l

/-- The attributes of a `IntercomControlPdu` object by name (/repo/opendis/dis7.py:6873-6954). -/
def IntercomControlPdu.members (o : IntercomControlPdu) : List (String × Tree) :=
  RadioCommunicationsFamilyPdu.members o.toRadioCommunicationsFamilyPdu ++
    [("controlType", .sc (.int o.controlType)),
     ("communicationsChannelType", .sc (.int o.communicationsChannelType)),
     ("sourceEntityID", .obj (EntityIdentifier.members o.sourceEntityID)),
     ("sourceCommunicationsDeviceID", .sc (.int o.sourceCommunicationsDeviceID)),
     ("sourceLineID", .sc (.int o.sourceLineID)),
     ("transmitPriority", .sc (.int o.transmitPriority)),
     ("transmitLineState", .sc (.int o.transmitLineState)), ("command", .sc (.int o.command)),
     ("masterEntityID", .obj (EntityIdentifier.members o.masterEntityID)),
     ("masterCommunicationsDeviceID", .sc (.int o.masterCommunicationsDeviceID)),
     ("intercomParameters", IntercomParametersValue.tree o.intercomParameters)]

end Dis
