import Verif.Source.EncodeRecords
import Verif.Source.Encode3
import Verif.Model.Special

/-!
# Objects of the model as values: TransmitterPdu and IntercomControlPdu
-/

namespace Dis.Src

/-- The attributes of an `UnknownRadio` object (/repo/opendis/record/radio/__init__.py:61-62). -/
abbrev UnknownRadio.fields (x : Dis.UnknownRadio) : List (Ident × Val) := [(I.data, .bytes x.data)]

/-- An `UnknownRadio` object (/repo/opendis/record/radio/__init__.py:61-62). -/
abbrev UnknownRadio.enc (x : Dis.UnknownRadio) : Val := .obj I.UnknownRadio (UnknownRadio.fields x)

/-- The attributes of an `UnknownAntennaPattern` object (/repo/opendis/record/radio/__init__.py:83-84). -/
abbrev UnknownAntennaPattern.fields (x : Dis.UnknownAntennaPattern) : List (Ident × Val) := [(I.data, .bytes x.data)]

/-- An `UnknownAntennaPattern` object (/repo/opendis/record/radio/__init__.py:83-84). -/
abbrev UnknownAntennaPattern.enc (x : Dis.UnknownAntennaPattern) : Val := .obj I.UnknownAntennaPattern (UnknownAntennaPattern.fields x)

/-- The class of the modulation parameters (/repo/opendis/dis7.py:5076-5093). -/
def modClass : Dis.ModulationParametersRecord → Ident
  | .unknown _ => I.UnknownRadio
  | .generic => I.GenericRadio
  | .simpleIntercom => I.SimpleIntercomRadio
  | .haveQuick _ => I.BasicHaveQuickMP
  | .sincgars _ => I.CCTTSincgarsMP

/-- Their attributes (/repo/opendis/record/radio/__init__.py:58-449). -/
def modFields : Dis.ModulationParametersRecord → List (Ident × Val)
  | .unknown r => UnknownRadio.fields r
  | .generic => []
  | .simpleIntercom => []
  | .haveQuick r => BasicHaveQuickMP.fields r
  | .sincgars r => CCTTSincgarsMP.fields r

/-- The attribute `modulationParameters` (/repo/opendis/dis7.py:4985, :5094-5096). -/
def modVal : Option Dis.ModulationParametersRecord → Val
  | none => .none
  | some r => .obj (modClass r) (modFields r)

/-- The class of the antenna pattern (/repo/opendis/dis7.py:5099-5109). -/
def antClass : Dis.AntennaPatternRecord → Ident
  | .unknown _ => I.UnknownAntennaPattern
  | .beam _ => I.BeamAntennaPattern

/-- Its attributes (/repo/opendis/record/radio/__init__.py:80-132). -/
def antFields : Dis.AntennaPatternRecord → List (Ident × Val)
  | .unknown r => UnknownAntennaPattern.fields r
  | .beam r => BeamAntennaPattern.fields r

/-- The attribute `antennaPattern` (/repo/opendis/dis7.py:4986, :5099-5109). -/
def antVal : Option Dis.AntennaPatternRecord → Val
  | none => .none
  | some r => .obj (antClass r) (antFields r)

/-- The attributes a `TransmitterPdu` object has besides the inherited ones (/repo/opendis/dis7.py:4943-5116). -/
abbrev TransmitterPdu.own (x : Dis.TransmitterPdu) : List (Ident × Val) :=
   [(I.padding2, .int x.padding2),
    (I.padding3, .int x.padding3),
    (I.radioNumber, .int x.radioNumber),
    (I.antennaLocation, WorldCoordinates.enc x.antennaLocation),
    (I.relativeAntennaLocation, Vector3Float.enc x.relativeAntennaLocation),
    (I.frequency, .int x.frequency),
    (I.radioReferenceID, EntityIdentifier.enc x.radioReferenceID),
    (I.radioEntityType, EntityType.enc x.radioEntityType),
    (I.transmitState, .int x.transmitState),
    (I.inputSource, .int x.inputSource),
    (I.antennaPatternType, .int x.antennaPatternType),
    (I.transmitFrequencyBandwidth, .float x.transmitFrequencyBandwidth),
    (I.power, .float x.power),
    (I.modulationType, ModulationType.enc x.modulationType),
    (I.cryptoSystem, .int x.cryptoSystem),
    (I.cryptoKeyId, .int x.cryptoKeyId),
    (I.modulationParameters, modVal x.modulationParameters),
    (I.antennaPattern, antVal x.antennaPattern),
    (I.variableTransmitterParameters, .list (x.variableTransmitterParameters.map svEnc))]

/-- The attributes of a `TransmitterPdu` object (/repo/opendis/dis7.py:4943-5116). -/
abbrev TransmitterPdu.fields (x : Dis.TransmitterPdu) : List (Ident × Val) := RadioCommunicationsFamilyPdu.fields x.toRadioCommunicationsFamilyPdu ++ TransmitterPdu.own x

/-- A `TransmitterPdu` object (/repo/opendis/dis7.py:4943-5116). -/
abbrev TransmitterPdu.enc (x : Dis.TransmitterPdu) : Val := .obj I.TransmitterPdu (TransmitterPdu.fields x)

/-- The attribute `intercomParameters` (/repo/opendis/dis7.py:6913, :6936). -/
def paramsVal : IntercomParametersValue → Val
  | .none => .none
  | .record r => IntercomCommunicationsParameters.enc r
  | .records l => .list (l.map IntercomCommunicationsParameters.enc)

/-- The attributes an `IntercomControlPdu` object has besides the inherited ones (/repo/opendis/dis7.py:6873-6954). -/
abbrev IntercomControlPdu.own (x : Dis.IntercomControlPdu) : List (Ident × Val) :=
   [(I.controlType, .int x.controlType),
    (I.communicationsChannelType, .int x.communicationsChannelType),
    (I.sourceEntityID, EntityIdentifier.enc x.sourceEntityID),
    (I.sourceCommunicationsDeviceID, .int x.sourceCommunicationsDeviceID),
    (I.sourceLineID, .int x.sourceLineID),
    (I.transmitPriority, .int x.transmitPriority),
    (I.transmitLineState, .int x.transmitLineState),
    (I.command, .int x.command),
    (I.masterEntityID, EntityIdentifier.enc x.masterEntityID),
    (I.masterCommunicationsDeviceID, .int x.masterCommunicationsDeviceID),
    (I.intercomParameters, paramsVal x.intercomParameters)]

/-- The attributes of an `IntercomControlPdu` object (/repo/opendis/dis7.py:6873-6954). -/
abbrev IntercomControlPdu.fields (x : Dis.IntercomControlPdu) : List (Ident × Val) := RadioCommunicationsFamilyPdu.fields x.toRadioCommunicationsFamilyPdu ++ IntercomControlPdu.own x

/-- An `IntercomControlPdu` object (/repo/opendis/dis7.py:6873-6954). -/
abbrev IntercomControlPdu.enc (x : Dis.IntercomControlPdu) : Val := .obj I.IntercomControlPdu (IntercomControlPdu.fields x)

end Dis.Src
