import Verif.Source.EncodeSpecial
import Verif.Model.Warfare

/-!
# Objects of the model as values: the standard variable records

`recordType` is an attribute of the class and found through the object.
-/

namespace Dis.Src

/-- The attributes of a `HighFidelityHAVEQUICKRadio` object (/repo/opendis/record/radio/__init__.py:452-476). -/
abbrev HighFidelityHAVEQUICKRadio.fields (x : Dis.HighFidelityHAVEQUICKRadio) : List (Ident × Val) :=
   [(I.recordType, .int Dis.HighFidelityHAVEQUICKRadio.recordType),
    (I.padding1, .int x.padding1),
    (I.padding2, .int x.padding2),
    (I.netId, NetId.enc x.netId),
    (I.todTransmitIndicator, .int x.todTransmitIndicator),
    (I.todDelta, .int x.todDelta),
    (I.wod1, .int x.wod1),
    (I.wod2, .int x.wod2),
    (I.wod3, .int x.wod3),
    (I.wod4, .int x.wod4),
    (I.wod5, .int x.wod5),
    (I.wod6, .int x.wod6)]

/-- A `HighFidelityHAVEQUICKRadio` object (/repo/opendis/record/radio/__init__.py:452-476). -/
abbrev HighFidelityHAVEQUICKRadio.enc (x : Dis.HighFidelityHAVEQUICKRadio) : Val := .obj I.HighFidelityHAVEQUICKRadio (HighFidelityHAVEQUICKRadio.fields x)

/-- The attributes of a `DirectedEnergyDamage` object (/repo/opendis/record/warfare/__init__.py:43-70). -/
abbrev DirectedEnergyDamage.fields (x : Dis.DirectedEnergyDamage) : List (Ident × Val) :=
   [(I.padding, .int x.padding),
    (I.recordType, .int Dis.DirectedEnergyDamage.recordType),
    (I.padding2, .int x.padding2),
    (I.damageLocation, Vector3Float.enc x.damageLocation),
    (I.damageDiameter, .float x.damageDiameter),
    (I.temperature, .float x.temperature),
    (I.componentIdentification, .int x.componentIdentification),
    (I.componentDamageStatus, .int x.componentDamageStatus),
    (I.componentVisualDamageStatus, .int x.componentVisualDamageStatus),
    (I.componentVisualSmokeColor, .int x.componentVisualSmokeColor),
    (I.fireEventID, EventIdentifier.enc x.fireEventID)]

/-- A `DirectedEnergyDamage` object (/repo/opendis/record/warfare/__init__.py:43-70). -/
abbrev DirectedEnergyDamage.enc (x : Dis.DirectedEnergyDamage) : Val := .obj I.DirectedEnergyDamage (DirectedEnergyDamage.fields x)

/-- The attributes of a `DirectedEnergyAreaAimpoint` object (/repo/opendis/record/warfare/__init__.py:107-121). -/
abbrev DirectedEnergyAreaAimpoint.fields (x : Dis.DirectedEnergyAreaAimpoint) : List (Ident × Val) :=
   [(I.padding, .int x.padding),
    (I.recordType, .int Dis.DirectedEnergyAreaAimpoint.recordType),
    (I.beamAntennaPatterns, .list (x.beamAntennaPatterns.map BeamAntennaPattern.enc)),
    (I.directedEnergyTargetEnergyDepositions, .list (x.directedEnergyTargetEnergyDepositions.map DirectedEnergyTargetEnergyDeposition.enc))]

/-- A `DirectedEnergyAreaAimpoint` object (/repo/opendis/record/warfare/__init__.py:107-121). -/
abbrev DirectedEnergyAreaAimpoint.enc (x : Dis.DirectedEnergyAreaAimpoint) : Val := .obj I.DirectedEnergyAreaAimpoint (DirectedEnergyAreaAimpoint.fields x)

/-- The attributes of a `DirectedEnergyPrecisionAimpoint` object (/repo/opendis/record/warfare/__init__.py:172-205). -/
abbrev DirectedEnergyPrecisionAimpoint.fields (x : Dis.DirectedEnergyPrecisionAimpoint) : List (Ident × Val) :=
   [(I.padding, .int x.padding),
    (I.targetEntityID, EntityIdentifier.enc x.targetEntityID),
    (I.recordType, .int Dis.DirectedEnergyPrecisionAimpoint.recordType),
    (I.padding2, .int x.padding2),
    (I.targetSpotLocation, WorldCoordinates.enc x.targetSpotLocation),
    (I.targetSpotEntityLocation, Vector3Float.enc x.targetSpotEntityLocation),
    (I.targetSpotVelocity, Vector3Float.enc x.targetSpotVelocity),
    (I.targetSpotAcceleration, Vector3Float.enc x.targetSpotAcceleration),
    (I.targetComponentID, .int x.targetComponentID),
    (I.beamSpotType, .int x.beamSpotType),
    (I.beamSpotCrossSectionSemiMajorAxis, .float x.beamSpotCrossSectionSemiMajorAxis),
    (I.beamSpotCrossSectionSemiMinorAxis, .float x.beamSpotCrossSectionSemiMinorAxis),
    (I.beamSpotCrossSectionOrientationAngle, .float x.beamSpotCrossSectionOrientationAngle),
    (I.peakIrradiance, .float x.peakIrradiance)]

/-- A `DirectedEnergyPrecisionAimpoint` object (/repo/opendis/record/warfare/__init__.py:172-205). -/
abbrev DirectedEnergyPrecisionAimpoint.enc (x : Dis.DirectedEnergyPrecisionAimpoint) : Val := .obj I.DirectedEnergyPrecisionAimpoint (DirectedEnergyPrecisionAimpoint.fields x)

/-- The attributes of a `UnknownStandardVariableRecord` object (/repo/opendis/record/__init__.py:48-53). -/
abbrev UnknownStandardVariableRecord.fields (x : Dis.UnknownStandardVariableRecord) : List (Ident × Val) :=
   [(I.recordType, .int x.recordType),
    (I.data, .bytes x.data)]

/-- A `UnknownStandardVariableRecord` object (/repo/opendis/record/__init__.py:48-53). -/
abbrev UnknownStandardVariableRecord.enc (x : Dis.UnknownStandardVariableRecord) : Val := .obj I.UnknownStandardVariableRecord (UnknownStandardVariableRecord.fields x)

/-- The class of a standard variable record (/repo/opendis/record/__init__.py:33-38, :48). -/
def svClass : SVRecord → Ident
  | .highFidelityHAVEQUICKRadio _ => I.HighFidelityHAVEQUICKRadio
  | .directedEnergyPrecisionAimpoint _ => I.DirectedEnergyPrecisionAimpoint
  | .directedEnergyAreaAimpoint _ => I.DirectedEnergyAreaAimpoint
  | .directedEnergyDamage _ => I.DirectedEnergyDamage
  | .unknown _ => I.UnknownStandardVariableRecord

/-- The attributes of a standard variable record (/repo/opendis/record/__init__.py:33-38, :48). -/
def svFields : SVRecord → List (Ident × Val)
  | .highFidelityHAVEQUICKRadio r => HighFidelityHAVEQUICKRadio.fields r
  | .directedEnergyPrecisionAimpoint r => DirectedEnergyPrecisionAimpoint.fields r
  | .directedEnergyAreaAimpoint r => DirectedEnergyAreaAimpoint.fields r
  | .directedEnergyDamage r => DirectedEnergyDamage.fields r
  | .unknown r => UnknownStandardVariableRecord.fields r

/-- A standard variable record (/repo/opendis/record/__init__.py:33-38, :48). -/
def svEnc (r : SVRecord) : Val := .obj (svClass r) (svFields r)

/-- What `getStandardVariableClass` returns: a class, or the class made in that call with its `recordType`
(/repo/opendis/record/__init__.py:48-85). -/
def classVal : SVClass → Val
  | .highFidelityHAVEQUICKRadio => .cls I.HighFidelityHAVEQUICKRadio
  | .directedEnergyPrecisionAimpoint => .cls I.DirectedEnergyPrecisionAimpoint
  | .directedEnergyAreaAimpoint => .cls I.DirectedEnergyAreaAimpoint
  | .directedEnergyDamage => .cls I.DirectedEnergyDamage
  | .unknown t => .own I.UnknownStandardVariableRecord [(I.recordType, .int t)]

/-- The values of `expectedType` as classes (/repo/opendis/record/__init__.py:42, /repo/opendis/dis7.py:5114, :6401). -/
def baseClass : SVBase → Ident
  | .standardVariable => I.StandardVariableRecord
  | .variableTransmitterParameters => I.VariableTransmitterParametersRecord
  | .damageDescription => I.DamageDescriptionRecord

end Dis.Src
