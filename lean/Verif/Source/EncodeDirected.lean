import Verif.Source.EncodeRecords
import Verif.Source.EncodeSpecial
import Verif.Source.EncodeHand

/-!
# Objects of the model as values: the PDUs with records of several classes
-/

namespace Dis.Src

/-- The attributes an `EntityDamageStatusPdu` object has besides the inherited ones (/repo/opendis/dis7.py:6635-6677). -/
abbrev EntityDamageStatusPdu.own (x : Dis.EntityDamageStatusPdu) : List (Ident × Val) :=
   [(I.padding1, .int x.padding1),
    (I.padding2, .int x.padding2),
    (I.damagedEntityID, EntityIdentifier.enc x.damagedEntityID),
    (I.damageDescriptions, .list (x.damageDescriptions.map svEnc))]

/-- The attributes of an `EntityDamageStatusPdu` object (/repo/opendis/dis7.py:6635-6677). -/
abbrev EntityDamageStatusPdu.fields (x : Dis.EntityDamageStatusPdu) : List (Ident × Val) := WarfareFamilyPdu.fields x.toWarfareFamilyPdu ++ EntityDamageStatusPdu.own x

/-- An `EntityDamageStatusPdu` object (/repo/opendis/dis7.py:6635-6677). -/
abbrev EntityDamageStatusPdu.enc (x : Dis.EntityDamageStatusPdu) : Val := .obj I.EntityDamageStatusPdu (EntityDamageStatusPdu.fields x)

/-- The attributes a `DirectedEnergyFirePdu` object has besides the inherited ones, while `pulseWidth` and the `weaponOn` of
its flags may be what the constructor gives them (/repo/opendis/dis7.py:6318-6403). -/
abbrev DirectedEnergyFirePdu.ownWith (pulseWidth weaponOn : Val) (x : Dis.DirectedEnergyFirePdu) : List (Ident × Val) :=
   [(I.padding1, .int x.padding1),
    (I.padding2, .int x.padding2),
    (I.padding3, .int x.padding3),
    (I.munitionType, EntityType.enc x.munitionType),
    (I.padding4, .int x.padding4),
    (I.pulseRepetitionFrequency, .float x.pulseRepetitionFrequency),
    (I.pulseWidth, pulseWidth),
    (I.shotStartTime, ClockTime.enc x.shotStartTime),
    (I.cumulativeShotTime, .float x.cumulativeShotTime),
    (I.apertureEmitterLocation, Vector3Float.enc x.apertureEmitterLocation),
    (I.apertureDiameter, .float x.apertureDiameter),
    (I.wavelength, .float x.wavelength),
    (I.flags, .obj I.DEFireFlags (DEFireFlags.fieldsWith weaponOn x.flags)),
    (I.pulseShape, .int x.pulseShape),
    (I.dERecords, .list (x.dERecords.map svEnc))] ++
   optional I.commulativeShotTime .float x.commulativeShotTime

/-- The attributes a `DirectedEnergyFirePdu` object has besides the inherited ones (/repo/opendis/dis7.py:6318-6403). -/
abbrev DirectedEnergyFirePdu.own (x : Dis.DirectedEnergyFirePdu) : List (Ident × Val) :=
  DirectedEnergyFirePdu.ownWith (.float x.pulseWidth) (.int x.flags.weaponOn) x

/-- The attributes of a `DirectedEnergyFirePdu` object (/repo/opendis/dis7.py:6318-6403). -/
abbrev DirectedEnergyFirePdu.fields (x : Dis.DirectedEnergyFirePdu) : List (Ident × Val) := WarfareFamilyPdu.fields x.toWarfareFamilyPdu ++ DirectedEnergyFirePdu.own x

/-- A `DirectedEnergyFirePdu` object (/repo/opendis/dis7.py:6318-6403). -/
abbrev DirectedEnergyFirePdu.enc (x : Dis.DirectedEnergyFirePdu) : Val := .obj I.DirectedEnergyFirePdu (DirectedEnergyFirePdu.fields x)

/-- A `DirectedEnergyFirePdu` object some attributes of which may be what the constructor gives them
(/repo/opendis/dis7.py:6318-6403). -/
structure DirectedEnergyFirePdu.Raw where
  obj : Dis.DirectedEnergyFirePdu
  pulseWidth : Val
  weaponOn : Val

/-- The attributes of such an object (/repo/opendis/dis7.py:6318-6403). -/
abbrev DirectedEnergyFirePdu.rawFields (r : DirectedEnergyFirePdu.Raw) : List (Ident × Val) :=
  WarfareFamilyPdu.fields r.obj.toWarfareFamilyPdu ++ DirectedEnergyFirePdu.ownWith r.pulseWidth r.weaponOn r.obj

/-- What the constructor makes (/repo/opendis/dis7.py:6326-6355). -/
abbrev DirectedEnergyFirePdu.made : DirectedEnergyFirePdu.Raw := ⟨Dis.DirectedEnergyFirePdu.init, .int 0, .bool false⟩

end Dis.Src
