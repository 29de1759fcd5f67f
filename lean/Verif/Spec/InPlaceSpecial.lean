import Verif.Spec.InPlace
import Verif.Model.Special

/-!
# What a parse leaves alone: classes modelled by hand

Generated by `tools/geninplace.py`.
-/

set_option linter.unusedVariables false
set_option linter.unusedSimpArgs false

namespace Dis

/-- `x` is the `NetId` object `o` after calls of `parse` (/repo/opendis/record/radio/__init__.py:305-310):
attributes that are not read stay, lists only grow. -/
abbrev NetId.Since (_o _x : NetId) : Prop :=
  True

/-- `x` is the `SpreadSpectrum` object `o` after calls of `parse` (/repo/opendis/record/radio/__init__.py:211-215):
attributes that are not read stay, lists only grow. -/
abbrev SpreadSpectrum.Since (o x : SpreadSpectrum) : Prop :=
  x.padding = o.padding

/-- `x` is the `ModulationType` object `o` after calls of `parse` (/repo/opendis/record/radio/__init__.py:249-253):
attributes that are not read stay, lists only grow. -/
abbrev ModulationType.Since (o x : ModulationType) : Prop :=
  SpreadSpectrum.Since o.spreadSpectrum x.spreadSpectrum

/-- `x` is the `BeamAntennaPattern` object `o` after calls of `parse` (/repo/opendis/record/radio/__init__.py:150-164):
attributes that are not read stay, lists only grow. -/
abbrev BeamAntennaPattern.Since (o x : BeamAntennaPattern) : Prop :=
  EulerAngles.Since o.beamDirection x.beamDirection

/-- `x` is the `BasicHaveQuickMP` object `o` after calls of `parse` (/repo/opendis/record/radio/__init__.py:389-400):
attributes that are not read stay, lists only grow. -/
abbrev BasicHaveQuickMP.Since (o x : BasicHaveQuickMP) : Prop :=
  NetId.Since o.net_id x.net_id

/-- `x` is the `CCTTSincgarsMP` object `o` after calls of `parse` (/repo/opendis/record/radio/__init__.py:437-449):
attributes that are not read stay, lists only grow. -/
abbrev CCTTSincgarsMP.Since (_o _x : CCTTSincgarsMP) : Prop :=
  True

/-- `x` is the `DEFireFlags` object `o` after calls of `parse` (/repo/opendis/record/warfare/enums.py:34-38):
attributes that are not read stay, lists only grow. -/
abbrev DEFireFlags.Since (_o _x : DEFireFlags) : Prop :=
  True

/-- `x` is the `DirectedEnergyTargetEnergyDeposition` object `o` after calls of `parse` (/repo/opendis/record/warfare/__init__.py:276-280):
attributes that are not read stay, lists only grow. -/
abbrev DirectedEnergyTargetEnergyDeposition.Since (o x : DirectedEnergyTargetEnergyDeposition) : Prop :=
  EntityIdentifier.Since o.targetEntityID x.targetEntityID

/-- `x` is the `TransmitterPdu` object `o` after calls of `parse` (/repo/opendis/dis7.py:5052-5116):
attributes that are not read stay, lists only grow. -/
abbrev TransmitterPdu.Since (o x : TransmitterPdu) : Prop :=

    RadioCommunicationsFamilyPdu.Since o.toRadioCommunicationsFamilyPdu x.toRadioCommunicationsFamilyPdu ∧
    EntityIdentifier.Since o.radioReferenceID x.radioReferenceID ∧
    EntityType.Since o.radioEntityType x.radioEntityType ∧
    WorldCoordinates.Since o.antennaLocation x.antennaLocation ∧
    Vector3Float.Since o.relativeAntennaLocation x.relativeAntennaLocation ∧
    ModulationType.Since o.modulationType x.modulationType ∧
    o.variableTransmitterParameters <+: x.variableTransmitterParameters

/-- The `TransmitterPdu` object `x` with its lists cut back to their lengths in `o`
(/repo/opendis/dis7.py:5052-5116 appends to them). -/
def TransmitterPdu.trim (o x : TransmitterPdu) : TransmitterPdu :=
  { x with
    variableTransmitterParameters := x.variableTransmitterParameters.take o.variableTransmitterParameters.length }

/-- `x` is the `DirectedEnergyFirePdu` object `o` after calls of `parse` (/repo/opendis/dis7.py:6381-6403):
attributes that are not read stay, lists only grow. -/
abbrev DirectedEnergyFirePdu.Since (o x : DirectedEnergyFirePdu) : Prop :=
  WarfareFamilyPdu.Since o.toWarfareFamilyPdu x.toWarfareFamilyPdu ∧
    EntityType.Since o.munitionType x.munitionType ∧
    ClockTime.Since o.shotStartTime x.shotStartTime ∧ x.cumulativeShotTime = o.cumulativeShotTime ∧
    Vector3Float.Since o.apertureEmitterLocation x.apertureEmitterLocation ∧
    DEFireFlags.Since o.flags x.flags ∧ o.dERecords <+: x.dERecords

/-- The `DirectedEnergyFirePdu` object `x` with its lists cut back to their lengths in `o`
(/repo/opendis/dis7.py:6381-6403 appends to them). -/
def DirectedEnergyFirePdu.trim (o x : DirectedEnergyFirePdu) : DirectedEnergyFirePdu :=
  { x with dERecords := x.dERecords.take o.dERecords.length }

/-- `x` is the `EntityDamageStatusPdu` object `o` after calls of `parse` (/repo/opendis/dis7.py:6666-6677):
attributes that are not read stay, lists only grow. -/
abbrev EntityDamageStatusPdu.Since (o x : EntityDamageStatusPdu) : Prop :=
  WarfareFamilyPdu.Since o.toWarfareFamilyPdu x.toWarfareFamilyPdu ∧
    EntityIdentifier.Since o.damagedEntityID x.damagedEntityID ∧
    o.damageDescriptions <+: x.damageDescriptions

/-- The `EntityDamageStatusPdu` object `x` with its lists cut back to their lengths in `o`
(/repo/opendis/dis7.py:6666-6677 appends to them). -/
def EntityDamageStatusPdu.trim (o x : EntityDamageStatusPdu) : EntityDamageStatusPdu :=
  { x with damageDescriptions := x.damageDescriptions.take o.damageDescriptions.length }

/-- `x` is the `IntercomControlPdu` object `o` after calls of `parse` (/repo/opendis/dis7.py:6939-6954):
attributes that are not read stay, lists only grow. -/
abbrev IntercomControlPdu.Since (o x : IntercomControlPdu) : Prop :=

    RadioCommunicationsFamilyPdu.Since o.toRadioCommunicationsFamilyPdu x.toRadioCommunicationsFamilyPdu ∧
    EntityIdentifier.Since o.sourceEntityID x.sourceEntityID ∧
    EntityIdentifier.Since o.masterEntityID x.masterEntityID

end Dis
