import Verif.Source.EncodeHand
import Verif.Model.InPlaceRecords

/-!
# Objects of the model as values: records with bit fields and records that are parsed with a length

`_struct` and `recordType` are attributes of the class and found through the object.
-/

namespace Dis.Src

/-- The fields of the bit field of `SpreadSpectrum` (/repo/opendis/record/radio/__init__.py:182-187). -/
abbrev SpreadSpectrum.layout : List (Ident × Nat) :=
  [(I.frequencyHopping, 1), (I.pseudoNoise, 1), (I.timeHopping, 1), (I.padding, 13)]

/-- The attributes of a `SpreadSpectrum` object (/repo/opendis/record/radio/__init__.py:182-197). -/
abbrev SpreadSpectrum.fields (x : Dis.SpreadSpectrum) : List (Ident × Val) :=
   [(I.padding, .int x.padding),
    (I.frequencyHopping, .bool x.frequencyHopping),
    (I.pseudoNoise, .bool x.pseudoNoise),
    (I.timeHopping, .bool x.timeHopping),
    (I._struct, .struct SpreadSpectrum.layout)]

/-- A `SpreadSpectrum` object (/repo/opendis/record/radio/__init__.py:182-197). -/
abbrev SpreadSpectrum.enc (x : Dis.SpreadSpectrum) : Val := .obj I.SpreadSpectrum (SpreadSpectrum.fields x)

/-- The attributes of a `ModulationType` object (/repo/opendis/record/radio/__init__.py:224-233). -/
abbrev ModulationType.fields (x : Dis.ModulationType) : List (Ident × Val) :=
   [(I.spreadSpectrum, SpreadSpectrum.enc x.spreadSpectrum),
    (I.majorModulation, .int x.majorModulation),
    (I.detail, .int x.detail),
    (I.radioSystem, .int x.radioSystem)]

/-- A `ModulationType` object (/repo/opendis/record/radio/__init__.py:224-233). -/
abbrev ModulationType.enc (x : Dis.ModulationType) : Val := .obj I.ModulationType (ModulationType.fields x)

/-- The fields of the bit field of `NetId` (/repo/opendis/record/radio/__init__.py:276-281). -/
abbrev NetId.layout : List (Ident × Nat) := [(I.netNumber, 10), (I.frequencyTable, 2), (I.mode, 2), (I.padding, 2)]

/-- The attributes of a `NetId` object (/repo/opendis/record/radio/__init__.py:276-292). -/
abbrev NetId.fields (x : Dis.NetId) : List (Ident × Val) :=
   [(I.padding, .int x.padding),
    (I._struct, .struct NetId.layout),
    (I.netNumber, .int x.netNumber),
    (I.frequencyTable, .int x.frequencyTable),
    (I.mode, .int x.mode)]

/-- A `NetId` object (/repo/opendis/record/radio/__init__.py:276-292). -/
abbrev NetId.enc (x : Dis.NetId) : Val := .obj I.NetId (NetId.fields x)

/-- The attributes of a `BeamAntennaPattern` object (/repo/opendis/record/radio/__init__.py:111-132). -/
abbrev BeamAntennaPattern.fields (x : Dis.BeamAntennaPattern) : List (Ident × Val) :=
   [(I.beamDirection, EulerAngles.enc x.beamDirection),
    (I.azimuthBeamwidth, .float x.azimuthBeamwidth),
    (I.elevationBeamwidth, .float x.elevationBeamwidth),
    (I.referenceSystem, .int x.referenceSystem),
    (I.ez, .float x.ez),
    (I.ex, .float x.ex),
    (I.phase, .float x.phase),
    (I.padding1, .int x.padding1),
    (I.padding2, .int x.padding2),
    (I.padding3, .int x.padding3)]

/-- A `BeamAntennaPattern` object (/repo/opendis/record/radio/__init__.py:111-132). -/
abbrev BeamAntennaPattern.enc (x : Dis.BeamAntennaPattern) : Val := .obj I.BeamAntennaPattern (BeamAntennaPattern.fields x)

/-- The attributes of a `BasicHaveQuickMP` object (/repo/opendis/record/radio/__init__.py:360-374). -/
abbrev BasicHaveQuickMP.fields (x : Dis.BasicHaveQuickMP) : List (Ident × Val) :=
   [(I.padding, .int x.padding),
    (I.net_id, NetId.enc x.net_id),
    (I.mwod_index, .int x.mwod_index),
    (I.reserved16, .int x.reserved16),
    (I.reserved8_1, .int x.reserved8_1),
    (I.reserved8_2, .int x.reserved8_2),
    (I.time_of_day, .int x.time_of_day)]

/-- A `BasicHaveQuickMP` object (/repo/opendis/record/radio/__init__.py:360-374). -/
abbrev BasicHaveQuickMP.enc (x : Dis.BasicHaveQuickMP) : Val := .obj I.BasicHaveQuickMP (BasicHaveQuickMP.fields x)

/-- The attributes of a `CCTTSincgarsMP` object (/repo/opendis/record/radio/__init__.py:406-421). -/
abbrev CCTTSincgarsMP.fields (x : Dis.CCTTSincgarsMP) : List (Ident × Val) :=
   [(I.padding, .int x.padding),
    (I.fh_net_id, .int x.fh_net_id),
    (I.hop_set_id, .int x.hop_set_id),
    (I.lockout_set_id, .int x.lockout_set_id),
    (I.start_of_message, .int x.start_of_message),
    (I.clear_channel, .int x.clear_channel),
    (I.fh_sync_time_offset, .int x.fh_sync_time_offset),
    (I.transmission_security_key, .int x.transmission_security_key)]

/-- A `CCTTSincgarsMP` object (/repo/opendis/record/radio/__init__.py:406-421). -/
abbrev CCTTSincgarsMP.enc (x : Dis.CCTTSincgarsMP) : Val := .obj I.CCTTSincgarsMP (CCTTSincgarsMP.fields x)

/-- The fields of the bit field of `DEFireFlags` (/repo/opendis/record/warfare/enums.py:11-15). -/
abbrev DEFireFlags.layout : List (Ident × Nat) := [(I.weaponOn, 1), (I.stateUpdateFlag, 1), (I.padding, 14)]

/-- The attributes of a `DEFireFlags` object whose `weaponOn` is `w` (/repo/opendis/record/warfare/enums.py:11-23). -/
abbrev DEFireFlags.fieldsWith (w : Val) (x : Dis.DEFireFlags) : List (Ident × Val) :=
   [(I.padding, .int x.padding),
    (I._struct, .struct DEFireFlags.layout),
    (I.weaponOn, w),
    (I.stateUpdateFlag, .int x.stateUpdateFlag)]

/-- The attributes of a `DEFireFlags` object (/repo/opendis/record/warfare/enums.py:11-23). -/
abbrev DEFireFlags.fields (x : Dis.DEFireFlags) : List (Ident × Val) := DEFireFlags.fieldsWith (.int x.weaponOn) x

/-- A `DEFireFlags` object (/repo/opendis/record/warfare/enums.py:11-23). -/
abbrev DEFireFlags.enc (x : Dis.DEFireFlags) : Val := .obj I.DEFireFlags (DEFireFlags.fields x)

/-- The attributes of a `DirectedEnergyTargetEnergyDeposition` object (/repo/opendis/record/warfare/__init__.py:257-265). -/
abbrev DirectedEnergyTargetEnergyDeposition.fields (x : Dis.DirectedEnergyTargetEnergyDeposition) : List (Ident × Val) :=
   [(I.padding, .int x.padding),
    (I.targetEntityID, EntityIdentifier.enc x.targetEntityID),
    (I.peakIrradiance, .float x.peakIrradiance)]

/-- A `DirectedEnergyTargetEnergyDeposition` object (/repo/opendis/record/warfare/__init__.py:257-265). -/
abbrev DirectedEnergyTargetEnergyDeposition.enc (x : Dis.DirectedEnergyTargetEnergyDeposition) : Val :=
  .obj I.DirectedEnergyTargetEnergyDeposition (DirectedEnergyTargetEnergyDeposition.fields x)

end Dis.Src
