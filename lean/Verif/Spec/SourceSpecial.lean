import Verif.Spec.Source
import Verif.Source.EncodeSpecial
import Verif.Model.InPlaceSpecial

/-!
# The classes with bit fields or lengths, compared with the source
-/

namespace Dis.Src

/-- `SpreadSpectrum` (/repo/opendis/record/radio/__init__.py:167-215). -/
def Sourced.SpreadSpectrum : Sourced where
  entry := .SpreadSpectrum
  cls := I.SpreadSpectrum
  fields := SpreadSpectrum.fields
  makes := true

/-- `ModulationType` (/repo/opendis/record/radio/__init__.py:218-253). -/
def Sourced.ModulationType : Sourced where
  entry := .ModulationType
  cls := I.ModulationType
  fields := ModulationType.fields
  makes := true

/-- `NetId` (/repo/opendis/record/radio/__init__.py:267-310). -/
def Sourced.NetId : Sourced where
  entry := .NetId
  cls := I.NetId
  fields := NetId.fields
  makes := true

/-- `BeamAntennaPattern` (/repo/opendis/record/radio/__init__.py:104-164). -/
def Sourced.BeamAntennaPattern : Sourced where
  entry := .BeamAntennaPattern
  cls := I.BeamAntennaPattern
  fields := BeamAntennaPattern.fields
  makes := true

/-- `BasicHaveQuickMP` (/repo/opendis/record/radio/__init__.py:357-400). -/
def Sourced.BasicHaveQuickMP : Sourced where
  entry := .BasicHaveQuickMP
  cls := I.BasicHaveQuickMP
  fields := BasicHaveQuickMP.fields
  makes := true

/-- `CCTTSincgarsMP` (/repo/opendis/record/radio/__init__.py:403-449). -/
def Sourced.CCTTSincgarsMP : Sourced where
  entry := .CCTTSincgarsMP
  cls := I.CCTTSincgarsMP
  fields := CCTTSincgarsMP.fields
  makes := true

/-- `DEFireFlags` (/repo/opendis/record/warfare/enums.py:8-38). -/
def Sourced.DEFireFlags : Sourced where
  entry := .DEFireFlags
  cls := I.DEFireFlags
  fields := DEFireFlags.fields
  makes := true

/-- `DirectedEnergyTargetEnergyDeposition` (/repo/opendis/record/warfare/__init__.py:251-280). -/
def Sourced.DirectedEnergyTargetEnergyDeposition : Sourced where
  entry := .DirectedEnergyTargetEnergyDeposition
  cls := I.DirectedEnergyTargetEnergyDeposition
  fields := DirectedEnergyTargetEnergyDeposition.fields
  makes := true

/-- Records with bit fields or lengths (/repo/opendis/record). -/
def sourced6 : List Sourced :=
  [.SpreadSpectrum,
   .ModulationType,
   .NetId,
   .BeamAntennaPattern,
   .BasicHaveQuickMP,
   .CCTTSincgarsMP,
   .DEFireFlags,
   .DirectedEnergyTargetEnergyDeposition]

end Dis.Src
