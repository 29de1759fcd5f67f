import Verif.Model.Warfare
import Verif.Spec.Common

/-! # Specification of the bit-field records of `opendis/record` -/

namespace Dis

/-! ## SpreadSpectrum -/

/-- The object `s` after it parsed what `o` serialized; `parse` leaves `padding` alone
(/repo/opendis/record/radio/__init__.py:202-215). -/
def SpreadSpectrum.after (s o : SpreadSpectrum) : SpreadSpectrum :=
  { s with frequencyHopping := o.frequencyHopping, pseudoNoise := o.pseudoNoise,
           timeHopping := o.timeHopping }

/-- `serialize` never raises (/repo/opendis/record/radio/__init__.py:202-209). -/
def SpreadSpectrum.WireOk (_o : SpreadSpectrum) : Prop := True

/-- Form of a fresh object after parsing (/repo/opendis/record/radio/__init__.py:211-215). -/
def SpreadSpectrum.Canon (o : SpreadSpectrum) : Prop := o.padding = 0

/-- No single-precision fields (/repo/opendis/record/radio/__init__.py:182-187). -/
def SpreadSpectrum.NoNaN (_o : SpreadSpectrum) : Prop := True

/-- Bytes on the wire (/repo/opendis/record/radio/__init__.py:182-187). -/
def SpreadSpectrum.wireSize (_o : SpreadSpectrum) : Nat := 2

/-! ## NetId -/

/-- The object after it parsed what `o` serialized: every field reduced to its width
(/repo/opendis/record/radio/__init__.py:297-310). -/
def NetId.after (_s o : NetId) : NetId :=
  { netNumber := o.netNumber % 1024, frequencyTable := o.frequencyTable % 4, mode := o.mode % 4,
    padding := o.padding % 4 }

/-- `serialize` never raises (/repo/opendis/record/radio/__init__.py:297-303). -/
def NetId.WireOk (_o : NetId) : Prop := True

/-- Every field is within its width (/repo/opendis/record/radio/__init__.py:276-281). -/
def NetId.Canon (o : NetId) : Prop :=
  (0 ≤ o.netNumber ∧ o.netNumber < 1024) ∧ (0 ≤ o.frequencyTable ∧ o.frequencyTable < 4) ∧
  (0 ≤ o.mode ∧ o.mode < 4) ∧ (0 ≤ o.padding ∧ o.padding < 4)

/-- No single-precision fields (/repo/opendis/record/radio/__init__.py:276-281). -/
def NetId.NoNaN (_o : NetId) : Prop := True

/-- Bytes on the wire (/repo/opendis/record/radio/__init__.py:276-281). -/
def NetId.wireSize (_o : NetId) : Nat := 2

/-! ## DEFireFlags -/

/-- The object after it parsed what `o` serialized; `serialize` does not pass `padding`
(/repo/opendis/record/warfare/enums.py:28-38). -/
def DEFireFlags.after (_s o : DEFireFlags) : DEFireFlags :=
  { weaponOn := o.weaponOn % 2, stateUpdateFlag := o.stateUpdateFlag % 2, padding := 0 }

/-- `serialize` never raises (/repo/opendis/record/warfare/enums.py:28-32). -/
def DEFireFlags.WireOk (_o : DEFireFlags) : Prop := True

/-- Flags are 0 or 1 and the padding is zero (/repo/opendis/record/warfare/enums.py:11-15). -/
def DEFireFlags.Canon (o : DEFireFlags) : Prop :=
  (0 ≤ o.weaponOn ∧ o.weaponOn < 2) ∧ (0 ≤ o.stateUpdateFlag ∧ o.stateUpdateFlag < 2) ∧
  o.padding = 0

/-- The padding bits that were read are zero; only then `serialize` reproduces them
(/repo/opendis/record/warfare/enums.py:28-38). -/
def DEFireFlags.Live (o : DEFireFlags) : Prop := o.padding = 0

/-- No single-precision fields (/repo/opendis/record/warfare/enums.py:11-15). -/
def DEFireFlags.NoNaN (_o : DEFireFlags) : Prop := True

/-- Bytes on the wire (/repo/opendis/record/warfare/enums.py:11-15). -/
def DEFireFlags.wireSize (_o : DEFireFlags) : Nat := 2

end Dis
