import Verif.Model.Common
import Verif.Spec

/-!
# Specification of: Records of `opendis/record/common.py`

Generated by `tools/genproof.py`.
-/

set_option linter.unusedVariables false
set_option linter.unusedSimpArgs false

namespace Dis

/-- The object `s` after it parsed what `o` serialized: fields of `o`, singles rounded, list elements
appended (/repo/opendis/record/common.py:133-135,137-139). -/
def SimulationAddress.after (s o : SimulationAddress) : SimulationAddress :=
  { s with
    site := o.site,
    application := o.application }

/-- Every field of `o` fits its wire type (/repo/opendis/record/common.py:133-135,137-139). -/
def SimulationAddress.WireOk (o : SimulationAddress) : Prop :=
  U16 o.site ∧
  U16 o.application

/-- `o` is in the form a fresh `SimulationAddress` takes after parsing: singles exact, arrays of the fixed length,
attributes that are not on the wire at their initial value (/repo/opendis/record/common.py:133-135,137-139). -/
def SimulationAddress.Canon (o : SimulationAddress) : Prop :=
  True

/-- No single-precision field of `o` is a NaN (/repo/opendis/record/common.py:133-135,137-139). -/
def SimulationAddress.NoNaN (o : SimulationAddress) : Prop :=
  True

/-- Number of bytes `serialize` writes (/repo/opendis/record/common.py:133-135,137-139). -/
def SimulationAddress.wireSize (o : SimulationAddress) : Nat := 4

/-- The object `s` after it parsed what `o` serialized: fields of `o`, singles rounded, list elements
appended (/repo/opendis/record/common.py:48-50,52-54). -/
def EntityIdentifier.after (s o : EntityIdentifier) : EntityIdentifier :=
  { s with
    simulationAddress := SimulationAddress.after s.simulationAddress o.simulationAddress,
    entityNumber := o.entityNumber }

/-- Every field of `o` fits its wire type (/repo/opendis/record/common.py:48-50,52-54). -/
def EntityIdentifier.WireOk (o : EntityIdentifier) : Prop :=
  SimulationAddress.WireOk o.simulationAddress ∧
  U16 o.entityNumber

/-- `o` is in the form a fresh `EntityIdentifier` takes after parsing: singles exact, arrays of the fixed length,
attributes that are not on the wire at their initial value (/repo/opendis/record/common.py:48-50,52-54). -/
def EntityIdentifier.Canon (o : EntityIdentifier) : Prop :=
  True

/-- No single-precision field of `o` is a NaN (/repo/opendis/record/common.py:48-50,52-54). -/
def EntityIdentifier.NoNaN (o : EntityIdentifier) : Prop :=
  True

/-- Number of bytes `serialize` writes (/repo/opendis/record/common.py:48-50,52-54). -/
def EntityIdentifier.wireSize (o : EntityIdentifier) : Nat := 6

/-- The object `s` after it parsed what `o` serialized: fields of `o`, singles rounded, list elements
appended (/repo/opendis/record/common.py:77-80,82-85). -/
def EulerAngles.after (s o : EulerAngles) : EulerAngles :=
  { s with
    psi := quant o.psi,
    theta := quant o.theta,
    phi := quant o.phi }

/-- Every field of `o` fits its wire type (/repo/opendis/record/common.py:77-80,82-85). -/
def EulerAngles.WireOk (o : EulerAngles) : Prop :=
  F32Fits o.psi ∧
  F32Fits o.theta ∧
  F32Fits o.phi

/-- `o` is in the form a fresh `EulerAngles` takes after parsing: singles exact, arrays of the fixed length,
attributes that are not on the wire at their initial value (/repo/opendis/record/common.py:77-80,82-85). -/
def EulerAngles.Canon (o : EulerAngles) : Prop :=
  quant o.psi = o.psi ∧
  quant o.theta = o.theta ∧
  quant o.phi = o.phi

/-- No single-precision field of `o` is a NaN (/repo/opendis/record/common.py:77-80,82-85). -/
def EulerAngles.NoNaN (o : EulerAngles) : Prop :=
  ¬ o.psi.isNaN ∧
  ¬ o.theta.isNaN ∧
  ¬ o.phi.isNaN

/-- Number of bytes `serialize` writes (/repo/opendis/record/common.py:77-80,82-85). -/
def EulerAngles.wireSize (o : EulerAngles) : Nat := 12

/-- The object `s` after it parsed what `o` serialized: fields of `o`, singles rounded, list elements
appended (/repo/opendis/record/common.py:106-108,110-112). -/
def EventIdentifier.after (s o : EventIdentifier) : EventIdentifier :=
  { s with
    simulationAddress := SimulationAddress.after s.simulationAddress o.simulationAddress,
    eventNumber := o.eventNumber }

/-- Every field of `o` fits its wire type (/repo/opendis/record/common.py:106-108,110-112). -/
def EventIdentifier.WireOk (o : EventIdentifier) : Prop :=
  SimulationAddress.WireOk o.simulationAddress ∧
  U16 o.eventNumber

/-- `o` is in the form a fresh `EventIdentifier` takes after parsing: singles exact, arrays of the fixed length,
attributes that are not on the wire at their initial value (/repo/opendis/record/common.py:106-108,110-112). -/
def EventIdentifier.Canon (o : EventIdentifier) : Prop :=
  True

/-- No single-precision field of `o` is a NaN (/repo/opendis/record/common.py:106-108,110-112). -/
def EventIdentifier.NoNaN (o : EventIdentifier) : Prop :=
  True

/-- Number of bytes `serialize` writes (/repo/opendis/record/common.py:106-108,110-112). -/
def EventIdentifier.wireSize (o : EventIdentifier) : Nat := 6

/-- The object `s` after it parsed what `o` serialized: fields of `o`, singles rounded, list elements
appended (/repo/opendis/record/common.py:160-163,165-168). -/
def Vector3Float.after (s o : Vector3Float) : Vector3Float :=
  { s with
    x := quant o.x,
    y := quant o.y,
    z := quant o.z }

/-- Every field of `o` fits its wire type (/repo/opendis/record/common.py:160-163,165-168). -/
def Vector3Float.WireOk (o : Vector3Float) : Prop :=
  F32Fits o.x ∧
  F32Fits o.y ∧
  F32Fits o.z

/-- `o` is in the form a fresh `Vector3Float` takes after parsing: singles exact, arrays of the fixed length,
attributes that are not on the wire at their initial value (/repo/opendis/record/common.py:160-163,165-168). -/
def Vector3Float.Canon (o : Vector3Float) : Prop :=
  quant o.x = o.x ∧
  quant o.y = o.y ∧
  quant o.z = o.z

/-- No single-precision field of `o` is a NaN (/repo/opendis/record/common.py:160-163,165-168). -/
def Vector3Float.NoNaN (o : Vector3Float) : Prop :=
  ¬ o.x.isNaN ∧
  ¬ o.y.isNaN ∧
  ¬ o.z.isNaN

/-- Number of bytes `serialize` writes (/repo/opendis/record/common.py:160-163,165-168). -/
def Vector3Float.wireSize (o : Vector3Float) : Nat := 12

/-- The object `s` after it parsed what `o` serialized: fields of `o`, singles rounded, list elements
appended (/repo/opendis/record/common.py:188-191,193-196). -/
def WorldCoordinates.after (s o : WorldCoordinates) : WorldCoordinates :=
  { s with
    x := o.x,
    y := o.y,
    z := o.z }

/-- Every field of `o` fits its wire type (/repo/opendis/record/common.py:188-191,193-196). -/
def WorldCoordinates.WireOk (o : WorldCoordinates) : Prop :=
  True

/-- `o` is in the form a fresh `WorldCoordinates` takes after parsing: singles exact, arrays of the fixed length,
attributes that are not on the wire at their initial value (/repo/opendis/record/common.py:188-191,193-196). -/
def WorldCoordinates.Canon (o : WorldCoordinates) : Prop :=
  True

/-- No single-precision field of `o` is a NaN (/repo/opendis/record/common.py:188-191,193-196). -/
def WorldCoordinates.NoNaN (o : WorldCoordinates) : Prop :=
  True

/-- Number of bytes `serialize` writes (/repo/opendis/record/common.py:188-191,193-196). -/
def WorldCoordinates.wireSize (o : WorldCoordinates) : Nat := 24

end Dis
