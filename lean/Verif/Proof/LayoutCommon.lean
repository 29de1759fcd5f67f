import Verif.Spec.LayoutCommon
import Verif.Proof.Layout

/-!
# `serialize` writes the layout: classes of `Verif.Model.Common`

Generated by `tools/genlayout.py`.
-/

set_option linter.unusedVariables false

namespace Dis

theorem SimulationAddress.lay (o : SimulationAddress) : Lay o.serialize o.wire := by
  unfold SimulationAddress.serialize SimulationAddress.wire
  exact Lay.bind (lay_unsigned_short _) <|
    Lay.last (lay_unsigned_short _)

theorem EntityIdentifier.lay (o : EntityIdentifier) : Lay o.serialize o.wire := by
  unfold EntityIdentifier.serialize EntityIdentifier.wire
  exact Lay.bind (SimulationAddress.lay _) <|
    Lay.last (lay_uint16 _)

theorem EulerAngles.lay (o : EulerAngles) : Lay o.serialize o.wire := by
  unfold EulerAngles.serialize EulerAngles.wire
  exact Lay.bind (lay_float32 _) <|
    Lay.bind (lay_float32 _) <|
    Lay.last (lay_float32 _)

theorem EventIdentifier.lay (o : EventIdentifier) : Lay o.serialize o.wire := by
  unfold EventIdentifier.serialize EventIdentifier.wire
  exact Lay.bind (SimulationAddress.lay _) <|
    Lay.last (lay_unsigned_short _)

theorem Vector3Float.lay (o : Vector3Float) : Lay o.serialize o.wire := by
  unfold Vector3Float.serialize Vector3Float.wire
  exact Lay.bind (lay_float _) <|
    Lay.bind (lay_float _) <|
    Lay.last (lay_float _)

theorem WorldCoordinates.lay (o : WorldCoordinates) : Lay o.serialize o.wire := by
  unfold WorldCoordinates.serialize WorldCoordinates.wire
  exact Lay.bind (lay_float64 _) <|
    Lay.bind (lay_float64 _) <|
    Lay.last (lay_float64 _)

end Dis
