import Verif.Geo.RangeCoordinates
import Verif.Spec.FloatReal

/-!
# What `examples/dis_receiver.py` shows of an entity

The same simplifications as in `Verif/Geo/RangeCoordinates.lean`; the formats `{:.2f}` and `{:.0f}`,
which round for display, are left out.
-/

namespace Dis.Geo

/-- The labelled lines, /repo/examples/dis_receiver.py:46-51; everything but the altitude in degrees. -/
structure Shown where
  latitude : ℝ
  longitude : ℝ
  altitude : ℝ
  yaw : ℝ
  pitch : ℝ
  roll : ℝ

/-- /repo/examples/dis_receiver.py:34-51: `loc` is the six arguments; `body[3]` is shown as yaw, `body[4]`
as pitch and `body[5]` as roll. `none` means that `ecef2lla` does not return. -/
noncomputable def shown (x y z psi theta phi : ℝ) : Option (Except PyErr Shown) :=
  match ecef2llarpy x y z psi theta phi with
  | none => none
  | some (.error e) => some (.error e)
  | some (.ok body) => some (.ok {
      latitude := rad2deg (body.1 0)
      longitude := rad2deg (body.1 1)
      altitude := body.1 2
      yaw := rad2deg (body.2 0)
      pitch := rad2deg (body.2 1)
      roll := rad2deg (body.2 2) })

end Dis.Geo
