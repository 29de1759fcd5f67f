import Mathlib.Analysis.SpecialFunctions.Trigonometric.Basic
import Mathlib.LinearAlgebra.Matrix.Notation
import Mathlib.LinearAlgebra.Matrix.Determinant.Basic

/-!
# Geometric vocabulary

Textbook notions the properties of the dead-reckoning and coordinate functions refer to.
-/

namespace Dis.Geo

open Matrix

/-- Rotation about the x axis by `t`, right-handed (factor of the matrix described in
/repo/opendis/DeadReckoning.py:64). -/
noncomputable def Rx (t : ℝ) : Matrix (Fin 3) (Fin 3) ℝ :=
  !![1, 0, 0; 0, Real.cos t, -Real.sin t; 0, Real.sin t, Real.cos t]

/-- Rotation about the y axis by `t`, right-handed (/repo/opendis/DeadReckoning.py:64). -/
noncomputable def Ry (t : ℝ) : Matrix (Fin 3) (Fin 3) ℝ :=
  !![Real.cos t, 0, Real.sin t; 0, 1, 0; -Real.sin t, 0, Real.cos t]

/-- Rotation about the z axis by `t`, right-handed (/repo/opendis/DeadReckoning.py:64). -/
noncomputable def Rz (t : ℝ) : Matrix (Fin 3) (Fin 3) ℝ :=
  !![Real.cos t, -Real.sin t, 0; Real.sin t, Real.cos t, 0; 0, 0, 1]

/-- A rotation matrix: orthogonal with determinant 1 (what /repo/opendis/DeadReckoning.py:44-84 and
/repo/opendis/RangeCoordinates.py:506-530 promise to return). -/
def IsRotation (R : Matrix (Fin 3) (Fin 3) ℝ) : Prop := R * Rᵀ = 1 ∧ R.det = 1

/-- Euclidean length of a vector (/repo/opendis/RangeCoordinates.py:59-70). -/
noncomputable def len (v : Fin 3 → ℝ) : ℝ := Real.sqrt (v 0 ^ 2 + v 1 ^ 2 + v 2 ^ 2)

/-- The attitude a triple of Euler angles `(psi, theta, phi)` stands for, in the convention announced at
/repo/opendis/DeadReckoning.py:44-64: the matrix taking body coordinates to world coordinates, a roll
about x, then a pitch about y, then a yaw about z. -/
noncomputable def attitude (o : Fin 3 → ℝ) : Matrix (Fin 3) (Fin 3) ℝ := Rz (o 0) * Ry (o 1) * Rx (o 2)

/-! ## The earth

Angles in radians. -/

/-- The outward direction of the vertical at a geodetic latitude and longitude (the direction along which
/repo/opendis/RangeCoordinates.py:293-313 measures the altitude). -/
noncomputable def up (lat lon : ℝ) : Fin 3 → ℝ :=
  ![Real.cos lat * Real.cos lon, Real.cos lat * Real.sin lon, Real.sin lat]

/-- The horizontal direction of growing longitude (second row of the array at
/repo/opendis/RangeCoordinates.py:279-282). -/
noncomputable def east (lon : ℝ) : Fin 3 → ℝ := ![-Real.sin lon, Real.cos lon, 0]

/-- The horizontal direction of growing latitude (first row of the array at
/repo/opendis/RangeCoordinates.py:279-282). -/
noncomputable def north (lat lon : ℝ) : Fin 3 → ℝ :=
  ![-(Real.sin lat * Real.cos lon), -(Real.sin lat * Real.sin lon), Real.cos lat]

/-- The local north-east-down frame, one axis per column, so that it takes north-east-down coordinates
to earth-centred ones (/repo/opendis/RangeCoordinates.py:269-290). -/
noncomputable def nedFrame (lat lon : ℝ) : Matrix (Fin 3) (Fin 3) ℝ :=
  Matrix.of fun i j => (![north lat lon, east lon, -up lat lon] : Fin 3 → Fin 3 → ℝ) j i

/-- The WGS84 ellipsoid: semi-axes 6378137 m in the equatorial plane and 6356752.3142 m along the z axis
(/repo/opendis/RangeCoordinates.py:75-79). -/
def OnEllipsoid (v : Fin 3 → ℝ) : Prop :=
  v 0 ^ 2 / 6378137 ^ 2 + v 1 ^ 2 / 6378137 ^ 2 + v 2 ^ 2 / 6356752.3142 ^ 2 = 1

/-- Half the gradient at `v` of the left-hand side of the ellipsoid's equation: a vector perpendicular
to the ellipsoid through `v`, pointing outward (geometry behind
/repo/opendis/RangeCoordinates.py:304-310). -/
noncomputable def gradient (v : Fin 3 → ℝ) : Fin 3 → ℝ :=
  ![v 0 / 6378137 ^ 2, v 1 / 6378137 ^ 2, v 2 / 6356752.3142 ^ 2]

/-- Radius of curvature of the meridian at a geodetic latitude, for the semi-axes of
/repo/opendis/RangeCoordinates.py:75-79: a ground distance per angle of latitude. -/
noncomputable def meridianRadius (lat : ℝ) : ℝ :=
  6378137 ^ 2 * 6356752.3142 ^ 2 / Real.sqrt ((6378137 * Real.cos lat) ^ 2 + (6356752.3142 * Real.sin lat) ^ 2) ^ 3

/-- Radius of curvature across the meridian (/repo/opendis/RangeCoordinates.py:75-79); times the cosine of
the latitude it is the radius of the circle of latitude. -/
noncomputable def transverseRadius (lat : ℝ) : ℝ :=
  6378137 ^ 2 / Real.sqrt ((6378137 * Real.cos lat) ^ 2 + (6356752.3142 * Real.sin lat) ^ 2)

/-- The twenty UTM latitude bands from south to north, eight degrees each from -80 degrees on: letters
C to X without I and O (the letters of /repo/opendis/RangeCoordinates.py:544-563). -/
def bandLetter (k : Fin 20) : Char :=
  ['C', 'D', 'E', 'F', 'G', 'H', 'J', 'K', 'L', 'M', 'N', 'P', 'Q', 'R', 'S', 'T', 'U', 'V', 'W', 'X'][k]

end Dis.Geo
