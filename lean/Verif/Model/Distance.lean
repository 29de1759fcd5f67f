import Verif.Model.DeadReckoning
import Verif.Model.RangeCoordinates

/-!
# `euclideanDistance` with a second point, and `get_angular_velocity_matrix`, which nothing calls
-/

namespace Dis.Dbl

/-- The loop of `euclideanDistance` with a second point, /repo/opendis/RangeCoordinates.py:64, :67-68. -/
def sumSquaresFrom (P : Platform) : F64 → List F64 → List F64 → Except PyErr F64
  | total, [], _ => .ok total
  | _, _ :: _, [] => .error .indexError
  | total, d :: data, r :: dataRef => do
    let s ← P.square (F64.sub d r)
    sumSquaresFrom P (F64.add total s) data dataRef

/-- `euclideanDistance(data, dataRef)`, /repo/opendis/RangeCoordinates.py:59-69. -/
def euclideanDistanceFrom (P : Platform) (data dataRef : List F64) : Except PyErr F64 := do
  let total ← sumSquaresFrom P (num 0) data dataRef
  F64.sqrt total

/-- `get_angular_velocity_matrix`, /repo/opendis/DeadReckoning.py:86-101. -/
def get_angular_velocity_matrix (omega : Vec) : Mat
  | 0 => fun j => match j with | 0 => num 0 | 1 => F64.neg (omega 2) | 2 => omega 1
  | 1 => fun j => match j with | 0 => omega 2 | 1 => num 0 | 2 => F64.neg (omega 0)
  | 2 => fun j => match j with | 0 => F64.neg (omega 1) | 1 => omega 0 | 2 => num 0

end Dis.Dbl
