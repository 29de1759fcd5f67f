import Verif.Py.Calc
import Verif.Source.Calc

/-!
# Terms of C78

The values that stand for the arguments and results of the floating-point models, and what it means that a call comes to
a result.
-/

namespace Dis.Calc

open Dbl

/-- A point as a tuple of Python floats, as `lla2ecef` takes and returns it, /repo/opendis/RangeCoordinates.py:293-313. -/
def point (v : Vec) : Val := .tuple [.float (v 0), .float (v 1), .float (v 2)]

/-- What `lla2utm` returns: a list of three floats, and a list of the zone and the scale factor, /repo/opendis/RangeCoordinates.py:398-400. -/
def utmValue (u : Utm) : Val :=
  .tuple [.list [.float (u.utm 0), .float (u.utm 1), .float (u.utm 2)],
    .list [.str (toString u.zone.1 ++ u.zone.2.toString), .float u.k]]

/-- A point as a tuple or a list of Python floats (e.g. `ecef` at /repo/opendis/RangeCoordinates.py:117, `ned` at :494). -/
def coords (b : Bool) (v : Vec) : Val :=
  match b with
  | true => .tuple [.float (v 0), .float (v 1), .float (v 2)]
  | false => .list [.float (v 0), .float (v 1), .float (v 2)]

/-- A tuple or a list (`data` at /repo/opendis/RangeCoordinates.py:59). -/
def seq (b : Bool) (l : List Val) : Val :=
  match b with
  | true => .tuple l
  | false => .list l

/-- The numbers in the string `geoOrigin`, /repo/opendis/RangeCoordinates.py:322. -/
def numbers (M : Machine) (s : String) : Except PyErr (List F64) := (M.split s).mapM M.parse

/-- What a call comes to, with enough rounds and calls in one another; nothing if it does not end, as the loop at
/repo/opendis/RangeCoordinates.py:149-154 may not. -/
def Gives (run : Nat → Res Val) : Option (Except PyErr Val) → Prop
  | some r => ∃ n₀, ∀ n ≥ n₀, run n = up r
  | none => ∀ n, run n = .error .fuel

/-- A point as a list of numpy floats, as `ecef2ned` returns it, /repo/opendis/RangeCoordinates.py:248. -/
def npList (v : Vec) : Val := .list [.np (v 0), .np (v 1), .np (v 2)]

/-- The six numbers `llarpy2ecef` and `ecef2llarpy` return, /repo/opendis/RangeCoordinates.py:232, :476. -/
def six (r : Vec × Vec) : Val :=
  .tuple [.float (r.1 0), .float (r.1 1), .float (r.1 2), .float (r.2 0), .float (r.2 1), .float (r.2 2)]

/-- What the floating-point models take from the machine (/repo/opendis/RangeCoordinates.py:222). -/
def withDot (M : Machine) : Numpy := { M.toLibm with dot := M.dot }

/-- The result of a dead reckoning function: the location and the orientation, /repo/opendis/DeadReckoning.py:141. -/
def pair (r : Vec × Vec) : Val := .tuple [.arr r.1, .arr r.2]

/-- A call of a method of `GPS` on an object of that class, /repo/opendis/RangeCoordinates.py:110. -/
def gps (M : Machine) (m : Ident) (args : List Val) (n : Nat) : Res Val :=
  (calls .ieee M rangeCoordinates n).method N.GPS m args

/-- A call of a method of `WGS84` on an object of that class, /repo/opendis/RangeCoordinates.py:72. -/
def wgs84 (M : Machine) (m : Ident) (args : List Val) (n : Nat) : Res Val :=
  (calls .ieee M rangeCoordinates n).method N.WGS84 m args

/-- A call of a function of the module `RangeCoordinates`, e.g. /repo/opendis/RangeCoordinates.py:59. -/
def range (M : Machine) (f : Ident) (args : List Val) (n : Nat) : Res Val :=
  (calls .ieee M rangeCoordinates n).fn f args

/-- A call of a function of the module `DeadReckoning`, e.g. /repo/opendis/DeadReckoning.py:116. -/
def dr (M : Machine) (f : Ident) (args : List Val) (n : Nat) : Res Val :=
  (calls .ieee M deadReckoning n).fn f args

/-- What numpy makes an array of (`np.array(v, dtype=float)`, /repo/opendis/DeadReckoning.py:42): `v` is an array,
or a list or a tuple of numbers. -/
def IsArray (v : Val) (x : Vec) : Prop := floatArray .ieee v = .ok (.arr x)

end Dis.Calc
