import Verif.Proof.CalcArrays
import Verif.Props.CalcWhole

/-!
# C78: dead reckoning of lists and tuples of numbers

`_to_numpy` (/repo/opendis/DeadReckoning.py:40-42) makes doubles of the integers in a list, so that `[0, 0, 0]` will do for
`[0.0, 0.0, 0.0]`. `IsNumber v x` says that `v` is the float `x` or an integer that is converted to it
(`Spec/CalcWhole.lean`).
-/

set_option exponentiation.threshold 3000

namespace Dis

open Calc Dbl

/-- A list and a tuple of three numbers, integers or floats or some of each, are the array of the doubles. -/
theorem C78_whole_arrays {u v w : Calc.Val} {x y z : F64} (hu : IsNumber u x) (hv : IsNumber v y) (hw : IsNumber w z) :
    IsArray (.list [u, v, w]) ![x, y, z] ∧ IsArray (.tuple [u, v, w]) ![x, y, z] :=
  array_numbers .ieee hu hv hw

/-- The nine functions of lists of numbers: what they return for the doubles. -/
theorem C78_dead_reckoning_lists (M : Machine) {pl vl al ol wl : Fin 3 → Calc.Val} {p v a o w : Vec} (dt : F64)
    (hp : ∀ i, IsNumber (pl i) (p i)) (hv : ∀ i, IsNumber (vl i) (v i)) (ha : ∀ i, IsNumber (al i) (a i))
    (ho : ∀ i, IsNumber (ol i) (o i)) (hw : ∀ i, IsNumber (wl i) (w i)) :
    let list := fun l : Fin 3 → Calc.Val => Calc.Val.list [l 0, l 1, l 2]
    Calc.Gives (dr M N.drm_static [list pl, list ol]) (some (.ok (pair (Dbl.drm_static p o)))) ∧
    Calc.Gives (dr M N.drm_fpw [list pl, list vl, .float dt, list ol]) (some (.ok (pair (Dbl.drm_fpw p v dt o)))) ∧
    Calc.Gives (dr M N.drm_rpw [list pl, list vl, .float dt, list ol, list wl])
      (some ((Dbl.drm_rpw M.toPlatform p v dt o w).map pair)) ∧
    Calc.Gives (dr M N.drm_rvw [list pl, list vl, list al, .float dt, list ol, list wl])
      (some ((Dbl.drm_rvw M.toPlatform p v a dt o w).map pair)) ∧
    Calc.Gives (dr M N.drm_fvw [list pl, list vl, list al, .float dt, list ol])
      (some ((Dbl.drm_fvw M.toPlatform p v a dt o).map pair)) ∧
    Calc.Gives (dr M N.drm_fpb [list pl, list vl, .float dt, list ol])
      (some ((Dbl.drm_fpb M.toPlatform p v dt o).map pair)) ∧
    Calc.Gives (dr M N.drm_rpb [list pl, list vl, .float dt, list ol, list wl])
      (some ((Dbl.drm_rpb M.toPlatform p v dt o w).map pair)) ∧
    Calc.Gives (dr M N.drm_rvb [list pl, list vl, list al, .float dt, list ol, list wl])
      (some ((Dbl.drm_rvb M.toPlatform p v a dt o w).map pair)) ∧
    Calc.Gives (dr M N.drm_fvb [list pl, list vl, list al, .float dt, list ol])
      (some ((Dbl.drm_fvb M.toPlatform p v a dt o).map pair)) := by
  intro list
  have key {l : Fin 3 → Calc.Val} {x : Vec} (h : ∀ i, IsNumber (l i) (x i)) : IsArray (list l) x := by
    have e : x = ![x 0, x 1, x 2] := by funext j; match j with | 0 | 1 | 2 => rfl
    rw [e]
    exact (C78_whole_arrays (h 0) (h 1) (h 2)).1
  exact C78_dead_reckoning M dt (key hp) (key hv) (key ha) (key ho) (key hw)

/-- A position with an integer beyond the largest double, among numbers, is refused: the exception of the conversion
(`OverflowError`). -/
theorem C78_array_overflow (M : Machine) {c : Int} {v w ov : Calc.Val} {y z : F64} {e : PyErr} (hc : Dbl.fromInt c = .error e)
    (hv : IsNumber v y) (hw : IsNumber w z) :
    Calc.Gives (dr M N.drm_static [.list [.int c, v, w], ov]) (some (.error e)) :=
  gives_of 2 fun n => drm_static_raises M n (array_refused .ieee hc hv hw)

/-! Cases: the reference machine. -/

theorem number_float (x : F64) : IsNumber (.float x) x := .inl rfl

section
attribute [local irreducible] num IsNumber

/-- At `[1, 0, 0.0]` with the velocity `[0, 1, 1]`. -/
example : Calc.Gives (dr referenceMachine N.drm_fpw [.list [.int 1, .int 0, .float (num 0)], .list [.int 0, .int 1, .int 1],
      .float (num 2), .list [.int 0, .int 0, .int 0]])
    (some (.ok (pair (Dbl.drm_fpw ![num 1, num 0, num 0] ![num 0, num 1, num 1] (num 2) ![num 0, num 0, num 0])))) :=
  (C78_dead_reckoning_lists referenceMachine (pl := ![.int 1, .int 0, .float (num 0)]) (vl := ![.int 0, .int 1, .int 1])
    (al := ![.int 0, .int 0, .int 0]) (ol := ![.int 0, .int 0, .int 0]) (wl := ![.int 0, .int 0, .int 0])
    (p := ![num 1, num 0, num 0]) (v := ![num 0, num 1, num 1]) (a := ![num 0, num 0, num 0]) (o := ![num 0, num 0, num 0])
    (w := ![num 0, num 0, num 0]) (num 2)
    (fun i => match i with | 0 => number_one | 1 => number_zero | 2 => number_float _)
    (fun i => match i with | 0 => number_zero | 1 => number_one | 2 => number_one)
    (fun i => match i with | 0 | 1 | 2 => number_zero) (fun i => match i with | 0 | 1 | 2 => number_zero)
    (fun i => match i with | 0 | 1 | 2 => number_zero)).2.1

end

/-- `drm_static([2 ** 1024, 0, 0.0], ...)`. -/
example (ov : Calc.Val) : Calc.Gives (dr referenceMachine N.drm_static [.list [.int (2 ^ 1024), .int 0, .float (num 0)], ov])
    (some (.error .overflowError)) :=
  C78_array_overflow referenceMachine (by delta Dbl.fromInt F64.ofInt; decide +kernel) number_zero (number_float _)

end Dis
