import Verif.Proof.CalcDr

/-!
# Arrays of lists and tuples of numbers
-/

namespace Dis

open Calc

theorem array_numbers (O : Ops) {u v w : Calc.Val} {x y z : F64} (hu : u = .float x ∨ ∃ a, u = .int a ∧ O.fromInt a = .ok x)
    (hv : v = .float y ∨ ∃ a, v = .int a ∧ O.fromInt a = .ok y) (hw : w = .float z ∨ ∃ a, w = .int a ∧ O.fromInt a = .ok z) :
    floatArray O (.list [u, v, w]) = .ok (.arr ![x, y, z]) ∧ floatArray O (.tuple [u, v, w]) = .ok (.arr ![x, y, z]) := by
  rcases hu with rfl | ⟨a, rfl, ha⟩ <;> rcases hv with rfl | ⟨b, rfl, hb⟩ <;> rcases hw with rfl | ⟨c, rfl, hc⟩ <;>
    constructor <;>
    simp only [floatArray, array, row, ints, floats, toFloat, ofInts, up, bind, Except.bind, pure, Except.pure,
      Matrix.cons_val_zero, Matrix.cons_val_one, Matrix.cons_val, *]

theorem array_refused (O : Ops) {c : Int} {v w : Calc.Val} {y z : F64} {e : PyErr} (hc : O.fromInt c = .error e)
    (hv : v = .float y ∨ ∃ a, v = .int a ∧ O.fromInt a = .ok y) (hw : w = .float z ∨ ∃ a, w = .int a ∧ O.fromInt a = .ok z) :
    floatArray O (.list [.int c, v, w]) = .error (.err e) := by
  rcases hv with rfl | ⟨b, rfl, hb⟩ <;> rcases hw with rfl | ⟨c, rfl, hc⟩ <;>
    simp only [floatArray, array, row, ints, floats, toFloat, ofInts, up, bind, Except.bind, pure, Except.pure,
      Matrix.cons_val_zero, *]

namespace Calc

attribute [local irreducible] floatArray

theorem drm_static_raises (M : Machine) (n : Nat) {pv ov : Val} {e : PyErr} (hp : floatArray .ieee pv = .error (.err e)) :
    (calls .ieee M deadReckoning (n + 2)).fn N.drm_static [pv, ov] = .error (.err e) := by
  generalize h : Ops.ieee = O at *
  calc_run h []

end Calc

end Dis
