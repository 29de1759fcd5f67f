import Verif.Proof.CalcFrames
import Verif.Proof.ZeroSign
/-!
# `rotate_3x3` on an array of integers
-/

namespace Dis.Calc
open Dbl
set_option exponentiation.threshold 3000

theorem int_m1 {O : Ops} (h : Ops.ieee = O) : O.fromInt (-1) = .ok (F64.neg (num 1)) := by
  subst h; show fromInt (-1) = .ok (F64.neg (num 1)); decide +kernel

theorem mul_0_0 : F64.mul (num 0) (num 0) = num 0 := by decide +kernel
theorem mul_0_1 : F64.mul (num 0) (num 1) = num 0 := by decide +kernel
theorem mul_1_0 : F64.mul (num 1) (num 0) = num 0 := by decide +kernel
theorem mul_1_1 : F64.mul (num 1) (num 1) = num 1 := by decide +kernel

attribute [local irreducible] num classAttr F64.add F64.mul F64.sub F64.neg

/-- The matrix `rotate_3x3` makes from the array of integers (0, 0, 1). -/
def turnZ (c s : F64) : Mat := fun i j =>
  F64.add
    (F64.add (F64.mul (F64.sub (num 1) c) ((![![num 0, num 0, num 0], ![num 0, num 0, num 0], ![num 0, num 0, num 1]] : Mat) i j))
      (F64.mul c (unit i j)))
    (F64.mul s ((![![num 0, F64.neg (num 1), num 0], ![num 1, num 0, num 0], ![num 0, num 0, num 0]] : Mat) i j))

theorem turnZ_def (c s : F64) : turnZ c s = fun i j =>
  F64.add
    (F64.add (F64.mul (F64.sub (num 1) c) ((![![num 0, num 0, num 0], ![num 0, num 0, num 0], ![num 0, num 0, num 1]] : Mat) i j))
      (F64.mul c (unit i j)))
    (F64.mul s ((![![num 0, F64.neg (num 1), num 0], ![num 1, num 0, num 0], ![num 0, num 0, num 0]] : Mat) i j)) := rfl

theorem turnZ_mat (c s : F64) :
    (fun i j => F64.add
      (F64.add (F64.mul (F64.sub (num 1) c) (F64.mul ((![num 0, num 0, num 1] : Vec) j) ((![num 0, num 0, num 1] : Vec) i)))
        (F64.mul c (unit i j)))
      (F64.mul s (skew ![num 0, num 0, num 1] i j))) = turnZ c s := by
  funext i j
  obtain ⟨O, h⟩ : ∃ O, Ops.ieee = O := ⟨_, rfl⟩
  have hz := zero_sign c s
  have h00 := mul_0_0
  have h01 := mul_0_1
  have h10 := mul_1_0
  have h11 := mul_1_1
  calc_ops h [turnZ_def, skew, unit] at hz h00 h01 h10 h11 ⊢
  clear h
  generalize num 0 = z at *
  generalize num 1 = o at *
  match i, j with
  | 0, 0 =>
    show O.add (O.add (O.mul (O.sub o c) (O.mul z z)) (O.mul c o)) (O.mul s z) = O.add (O.add (O.mul (O.sub o c) z) (O.mul c o)) (O.mul s z)
    rw [h00]
  | 0, 1 =>
    show O.add (O.add (O.mul (O.sub o c) (O.mul z z)) (O.mul c z)) (O.mul s (O.neg o)) = O.add (O.add (O.mul (O.sub o c) z) (O.mul c z)) (O.mul s (O.neg o))
    rw [h00]
  | 0, 2 =>
    show O.add (O.add (O.mul (O.sub o c) (O.mul o z)) (O.mul c z)) (O.mul s z) = O.add (O.add (O.mul (O.sub o c) z) (O.mul c z)) (O.mul s z)
    rw [h10]
  | 1, 0 =>
    show O.add (O.add (O.mul (O.sub o c) (O.mul z z)) (O.mul c z)) (O.mul s o) = O.add (O.add (O.mul (O.sub o c) z) (O.mul c z)) (O.mul s o)
    rw [h00]
  | 1, 1 =>
    show O.add (O.add (O.mul (O.sub o c) (O.mul z z)) (O.mul c o)) (O.mul s z) = O.add (O.add (O.mul (O.sub o c) z) (O.mul c o)) (O.mul s z)
    rw [h00]
  | 1, 2 =>
    show O.add (O.add (O.mul (O.sub o c) (O.mul o z)) (O.mul c z)) (O.mul s (O.neg z)) = O.add (O.add (O.mul (O.sub o c) z) (O.mul c z)) (O.mul s z)
    rw [h10]; exact hz.symm
  | 2, 0 =>
    show O.add (O.add (O.mul (O.sub o c) (O.mul z o)) (O.mul c z)) (O.mul s (O.neg z)) = O.add (O.add (O.mul (O.sub o c) z) (O.mul c z)) (O.mul s z)
    rw [h01]; exact hz.symm
  | 2, 1 =>
    show O.add (O.add (O.mul (O.sub o c) (O.mul z o)) (O.mul c z)) (O.mul s z) = O.add (O.add (O.mul (O.sub o c) z) (O.mul c z)) (O.mul s z)
    rw [h01]
  | 2, 2 =>
    show O.add (O.add (O.mul (O.sub o c) (O.mul o o)) (O.mul c o)) (O.mul s z) = O.add (O.add (O.mul (O.sub o c) o) (O.mul c o)) (O.mul s z)
    rw [h11]


theorem turnZ_eq (P : Platform) (theta : F64) :
    rotate_3x3 P theta ![num 0, num 0, num 1] = (do return turnZ (← trig P.cos theta) (← trig P.sin theta)) := by
  simp only [rotate_3x3, turnZ_mat]

theorem rotate_int_runs {O : Ops} (h : Ops.ieee = O) (M : Machine) (n : Nat) (theta : F64) :
    (calls O M rangeCoordinates (n + 2)).method N.GPS N.rotate_3x3 [.float theta, .iarr ![.ofNat 0, .ofNat 0, .ofNat 1]]
      = up ((rotate_3x3 M.toPlatform theta ![num 0, num 0, num 1]).map .mat) := by
  rw [turnZ_eq]
  have hm := int_m1 h
  calc_ops h [turnZ_def] at hm ⊢
  calc_run h [attr_identity M h, hm]

end Dis.Calc
