import Verif.Model.DeadReckoning
import Verif.Spec.Float

/-!
# When the trigonometric functions raise
-/

namespace Dis.Dbl

theorem trig_inf {x : F64} (h : x.Infinite) (f : F64 → F64) : trig f x = .error .valueError := if_pos h
theorem trig_ok {x : F64} (h : ¬ x.Infinite) (f : F64 → F64) : trig f x = .ok (f x) := if_neg h

/-- The rates of finite or NaN angles. -/
theorem rates_ok {P : Platform} {o av : Vec} (h1 : ¬ (o 1).Infinite) (h2 : ¬ (o 2).Infinite) :
    rates P o av = .ok (if F64.absLt (P.cos (o 1)) gimbal then
        (av 0, F64.sub (F64.mul (av 1) (P.cos (o 2))) (F64.mul (av 2) (P.sin (o 2))), F64.mk 0 0 0)
      else
        (F64.add (av 0) (F64.mul (F64.add (F64.mul (av 1) (P.sin (o 2))) (F64.mul (av 2) (P.cos (o 2)))) (P.tan (o 1))),
          F64.sub (F64.mul (av 1) (P.cos (o 2))) (F64.mul (av 2) (P.sin (o 2))),
          F64.div (F64.add (F64.mul (av 1) (P.sin (o 2))) (F64.mul (av 2) (P.cos (o 2)))) (P.cos (o 1)))) := by
  unfold rates
  simp only [trig_ok h1, trig_ok h2, bind, Except.bind, pure, Except.pure]
  split <;> rfl

theorem rates_error {P : Platform} {o av : Vec} (e : PyErr) :
    rates P o av = .error e ↔ e = .valueError ∧ ((o 1).Infinite ∨ (o 2).Infinite) := by
  by_cases h2 : (o 2).Infinite
  · unfold rates
    simp only [trig_inf h2, bind, Except.bind]
    exact ⟨(fun h => by cases h; exact ⟨rfl, .inr h2⟩), (fun h => by rw [h.1])⟩
  · by_cases h1 : (o 1).Infinite
    · unfold rates
      simp only [trig_ok h2, trig_inf h1, bind, Except.bind]
      exact ⟨(fun h => by cases h; exact ⟨rfl, .inl h1⟩), (fun h => by rw [h.1])⟩
    · rw [rates_ok h1 h2]
      exact ⟨(fun h => by cases h), (fun h => (h.2.elim h1 h2).elim)⟩

theorem rotation_ok {P : Platform} {psi theta phi : F64} (h1 : ¬ psi.Infinite) (h2 : ¬ theta.Infinite)
    (h3 : ¬ phi.Infinite) : ∃ M, get_rotation_matrix P psi theta phi = .ok M := by
  unfold get_rotation_matrix
  simp only [trig_ok h1, trig_ok h2, trig_ok h3, bind, Except.bind, pure, Except.pure]
  exact ⟨_, rfl⟩

theorem rotation_error {P : Platform} {psi theta phi : F64} (e : PyErr) :
    get_rotation_matrix P psi theta phi = .error e ↔
      e = .valueError ∧ (psi.Infinite ∨ theta.Infinite ∨ phi.Infinite) := by
  by_cases h1 : psi.Infinite
  · unfold get_rotation_matrix
    simp only [trig_inf h1, bind, Except.bind]
    exact ⟨(fun h => by cases h; exact ⟨rfl, .inl h1⟩), (fun h => by rw [h.1])⟩
  · by_cases h2 : theta.Infinite
    · unfold get_rotation_matrix
      simp only [trig_ok h1, trig_inf h2, bind, Except.bind]
      exact ⟨(fun h => by cases h; exact ⟨rfl, .inr (.inl h2)⟩), (fun h => by rw [h.1])⟩
    · by_cases h3 : phi.Infinite
      · unfold get_rotation_matrix
        simp only [trig_ok h1, trig_ok h2, trig_inf h3, bind, Except.bind]
        exact ⟨(fun h => by cases h; exact ⟨rfl, .inr (.inr h3)⟩), (fun h => by rw [h.1])⟩
      · obtain ⟨M, hM⟩ := rotation_ok (P := P) h1 h2 h3
        rw [hM]
        exact ⟨(fun h => by cases h), (fun h => (h.2.elim h1 fun h => h.elim h2 h3).elim)⟩

end Dis.Dbl
