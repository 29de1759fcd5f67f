import Verif.Proof.Body
import Verif.Proof.BodyExample

/-!
# Rounding in the body-frame models (C64)

`attitude o` is the rotation matrix of the Euler angles `o` (`Verif/Spec/Geo.lean`), `ofDouble` the number a
finite double stands for. `P.TrigOk`, `P.MatvecOk` and `P.SquareOk` are what is assumed of the C library's
`cos` and `sin`, of numpy's matrix-vector product and of `dt ** 2`.
-/

set_option exponentiation.threshold 4096

namespace Dis

open Geo Matrix

/-- **C64.** For finite Euler angles `get_rotation_matrix` returns finite entries within 2^-48 of those of the
rotation matrix. -/
theorem C64_matrix (P : Dbl.Platform) (hT : P.TrigOk) (psi theta phi : F64) (h1 : psi.Finite)
    (h2 : theta.Finite) (h3 : phi.Finite) :
    ∃ M, Dbl.get_rotation_matrix P psi theta phi = .ok M ∧ ∀ i j, (M i j).Finite ∧
      |ofDouble (M i j) - attitude ![ofDouble psi, ofDouble theta, ofDouble phi] i j| ≤ 1 / 2 ^ 48 := by
  obtain ⟨M, hM, h⟩ := rotation_near hT h1 h2 h3
  refine ⟨M, hM, fun i j => ⟨(h i j).1, ?_⟩⟩
  have e := (h i j).2.2
  rw [rotation_eq] at e
  exact e.trans (by norm_num)

/-- **C64.** Its rows are orthonormal up to 2^-45: products of two rows are within 2^-45 of 0, squares of one
within 2^-45 of 1. -/
theorem C64_orthonormal (P : Dbl.Platform) (hT : P.TrigOk) (psi theta phi : F64) (M : Dbl.Mat)
    (h1 : psi.Finite) (h2 : theta.Finite) (h3 : phi.Finite)
    (hM : Dbl.get_rotation_matrix P psi theta phi = .ok M) (i k : Fin 3) :
    |ofDouble (M i 0) * ofDouble (M k 0) + ofDouble (M i 1) * ofDouble (M k 1)
        + ofDouble (M i 2) * ofDouble (M k 2) - if i = k then 1 else 0| ≤ 1 / 2 ^ 45 := by
  obtain ⟨M', hM', h⟩ := rotation_near hT h1 h2 h3
  cases hM.symm.trans hM'
  have ho := congrFun (congrFun (isRotation_get (ofDouble psi) (ofDouble theta) (ofDouble phi)).1 i) k
  rw [Matrix.mul_apply, Fin.sum_univ_three, Matrix.one_apply] at ho
  simp only [Matrix.transpose_apply] at ho
  rw [← ho]
  generalize get_rotation_matrix (ofDouble psi) (ofDouble theta) (ofDouble phi) = R at *
  have key : ∀ j, |ofDouble (M i j) * ofDouble (M k j) - R i j * R k j| ≤ 29 / 2 ^ 52 := by
    intro j
    obtain ⟨-, a1, a2⟩ := h i j
    obtain ⟨-, b1, b2⟩ := h k j
    have t := abs_mul_sub_le (R i j) (R k j) (ofDouble (M i j)) (ofDouble (M k j))
    have g := abs_le_of_near b2
    have t1 : |ofDouble (M i j) - R i j| * |ofDouble (M k j)| ≤ 14 / 2 ^ 52 * (1 + 14 / 2 ^ 52) :=
      mul_le_mul a2 (by linarith) (abs_nonneg _) (by norm_num)
    have t2 : |R i j| * |ofDouble (M k j) - R k j| ≤ 1 * (14 / 2 ^ 52) :=
      mul_le_mul a1 b2 (abs_nonneg _) (by norm_num)
    norm_num at *
    linarith
  have k0 := key 0
  have k1 := key 1
  have k2 := key 2
  generalize ofDouble (M i 0) * ofDouble (M k 0) = x0 at *
  generalize ofDouble (M i 1) * ofDouble (M k 1) = x1 at *
  generalize ofDouble (M i 2) * ofDouble (M k 2) = x2 at *
  generalize R i 0 * R k 0 = y0 at *
  generalize R i 1 * R k 1 = y1 at *
  generalize R i 2 * R k 2 = y2 at *
  have e : x0 + x1 + x2 - (y0 + y1 + y2) = (x0 - y0) + (x1 - y1) + (x2 - y2) := by ring
  rw [e]
  have := abs_add_three (x0 - y0) (x1 - y1) (x2 - y2)
  norm_num at *
  linarith

/-- **C64.** Each finite component of the position returned by `drm_fpb` is `p + R v dt` up to rounding, `R` the
attitude; the orientation is returned as it is. -/
theorem C64_fpb (P : Dbl.Platform) (hT : P.TrigOk) (hM : P.MatvecOk)
    (position velocity orientation pos ori : Dbl.Vec) (dt : F64) (ho : ∀ k, (orientation k).Finite)
    (h : Dbl.drm_fpb P position velocity dt orientation = .ok (pos, ori)) (i : Fin 3) (hf : (pos i).Finite) :
    |ofDouble (pos i) - (ofDouble (position i)
        + (attitude (fun k => ofDouble (orientation k)) *ᵥ (fun k => ofDouble (velocity k))) i * ofDouble dt)|
      ≤ 1 / 2 ^ 53 * |ofDouble (position i)|
        + 1 / 2 ^ 47 * (|ofDouble (velocity 0)| + |ofDouble (velocity 1)| + |ofDouble (velocity 2)|) * |ofDouble dt|
        + 1 / 2 ^ 1069 * (1 + |ofDouble dt|) ∧
    ori = orientation := by
  obtain ⟨M, hR, hE⟩ := rotation_near hT (ho 0) (ho 1) (ho 2)
  unfold Dbl.drm_fpb at h
  rw [hR] at h
  cases h
  refine ⟨?_, rfl⟩
  have hw := (F64.mul_finite (F64.add_finite hf).2.1).1
  have hr := row_near hM (fun j => hE i j) (u := fun k => ofDouble (velocity k)) (e := 0)
    (fun j => by rw [sub_self, abs_zero]; exact le_rfl) hw
  have hm := madd_near hf hr
  have ha := fun j => entry_le (isRotation_get (ofDouble (orientation 0)) (ofDouble (orientation 1))
    (ofDouble (orientation 2))) i j
  have e1 : attitude (fun k => ofDouble (orientation k)) = get_rotation_matrix (ofDouble (orientation 0))
      (ofDouble (orientation 1)) (ofDouble (orientation 2)) := by rw [rotation_eq]; rfl
  rw [e1]
  generalize get_rotation_matrix (ofDouble (orientation 0)) (ofDouble (orientation 1))
    (ofDouble (orientation 2)) = R at *
  have e2 : (R *ᵥ fun k => ofDouble (velocity k)) i
      = R i 0 * ofDouble (velocity 0) + R i 1 * ofDouble (velocity 1) + R i 2 * ofDouble (velocity 2) := by
    simp only [Matrix.mulVec, dotProduct, Fin.sum_univ_three]
  rw [e2]
  have hs : |R i 0 * ofDouble (velocity 0) + R i 1 * ofDouble (velocity 1) + R i 2 * ofDouble (velocity 2)|
      ≤ |ofDouble (velocity 0)| + |ofDouble (velocity 1)| + |ofDouble (velocity 2)| := by
    refine (abs_add_three _ _ _).trans ?_
    have := fun j => mul_le_mul_of_nonneg_right (ha j) (abs_nonneg (ofDouble (velocity j)))
    simp only [abs_mul]
    have t0 := this 0
    have t1 := this 1
    have t2 := this 2
    linarith
  have hS := (abs_nonneg _).trans hs
  have c1 : (1 : ℝ) / 2 ^ 1070 = 32 * eta := by
    rw [show (1070 : ℕ) = 1075 - 5 from rfl, eta_pow 5 (by norm_num)]; norm_num
  have c2 : (1 : ℝ) / 2 ^ 1069 = 64 * eta := by
    rw [show (1069 : ℕ) = 1075 - 6 from rfl, eta_pow 6 (by norm_num)]; norm_num
  rw [c2]
  rw [c1] at hm
  refine hm.trans ?_
  have hT := abs_nonneg (ofDouble dt)
  have h0 := eta_pos
  generalize |R i 0 * ofDouble (velocity 0) + R i 1 * ofDouble (velocity 1) + R i 2 * ofDouble (velocity 2)| = W at *
  dsimp only [Pi.zero_apply]
  generalize |ofDouble (velocity 0)| + |ofDouble (velocity 1)| + |ofDouble (velocity 2)| = S at *
  generalize |ofDouble dt| = T at *
  have n1 : W * T ≤ S * T := mul_le_mul_of_nonneg_right hs hT
  have n2 : 0 ≤ S * T := mul_nonneg hS hT
  have n3 : 0 ≤ eta * T := mul_nonneg h0.le hT
  have x1 : (19 / 2 ^ 52 * S + (1 + 19 / 2 ^ 52) * (0 + 0 + 0) + 32 * eta) * T
      = 19 / 2 ^ 52 * (S * T) + 32 * (eta * T) := by ring
  have x2 : 1 / 2 ^ 47 * S * T = 1 / 2 ^ 47 * (S * T) := by ring
  have x3 : 64 * eta * (1 + T) = 64 * eta + 64 * (eta * T) := by ring
  rw [x1, x2, x3]
  generalize S * T = X at *
  generalize W * T = Y at *
  generalize eta * T = Z at *
  norm_num
  linarith

/-- **C64.** Each finite component of the position returned by `drm_fvb` is `p + R (v dt + a dt²/2)` up to
rounding; the orientation is returned as it is. -/
theorem C64_fvb (P : Dbl.Platform) (hT : P.TrigOk) (hM : P.MatvecOk) (hQ : P.SquareOk)
    (position velocity acceleration orientation pos ori : Dbl.Vec) (dt : F64)
    (ho : ∀ k, (orientation k).Finite) (hd : dt.Finite)
    (h : Dbl.drm_fvb P position velocity acceleration dt orientation = .ok (pos, ori)) (i : Fin 3)
    (hf : (pos i).Finite) :
    |ofDouble (pos i) - (ofDouble (position i)
        + (attitude (fun k => ofDouble (orientation k)) *ᵥ (fun k => ofDouble (velocity k) * ofDouble dt
          + ofDouble (acceleration k) * ofDouble dt ^ 2 / 2)) i)|
      ≤ 1 / 2 ^ 53 * |ofDouble (position i)|
        + 1 / 2 ^ 47 * ((|ofDouble (velocity 0) * ofDouble dt| + |ofDouble (acceleration 0) * ofDouble dt ^ 2 / 2|)
          + (|ofDouble (velocity 1) * ofDouble dt| + |ofDouble (acceleration 1) * ofDouble dt ^ 2 / 2|)
          + (|ofDouble (velocity 2) * ofDouble dt| + |ofDouble (acceleration 2) * ofDouble dt ^ 2 / 2|))
        + 1 / 2 ^ 1069 * (1 + |ofDouble (acceleration 0)| + |ofDouble (acceleration 1)|
          + |ofDouble (acceleration 2)| + ofDouble dt ^ 2) ∧
    ori = orientation := by
  obtain ⟨M, hR, hE⟩ := rotation_near hT (ho 0) (ho 1) (ho 2)
  unfold Dbl.drm_fvb at h
  rw [hR] at h
  cases hq : P.square dt with
  | error e => rw [hq] at h; cases h
  | ok q =>
  rw [hq] at h
  cases h
  refine ⟨?_, rfl⟩
  have hw := (F64.add_finite hf).2.1
  have hb := fun j => ((hM _ _ _ hw).1 j).2
  have hqf := (F64.mul_finite (F64.add_finite (hb 0)).2.1).2.1
  have hdisp := fun j => displacement_near (hQ dt q hd hq hqf) (hb j)
  have hr := row_near hM (fun j => hE i j) hdisp hw
  have hm := add_near hf (le_of_eq (by rw [sub_self, abs_zero]) :
    |ofDouble (position i) - ofDouble (position i)| ≤ 0) hr
  have ha := fun j => entry_le (isRotation_get (ofDouble (orientation 0)) (ofDouble (orientation 1))
    (ofDouble (orientation 2))) i j
  have e1 : attitude (fun k => ofDouble (orientation k)) = get_rotation_matrix (ofDouble (orientation 0))
      (ofDouble (orientation 1)) (ofDouble (orientation 2)) := by rw [rotation_eq]; rfl
  rw [e1]
  generalize get_rotation_matrix (ofDouble (orientation 0)) (ofDouble (orientation 1))
    (ofDouble (orientation 2)) = R at *
  have e2 : (R *ᵥ fun k => ofDouble (velocity k) * ofDouble dt + ofDouble (acceleration k) * ofDouble dt ^ 2 / 2) i
      = R i 0 * (ofDouble (velocity 0) * ofDouble dt + ofDouble (acceleration 0) * ofDouble dt ^ 2 / 2)
        + R i 1 * (ofDouble (velocity 1) * ofDouble dt + ofDouble (acceleration 1) * ofDouble dt ^ 2 / 2)
        + R i 2 * (ofDouble (velocity 2) * ofDouble dt + ofDouble (acceleration 2) * ofDouble dt ^ 2 / 2) := by
    simp only [Matrix.mulVec, dotProduct, Fin.sum_univ_three]
  rw [e2]
  clear e2 e1 hdisp hb hw hr
  refine hm.trans ?_
  clear hm
  have c1 : (1 : ℝ) / 2 ^ 1070 = 32 * eta := by
    rw [show (1070 : ℕ) = 1075 - 5 from rfl, eta_pow 5 (by norm_num)]; norm_num
  have c2 : (1 : ℝ) / 2 ^ 1069 = 64 * eta := by
    rw [show (1069 : ℕ) = 1075 - 6 from rfl, eta_pow 6 (by norm_num)]; norm_num
  rw [c1, c2]
  have d := fun j => abs_add_le (ofDouble (velocity j) * ofDouble dt) (ofDouble (acceleration j) * ofDouble dt ^ 2 / 2)
  have d0 := d 0
  have d1 := d 1
  have d2 := d 2
  have z : ∀ j, 0 ≤ |ofDouble (velocity j) * ofDouble dt| + |ofDouble (acceleration j) * ofDouble dt ^ 2 / 2| :=
    fun j => by positivity
  have z0 := z 0
  have z1 := z 1
  have z2 := z 2
  have r := fun j (x : ℝ) => mul_le_mul_of_nonneg_right (ha j) (abs_nonneg x)
  generalize ofDouble (velocity 0) * ofDouble dt + ofDouble (acceleration 0) * ofDouble dt ^ 2 / 2 = D0 at *
  generalize ofDouble (velocity 1) * ofDouble dt + ofDouble (acceleration 1) * ofDouble dt ^ 2 / 2 = D1 at *
  generalize ofDouble (velocity 2) * ofDouble dt + ofDouble (acceleration 2) * ofDouble dt ^ 2 / 2 = D2 at *
  generalize |ofDouble (velocity 0) * ofDouble dt| + |ofDouble (acceleration 0) * ofDouble dt ^ 2 / 2| = B0 at *
  generalize |ofDouble (velocity 1) * ofDouble dt| + |ofDouble (acceleration 1) * ofDouble dt ^ 2 / 2| = B1 at *
  generalize |ofDouble (velocity 2) * ofDouble dt| + |ofDouble (acceleration 2) * ofDouble dt ^ 2 / 2| = B2 at *
  have hs : |ofDouble (position i) + (R i 0 * D0 + R i 1 * D1 + R i 2 * D2)|
      ≤ |ofDouble (position i)| + (B0 + B1 + B2) := by
    refine (abs_add_le _ _).trans (add_le_add le_rfl ((abs_add_three _ _ _).trans ?_))
    simp only [abs_mul]
    have t0 := r 0 D0
    have t1 := r 1 D1
    have t2 := r 2 D2
    linarith
  generalize |ofDouble (position i) + (R i 0 * D0 + R i 1 * D1 + R i 2 * D2)| = W at *
  have a0 := abs_nonneg (ofDouble (acceleration 0))
  have a1 := abs_nonneg (ofDouble (acceleration 1))
  have a2 := abs_nonneg (ofDouble (acceleration 2))
  have hT := sq_nonneg (ofDouble dt)
  have h0 := eta_pos
  have hp := abs_nonneg (ofDouble (position i))
  have x1 : ∀ A, 4 * eta * (1 + A + ofDouble dt ^ 2) = 4 * eta + 4 * (eta * A) + 4 * (eta * ofDouble dt ^ 2) := by
    intro A; ring
  have x2 : ∀ A B C, 64 * eta * (1 + A + B + C + ofDouble dt ^ 2)
      = 64 * eta + 64 * (eta * A) + 64 * (eta * B) + 64 * (eta * C) + 64 * (eta * ofDouble dt ^ 2) := by
    intro A B C; ring
  rw [x1, x1, x1, x2]
  have y0 := mul_nonneg h0.le a0
  have y1 := mul_nonneg h0.le a1
  have y2 := mul_nonneg h0.le a2
  have y3 := mul_nonneg h0.le hT
  generalize eta * |ofDouble (acceleration 0)| = E0 at *
  generalize eta * |ofDouble (acceleration 1)| = E1 at *
  generalize eta * |ofDouble (acceleration 2)| = E2 at *
  generalize eta * ofDouble dt ^ 2 = E3 at *
  norm_num
  linarith

/-- **C64.** `drm_rpb` and `drm_rvb` give the positions of `drm_fpb` and `drm_fvb`, and the orientation of
`drm_rpw`, bit for bit. -/
theorem C64_rotating (P : Dbl.Platform)
    (position velocity acceleration orientation angular_velocity pos ori u : Dbl.Vec) (dt : F64) :
    (Dbl.drm_rpb P position velocity dt orientation angular_velocity = .ok (pos, ori) ↔
      Dbl.drm_fpb P position velocity dt orientation = .ok (pos, orientation) ∧
      ∃ u', Dbl.drm_rpw P position u dt orientation angular_velocity = .ok (u', ori)) ∧
    (Dbl.drm_rvb P position velocity acceleration dt orientation angular_velocity = .ok (pos, ori) ↔
      Dbl.drm_fvb P position velocity acceleration dt orientation = .ok (pos, orientation) ∧
      ∃ u', Dbl.drm_rpw P position u dt orientation angular_velocity = .ok (u', ori)) := by
  unfold Dbl.drm_rpb Dbl.drm_rvb Dbl.drm_fpb Dbl.drm_fvb Dbl.drm_rpw
  cases Dbl.rates P orientation angular_velocity with
  | error e =>
    refine ⟨⟨(fun h => by cases h), ?_⟩, ⟨(fun h => by cases h), ?_⟩⟩ <;> rintro ⟨-, u', h⟩ <;> cases h
  | ok d =>
    cases Dbl.get_rotation_matrix P (orientation 0) (orientation 1) (orientation 2) with
    | error e =>
      refine ⟨⟨(fun h => by cases h), ?_⟩, ⟨(fun h => by cases h), ?_⟩⟩ <;> rintro ⟨h, -⟩ <;> cases h
    | ok M =>
      refine ⟨?_, ?_⟩
      · constructor
        · intro h
          cases h
          exact ⟨rfl, _, rfl⟩
        · rintro ⟨h, u', h'⟩
          cases h
          cases h'
          rfl
      · cases P.square dt with
        | error e => exact ⟨(fun h => by cases h), (fun h => by cases h.1)⟩
        | ok q =>
          constructor
          · intro h
            cases h
            exact ⟨rfl, _, rfl⟩
          · rintro ⟨h, u', h'⟩
            cases h
            cases h'
            rfl

/-- **C64.** `get_rotation_matrix`, `drm_fpb` and `drm_rpb` raise only `ValueError`, exactly if an angle is
infinite; `drm_fvb` and `drm_rvb` also raise what `dt ** 2` raises. -/
theorem C64_raises (P : Dbl.Platform) (position velocity acceleration orientation angular_velocity : Dbl.Vec)
    (dt : F64) (e : PyErr) :
    (Dbl.get_rotation_matrix P (orientation 0) (orientation 1) (orientation 2) = .error e ↔
      e = .valueError ∧ ∃ k, (orientation k).Infinite) ∧
    (Dbl.drm_fpb P position velocity dt orientation = .error e ↔
      e = .valueError ∧ ∃ k, (orientation k).Infinite) ∧
    (Dbl.drm_rpb P position velocity dt orientation angular_velocity = .error e ↔
      e = .valueError ∧ ∃ k, (orientation k).Infinite) ∧
    (Dbl.drm_fvb P position velocity acceleration dt orientation = .error e ↔
      (e = .valueError ∧ ∃ k, (orientation k).Infinite) ∨
        (¬ ∃ k, (orientation k).Infinite) ∧ P.square dt = .error e) ∧
    (Dbl.drm_rvb P position velocity acceleration dt orientation angular_velocity = .error e ↔
      (e = .valueError ∧ ∃ k, (orientation k).Infinite) ∨
        (¬ ∃ k, (orientation k).Infinite) ∧ P.square dt = .error e) := by
  have hk : (∃ k, (orientation k).Infinite) ↔
      (orientation 0).Infinite ∨ (orientation 1).Infinite ∨ (orientation 2).Infinite := by
    constructor
    · rintro ⟨k, h⟩
      match k with
      | 0 => exact .inl h
      | 1 => exact .inr (.inl h)
      | 2 => exact .inr (.inr h)
    · rintro (h | h | h)
      exacts [⟨_, h⟩, ⟨_, h⟩, ⟨_, h⟩]
  have hg := fun e => (Dbl.rotation_error (P := P) (psi := orientation 0) (theta := orientation 1)
    (phi := orientation 2) e).trans (and_congr_right fun _ => hk.symm)
  have hr := fun e => Dbl.rates_error (P := P) (o := orientation) (av := angular_velocity) e
  refine ⟨hg e, ?_⟩
  unfold Dbl.drm_rpb Dbl.drm_rvb Dbl.drm_fpb Dbl.drm_fvb Dbl.drm_rpw
  cases hM : Dbl.get_rotation_matrix P (orientation 0) (orientation 1) (orientation 2) with
  | error e' =>
    obtain ⟨rfl, hx⟩ := (hg e').1 hM
    have one : ∀ {α : Type} (m : Except PyErr α), m = .error .valueError →
        (m = .error e ↔ e = .valueError ∧ ∃ k, (orientation k).Infinite) := by
      rintro α m rfl
      exact ⟨(fun h => by cases h; exact ⟨rfl, hx⟩), (fun h => by rw [h.1])⟩
    have two : ∀ {α : Type} (m : Except PyErr α), m = .error .valueError →
        (m = .error e ↔ (e = .valueError ∧ ∃ k, (orientation k).Infinite) ∨
        (¬ ∃ k, (orientation k).Infinite) ∧ P.square dt = .error e) := by
      rintro α m rfl
      exact ⟨(fun h => by cases h; exact .inl ⟨rfl, hx⟩),
        (fun h => h.elim (fun h => by rw [h.1]) (fun h => absurd hx h.1))⟩
    refine ⟨one _ rfl, one _ ?_, two _ rfl, two _ ?_⟩ <;>
    · cases hR : Dbl.rates P orientation angular_velocity with
      | error e'' =>
        obtain ⟨rfl, -⟩ := (hr e'').1 hR
        rfl
      | ok d => rfl
  | ok M =>
    have hn : ¬ ∃ k, (orientation k).Infinite := fun h => by
      cases hM.symm.trans ((hg .valueError).2 ⟨rfl, h⟩)
    have hd : ∃ d, Dbl.rates P orientation angular_velocity = .ok d := by
      cases hR : Dbl.rates P orientation angular_velocity with
      | error e'' =>
        obtain ⟨-, h⟩ := (hr e'').1 hR
        exact absurd (hk.2 (.inr h)) hn
      | ok d => exact ⟨d, rfl⟩
    obtain ⟨d, hd⟩ := hd
    rw [hd]
    refine ⟨⟨(fun h => by cases h), (fun h => absurd h.2 hn)⟩,
      ⟨(fun h => by cases h), (fun h => absurd h.2 hn)⟩, ?_, ?_⟩
    · cases hq : P.square dt with
      | error e' =>
        refine ⟨(fun h => by cases h; exact .inr ⟨hn, rfl⟩), ?_⟩
        rintro (h | ⟨-, h⟩)
        · exact absurd h.2 hn
        · cases h; rfl
      | ok q =>
        refine ⟨(fun h => by cases h), ?_⟩
        rintro (h | ⟨-, h⟩)
        · exact absurd h.2 hn
        · cases h
    · cases hq : P.square dt with
      | error e' =>
        refine ⟨(fun h => by cases h; exact .inr ⟨hn, rfl⟩), ?_⟩
        rintro (h | ⟨-, h⟩)
        · exact absurd h.2 hn
        · cases h; rfl
      | ok q =>
        refine ⟨(fun h => by cases h), ?_⟩
        rintro (h | ⟨-, h⟩)
        · exact absurd h.2 hn
        · cases h

/-! ## Examples -/

/-- At 6378137 m, with a velocity of 3 m/s forward and an acceleration of 1 m/s² to the right, after 0.2 s: a
platform that meets the assumptions returns finite positions, whatever the attitude. -/
example (o : Dbl.Vec) (ho : ∀ k, (o k).Finite) : reference.TrigOk ∧ reference.MatvecOk ∧ reference.SquareOk ∧
    (∃ pos, Dbl.drm_fpb reference (fun _ => 0x415854a640000000)
      (fun i => match i with | 0 => 0x4008000000000000 | 1 => 0 | 2 => 0) 0x3fc999999999999a o = .ok (pos, o) ∧
      ∀ i, (pos i).Finite) ∧
    ∃ pos, Dbl.drm_fvb reference (fun _ => 0x415854a640000000)
      (fun i => match i with | 0 => 0x4008000000000000 | 1 => 0 | 2 => 0)
      (fun i => match i with | 0 => 0 | 1 => 0x3ff0000000000000 | 2 => 0) 0x3fc999999999999a o = .ok (pos, o) ∧
      ∀ i, (pos i).Finite := by
  have f : ∀ x : F64, x.expo ≠ 2047 → x.Finite := fun _ h => h
  refine ⟨reference_trig, reference_matvec, reference_square, reference_fpb ho ?_ ?_ ?_,
    reference_fvb ho ?_ ?_ ?_ ?_⟩
  · exact fun k => ⟨f _ (by decide), abs_le_pow _ 40 (by decide +kernel)⟩
  · intro k
    match k with
    | 0 => exact ⟨f _ (by decide), abs_le_pow _ 40 (by decide +kernel)⟩
    | 1 => exact ⟨f _ (by decide), abs_le_pow _ 40 (by decide +kernel)⟩
    | 2 => exact ⟨f _ (by decide), abs_le_pow _ 40 (by decide +kernel)⟩
  · exact ⟨f _ (by decide), abs_le_pow _ 40 (by decide +kernel)⟩
  · exact fun k => ⟨f _ (by decide), abs_le_pow _ 40 (by decide +kernel)⟩
  · intro k
    match k with
    | 0 => exact ⟨f _ (by decide), abs_le_pow _ 15 (by decide +kernel)⟩
    | 1 => exact ⟨f _ (by decide), abs_le_pow _ 15 (by decide +kernel)⟩
    | 2 => exact ⟨f _ (by decide), abs_le_pow _ 15 (by decide +kernel)⟩
  · intro k
    match k with
    | 0 => exact ⟨f _ (by decide), abs_le_pow _ 10 (by decide +kernel)⟩
    | 1 => exact ⟨f _ (by decide), abs_le_pow _ 10 (by decide +kernel)⟩
    | 2 => exact ⟨f _ (by decide), abs_le_pow _ 10 (by decide +kernel)⟩
  · exact ⟨f _ (by decide), abs_le_pow _ 10 (by decide +kernel)⟩

end Dis
