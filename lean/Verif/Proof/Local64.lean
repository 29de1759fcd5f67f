import Verif.Proof.Ned64

/-!
# `ecef2ned` and `ned2ecef` in doubles
-/

set_option exponentiation.threshold 4096

namespace Dis.Geo

open Matrix

theorem ned_entries {P : Dbl.Platform} (h3 : P.TrigOk) {lat lon : F64} (hlat : lat.Finite) (hlon : lon.Finite) :
    ∃ M M', Dbl.ecefvec2nedvec P lat lon = .ok M ∧ Dbl.nedvec2ecefvec P lat lon = .ok M' ∧
      (∀ i j, Ap (M i j) ((nedFrame (ofDouble lat) (ofDouble lon))ᵀ i j) 6e-16) ∧
      ∀ i j, Ap (M' i j) (nedFrame (ofDouble lat) (ofDouble lon) i j) 6e-16 := by
  obtain ⟨e1, s⟩ := Ap.sin h3 (Ap.self hlat) (g := 2.3e-16) (by norm_num)
  obtain ⟨e2, c⟩ := Ap.cos h3 (Ap.self hlat) (g := 2.3e-16) (by norm_num)
  obtain ⟨e3, sl⟩ := Ap.sin h3 (Ap.self hlon) (g := 2.3e-16) (by norm_num)
  obtain ⟨e4, cl⟩ := Ap.cos h3 (Ap.self hlon) (g := 2.3e-16) (by norm_num)
  obtain ⟨M, e5, f⟩ := ned_near h3 hlat hlon
  have k : ∀ i j, Ap (M i j) ((nedFrame (ofDouble lat) (ofDouble lon))ᵀ i j) 6e-16 := fun i j => by
    fin_cases i
    · have := f.x j
      rwa [col0] at this
    · have := f.y j
      rwa [col1] at this
    · have := f.z j
      rwa [col2] at this
  refine ⟨M, fun i j => M j i, e5, ?_, k, fun i j => k j i⟩
  rw [Dbl.ecefvec2nedvec, e1, e2, e3, e4, bind_ok, bind_ok, bind_ok, bind_ok] at e5
  injection e5 with e5
  rw [Dbl.nedvec2ecefvec, e1, e2, e3, e4, bind_ok, bind_ok, bind_ok, bind_ok]
  show Except.ok _ = _
  congr 1
  rw [← e5]
  funext i j
  fin_cases i <;> fin_cases j <;> rfl

theorem offset_near {a b : Dbl.Vec} {D : ℝ} (ha : ∀ i, (a i).Finite) (hb : ∀ i, (b i).Finite)
    (hD : ∀ i, |ofDouble (a i) - ofDouble (b i)| ≤ D) (bD : D ≤ 2 ^ 300) (i : Fin 3) :
    Ap (Dbl.vsub a b i) (ofDouble (a i) - ofDouble (b i)) (1.12e-16 * D) :=
  (Ap.self (ha i)).sub (Ap.self (hb i)) (hD i) (by rw [add_zero, add_zero]; exact bD.trans (by norm_num)) (by
    have := (abs_nonneg _).trans (hD 0)
    norm_num
    linarith)

theorem sum3_le {M : Mat} {v : Vec} {D : ℝ} (hM : IsRotation M) (hv : ∀ i, |v i| ≤ D) (i : Fin 3) :
    |(M *ᵥ v) i| ≤ 3 * D := by
  rw [mulVec, dotProduct, Fin.sum_univ_three]
  have k : ∀ m, |M i m * v m| ≤ D := fun m => by
    rw [mul_comm]
    exact scale (hv m) (hM.entry_le i m)
  exact (tri (k 0) (k 1) (k 2)).trans (by linarith)

/-- `ecef2ned`, against the frame at the latitude and longitude used. -/
theorem to_ned {L : Dbl.Numpy} (hL : L.Accurate) {ecef origin lla : Dbl.Vec} {D : ℝ}
    (hlla : Dbl.ecef2lla L.toLibm origin Dbl.defaultTolerance = some (.ok lla)) (h0 : (Dbl.deg2rad (lla 0)).Finite)
    (h1 : (Dbl.deg2rad (lla 1)).Finite) (he : ∀ i, (ecef i).Finite) (ho : ∀ i, (origin i).Finite)
    (hD : ∀ i, |ofDouble (ecef i) - ofDouble (origin i)| ≤ D) (bD : D ≤ 2 ^ 300) :
    ∃ ned, Dbl.ecef2ned L.toLibm ecef origin = some (.ok ned) ∧
      ∀ i, Ap (ned i) (((nedFrame (ofDouble (Dbl.deg2rad (lla 0))) (ofDouble (Dbl.deg2rad (lla 1))))ᵀ
        *ᵥ fun i => ofDouble (ecef i) - ofDouble (origin i)) i) (5e-15 * D + 2e-30) := by
  obtain ⟨M, M', e, -, k, -⟩ := ned_entries hL.trig h0 h1
  have D0 := (abs_nonneg _).trans (hD 0)
  refine ⟨_, by rw [Dbl.ecef2ned, hlla]; simp only [e, bind_ok]; rfl, fun i => ?_⟩
  refine matvec_near hL.matvec hL.matvecFinite k (offset_near he ho hD bD)
    (fun i j => (isRotation_ned _ _).transpose.entry_le i j) hD (by norm_num) ?_ ?_ i
  · have : (2 : ℝ) * 2 ^ 300 ≤ 2 ^ 400 := by norm_num
    generalize (2 : ℝ) ^ 400 = A at *
    generalize (2 : ℝ) ^ 300 = B at *
    norm_num
    linarith
  · norm_num
    linarith

/-- `ned2ecef`, likewise. -/
theorem from_ned {L : Dbl.Numpy} (hL : L.Accurate) {ned origin lla : Dbl.Vec} {v : Vec} {D f : ℝ}
    (hlla : Dbl.ecef2lla L.toLibm origin Dbl.defaultTolerance = some (.ok lla)) (h0 : (Dbl.deg2rad (lla 0)).Finite)
    (h1 : (Dbl.deg2rad (lla 1)).Finite) (ho : ∀ i, (origin i).Finite) (hn : ∀ i, Ap (ned i) (v i) f)
    (hv : ∀ i, |v i| ≤ D) (bD : D ≤ 2 ^ 302) (hf : f ≤ 1e-3 * D + 1) {S : Fin 3 → ℝ} (hS : ∀ i, S i ≤ 2 ^ 990)
    (bS : ∀ i, |(nedFrame (ofDouble (Dbl.deg2rad (lla 0))) (ofDouble (Dbl.deg2rad (lla 1))) *ᵥ v) i + ofDouble (origin i)| ≤ S i) :
    ∃ ecef, Dbl.ned2ecef L.toLibm ned origin = some (.ok ecef) ∧
      ∀ i, Ap (ecef i) ((nedFrame (ofDouble (Dbl.deg2rad (lla 0))) (ofDouble (Dbl.deg2rad (lla 1))) *ᵥ v) i
        + ofDouble (origin i)) (4.5e-15 * D + 3.01 * f + 1.12e-16 * S i + 2e-30) := by
  obtain ⟨M, M', -, e, -, k⟩ := ned_entries hL.trig h0 h1
  have D0 := (abs_nonneg _).trans (hv 0)
  have f0 := (hn 0).nonneg
  refine ⟨_, by rw [Dbl.ned2ecef, hlla]; simp only [e, bind_ok]; rfl, fun i => ?_⟩
  have S0 := (abs_nonneg _).trans (bS i)
  have hS := hS i
  have m := matvec_near hL.matvec hL.matvecFinite k hn (fun i j => (isRotation_ned _ _).entry_le i j) hv (by norm_num) (by
    have : (2 : ℝ) * 2 ^ 302 + 1 ≤ 2 ^ 400 := by norm_num
    generalize (2 : ℝ) ^ 400 = A at *
    generalize (2 : ℝ) ^ 302 = B at *
    norm_num at hf ⊢
    linarith) (g := 4.48e-15 * D + 3.001 * f + 1.9e-30) (by norm_num; linarith) i
  refine m.add (Ap.self (ho i)) (bS i) ?_ ?_
  · have : (16 : ℝ) * 2 ^ 302 + 2 ^ 990 + 16 ≤ 2 ^ 1000 := by norm_num
    generalize (2 : ℝ) ^ 1000 = A at *
    generalize (2 : ℝ) ^ 302 = B at *
    generalize (2 : ℝ) ^ 990 = C at *
    norm_num at hf ⊢
    linarith
  · norm_num
    linarith

/-- The frames at two places. -/
theorem frame_near {t t' l l' d e : ℝ} (ht : |t' - t| ≤ d) (hc : |Real.cos l' - Real.cos l| ≤ e)
    (hs : |Real.sin l' - Real.sin l| ≤ e) {v : Vec} {D : ℝ} (hv : ∀ i, |v i| ≤ D) (i : Fin 3) :
    |((nedFrame t' l')ᵀ *ᵥ v) i - ((nedFrame t l)ᵀ *ᵥ v) i| ≤ (3 * d + 2 * e) * D := by
  have d0 := (abs_nonneg _).trans ht
  have e0 := (abs_nonneg _).trans hc
  have D0 := (abs_nonneg _).trans (hv 0)
  have s1 := (Real.abs_sin_sub_sin_le t' t).trans ht
  have c1 := (Real.abs_cos_sub_cos_le t' t).trans ht
  have p : ∀ {x x' y y' : ℝ}, |x' - x| ≤ d → |y' - y| ≤ e → |x| ≤ 1 → |y'| ≤ 1 → |x' * y' - x * y| ≤ d + e :=
    fun {x x' y y'} h1 h2 h3 h4 => by
    rw [show x' * y' - x * y = (x' - x) * y' + (y' - y) * x by ring]
    exact (abs_add_le _ _).trans (add_le_add (scale h1 h4) (scale h2 h3))
  have q : ∀ {x y a b : ℝ}, |x| ≤ a → |y| ≤ D → a ≤ b → |x * y| ≤ b * D := fun {x y a b} h1 h2 h3 => by
    rw [abs_mul]
    exact mul_le_mul (h1.trans h3) h2 (abs_nonneg _) (((abs_nonneg _).trans h1).trans h3)
  have t1 := Real.abs_sin_le_one t
  have t2 := Real.abs_cos_le_one t
  have l1 := Real.abs_sin_le_one l'
  have l2 := Real.abs_cos_le_one l'
  rw [mulVec, mulVec, dotProduct, dotProduct, Fin.sum_univ_three, Fin.sum_univ_three]
  fin_cases i
  · show |(-(Real.sin t' * Real.cos l') * v 0 + -(Real.sin t' * Real.sin l') * v 1 + Real.cos t' * v 2)
      - (-(Real.sin t * Real.cos l) * v 0 + -(Real.sin t * Real.sin l) * v 1 + Real.cos t * v 2)| ≤ _
    rw [show (-(Real.sin t' * Real.cos l') * v 0 + -(Real.sin t' * Real.sin l') * v 1 + Real.cos t' * v 2)
      - (-(Real.sin t * Real.cos l) * v 0 + -(Real.sin t * Real.sin l) * v 1 + Real.cos t * v 2)
      = -((Real.sin t' * Real.cos l' - Real.sin t * Real.cos l) * v 0)
        + -((Real.sin t' * Real.sin l' - Real.sin t * Real.sin l) * v 1) + (Real.cos t' - Real.cos t) * v 2 by ring]
    refine (tri (A := (d + e) * D) (B := (d + e) * D) (T := d * D) ?_ ?_ ?_).trans (le_of_eq (by ring))
    · rw [abs_neg]; exact q (p s1 hc t1 l2) (hv 0) le_rfl
    · rw [abs_neg]; exact q (p s1 hs t1 l1) (hv 1) le_rfl
    · exact q c1 (hv 2) le_rfl
  · show |(-Real.sin l' * v 0 + Real.cos l' * v 1 + 0 * v 2) - (-Real.sin l * v 0 + Real.cos l * v 1 + 0 * v 2)| ≤ _
    rw [show (-Real.sin l' * v 0 + Real.cos l' * v 1 + 0 * v 2) - (-Real.sin l * v 0 + Real.cos l * v 1 + 0 * v 2)
      = -((Real.sin l' - Real.sin l) * v 0) + (Real.cos l' - Real.cos l) * v 1 + 0 by ring]
    refine (tri (A := e * D) (B := e * D) (T := 0) ?_ ?_ (by simp)).trans ?_
    · rw [abs_neg]; exact q hs (hv 0) le_rfl
    · exact q hc (hv 1) le_rfl
    · have := mul_nonneg d0 D0
      linarith
  · show |(-(Real.cos t' * Real.cos l') * v 0 + -(Real.cos t' * Real.sin l') * v 1 + -Real.sin t' * v 2)
      - (-(Real.cos t * Real.cos l) * v 0 + -(Real.cos t * Real.sin l) * v 1 + -Real.sin t * v 2)| ≤ _
    rw [show (-(Real.cos t' * Real.cos l') * v 0 + -(Real.cos t' * Real.sin l') * v 1 + -Real.sin t' * v 2)
      - (-(Real.cos t * Real.cos l) * v 0 + -(Real.cos t * Real.sin l) * v 1 + -Real.sin t * v 2)
      = -((Real.cos t' * Real.cos l' - Real.cos t * Real.cos l) * v 0)
        + -((Real.cos t' * Real.sin l' - Real.cos t * Real.sin l) * v 1) + -((Real.sin t' - Real.sin t) * v 2) by ring]
    refine (tri (A := (d + e) * D) (B := (d + e) * D) (T := d * D) ?_ ?_ ?_).trans (le_of_eq (by ring))
    · rw [abs_neg]; exact q (p c1 hc t2 l2) (hv 0) le_rfl
    · rw [abs_neg]; exact q (p c1 hs t2 l1) (hv 1) le_rfl
    · rw [abs_neg]; exact q s1 (hv 2) le_rfl

end Dis.Geo
