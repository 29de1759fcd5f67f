import Verif.Proof.Geodetic64e
import Verif.Proof.Lla64

/-!
# `ecef2lla` in doubles
-/

set_option exponentiation.threshold 4096

namespace Dis.Geo

open WGS84

/-! ## The distance from the axis -/

theorem square_rel {P : Dbl.Platform} (h1 : P.SquareOk) (h2 : P.SquareReturns) {x : F64} (hx : x.Finite)
    (bx : |ofDouble x| ≤ 2 ^ 500) : ∃ s, P.square x = .ok s ∧ s.Finite ∧
      |ofDouble s - ofDouble x ^ 2| ≤ 1 / 2 ^ 52 * ofDouble x ^ 2 + 1 / 2 ^ 99 := by
  obtain ⟨s, e1, e2⟩ := h2 x hx bx
  refine ⟨s, e1, e2, (h1 x s hx e1 e2).trans ?_⟩
  have := tiny
  linarith

theorem p_near {P : Dbl.Platform} (h1 : P.SquareOk) (h2 : P.SquareReturns) {x y : F64} (hx : x.Finite) (hy : y.Finite)
    (bx : |ofDouble x| ≤ 1e7) (by' : |ofDouble y| ≤ 1e7)
    (hr : 0.9 ≤ Real.sqrt (ofDouble x ^ 2 + ofDouble y ^ 2)) :
    ∃ p, (do let x2 ← P.square x; let y2 ← P.square y; F64.sqrt (F64.add x2 y2) : Except PyErr F64) = .ok p ∧
      Ap p (Real.sqrt (ofDouble x ^ 2 + ofDouble y ^ 2)) 1e-8 := by
  have big : (1e7 : ℝ) ≤ 2 ^ 500 := by norm_num
  obtain ⟨sx, e1, f1, g1⟩ := square_rel h1 h2 hx (bx.trans big)
  obtain ⟨sy, e2, f2, g2⟩ := square_rel h1 h2 hy (by'.trans big)
  have qx : ofDouble x ^ 2 ≤ 1e14 := by
    rw [← sq_abs]
    exact (pow_le_pow_left₀ (abs_nonneg _) bx 2).trans (by norm_num)
  have qy : ofDouble y ^ 2 ≤ 1e14 := by
    rw [← sq_abs]
    exact (pow_le_pow_left₀ (abs_nonneg _) by' 2).trans (by norm_num)
  have px := sq_nonneg (ofDouble x)
  have py := sq_nonneg (ofDouble y)
  have hS0 : 0 ≤ ofDouble x ^ 2 + ofDouble y ^ 2 := by positivity
  have hrr := Real.mul_self_sqrt hS0
  set r := Real.sqrt (ofDouble x ^ 2 + ofDouble y ^ 2) with hrdef
  have rr : 0.81 ≤ r * r := by nlinarith
  have r0 : 0 < r := by norm_num at hr; linarith
  have ru : r ≤ 1.5e7 := by
    rw [hrdef, Real.sqrt_le_iff]
    norm_num at qx qy ⊢
    linarith
  have A : Ap (F64.add sx sy) (ofDouble x ^ 2 + ofDouble y ^ 2) (3.4e-16 * (r * r)) := by
    have fin : (F64.add sx sy).Finite := by
      refine add_finite_of f1 f2 ?_
      have k1 := abs_le.1 g1
      have k2 := abs_le.1 g2
      rw [abs_le]
      have : (1e20 : ℝ) ≤ 2 ^ 1000 := by norm_num
      norm_num at k1 k2 qx qy this ⊢
      constructor <;> linarith only [k1.1, k1.2, k2.1, k2.2, qx, qy, px, py, this]
    refine ⟨fin, (add_near fin g1 g2).trans ?_⟩
    rw [abs_of_nonneg hS0, hrr]
    rw [hrr] at rr
    norm_num at rr ⊢
    linarith
  obtain ⟨p, e3, e4⟩ := A.sqrt (q := 0.99 * r) (S := r) (g := 3e-16 * r) (by positivity)
    (by rw [← hrr]; nlinarith) le_rfl (by
      rw [show 3.4e-16 * (r * r) / (2 * (0.99 * r)) = 3.4e-16 / 1.98 * r by field_simp; norm_num]
      norm_num
      linarith)
  refine ⟨p, by rw [e1, bind_ok, e2, bind_ok]; exact e3, e4.mono ?_⟩
  norm_num at ru ⊢
  linarith

/-! ## Off the axis -/

/-- A function that returns, off the axis. -/
theorem ecef2lla_off {L : Dbl.Libm} {pos : Dbl.Vec} {tol p : F64}
    (hp : (do let x2 ← L.square (pos 0); let y2 ← L.square (pos 1); F64.sqrt (F64.add x2 y2) : Except PyErr F64) = .ok p)
    (hne : ¬ ((pos 0).mag = 0 ∧ (pos 1).mag = 0)) {s : Dbl.LoopState}
    (hl : Dbl.ecef2lla_loop L p (pos 2) tol = some (.ok s)) :
    Dbl.ecef2lla L pos tol = some (.ok ![Dbl.rad2deg s.lat, Dbl.rad2deg (L.atan2 (pos 1) (pos 0)), s.alt]) := by
  unfold Dbl.ecef2lla
  dsimp only
  rw [hp]
  dsimp only
  rw [if_neg hne, hl]

theorem val_zero_of_mag {x : F64} (h : x.mag = 0) : ofDouble x = 0 := by
  have : x.units = 0 := by rw [← Int.natAbs_eq_zero, F64.units_abs, h]
  unfold ofDouble
  rw [this]
  simp

theorem sqrt_lip2 {x y u v δ : ℝ} (hx : |x - u| ≤ δ) (hy : |y - v| ≤ δ) :
    |Real.sqrt (x ^ 2 + y ^ 2) - Real.sqrt (u ^ 2 + v ^ 2)| ≤ 2 * δ := by
  have g1 := R_lip x y v
  have g2 := R_lip2 x u v
  unfold R at g1 g2
  refine (abs_sub_tri _ (Real.sqrt (x ^ 2 + v ^ 2)) _).trans ?_
  linarith

theorem rad2deg_lip (r lat : ℝ) (d : ℝ) (h : |r - lat * Real.pi / 180| ≤ d) : |rad2deg r - lat| ≤ d * 57.3 := by
  have hd : 0 ≤ d := (abs_nonneg _).trans h
  have hpi := Real.pi_gt_d4
  have e1 : rad2deg r - lat = (r - lat * Real.pi / 180) * (180 / Real.pi) := by
    unfold rad2deg; field_simp
  rw [e1, abs_mul, abs_of_pos (show 0 < 180 / Real.pi by positivity)]
  have h9 : 180 / Real.pi ≤ 57.3 := by
    rw [div_le_iff₀ Real.pi_pos]; norm_num at hpi ⊢; linarith
  exact mul_le_mul h h9 (by positivity) hd

/-- The call near the ellipsoid, for a point known up to half a micrometre. -/
theorem ecef2lla_near {L : Dbl.Libm} (h1 : L.SquareOk) (h2 : L.SquareReturns) (h3 : L.TrigOk) (h4 : L.ArcOk)
    {pos : Dbl.Vec} {tol : F64} {lat lon alt : ℝ} (hf : ∀ i, (pos i).Finite) (hlat : -90 < lat ∧ lat < 90)
    (halt : |alt| ≤ 100000)
    (hpos : ∀ i, |ofDouble (pos i) - lla2ecef ![lat, lon, alt] i| ≤ 4e-7)
    (haxis : 1 ≤ Real.sqrt (lla2ecef ![lat, lon, alt] 0 ^ 2 + lla2ecef ![lat, lon, alt] 1 ^ 2))
    (tf : tol.Finite) (tl : 1.3e-10 ≤ ofDouble tol) (tu : ofDouble tol ≤ 9e-7) :
    ∃ p s n, (do let x2 ← L.square (pos 0); let y2 ← L.square (pos 1); F64.sqrt (F64.add x2 y2) : Except PyErr F64) = .ok p ∧
      (1 ≤ n ∧ n ≤ 6) ∧ Dbl.ecef2lla_after L p (pos 2) n = .ok s ∧ Dbl.ecef2lla_loop L p (pos 2) tol = some (.ok s) ∧
      Dbl.ecef2lla L pos tol = some (.ok ![Dbl.rad2deg s.lat, Dbl.rad2deg (L.atan2 (pos 1) (pos 0)), s.alt]) ∧
      Ap (Dbl.rad2deg s.lat) lat (1.1e-5 + 1.1e-9 * |alt|) ∧ Ap s.alt alt (1.17 + 0.0002 * |alt|) := by
  have ht : -(Real.pi / 2) < lat * Real.pi / 180 ∧ lat * Real.pi / 180 < Real.pi / 2 := by
    have := Real.pi_pos
    constructor <;> nlinarith
  have hD := D_bounds (t := lat * Real.pi / 180) halt
  have hD0 : 0 < NN (lat * Real.pi / 180) * (1 - e ^ 2) + alt := by linarith
  have hP := lla2ecef_p (lon := lon) ht hD0
  have hR := R_range ht halt
  have l0 := sqrt_lip2 (hpos 0) (hpos 1)
  have hz := hpos 2
  rw [lla2ecef_z] at hz
  rw [hP] at l0 haxis
  have hr : 0.9 ≤ Real.sqrt (ofDouble (pos 0) ^ 2 + ofDouble (pos 1) ^ 2) := by
    have := (abs_le.1 l0).1
    norm_num at this ⊢
    linarith
  have hu : Real.sqrt (ofDouble (pos 0) ^ 2 + ofDouble (pos 1) ^ 2) ≤ 1e7 := by
    have k1 := (abs_le.1 l0).2
    have k2 := (le_abs_self _).trans (R_ge_left ((NN (lat * Real.pi / 180) + alt) * Real.cos (lat * Real.pi / 180))
      ((NN (lat * Real.pi / 180) * (1 - e ^ 2) + alt) * Real.sin (lat * Real.pi / 180)))
    have k3 := hR.2
    norm_num at k1 k3 ⊢
    linarith
  have bx : |ofDouble (pos 0)| ≤ 1e7 := (Real.abs_le_sqrt (by nlinarith [sq_nonneg (ofDouble (pos 1))])).trans hu
  have by' : |ofDouble (pos 1)| ≤ 1e7 := (Real.abs_le_sqrt (by nlinarith [sq_nonneg (ofDouble (pos 0))])).trans hu
  obtain ⟨p, ep, ap⟩ := p_near h1 h2 (hf 0) (hf 1) bx by' hr
  have ap' : Ap p ((NN (lat * Real.pi / 180) + alt) * Real.cos (lat * Real.pi / 180)) 1e-6 :=
    ap.to l0 (by norm_num)
  have az : Ap (pos 2) ((NN (lat * Real.pi / 180) * (1 - e ^ 2) + alt) * Real.sin (lat * Real.pi / 180)) 1e-6 :=
    ⟨hf 2, hz.trans (by norm_num)⟩
  obtain ⟨n, s, hn, ea, el, al, aa⟩ := loop64 ht halt h1 h2 h3 h4 ap' az haxis tf tl tu
  have hne : ¬ ((pos 0).mag = 0 ∧ (pos 1).mag = 0) := by
    rintro ⟨m0, m1⟩
    rw [val_zero_of_mag m0, val_zero_of_mag m1] at hr
    norm_num at hr
  refine ⟨p, s, n, ep, hn, ea, el, ecef2lla_off ep hne el, ?_, aa⟩
  have hh := abs_nonneg alt
  have hs2 : |ofDouble s.lat| ≤ 2 := by
    have k1 := al.2
    have k2 := Real.pi_lt_d2
    norm_num at k2
    have k3 : |lat * Real.pi / 180| ≤ 1.6 := by
      rw [abs_le]; norm_num; constructor <;> linarith
    have k4 := al.le k3
    refine k4.trans ?_
    norm_num at halt ⊢
    linarith
  refine ((Ap.self al.1).rad2deg hs2 (by norm_num) (by norm_num)).to (rad2deg_lip _ _ _ al.2) ?_
  norm_num
  linarith

/-! ## Longitude -/

theorem longitude_near {L : Dbl.Libm} (h4 : L.ArcOk) {y x : F64} (hy : y.Finite) (hx : x.Finite)
    (h0 : ofDouble y = 0 → y.sign = 0 ∧ ofDouble x ≠ 0) :
    Ap (Dbl.rad2deg (L.atan2 y x)) (rad2deg (atan2 (ofDouble y) (ofDouble x))) 1e-13 := by
  obtain ⟨f, n⟩ := h4.atan2 y x hy hx h0
  have hr := atan2_range (ofDouble y) (ofDouble x)
  have hpi := Real.pi_lt_d4
  have hb : |atan2 (ofDouble y) (ofDouble x)| ≤ 3.1416 := by
    rw [abs_le]; norm_num at hpi ⊢; constructor <;> linarith
  have ha : Ap (L.atan2 y x) (atan2 (ofDouble y) (ofDouble x)) 7.1e-16 := by
    refine ⟨f, n.trans ?_⟩
    have := tiny
    norm_num at hb this ⊢
    linarith
  refine (ha.rad2deg hb (by norm_num) (by norm_num)).mono ?_
  norm_num

end Dis.Geo
