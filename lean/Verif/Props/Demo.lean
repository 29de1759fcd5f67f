import Verif.Proof.Demo2
import Verif.Proof.Body

/-!
# C76: the demonstration of dead reckoning

/repo/examples/dis_dead_reckoning.py on doubles (`Dbl.run_demo`), for any mathematical library that errs by at most one
unit in the last place. The outcome is `none` if the program runs forever, `some (.error _)` if it raises and
`some (.ok D)` if it ends, where `D` holds the numbers it shows.
-/

set_option exponentiation.threshold 4096

namespace Dis

open Geo

/-- The loop, with any step and duration: if 0, step, 2 step, …, `n` step are doubles, all but the last are at most the
duration and the last one is greater, it makes `n` rounds, at exactly these times, and shows in each the position
`drm_rvw` returns. -/
theorem C76_rounds (P : Dbl.Platform) (h1 : P.SquareReturns) (m : Dbl.Motion) (step duration : F64) (n : ℕ)
    (ho : (m.orientation 1).Finite ∧ (m.orientation 2).Finite) (hs : step.Finite) (hd : duration.Finite)
    (hm : ∀ k ≤ n, ∃ w : F64, w.Finite ∧ ofDouble w = k * ofDouble step)
    (hin : ∀ k < n, k * ofDouble step ≤ ofDouble duration) (hout : ofDouble duration < n * ofDouble step)
    (hmax : ofDouble duration ≤ 2 ^ 500) :
    ∃ fs, Dbl.simulate P m step duration = some (.ok fs) ∧ fs.length = n ∧ ∀ (k : ℕ) (hk : k < fs.length),
      (fs[k].time).Finite ∧ ofDouble fs[k].time = k * ofDouble step ∧
      ∃ ori, Dbl.drm_rvw P m.position m.velocity m.acceleration fs[k].time m.orientation m.angularVelocity
        = .ok (fs[k].position, ori) := by
  have hc : ∀ k ≤ n, (Dbl.clock step k).Finite ∧ ofDouble (Dbl.clock step k) = k * ofDouble step := fun k hk =>
    clock_exact hs k fun j hj => hm j (hj.trans hk)
  have hr : ∀ k < n, ∃ pos ori, roundOf P m (Dbl.clock step k) = .ok (pos, ori) := by
    intro k hk
    obtain ⟨c1, c2⟩ := hc k hk.le
    have hpos : 0 ≤ ofDouble (Dbl.clock step k) := by
      have h0 := hin 0 (by omega)
      rw [Nat.cast_zero, zero_mul] at h0
      have hn : (0 : ℝ) < n := by exact_mod_cast (by omega : 0 < n)
      have : 0 < ofDouble step := by
        by_contra hneg
        nlinarith
      rw [c2]
      positivity
    obtain ⟨s, e1, -⟩ := h1 _ c1 (by rw [abs_of_nonneg hpos, c2]; exact (hin k hk).trans hmax)
    obtain ⟨ori, e2⟩ := rvw_returns (finite_not_infinite ho.1) (finite_not_infinite ho.2) e1
    exact ⟨_, ori, e2⟩
  obtain ⟨fs, e, hl, hf⟩ := frames_ok n hr
  refine ⟨fs, simulate_eq (fun k hk => ?_) ?_ e, hl, fun k hk => ?_⟩
  · rw [le_iff (hc k hk.le).1 hd, (hc k hk.le).2]
    exact hin k hk
  · rw [Bool.eq_false_iff, Ne, le_iff (hc n le_rfl).1 hd, (hc n le_rfl).2]
    exact not_le.2 hout
  · obtain ⟨t1, ori, t2⟩ := hf k hk
    obtain ⟨c1, c2⟩ := hc k (by omega)
    rw [t1]
    exact ⟨c1, c2, ori, t2⟩

/-- A non-trivial case: steps of 2 s for 5 s. -/
example (m : Dbl.Motion) (ho : (m.orientation 1).Finite ∧ (m.orientation 2).Finite) :
    ∃ fs, Dbl.simulate reference m (Dbl.num 2) (Dbl.num 5) = some (.ok fs) ∧ fs.length = 3 := by
  have n2 := ap_num 2 (r := 2) (by norm_num) (by norm_num)
  have n5 := ap_num 5 (r := 5) (by norm_num) (by norm_num)
  obtain ⟨fs, e, hl, -⟩ := C76_rounds reference reference_returns m (Dbl.num 2) (Dbl.num 5) 3 ho n2.1 n5.1
    (fun k hk => by
      have h := ap_num (2 * k) (r := 2 * k) (by omega) (by push_cast; ring)
      exact ⟨_, h.1, by rw [h.eq, n2.eq]; ring⟩)
    (fun k hk => by
      rw [n2.eq, n5.eq]
      have : (k : ℝ) ≤ 2 := by exact_mod_cast (by omega : k ≤ 2)
      linarith)
    (by rw [n2.eq, n5.eq]; norm_num) (by rw [n5.eq]; norm_num)
  exact ⟨fs, e, hl⟩

/-- When the multiples of the step are not doubles, there may be a round less: with steps of 0.1 for 0.3 s there are
three, not four, because 0.1 + 0.1 + 0.1 is greater than 0.3. -/
theorem C76_tenths (P : Dbl.Platform) (h1 : P.SquareReturns) (m : Dbl.Motion)
    (ho : (m.orientation 1).Finite ∧ (m.orientation 2).Finite) :
    ∃ fs, Dbl.simulate P m 0x3fb999999999999a 0x3fd3333333333333 = some (.ok fs) ∧ fs.length = 3 := by
  have hr : ∀ k < 3, ∃ pos ori, roundOf P m (Dbl.clock 0x3fb999999999999a k) = .ok (pos, ori) := by
    intro k hk
    have hf : (Dbl.clock 0x3fb999999999999a k).Finite ∧ |ofDouble (Dbl.clock 0x3fb999999999999a k)| ≤ 2 ^ 500 := by
      have hc : ∀ w : F64, w.Finite → F64.le w (Dbl.num 1) = true → F64.le (Dbl.num 0) w = true →
          w.Finite ∧ |ofDouble w| ≤ 2 ^ 500 := fun w hw a b => by
        have n1 := ap_num 1 (r := 1) (by norm_num) (by norm_num)
        rw [le_iff hw n1.1, n1.eq] at a
        rw [le_iff num_zero_val.1 hw, num_zero_val.2] at b
        exact ⟨hw, by rw [abs_of_nonneg b]; exact a.trans (by norm_num)⟩
      match k, hk with
      | 0, _ => exact hc _ (show F64.expo _ ≠ 2047 by decide +kernel) (by decide +kernel) (by decide +kernel)
      | 1, _ => exact hc _ (show F64.expo _ ≠ 2047 by decide +kernel) (by decide +kernel) (by decide +kernel)
      | 2, _ => exact hc _ (show F64.expo _ ≠ 2047 by decide +kernel) (by decide +kernel) (by decide +kernel)
    obtain ⟨s, e1, -⟩ := h1 _ hf.1 hf.2
    obtain ⟨ori, e2⟩ := rvw_returns (finite_not_infinite ho.1) (finite_not_infinite ho.2) e1
    exact ⟨_, ori, e2⟩
  obtain ⟨fs, e, hl, -⟩ := frames_ok 3 hr
  refine ⟨fs, simulate_eq (fun k hk => ?_) (by decide +kernel) e, hl⟩
  match k, hk with
  | 0, _ => decide +kernel
  | 1, _ => decide +kernel
  | 2, _ => decide +kernel

/-- With a negative duration there is no round, and the program raises `NameError` where it uses the position of the
last one. -/
theorem C76_no_round (L : Dbl.Libm) (pdu : EntityStatePdu) (step duration : F64) (start : Dbl.Vec)
    (hd : duration.Finite) (h : ofDouble duration < 0) :
    Dbl.demo L pdu step duration start = some (.error .nameError) := by
  have : Dbl.simulate L.toPlatform (Dbl.motion pdu) step duration = some (.ok []) := by
    refine simulate_eq (n := 0) (fun k hk => absurd hk (by omega)) ?_ rfl
    rw [Bool.eq_false_iff, Ne]
    have n0 := num_zero_val
    unfold Dbl.clock
    rw [le_iff n0.1 hd, n0.2]
    exact not_le.2 h
  unfold Dbl.demo
  rw [this]
  rfl

example (L : Dbl.Libm) (pdu : EntityStatePdu) (step : F64) (start : Dbl.Vec) :
    Dbl.demo L pdu step (F64.neg (Dbl.num 1)) start = some (.error .nameError) := by
  have n := ap_minus 1 (r := -1) (by norm_num) (by norm_num)
  exact C76_no_round L pdu step _ start n.1 (by rw [n.eq]; norm_num)

/-- The second part, for any start up to 50 km from the ellipsoid and any displacement of up to 20 km along each axis
that ends at least 1 m from the axis of the earth: it returns, the end is within 27 nm of the exact sum, and its
coordinates are those of the exact sum as accurately as `ecef2lla` finds them. -/
theorem C76_moved (L : Dbl.Libm) (h1 : L.SquareOk) (h2 : L.SquareReturns) (h3 : L.TrigOk) (h4 : L.ArcOk)
    (start disp : Dbl.Vec) (hf : ∀ i, (start i).Finite) (hlat : |ofDouble (start 0)| ≤ 90)
    (hlon : |ofDouble (start 1)| ≤ 360) (halt : |ofDouble (start 2)| ≤ 50000) (hd : ∀ i, (disp i).Finite)
    (hdl : ∀ i, |ofDouble (disp i)| ≤ 20000) (p : Vec)
    (hp : p = lla2ecef (fun j => ofDouble (start j)) + fun i => ofDouble (disp i))
    (haxis : 1 ≤ Real.sqrt (p 0 ^ 2 + p 1 ^ 2)) :
    ∃ a b lat lon alt lla, Dbl.moved L start disp = some (.ok (a, b, lla)) ∧
      (∀ i, (b i).Finite ∧ |ofDouble (b i) - p i| ≤ 2.7e-8) ∧
      lla2ecef ![lat, lon, alt] = p ∧ (-90 < lat ∧ lat < 90) ∧ (-180 < lon ∧ lon ≤ 180) ∧
      |alt| ≤ |ofDouble (start 2)| + len (fun i => ofDouble (disp i)) ∧
      |ofDouble (lla 0) - lat| ≤ 1.1e-5 + 1.1e-9 * |alt| ∧
      |ofDouble (lla 2) - alt| ≤ 1.17 + 0.0002 * |alt| := by
  have hv : (fun j => ofDouble (start j)) = ![ofDouble (start 0), ofDouble (start 1), ofDouble (start 2)] := by
    funext j; fin_cases j <;> rfl
  have hdis := (C38_distance (ofDouble (start 0)) (ofDouble (start 1)) (ofDouble (start 2))
    (by linarith [(abs_le.1 halt).1])).2.1
  rw [hv] at hp
  have hlen : len (p - lla2ecef ![ofDouble (start 0), ofDouble (start 1), 0])
      ≤ |ofDouble (start 2)| + len (fun i => ofDouble (disp i)) := by
    have := len_sub_le (lla2ecef ![ofDouble (start 0), ofDouble (start 1), ofDouble (start 2)]
      - lla2ecef ![ofDouble (start 0), ofDouble (start 1), 0])
      (p - lla2ecef ![ofDouble (start 0), ofDouble (start 1), 0])
    rw [hdis, hp] at this
    rw [hp]
    refine this.trans (add_le_add le_rfl (le_of_eq ?_))
    unfold len
    congr 1
    simp only [Pi.add_apply, Pi.sub_apply]
    ring
  have hl2 : len (fun i => ofDouble (disp i)) ≤ 40000 := by
    unfold len
    rw [Real.sqrt_le_left (by norm_num)]
    have s : ∀ i, ofDouble (disp i) ^ 2 ≤ 20000 ^ 2 := fun i => by
      rw [← sq_abs]; exact pow_le_pow_left₀ (abs_nonneg _) (hdl i) 2
    linarith [s 0, s 1, s 2]
  obtain ⟨a, b, lat, lon, alt, lla, e1, -, e3, e4, e5, e6, e7, -, e8, e9, -⟩ := moved_near h1 h2 h3 h4 hf hlat hlon halt
    hd hdl (p := p) (ε := 0) (fun i => by rw [hv, hp]; simp) (by norm_num)
    (C38_ellipsoid (ofDouble (start 0)) (ofDouble (start 1))) (hlen.trans (by linarith)) rfl haxis
  exact ⟨a, b, lat, lon, alt, lla, e1, fun i => ⟨(e3 i).1, (e3 i).2.trans (by norm_num)⟩, e4, e5, e6, e7.trans hlen, e8,
    e9⟩

/-- A non-trivial case: from 10 degrees north on the meridian of Greenwich, 7 m up, a displacement by 1000 m along
each axis. -/
example : ∃ a b lla, Dbl.moved referenceLibm ![Dbl.num 10, Dbl.num 0, Dbl.num 7]
    ![Dbl.num 1000, Dbl.num 1000, Dbl.num 1000] = some (.ok (a, b, lla)) := by
  have n10 := ap_num 10 (r := 10) (by norm_num) (by norm_num)
  have n0 := ap_num 0 (r := 0) (by norm_num) (by norm_num)
  have n7 := ap_num 7 (r := 7) (by norm_num) (by norm_num)
  have n1000 := ap_num 1000 (r := 1000) (by norm_num) (by norm_num)
  generalize Dbl.num 10 = a at *
  generalize Dbl.num 0 = b at *
  generalize Dbl.num 7 = c at *
  generalize Dbl.num 1000 = d at *
  have hv : (fun j => ofDouble ((![a, b, c] : Dbl.Vec) j)) = ![10, 0, 7] := by
    rw [← n10.eq, ← n0.eq, ← n7.eq]
    funext j; fin_cases j <;> rfl
  have hw : (fun j => ofDouble ((![d, d, d] : Dbl.Vec) j)) = ![1000, 1000, 1000] := by
    rw [← n1000.eq]
    funext j; fin_cases j <;> rfl
  obtain ⟨x, y, -, -, -, lla, e, -⟩ := C76_moved referenceLibm reference_square reference_returns
    reference_trig referenceLibm_arc ![a, b, c] ![d, d, d]
    (fun i => by fin_cases i; exacts [n10.1, n0.1, n7.1]) (by rw [congrFun hv 0]; norm_num)
    (by rw [congrFun hv 1]; norm_num) (by rw [congrFun hv 2, show (![10, 0, 7] : Vec) 2 = 7 from rfl]; norm_num)
    (fun i => by fin_cases i <;> exact n1000.1)
    (fun i => by rw [congrFun hw i]; fin_cases i <;> norm_num) _ rfl
    (by
      rw [hv, hw]
      apply Real.le_sqrt_of_sq_le
      have : lla2ecef ![10, 0, 7] 1 = 0 := by rw [lla2ecef_form]; simp
      simp only [Pi.add_apply, Matrix.cons_val_one, Matrix.cons_val_zero, this]
      nlinarith [sq_nonneg (lla2ecef ![10, 0, 7] 0 + 1000)])
  exact ⟨x, y, lla, e⟩

/-- The program as it is. Eleven rounds, at exactly 0, 0.5, …, 5 s; in each, x is within 1e-13 of 10 t + t²/2, and y
and z are 0. At the end it adds 62.5 m along x to the start at 36.6 degrees north, 121.9 degrees west, 100 m up: the sum
is within 30 nm of the exact one, the latitude found is within 1.2e-5 degrees of that of the exact sum, the altitude
within 1.21 m and the longitude within 6e-14 radians, by its cosine and sine. -/
theorem C76_demo (L : Dbl.Libm) (h1 : L.SquareOk) (h2 : L.SquareReturns) (h3 : L.TrigOk) (h4 : L.ArcOk) :
    ∃ D lat lon alt, Dbl.run_demo L = some (.ok D) ∧
      D.frames.length = 11 ∧
      (∀ (k : ℕ) (hk : k < D.frames.length), ofDouble D.frames[k].time = k / 2 ∧
        |ofDouble (D.frames[k].position 0) - (10 * (k / 2) + (k / 2) ^ 2 / 2)| ≤ 1e-13 ∧
        ofDouble (D.frames[k].position 1) = 0 ∧ ofDouble (D.frames[k].position 2) = 0) ∧
      lla2ecef ![lat, lon, alt] = lla2ecef ![36.6, -121.9, 100] + ![62.5, 0, 0] ∧
      (-90 < lat ∧ lat < 90) ∧ (-180 < lon ∧ lon ≤ 180) ∧ |alt| ≤ 162.5 ∧
      (∀ i, |ofDouble (D.start_ecef i) - lla2ecef ![36.6, -121.9, 100] i| ≤ 3e-8) ∧
      (∀ i, |ofDouble (D.final_ecef_real i) - lla2ecef ![lat, lon, alt] i| ≤ 3e-8) ∧
      |ofDouble (D.final_lla 0) - lat| ≤ 1.2e-5 ∧ |ofDouble (D.final_lla 2) - alt| ≤ 1.21 ∧
      |Real.cos (ofDouble (D.final_lla 1) * Real.pi / 180) - Real.cos (lon * Real.pi / 180)| ≤ 6e-14 ∧
      |Real.sin (ofDouble (D.final_lla 1) * Real.pi / 180) - Real.sin (lon * Real.pi / 180)| ≤ 6e-14 := by
  have n0 : (Dbl.num 0).Finite ∧ ofDouble (Dbl.num 0) = 0 := num_zero_val
  have n5 := ap_num 5 (r := 5) (by norm_num) (by norm_num)
  obtain ⟨z, o, t, rz, ro, rt, em⟩ := motion_demo
  obtain ⟨start, es0, hstart, hv⟩ := start_demo
  rw [← rz] at n0
  have hacc := fun {t s : F64} {τ : ℝ} (ht : Bd t τ 5 0) => accelerated (s := s) ht
  rw [← rz, ← ro, ← rt] at hacc
  obtain ⟨hh, hh'⟩ := half_val
  -- the loop
  obtain ⟨fs, ef, hl, hfr⟩ := C76_rounds L.toPlatform h2 ⟨![z, z, z], ![t, z, z], ![o, z, z], ![z, z, z], ![z, z, z]⟩ Dbl.half (Dbl.num 5)
    11 ⟨n0.1, n0.1⟩ hh n5.1 half_multiples
    (fun k hk => by
      rw [hh', n5.eq]
      have : (k : ℝ) ≤ 10 := by exact_mod_cast (by omega : k ≤ 10)
      linarith)
    (by rw [hh', n5.eq]; norm_num) (by rw [n5.eq]; norm_num)
  have hpos : ∀ (k : ℕ) (hk : k < fs.length), ofDouble fs[k].time = k / 2 ∧
      Ap (fs[k].position 0) (10 * (k / 2) + (k / 2) ^ 2 / 2) 1e-13 ∧
      ((fs[k].position 1).Finite ∧ ofDouble (fs[k].position 1) = 0) ∧
      ((fs[k].position 2).Finite ∧ ofDouble (fs[k].position 2) = 0) := by
    intro k hk
    obtain ⟨t1, t2, ori, t3⟩ := hfr k hk
    rw [hh'] at t2
    have hk10 : (k : ℝ) ≤ 10 := by exact_mod_cast (by omega : k ≤ 10)
    have hk0 : (0 : ℝ) ≤ k := Nat.cast_nonneg k
    have ht : Bd fs[k].time (k / 2) 5 0 := by
      refine ⟨⟨t1, by rw [t2]; norm_num [div_eq_mul_inv]⟩, ?_⟩
      rw [abs_of_nonneg (by positivity)]
      linarith
    obtain ⟨s, es, hs⟩ := ht.square h1 h2 (C := 25) (g := 6e-15) (by norm_num) (by norm_num) (by norm_num)
    obtain ⟨ori', e⟩ := rvw_returns (m := ⟨![z, z, z], ![t, z, z], ![o, z, z], ![z, z, z], ![z, z, z]⟩) (finite_not_infinite n0.1) (finite_not_infinite n0.1) es
    unfold roundOf at e
    rw [t3] at e
    injection e with e
    injection e with e _
    refine ⟨by rw [t2]; ring, ?_, ?_, ?_⟩
    · rw [e]; exact hacc ht hs
    · rw [e]; exact at_rest n0 n0 n0 t1 hs.1.1
    · rw [e]; exact at_rest n0 n0 n0 t1 hs.1.1
  -- the last round
  have hlast : fs.getLast? = some (fs[10]'(by omega)) := by
    rw [List.getLast?_eq_getElem?, show fs.length - 1 = 10 by omega]
    exact List.getElem?_eq_getElem _
  obtain ⟨-, p0, p1, p2⟩ := hpos 10 (by omega)
  generalize fs[10]'(by omega) = f at hlast p0 p1 p2
  rw [show (10 * (((10 : ℕ) : ℝ) / 2) + (((10 : ℕ) : ℝ) / 2) ^ 2 / 2) = 62.5 by norm_num] at p0
  -- the start
  have e0 : ofDouble (start 0) = 5150992073805005 / 2 ^ 47 := congrFun hv 0
  have e1 : ofDouble (start 1) = -8577949915257242 / 2 ^ 46 := congrFun hv 1
  have e2 : ofDouble (start 2) = 100 := congrFun hv 2
  have hpi := Real.pi_pos
  have hpi4 := Real.pi_lt_four
  have hlip : ∀ i, |lla2ecef ![5150992073805005 / 2 ^ 47, -8577949915257242 / 2 ^ 46, 100] i
      - lla2ecef ![36.6, -121.9, 100] i| ≤ 2e-9 := fun i => by
    refine (lla2ecef_lip _ _ _ _ _ i).trans ?_
    have d0 : |(5150992073805005 / 2 ^ 47 : ℝ) * Real.pi / 180 - 36.6 * Real.pi / 180| ≤ 1e-16 := by
      rw [show (5150992073805005 / 2 ^ 47 : ℝ) * Real.pi / 180 - 36.6 * Real.pi / 180
        = (5150992073805005 / 2 ^ 47 - 36.6) / 180 * Real.pi by ring, abs_mul, abs_of_pos hpi]
      have : |((5150992073805005 / 2 ^ 47 : ℝ) - 36.6) / 180| ≤ 2.5e-17 := by norm_num [abs_le]
      exact (mul_le_mul this hpi4.le hpi.le (by norm_num)).trans (by norm_num)
    have d1 : |(-8577949915257242 / 2 ^ 46 : ℝ) * Real.pi / 180 - -121.9 * Real.pi / 180| ≤ 1.5e-16 := by
      rw [show (-8577949915257242 / 2 ^ 46 : ℝ) * Real.pi / 180 - -121.9 * Real.pi / 180
        = (-8577949915257242 / 2 ^ 46 - -121.9) / 180 * Real.pi by ring, abs_mul, abs_of_pos hpi]
      have : |((-8577949915257242 / 2 ^ 46 : ℝ) - -121.9) / 180| ≤ 3.5e-17 := by norm_num [abs_le]
      exact (mul_le_mul this hpi4.le hpi.le (by norm_num)).trans (by norm_num)
    rw [abs_of_pos (show (0 : ℝ) < 100 by norm_num)]
    refine (mul_le_mul_of_nonneg_left (add_le_add d0 d1) (by norm_num)).trans (by norm_num)
  -- the exact end
  have hdis : len (lla2ecef ![36.6, -121.9, 100] - lla2ecef ![36.6, -121.9, 0]) = 100 := by
    rw [(C38_distance _ _ _ (by norm_num)).2.1, abs_of_pos (by norm_num)]
  have hpq : len (lla2ecef ![36.6, -121.9, 100] + ![62.5, 0, 0] - lla2ecef ![36.6, -121.9, 0]) ≤ 162.5 := by
    have := len_sub_le (lla2ecef ![36.6, -121.9, 100] - lla2ecef ![36.6, -121.9, 0])
      (lla2ecef ![36.6, -121.9, 100] + ![62.5, 0, 0] - lla2ecef ![36.6, -121.9, 0])
    rw [hdis] at this
    refine this.trans ?_
    have : len (lla2ecef ![36.6, -121.9, 100] - lla2ecef ![36.6, -121.9, 0]
        - (lla2ecef ![36.6, -121.9, 100] + ![62.5, 0, 0] - lla2ecef ![36.6, -121.9, 0])) = 62.5 := by
      have e : (lla2ecef ![36.6, -121.9, 100] - lla2ecef ![36.6, -121.9, 0]
        - (lla2ecef ![36.6, -121.9, 100] + ![62.5, 0, 0] - lla2ecef ![36.6, -121.9, 0])) = -![62.5, 0, 0] := by abel
      rw [e]
      unfold len
      simp only [Pi.neg_apply, Matrix.cons_val_zero, Matrix.cons_val_one, Matrix.cons_val]
      rw [show ((-62.5 : ℝ) ^ 2 + (-0) ^ 2 + (-0) ^ 2) = 62.5 ^ 2 by norm_num, Real.sqrt_sq (by norm_num)]
    rw [this]
    norm_num
  have hy : lla2ecef ![36.6, -121.9, 100] 1 ≤ -1590000 := by
    rw [lla2ecef_form]
    simp only [Matrix.cons_val_one, Matrix.cons_val_zero]
    have hN := (NN_bounds (36.6 * Real.pi / 180)).1
    have ha : WGS84.a = 6378137 := by unfold WGS84.a; norm_num
    rw [ha] at hN
    have hc : 1 / 2 ≤ Real.cos (36.6 * Real.pi / 180) := by
      rw [← Real.cos_pi_div_three]
      exact Real.cos_le_cos_of_nonneg_of_le_pi (by positivity) (by linarith) (by linarith)
    have hs : 1 / 2 ≤ Real.sin (58.1 * Real.pi / 180) := by
      rw [← Real.sin_pi_div_six]
      exact Real.sin_le_sin_of_le_of_le_pi_div_two (by linarith) (by linarith) (by linarith)
    have hs' : Real.sin (-121.9 * Real.pi / 180) = -Real.sin (58.1 * Real.pi / 180) := by
      rw [show (-121.9 * Real.pi / 180 : ℝ) = 58.1 * Real.pi / 180 - Real.pi by ring, Real.sin_sub_pi]
    rw [hs']
    have m1 : 6378137 * (1 / 2) ≤ (NN (36.6 * Real.pi / 180) + 100) * Real.cos (36.6 * Real.pi / 180) :=
      mul_le_mul (by linarith) hc (by norm_num) (by linarith)
    have m2 : 6378137 * (1 / 2) * (1 / 2) ≤ (NN (36.6 * Real.pi / 180) + 100) * Real.cos (36.6 * Real.pi / 180)
      * Real.sin (58.1 * Real.pi / 180) := mul_le_mul m1 hs (by norm_num) (by linarith)
    linarith
  have hr : 1590000 ≤ Real.sqrt ((lla2ecef ![36.6, -121.9, 100] + ![62.5, 0, 0] : Vec) 0 ^ 2
      + (lla2ecef ![36.6, -121.9, 100] + ![62.5, 0, 0] : Vec) 1 ^ 2) := by
    apply Real.le_sqrt_of_sq_le
    simp only [Pi.add_apply, Matrix.cons_val_one, Matrix.cons_val_zero, add_zero]
    nlinarith [sq_nonneg (lla2ecef ![36.6, -121.9, 100] 0 + 62.5)]
  obtain ⟨a, b, lat, lon, alt, lla, e1, e2, e3, e4, e5, e6, e7, -, e8, e9, e10⟩ := moved_near h1 h2 h3 h4 hstart
    (by rw [e0]; norm_num [abs_le]) (by rw [e1]; norm_num [abs_le]) (by rw [e2]; norm_num [abs_le])
    (disp := f.position)
    (fun i => by
      match i with
      | 0 => exact p0.1
      | 1 => exact p1.1
      | 2 => exact p2.1)
    (fun i => by
      match i with
      | 0 => exact (p0.le (A := 62.5) (by norm_num [abs_le])).trans (by norm_num)
      | 1 => rw [p1.2]; norm_num
      | 2 => rw [p2.2]; norm_num)
    (p := lla2ecef ![36.6, -121.9, 100] + ![62.5, 0, 0]) (ε := 2.1e-9)
    (fun i => by
      rw [hv]
      have hi := hlip i
      have hd : |ofDouble (f.position i) - (![62.5, 0, 0] : Vec) i| ≤ 1e-13 := by
        match i with
        | 0 => exact p0.2
        | 1 => rw [p1.2]; norm_num [Matrix.cons_val_one]
        | 2 => rw [p2.2, show (![62.5, 0, 0] : Vec) 2 = 0 from rfl]; norm_num
      rw [Pi.add_apply, add_sub_add_comm]
      exact (abs_add_le _ _).trans ((add_le_add hi hd).trans (by norm_num)))
    (by norm_num) (C38_ellipsoid 36.6 (-121.9)) (hpq.trans (by norm_num)) rfl
    (le_trans (by norm_num) hr)
  have halt := e7.trans hpq
  have hb1 : ofDouble (b 1) ≠ 0 := by
    intro h0
    have := (abs_le.1 (e3 1).2).2
    rw [h0, Pi.add_apply] at this
    simp only [Matrix.cons_val_one, Matrix.cons_val_zero, add_zero] at this
    norm_num at this
    linarith
  obtain ⟨-, l1, l2⟩ := e10 fun h => absurd h hb1
  have hlong : 3.01 * (2.7e-8 + 2.1e-9) / Real.sqrt ((lla2ecef ![36.6, -121.9, 100] + ![62.5, 0, 0] : Vec) 0 ^ 2
      + (lla2ecef ![36.6, -121.9, 100] + ![62.5, 0, 0] : Vec) 1 ^ 2) + 2e-15 ≤ 6e-14 := by
    have := div_le_div_of_nonneg_left (show (0 : ℝ) ≤ 3.01 * (2.7e-8 + 2.1e-9) by norm_num) (by norm_num) hr
    have h' : (3.01 * (2.7e-8 + 2.1e-9) : ℝ) / 1590000 ≤ 5.7e-14 := by norm_num
    norm_num at this h' ⊢
    linarith
  refine ⟨⟨fs, a, b, lla⟩, lat, lon, alt, ?_, hl, fun k hk => ?_, e4, e5, e6, halt, fun i => ?_, fun i => ?_, ?_, ?_,
    l1.trans hlong, l2.trans hlong⟩
  · unfold Dbl.run_demo Dbl.demo
    rw [em, ef]
    dsimp only
    rw [hlast]
    dsimp only
    rw [← es0, e1]
  · obtain ⟨t, q0, q1, q2⟩ := hpos k hk
    exact ⟨t, q0.2, q1.2, q2.2⟩
  · have := (e2 i).2
    rw [hv] at this
    have := (abs_sub_le _ _ _).trans (add_le_add this (hlip i))
    exact this.trans (by norm_num)
  · rw [e4]; exact (e3 i).2.trans (by norm_num)
  · refine e8.trans ?_
    norm_num at halt ⊢
    linarith
  · refine e9.trans ?_
    norm_num at halt ⊢
    linarith

/-- The hypotheses hold for a library that rounds exactly. -/
example : ∃ D, Dbl.run_demo referenceLibm = some (.ok D) ∧ D.frames.length = 11 := by
  obtain ⟨D, -, -, -, e, hl, -⟩ := C76_demo referenceLibm reference_square reference_returns
    reference_trig referenceLibm_arc
  exact ⟨D, e, hl⟩

end Dis
