import Verif.Model.ExamplesDbl
import Verif.Proof.Trip64
import Verif.Props.Attitude64
import Verif.Props.Examples

/-!
# C74: from the example sender to the example receiver, with everything that is rounded on the way

The position and orientation of an entity are converted to geocentric coordinates and Euler angles in doubles
(/repo/examples/dis_sender.py), sent in the doubles and singles of an entity state message, and converted back
(/repo/examples/dis_receiver.py). The mathematical library is any within the bounds of `Numpy.Accurate`
(`Spec/Libm.lean`). The receiver shows the roll with the label yaw and the yaw with the label roll
(`C61_display_violated`), so below the roll is `s.yaw` and the yaw `s.roll`.
-/

set_option exponentiation.threshold 4096

namespace Dis

open Geo

theorem sent_quant {x z : F64} (h : SentAs x z) : z = quant x := by
  obtain ⟨b, h1, h2⟩ := h
  exact h2.unique (rt_float x b h1)

/-- A position within 100 km of the ellipsoid and at least 1 m from the axis, any attitude: the message is 144 bytes and
the receiver shows entity 42, the latitude within 1.2e-5 degrees plus 1.2e-9 degrees per metre of altitude, the longitude
within 1.4 µm along the parallel, the altitude within 1.17 m plus 0.2 mm per metre, and an attitude that, turned from
the local frame there, is the orientation in space within 1e-6. The longitude, the yaw and the roll shown are within half
a turn and the pitch within a quarter, but for rounding. -/
theorem C74_shown (L : Dbl.Numpy) (hL : L.Accurate) (lat lon alt roll pitch yaw : F64) (hlat : lat.Finite)
    (hlon : lon.Finite) (halt : alt.Finite) (hroll : roll.Finite) (hpitch : pitch.Finite) (hyaw : yaw.Finite)
    (blat : |ofDouble lat| ≤ 1.5707963) (blon : |ofDouble lon| ≤ 6.28) (balt : |ofDouble alt| ≤ 100000) (q : ℝ)
    (hq : q = Real.sqrt (lla2ecef ![ofDouble lat * 180 / Real.pi, ofDouble lon * 180 / Real.pi, ofDouble alt] 0 ^ 2
      + lla2ecef ![ofDouble lat * 180 / Real.pi, ofDouble lon * 180 / Real.pi, ofDouble alt] 1 ^ 2)) (haxis : 1 ≤ q) :
    ∃ p b s, Dbl.send L lat lon alt roll pitch yaw = .ok p ∧ p.serialize.Emits b ∧ b.length = 144 ∧
      Dbl.recv L b = some (.ok (.entity 42 s)) ∧
      |ofDouble s.latitude - ofDouble lat * 180 / Real.pi| ≤ 1.2e-5 + 1.2e-9 * |ofDouble alt| ∧
      q * |Real.cos (ofDouble s.longitude * Real.pi / 180) - Real.cos (ofDouble lon)| ≤ 1.4e-6 ∧
      q * |Real.sin (ofDouble s.longitude * Real.pi / 180) - Real.sin (ofDouble lon)| ≤ 1.4e-6 ∧
      |ofDouble s.altitude - ofDouble alt| ≤ 1.17 + 0.0002 * |ofDouble alt| ∧
      |ofDouble s.longitude * Real.pi / 180| ≤ 3.14171 ∧ |ofDouble s.roll * Real.pi / 180| ≤ 3.14161 ∧
      |ofDouble s.pitch * Real.pi / 180| ≤ Real.pi / 2 + 2.1e-10 ∧ |ofDouble s.yaw * Real.pi / 180| ≤ 3.14161 ∧
      ∀ i j, |(nedFrame (ofDouble s.latitude * Real.pi / 180) (ofDouble s.longitude * Real.pi / 180)
            * attitude ![ofDouble s.roll * Real.pi / 180, ofDouble s.pitch * Real.pi / 180,
              ofDouble s.yaw * Real.pi / 180]) i j
          - (nedFrame (ofDouble lat) (ofDouble lon) * attitude ![ofDouble yaw, ofDouble pitch, ofDouble roll]) i j|
        ≤ 1e-6 := by
  obtain ⟨pos, euler, e1, hp, fe, -, he⟩ := llarpy_near hL hlat hlon halt hroll hpitch hyaw blat blon
    (balt.trans (by norm_num))
  have pi20 := Real.pi_gt_d20
  have c1 : |ofDouble lat * 180 / Real.pi| < 90 := by
    rw [abs_div, abs_mul, abs_of_pos Real.pi_pos, abs_of_pos (show (0 : ℝ) < 180 by norm_num), div_lt_iff₀ Real.pi_pos]
    norm_num at pi20 blat ⊢
    linarith
  have hback : ∀ x : ℝ, x * 180 / Real.pi * Real.pi / 180 = x := fun x => by
    have := Real.pi_ne_zero
    field_simp
  obtain ⟨lla, e2, a0, f1, c, s, a2⟩ := geodetic_near hL (pos := ![pos 0, pos 1, pos 2])
    (fun i => by fin_cases i; exacts [(hp 0).1, (hp 1).1, (hp 2).1]) (abs_lt.1 c1) balt
    (fun i => by
      have : 7e-15 * (6378137 + |ofDouble alt|) ≤ 4e-7 := by norm_num at balt ⊢; linarith
      fin_cases i
      exacts [(hp 0).2.trans this, (hp 1).2.trans this, (hp 2).2.trans this]) (by rw [← hq]; exact haxis)
  rw [hback] at a0 c s
  rw [← hq] at c s
  obtain ⟨w0, g0, q0⟩ := single_near (fe 0).1 (fe 0).2
  obtain ⟨w1, g1, q1⟩ := single_near (fe 1).1 (fe 1).2
  obtain ⟨w2, g2, q2⟩ := single_near (fe 2).1 (fe 2).2
  obtain ⟨p, ep, -, hsend⟩ := C61_sender (pos 0) (pos 1) (pos 2) (euler 0) (euler 1) (euler 2)
  obtain ⟨b, eb, hb, psi, theta, phi, er, s0, s1, s2⟩ := hsend w0 w1 w2
  obtain rfl := sent_quant s0
  obtain rfl := sent_quant s1
  obtain rfl := sent_quant s2
  obtain ⟨v, e3, fv, pv, hv⟩ := rest_near hL a0.1 f1.1 g0 g1 g2
  have b0 : |ofDouble (Dbl.deg2rad (lla 0))| ≤ 5 := by
    have := a0.le blat
    norm_num at this balt ⊢
    linarith
  have h5 : ∀ i, |ofDouble (v i)| ≤ 5 := fun i => (fv i).2.trans (by norm_num)
  have k0 := shown_near a0.1 b0
  have k1 := shown_near f1.1 (f1.2.trans (by norm_num))
  have y0 := shown_near (fv 0).1 (h5 0)
  have y1 := shown_near (fv 1).1 (h5 1)
  have y2 := shown_near (fv 2).1 (h5 2)
  have hqu : q ≤ 6.6e6 := by rw [hq]; exact parallel_le (abs_lt.1 c1) balt
  have hq0 : 0 ≤ q := zero_le_one.trans haxis
  have ekey : Dbl.ecef2llarpy L (pos 0) (pos 1) (pos 2) (quant (euler 0)) (quant (euler 1)) (quant (euler 2))
      = some (.ok (![Dbl.deg2rad (lla 0), Dbl.deg2rad (lla 1), lla 2], ![v 2, v 1, v 0])) := by
    rw [Dbl.ecef2llarpy, e2, ← e3]
  refine ⟨p, b, ⟨Dbl.rad2deg (Dbl.deg2rad (lla 0)), Dbl.rad2deg (Dbl.deg2rad (lla 1)), lla 2, Dbl.rad2deg (v 2),
    Dbl.rad2deg (v 1), Dbl.rad2deg (v 0)⟩, ?_, eb, hb, ?_, ?_, ?_, ?_, a2.2,
    (shown_le f1.1 f1.2 (by norm_num)).trans (by norm_num), (shown_le (fv 0).1 (fv 0).2 (by norm_num)).trans (by norm_num),
    (shown_le (fv 1).1 pv (by linarith [Real.pi_lt_four])).trans (by norm_num; linarith),
    (shown_le (fv 2).1 (fv 2).2 (by norm_num)).trans (by norm_num), fun i j => ?_⟩
  · simp only [Dbl.send, e1, bind_ok]
    exact ep
  · simp only [Dbl.recv, er, Dbl.shown, ekey]
    rfl
  · show |ofDouble (Dbl.rad2deg (Dbl.deg2rad (lla 0))) - _| ≤ _
    have hd := (degrees_near a0.1 b0 (by norm_num)).2
    have e : ofDouble (Dbl.deg2rad (lla 0)) * 180 / Real.pi - ofDouble lat * 180 / Real.pi
        = (ofDouble (Dbl.deg2rad (lla 0)) - ofDouble lat) * (180 / Real.pi) := by ring
    have hr : 180 / Real.pi ≤ 57.3 := by
      rw [div_le_iff₀ Real.pi_pos]
      norm_num at pi20 ⊢
      linarith
    have h0 := abs_nonneg (ofDouble alt)
    have hl : |ofDouble (Dbl.deg2rad (lla 0)) * 180 / Real.pi - ofDouble lat * 180 / Real.pi|
        ≤ (2e-7 + 2e-11 * |ofDouble alt|) * 57.3 := by
      rw [e, abs_mul, abs_of_pos (show 0 < 180 / Real.pi by positivity)]
      exact mul_le_mul a0.2 hr (by positivity) (by positivity)
    refine (abs_sub_le _ _ _).trans ((add_le_add hd hl).trans ?_)
    norm_num
    linarith
  · exact along_near hq0 hqu ((Real.abs_cos_sub_cos_le _ _).trans k1) c
  · exact along_near hq0 hqu ((Real.abs_sin_sub_sin_le _ _).trans k1) s
  · have m := turned_lip k0 k1 y0 y1 y2 i j
    have n := hv i j
    have o := attitude_lip q0 q1 q2 i j
    have r := he i j
    refine (abs_sub_le _ _ _).trans ((add_le_add m ((abs_sub_le _ _ _).trans (add_le_add n ((abs_sub_le _ _ _).trans
      (add_le_add o r))))).trans (by norm_num))

/-- So the attitude relative to the local frame is within 5e-6, plus 2e-10 per metre of altitude and 1.3e-5 divided by the
distance from the axis; with the pitch within a quarter turn the sine of the pitch has that error `E`, and the directions
of the yaw and the roll at most `3 E + 1e-9` divided by the cosine of the pitch. -/
theorem C74_attitude (L : Dbl.Numpy) (hL : L.Accurate) (lat lon alt roll pitch yaw : F64) (hlat : lat.Finite)
    (hlon : lon.Finite) (halt : alt.Finite) (hroll : roll.Finite) (hpitch : pitch.Finite) (hyaw : yaw.Finite)
    (blat : |ofDouble lat| ≤ 1.5707963) (blon : |ofDouble lon| ≤ 6.28) (balt : |ofDouble alt| ≤ 100000)
    (bpitch : |ofDouble pitch| ≤ Real.pi / 2) (q E : ℝ)
    (hq : q = Real.sqrt (lla2ecef ![ofDouble lat * 180 / Real.pi, ofDouble lon * 180 / Real.pi, ofDouble alt] 0 ^ 2
      + lla2ecef ![ofDouble lat * 180 / Real.pi, ofDouble lon * 180 / Real.pi, ofDouble alt] 1 ^ 2)) (haxis : 1 ≤ q)
    (hE : E = 5e-6 + 2e-10 * |ofDouble alt| + 1.3e-5 / q) :
    ∃ p b s, Dbl.send L lat lon alt roll pitch yaw = .ok p ∧ p.serialize.Emits b ∧
      Dbl.recv L b = some (.ok (.entity 42 s)) ∧
      (∀ i j, |attitude ![ofDouble s.roll * Real.pi / 180, ofDouble s.pitch * Real.pi / 180,
          ofDouble s.yaw * Real.pi / 180] i j - attitude ![ofDouble yaw, ofDouble pitch, ofDouble roll] i j| ≤ E) ∧
      |Real.sin (ofDouble s.pitch * Real.pi / 180) - Real.sin (ofDouble pitch)| ≤ E ∧
      Real.cos (ofDouble pitch) * |Real.cos (ofDouble s.roll * Real.pi / 180) - Real.cos (ofDouble yaw)| ≤ 3 * E + 1e-9 ∧
      Real.cos (ofDouble pitch) * |Real.sin (ofDouble s.roll * Real.pi / 180) - Real.sin (ofDouble yaw)| ≤ 3 * E + 1e-9 ∧
      Real.cos (ofDouble pitch) * |Real.cos (ofDouble s.yaw * Real.pi / 180) - Real.cos (ofDouble roll)| ≤ 3 * E + 1e-9 ∧
      Real.cos (ofDouble pitch) * |Real.sin (ofDouble s.yaw * Real.pi / 180) - Real.sin (ofDouble roll)| ≤ 3 * E + 1e-9 := by
  obtain ⟨p, b, s, e1, e2, -, e3, a0, c, d, -, -, -, bp, -, h⟩ := C74_shown L hL lat lon alt roll pitch yaw hlat hlon halt
    hroll hpitch hyaw blat blon balt q hq haxis
  have q0 : 0 < q := by linarith
  have n0 : |ofDouble s.latitude * Real.pi / 180 - ofDouble lat| ≤ 2.1e-7 + 2.1e-11 * |ofDouble alt| := by
    have hpi := Real.pi_lt_d6
    have e : ofDouble s.latitude * Real.pi / 180 - ofDouble lat
        = (ofDouble s.latitude - ofDouble lat * 180 / Real.pi) * (Real.pi / 180) := by
      have := Real.pi_ne_zero
      field_simp
    rw [e, abs_mul, abs_of_pos (show 0 < Real.pi / 180 by positivity)]
    refine (mul_le_mul a0 (show Real.pi / 180 ≤ 0.017454 by norm_num at hpi ⊢; linarith) (by positivity)
      (by positivity)).trans ?_
    have := abs_nonneg (ofDouble alt)
    norm_num
    linarith
  have n1 : ∀ {x : ℝ}, q * x ≤ 1.4e-6 → x ≤ 1.4e-6 / q := fun {x} hx => by
    rwa [le_div_iff₀ q0, mul_comm]
  have hA : ∀ i j, |attitude ![ofDouble s.roll * Real.pi / 180, ofDouble s.pitch * Real.pi / 180,
      ofDouble s.yaw * Real.pi / 180] i j - attitude ![ofDouble yaw, ofDouble pitch, ofDouble roll] i j| ≤ E := fun i j => by
    refine (local_near (isRotation_ned _ _) (isRotation_attitude _) (ned_lip2 n0 (n1 c) (n1 d)) h i j).trans ?_
    rw [hE]
    have := abs_nonneg (ofDouble alt)
    have e : (1.4e-6 : ℝ) / q = 1.4e-6 * q⁻¹ := rfl
    have e' : (1.3e-5 : ℝ) / q = 1.3e-5 * q⁻¹ := rfl
    have := inv_pos.2 q0
    rw [e, e']
    norm_num
    linarith
  obtain ⟨k1, -, k2, k3, k4, k5⟩ := angles_of_near hA bpitch bp
  exact ⟨p, b, s, e1, e2, e3, hA, k1, k2, k3, k4, k5⟩

/-- The program as it is: whatever the library within the bounds, the receiver shows what the sender had in mind: latitude
36.6, longitude −121.9, an altitude within 1.18 m of 1 m and angles within 0.0015 degrees of zero. -/
theorem C74_sender (L : Dbl.Numpy) (hL : L.Accurate) :
    ∃ p b s, Dbl.sender L = .ok p ∧ p.serialize.Emits b ∧ Dbl.receiver L [b] = ([.entity 42 s], .waiting) ∧
      |ofDouble s.latitude - 36.6| ≤ 1.3e-5 ∧ |ofDouble s.longitude + 121.9| ≤ 1e-8 ∧ |ofDouble s.altitude - 1| ≤ 1.18 ∧
      |ofDouble s.yaw| ≤ 0.0015 ∧ |ofDouble s.pitch| ≤ 0.0015 ∧ |ofDouble s.roll| ≤ 0.0015 := by
  have v0 : ofDouble 0x40424ccccccccccd = 0x124ccccccccccd / 2 ^ 47 := by
    rw [val_units (m := 0x124ccccccccccd) 1027 47 (by decide +kernel) rfl]; norm_num
  have v1 : ofDouble 0xc05e79999999999a = -0x1e79999999999a / 2 ^ 46 := by
    rw [val_units (m := -0x1e79999999999a) 1028 46 (by decide +kernel) rfl]; norm_num
  have pi6 := Real.pi_lt_d6
  have pi6' := Real.pi_gt_d6
  have d0 := Ap.deg2rad (x := 0x40424ccccccccccd) (D := 40) (show F64.expo _ ≠ 2047 by decide +kernel)
    (by rw [v0, abs_of_pos (by norm_num)]; norm_num) (by norm_num)
  have d1 := Ap.deg2rad (x := 0xc05e79999999999a) (D := 130) (show F64.expo _ ≠ 2047 by decide +kernel)
    (by rw [v1, abs_le]; norm_num) (by norm_num)
  have n1 := Ap.num (n := 1) (by norm_num)
  have n0 := Ap.num (n := 0) (by norm_num)
  have w1 : ofDouble (Dbl.num 1) = 1 := (sub_eq_zero.1 (abs_nonpos_iff.1 n1.2)).trans Nat.cast_one
  have w0 : ofDouble (Dbl.num 0) = 0 := (sub_eq_zero.1 (abs_nonpos_iff.1 n0.2)).trans Nat.cast_zero
  have f1 := n1.1
  have f0 := n0.1
  unfold Dbl.sender
  have m0 : |ofDouble (Dbl.deg2rad 0x40424ccccccccccd) - 36.6 * Real.pi / 180| ≤ 1e-15 := by
    refine (abs_sub_le _ _ _).trans ((add_le_add d0.2 (b := _) (d := 2e-16) ?_).trans (by norm_num))
    rw [v0, deg2rad, show (0x124ccccccccccd / 2 ^ 47 : ℝ) * Real.pi / 180 - 36.6 * Real.pi / 180
      = (0x124ccccccccccd / 2 ^ 47 - 36.6) / 180 * Real.pi by ring, abs_mul, abs_of_pos Real.pi_pos,
      abs_of_pos (by norm_num)]
    norm_num at pi6 ⊢
    linarith
  have m1 : |ofDouble (Dbl.deg2rad 0xc05e79999999999a) - -121.9 * Real.pi / 180| ≤ 1.5e-15 := by
    refine (abs_sub_le _ _ _).trans ((add_le_add d1.2 (b := _) (d := 5e-16) ?_).trans (by norm_num))
    rw [v1, deg2rad, show (-0x1e79999999999a / 2 ^ 46 : ℝ) * Real.pi / 180 - -121.9 * Real.pi / 180
      = (-0x1e79999999999a / 2 ^ 46 + 121.9) / 180 * Real.pi by ring, abs_mul, abs_of_pos Real.pi_pos,
      abs_of_neg (by norm_num)]
    norm_num at pi6 ⊢
    linarith
  have g0 := d0.1
  have g1 := d1.1
  generalize Dbl.deg2rad 0x40424ccccccccccd = lat at *
  generalize Dbl.deg2rad 0xc05e79999999999a = lon at *
  generalize Dbl.num 1 = one at *
  generalize Dbl.num 0 = zero at *
  have b0 : |ofDouble lat| ≤ 1.4 := by
    refine (abs_le_of_near m0).trans ?_
    rw [abs_of_pos (by positivity)]
    norm_num at pi6 ⊢
    linarith
  have b1 : |ofDouble lon| ≤ 2.1276 := by
    refine (abs_le_of_near m1).trans ?_
    rw [abs_of_neg (by norm_num at pi6' ⊢; linarith)]
    norm_num at pi6 ⊢
    linarith
  obtain ⟨q, hq⟩ : ∃ q, q = Real.sqrt (lla2ecef ![ofDouble lat * 180 / Real.pi, ofDouble lon * 180 / Real.pi, ofDouble one] 0 ^ 2
      + lla2ecef ![ofDouble lat * 180 / Real.pi, ofDouble lon * 180 / Real.pi, ofDouble one] 1 ^ 2) := ⟨_, rfl⟩
  have hq' : 1e5 ≤ q := by
    rw [hq]
    exact parallel_ge b0 (by rw [w1]; norm_num)
  have q1 : 1 ≤ q := le_trans (by norm_num) hq'
  have c0 : |ofDouble lat| ≤ 1.5707963 := b0.trans (by norm_num)
  have c1 : |ofDouble lon| ≤ 6.28 := b1.trans (by norm_num)
  have c2 : |ofDouble one| ≤ 100000 := by rw [w1]; norm_num
  obtain ⟨p, b, s, e1, e2, -, e3, a0, k1, k2, a2, u1, u2, u3, u4, -⟩ := C74_shown L hL lat lon one zero zero zero g0 g1 f1
    f0 f0 f0 c0 c1 c2 q hq q1
  obtain ⟨E, eE⟩ : ∃ E, E = 5e-6 + 2e-10 * |ofDouble one| + 1.3e-5 / q := ⟨_, rfl⟩
  obtain ⟨p', b', s', e1', e2', e3', -, y1, y2, y3, y4, y5⟩ := C74_attitude L hL lat lon one zero zero zero g0 g1 f1
    f0 f0 f0 c0 c1 c2 (by rw [w0, abs_zero]; positivity) q E hq q1 eE
  obtain rfl : p = p' := by rw [e1] at e1'; exact Except.ok.inj e1'
  obtain rfl : b = b' := e2.1.symm.trans e2'.1
  obtain rfl : s = s' := by rw [e3] at e3'; injection e3' with h; injection h with h; injection h
  have hE : E ≤ 5.001e-6 := by
    rw [eE]
    have : 1.3e-5 / q ≤ 1.3e-10 := by
      rw [div_le_iff₀ (by linarith)]
      norm_num at hq' ⊢
      linarith
    rw [w1, abs_one]
    norm_num at this ⊢
    linarith
  clear eE
  rw [w0] at y1 y2 y3 y4 y5
  rw [w1] at a0 a2
  rw [Real.cos_zero, one_mul] at y2 y3 y4 y5
  rw [Real.sin_zero, sub_zero] at y1 y3 y5
  have near : ∀ {t e : ℝ}, |t * Real.pi / 180| ≤ 1.6 * e → e ≤ 1.6e-5 → |t| ≤ 0.0015 := fun {t e} h h' => by
    rw [mul_div_assoc, abs_mul, abs_of_pos (show 0 < Real.pi / 180 by positivity), ← le_div_iff₀ (by positivity)] at h
    refine h.trans ?_
    rw [div_le_iff₀ (by positivity)]
    norm_num at h' pi6' ⊢
    linarith
  have cosb : ∀ {t e : ℝ}, |Real.cos t - 1| ≤ e → e ≤ 1.6e-5 → 0.9 ≤ Real.cos t := fun {t e} h h' => by
    have := (abs_le.1 h).1
    norm_num at h' ⊢
    linarith
  have E3 : 3 * E + 1e-9 ≤ 1.6e-5 := by norm_num at hE ⊢; linarith
  refine ⟨p, b, s, e1, e2, ?_, ?_, ?_, ?_, near (small_angle (u4.trans (by norm_num)) (cosb y4 E3) y5) E3, ?_,
    near (small_angle (u2.trans (by norm_num)) (cosb y2 E3) y3) E3⟩
  · simp only [Dbl.receiver, e3]
  · refine (abs_sub_le _ (ofDouble lat * 180 / Real.pi) _).trans ((add_le_add a0 (b := _) (d := 1e-13) ?_).trans (by norm_num))
    rw [show ofDouble lat * 180 / Real.pi - 36.6 = (ofDouble lat - 36.6 * Real.pi / 180) * (180 / Real.pi) by
      have := Real.pi_ne_zero
      field_simp, abs_mul, abs_of_pos (show 0 < 180 / Real.pi by positivity)]
    refine (mul_le_mul m0 (show 180 / Real.pi ≤ 60 by rw [div_le_iff₀ Real.pi_pos]; norm_num at pi6' ⊢; linarith)
      (by positivity) (by norm_num)).trans (by norm_num)
  · have kk : ∀ {x : ℝ}, q * |x| ≤ 1.4e-6 → |x| ≤ 1.4e-11 := fun {x} h => by
      have := mul_le_mul_of_nonneg_right hq' (abs_nonneg x)
      norm_num at this h ⊢
      linarith
    have h := angle_of_near (by
      refine (abs_sub _ _).trans ((add_le_add u1 b1).trans (by norm_num))) (by norm_num) (kk k1) (kk k2)
    have h2 : |ofDouble s.longitude * Real.pi / 180 - -121.9 * Real.pi / 180| ≤ 5e-11 :=
      (abs_sub_le _ _ _).trans ((add_le_add h m1).trans (by norm_num))
    rw [show ofDouble s.longitude * Real.pi / 180 - -121.9 * Real.pi / 180 = (ofDouble s.longitude + 121.9) * (Real.pi / 180) by
      ring, abs_mul, abs_of_pos (show 0 < Real.pi / 180 by positivity), ← le_div_iff₀ (by positivity)] at h2
    refine h2.trans ?_
    rw [div_le_iff₀ (by positivity)]
    norm_num at pi6' ⊢
    linarith
  · refine a2.trans ?_
    rw [abs_one]
    norm_num
  · have hs : |Real.sin (ofDouble s.pitch * Real.pi / 180)| ≤ 1.6e-5 := y1.trans (by norm_num at hE ⊢; linarith)
    refine near (e := 1.6e-5) ?_ le_rfl
    refine small_angle (u3.trans (by norm_num at pi6 ⊢; linarith)) ?_ hs
    have h1 := Real.sin_sq_add_cos_sq (ofDouble s.pitch * Real.pi / 180)
    have h2 : Real.sin (ofDouble s.pitch * Real.pi / 180) ^ 2 ≤ 1e-9 := by
      rw [← sq_abs]
      exact (pow_le_pow_left₀ (abs_nonneg _) hs 2).trans (by norm_num)
    have h3 : -2.1e-10 ≤ Real.cos (ofDouble s.pitch * Real.pi / 180) := by
      rw [← Real.cos_abs]
      have := Real.sin_sub_pi_div_two (|ofDouble s.pitch * Real.pi / 180|)
      rcases le_total (|ofDouble s.pitch * Real.pi / 180|) (Real.pi / 2) with hle | hle
      · exact le_trans (by norm_num) (Real.cos_nonneg_of_mem_Icc
          ⟨by linarith [abs_nonneg (ofDouble s.pitch * Real.pi / 180), Real.pi_pos], hle⟩)
      · have hl := Real.sin_le (show 0 ≤ |ofDouble s.pitch * Real.pi / 180| - Real.pi / 2 by linarith)
        rw [this] at hl
        linarith
    norm_num at h2 h3 ⊢
    nlinarith

/-! ## The receiver at its limits -/

/-- The receiver shows what arrives up to the first datagram on which a call raises or does not return; nothing after
it is shown. -/
theorem C74_loop (L : Dbl.Numpy) (good : List Bytes) (lines : List Dbl.Line)
    (hg : good.map (Dbl.recv L) = lines.map (fun l => some (.ok l))) (bad : Bytes) (rest : List Bytes) :
    Dbl.receiver L good = (lines, .waiting) ∧
    (∀ e, Dbl.recv L bad = some (.error e) → Dbl.receiver L (good ++ bad :: rest) = (lines, .raised e)) ∧
    (Dbl.recv L bad = none → Dbl.receiver L (good ++ bad :: rest) = (lines, .stuck)) := by
  induction good generalizing lines with
  | nil =>
    cases lines with
    | nil => exact ⟨rfl, fun e h => by simp only [List.nil_append, Dbl.receiver, h],
        fun h => by simp only [List.nil_append, Dbl.receiver, h]⟩
    | cons _ _ => cases hg
  | cons g good ih =>
    cases lines with
    | nil => cases hg
    | cons l lines =>
      simp only [List.map_cons, List.cons.injEq] at hg
      obtain ⟨h1, h2, h3⟩ := ih lines hg.2
      refine ⟨?_, fun e h => ?_, fun h => ?_⟩
      · simp only [Dbl.receiver, hg.1, h1]
      · simp only [List.cons_append, Dbl.receiver, hg.1, h2 e h]
      · simp only [List.cons_append, Dbl.receiver, hg.1, h3 h]

theorem recv_fails {L : Dbl.Numpy} {p : EntityStatePdu} (ht : p.pduType = 1) {b post : Bytes}
    (hb : p.serialize.Emits b) (hl : b.length ≤ 1024) {e : PyErr}
    (h : Dbl.ecef2lla L.toLibm ![p.entityLocation.x, p.entityLocation.y, p.entityLocation.z] Dbl.defaultTolerance
      = some (.error e)) : Dbl.recv L (b ++ post) = some (.error e) := by
  obtain ⟨psi, theta, phi, er, -⟩ := C61_entity p ht b post hb hl
  simp only [Dbl.recv, er, Dbl.shown, (C72_failure L _ _ _ psi theta phi).2 e h]

/-- An entity state message whose location was never set, or is set to the centre of the earth, ends the receiver, whatever
the library and whatever came before. -/
theorem C74_unset_location (L : Dbl.Numpy) (h0 : L.SquareZero) (p : EntityStatePdu) (ht : p.pduType = 1)
    (hf : p.entityLocation.x.Finite ∧ p.entityLocation.y.Finite ∧ p.entityLocation.z.Finite)
    (hc : ofDouble p.entityLocation.x = 0 ∧ ofDouble p.entityLocation.y = 0 ∧ ofDouble p.entityLocation.z = 0)
    (b post : Bytes) (hb : p.serialize.Emits b) (hl : b.length ≤ 1024) (good : List Bytes) (lines : List Dbl.Line)
    (hg : good.map (Dbl.recv L) = lines.map (fun l => some (.ok l))) (rest : List Bytes) :
    Dbl.receiver L (good ++ (b ++ post) :: rest) = (lines, .raised .exception) :=
  (C74_loop L good lines hg _ rest).2.1 _ (recv_fails ht hb hl (C71_centre L.toLibm h0 _ _
    (fun i => by fin_cases i; exacts [hf.1, hf.2.1, hf.2.2]) (fun i => by fin_cases i; exacts [hc.1, hc.2.1, hc.2.2])))

/-- So does an entity near a pole and within 1e-12 m of the axis, but not on it. -/
theorem C74_pole (L : Dbl.Numpy) (hL : L.Accurate) (p : EntityStatePdu) (ht : p.pduType = 1)
    (hf : p.entityLocation.x.Finite ∧ p.entityLocation.y.Finite ∧ p.entityLocation.z.Finite)
    (hl : 1e-150 ≤ Real.sqrt (ofDouble p.entityLocation.x ^ 2 + ofDouble p.entityLocation.y ^ 2))
    (hu : Real.sqrt (ofDouble p.entityLocation.x ^ 2 + ofDouble p.entityLocation.y ^ 2) ≤ 1e-12)
    (hz : 6.2e6 ≤ |ofDouble p.entityLocation.z| ∧ |ofDouble p.entityLocation.z| ≤ 6.5e6)
    (b post : Bytes) (hb : p.serialize.Emits b) (hn : b.length ≤ 1024) (good : List Bytes) (lines : List Dbl.Line)
    (hg : good.map (Dbl.recv L) = lines.map (fun l => some (.ok l))) (rest : List Bytes) :
    Dbl.receiver L (good ++ (b ++ post) :: rest) = (lines, .raised .valueError) := by
  have ht2 := defaultTolerance_range
  refine (C74_loop L good lines hg _ rest).2.1 _ (recv_fails ht hb hn (C71_near_axis_violated L.toLibm hL.square
    hL.squareReturns hL.trig hL.arc _ _ (fun i => by fin_cases i; exacts [hf.1, hf.2.1, hf.2.2])
    (by simp only [Matrix.cons_val]; exact hl) (by simp only [Matrix.cons_val]; exact hu)
    (by simp only [Matrix.cons_val]; exact hz) defaultTolerance_finite ?_ ?_).1)
  · norm_num at ht2
    linarith
  · norm_num at ht2 ⊢
    linarith

theorem quant_infinite {x : F64} (h : x.Infinite) : quant x = x := by
  have hx : x = 0x7ff0000000000000 ∨ x = 0xfff0000000000000 := by
    obtain ⟨h1, h2⟩ := h
    simp only [F64.expo, F64.frac] at h1 h2
    have h3 := x.isLt
    have : x.toNat = 0x7ff0000000000000 ∨ x.toNat = 0xfff0000000000000 := by omega
    exact this.imp (fun e => BitVec.eq_of_toNat_eq (by rw [e]; rfl)) (fun e => BitVec.eq_of_toNat_eq (by rw [e]; rfl))
  rcases hx with rfl | rfl <;> decide +kernel

/-- A message with an infinite angle is never shown as an entity; where the location can be converted it ends the receiver. -/
theorem C74_infinite (L : Dbl.Numpy) (p : EntityStatePdu) (ht : p.pduType = 1) (b post : Bytes)
    (hb : p.serialize.Emits b) (hn : b.length ≤ 1024)
    (h : p.entityOrientation.psi.Infinite ∨ p.entityOrientation.theta.Infinite ∨ p.entityOrientation.phi.Infinite) :
    (∀ number s, Dbl.recv L (b ++ post) ≠ some (.ok (.entity number s))) ∧
    ∀ lla, Dbl.ecef2lla L.toLibm ![p.entityLocation.x, p.entityLocation.y, p.entityLocation.z] Dbl.defaultTolerance
      = some (.ok lla) → Dbl.recv L (b ++ post) = some (.error .valueError) := by
  obtain ⟨psi, theta, phi, er, s0, s1, s2⟩ := C61_entity p ht b post hb hn
  obtain rfl := sent_quant s0
  obtain rfl := sent_quant s1
  obtain rfl := sent_quant s2
  have h' : (quant p.entityOrientation.psi).Infinite ∨ (quant p.entityOrientation.theta).Infinite
      ∨ (quant p.entityOrientation.phi).Infinite :=
    h.imp (fun h => by rwa [quant_infinite h]) (Or.imp (fun h => by rwa [quant_infinite h]) (fun h => by rwa [quant_infinite h]))
  have key : ∀ lla, Dbl.ecef2lla L.toLibm ![p.entityLocation.x, p.entityLocation.y, p.entityLocation.z]
      Dbl.defaultTolerance = some (.ok lla) → Dbl.recv L (b ++ post) = some (.error .valueError) := fun lla e => by
    have : Dbl.ecef2llarpy L p.entityLocation.x p.entityLocation.y p.entityLocation.z (quant p.entityOrientation.psi)
        (quant p.entityOrientation.theta) (quant p.entityOrientation.phi) = some (.error .valueError) := by
      simp only [Dbl.ecef2llarpy, e, Dbl.ecef2llarpy_rest, turned_infinite L.toPlatform _ _ _ h']
      rfl
    simp only [Dbl.recv, er, Dbl.shown, this]
  refine ⟨fun number s => ?_, key⟩
  cases e : Dbl.ecef2lla L.toLibm ![p.entityLocation.x, p.entityLocation.y, p.entityLocation.z] Dbl.defaultTolerance with
  | none =>
    simp only [Dbl.recv, er, Dbl.shown, (C72_failure L _ _ _ _ _ _).1 e]
    exact fun h => nomatch h
  | some r =>
    cases r with
    | error err =>
      simp only [Dbl.recv, er, Dbl.shown, (C72_failure L _ _ _ _ _ _).2 err e]
      exact fun h => nomatch h
    | ok lla =>
      rw [key lla e]
      exact fun h => nomatch h

/-! ## Concrete cases -/

/-- Half a radian north, two radians west, 100 m up, pitched by a quarter of a radian. -/
example : ∃ p b s, Dbl.send referenceNumpy 0x3fe0000000000000 0xc000000000000000 0x4059000000000000 0x3ff0000000000000
      0x3fd0000000000000 0 = .ok p ∧ p.serialize.Emits b ∧ Dbl.recv referenceNumpy b = some (.ok (.entity 42 s)) ∧
    |ofDouble s.altitude - 100| ≤ 1.2 := by
  have v0 : ofDouble 0x3fe0000000000000 = 1 / 2 := by
    rw [val_units (m := 1) 1073 1 (by decide +kernel) rfl]; norm_num
  have v1 : ofDouble 0xc000000000000000 = -2 := by
    rw [val_units (m := -2) 1074 0 (by decide +kernel) rfl]; norm_num
  have v2 : ofDouble 0x4059000000000000 = 100 := by
    rw [val_units (m := 100) 1074 0 (by decide +kernel) rfl]; norm_num
  obtain ⟨p, b, s, e1, e2, -, e3, -, -, -, a2, -⟩ := C74_shown referenceNumpy referenceNumpy_accurate 0x3fe0000000000000
    0xc000000000000000 0x4059000000000000 0x3ff0000000000000 0x3fd0000000000000 0
    (show F64.expo _ ≠ 2047 by decide +kernel) (show F64.expo _ ≠ 2047 by decide +kernel)
    (show F64.expo _ ≠ 2047 by decide +kernel) (show F64.expo _ ≠ 2047 by decide +kernel)
    (show F64.expo _ ≠ 2047 by decide +kernel) zero_finite
    (by rw [v0]; norm_num [abs_of_pos]) (by rw [v1]; norm_num) (by rw [v2]; norm_num [abs_of_pos]) _ rfl
    (by rw [v0, v1, v2]; exact half_radian_axis)
  refine ⟨p, b, s, e1, e2, e3, ?_⟩
  rw [v2] at a2
  refine a2.trans ?_
  rw [abs_of_pos (by norm_num)]
  norm_num

/-- The receiver shows the message of the sender, and ends at a message in which nothing was set. -/
example : ∃ p b s, Dbl.sender referenceNumpy = .ok p ∧ p.serialize.Emits b ∧
    ∃ z, EntityStatePdu.init.serialize.Emits z ∧
      Dbl.receiver referenceNumpy [b, z, b] = ([.entity 42 s], .raised .exception) := by
  obtain ⟨p, b, s, e1, e2, e3, -⟩ := C74_sender referenceNumpy referenceNumpy_accurate
  have ez : EntityStatePdu.init.serialize.Emits EntityStatePdu.init.serialize.out := ⟨rfl, (), by decide +kernel⟩
  have v0 : ofDouble 0 = 0 := by
    rw [val_units (m := 0) 1074 0 (by decide +kernel) rfl]; norm_num
  refine ⟨p, b, s, e1, e2, _, ez, ?_⟩
  have er : Dbl.recv referenceNumpy b = some (.ok (.entity 42 s)) := by
    cases h : Dbl.recv referenceNumpy b with
    | none => simp only [Dbl.receiver, h] at e3; cases e3
    | some r =>
      cases r with
      | error e => simp only [Dbl.receiver, h] at e3; cases e3
      | ok l => simp only [Dbl.receiver, h] at e3; cases e3; rfl
  have := C74_unset_location referenceNumpy referenceNumpy_accurate.squareZero EntityStatePdu.init (by decide)
    ⟨zero_finite, zero_finite, zero_finite⟩ ⟨v0, v0, v0⟩ _ [] ez (by decide +kernel) [b] [.entity 42 s]
    (by simp only [List.map_cons, List.map_nil, er]) [b]
  rwa [List.append_nil] at this

/-- An entity at 1e-13 m from the north pole. -/
example : ∃ b, (EntityStatePdu.serialize { exampleEntity with
      entityLocation := ⟨0x3d3c25c268497682, 0, 0x41583fcb00000000⟩ }).Emits b ∧ Dbl.receiver referenceNumpy [b, b] = ([], .raised .valueError) := by
  have v0 : ofDouble 0 = 0 := by
    rw [val_units (m := 0) 1074 0 (by decide +kernel) rfl]; norm_num
  have v1 : ofDouble 0x3d3c25c268497682 = 0x1c25c268497682 / 2 ^ 96 := by
    rw [val_units (m := 0x1c25c268497682) 978 96 (by decide +kernel) rfl]; norm_num
  have v2 : ofDouble 0x41583fcb00000000 = 6356780 := by
    rw [val_units (m := 6356780) 1074 0 (by decide +kernel) rfl]; norm_num
  have ez : (EntityStatePdu.serialize { exampleEntity with
      entityLocation := ⟨0x3d3c25c268497682, 0, 0x41583fcb00000000⟩ }).Ok := ⟨(), by decide +kernel⟩
  have := C74_pole referenceNumpy referenceNumpy_accurate { exampleEntity with
      entityLocation := ⟨0x3d3c25c268497682, 0, 0x41583fcb00000000⟩ } (by decide)
    ⟨show F64.expo _ ≠ 2047 by decide +kernel, zero_finite, show F64.expo _ ≠ 2047 by decide +kernel⟩
    (by rw [v1, v0, zero_pow two_ne_zero, add_zero, Real.sqrt_sq (by norm_num)]; norm_num)
    (by rw [v1, v0, zero_pow two_ne_zero, add_zero, Real.sqrt_sq (by norm_num)]; norm_num)
    (by rw [v2, abs_of_pos (by norm_num)]; norm_num) _ [] ez.emits (by decide +kernel) [] [] rfl
  refine ⟨_, ez.emits, ?_⟩
  have h := this [(EntityStatePdu.serialize { exampleEntity with
      entityLocation := ⟨0x3d3c25c268497682, 0, 0x41583fcb00000000⟩ }).out]
  rwa [List.append_nil] at h

/-- The example entity with an infinite roll. -/
example (number : Int) (s : Dbl.Shown) : Dbl.recv referenceNumpy (EntityStatePdu.serialize { exampleEntity with
      entityOrientation := ⟨0, 0, 0x7ff0000000000000⟩ }).out ≠ some (.ok (.entity number s)) := by
  have := (C74_infinite referenceNumpy { exampleEntity with entityOrientation := ⟨0, 0, 0x7ff0000000000000⟩ } (by decide) _
    [] ⟨rfl, (), by decide +kernel⟩ (by decide +kernel) (Or.inr (Or.inr ⟨by decide, by decide⟩))).1 number s
  rwa [List.append_nil] at this

end Dis
