import Verif.Proof.Coordinates
import Mathlib.Analysis.SpecialFunctions.Trigonometric.Bounds

/-! # Lemmas about UTM zones -/

namespace Dis.Geo

theorem zone_plain (lon : ℝ) (h : -180 ≤ lon) :
    6 * ((truncate ((lon + 180) / 6) + 1 : ℤ) - 1 : ℝ) - 180 ≤ lon
    ∧ lon < 6 * ((truncate ((lon + 180) / 6) + 1 : ℤ) : ℝ) - 180 := by
  have h0 : 0 ≤ (lon + 180) / 6 := by linarith
  have e : truncate ((lon + 180) / 6) = ⌊(lon + 180) / 6⌋ := by simp [truncate, h0]
  rw [e]
  have h1 := Int.floor_le ((lon + 180) / 6)
  have h2 := Int.lt_floor_add_one ((lon + 180) / 6)
  push_cast
  constructor <;> linarith

/-- The plain zone rule applies: outside southern Norway and Svalbard. -/
theorem zone_eq (lat lon : ℝ) (hN : ¬ ((56 ≤ lat ∧ lat < 64) ∧ (3 ≤ lon ∧ lon < 12)))
    (hS : ¬ ((72 ≤ lat ∧ lat < 84) ∧ (0 ≤ lon ∧ lon < 42))) :
    zoneNumber lat lon = truncate ((lon + 180) / 6) + 1 := by
  unfold zoneNumber
  simp only [hN, if_false]
  by_cases h : 72 ≤ lat ∧ lat < 84
  · have h' : ¬ (0 ≤ lon ∧ lon < 42) := fun h' => hS ⟨h, h'⟩
    rw [if_pos h, if_neg (by rintro ⟨_, _⟩; exact h' ⟨by linarith, by linarith⟩),
      if_neg (by rintro ⟨_, _⟩; exact h' ⟨by linarith, by linarith⟩),
      if_neg (by rintro ⟨_, _⟩; exact h' ⟨by linarith, by linarith⟩),
      if_neg (by rintro ⟨_, _⟩; exact h' ⟨by linarith, by linarith⟩)]
  · rw [if_neg h]

theorem zone_range (lat lon : ℝ) (h0 : -180 ≤ lon) (h1 : lon < 180) :
    1 ≤ zoneNumber lat lon ∧ zoneNumber lat lon ≤ 60 := by
  by_cases hN : (56 ≤ lat ∧ lat < 64) ∧ (3 ≤ lon ∧ lon < 12)
  · have : ¬ (72 ≤ lat ∧ lat < 84) := by rintro ⟨_, _⟩; linarith [hN.1.2]
    simp [zoneNumber, hN, this]
  · by_cases hS : (72 ≤ lat ∧ lat < 84) ∧ (0 ≤ lon ∧ lon < 42)
    · unfold zoneNumber
      simp only [hN, hS.1, if_false]
      by_cases a1 : lon < 9
      · simp [hS.2.1, a1]
      · push Not at a1
        by_cases a2 : lon < 21
        · simp [a1, a2, not_lt.2 a1]
        · push Not at a2
          by_cases a3 : lon < 33
          · simp [a2, a3, not_lt.2 a2, not_lt.2 a1]
          · push Not at a3
            simp [a3, hS.2.2, not_lt.2 a2, not_lt.2 a1, not_lt.2 a3]
    · rw [zone_eq lat lon hN hS]
      obtain ⟨z1, z2⟩ := zone_plain lon h0
      generalize truncate ((lon + 180) / 6) = k at *
      push_cast at z1 z2
      constructor
      · have : (0 : ℝ) < k + 1 := by linarith
        have : (0 : ℤ) < k + 1 := by exact_mod_cast this
        omega
      · have : (k : ℝ) < 60 := by linarith
        have : k < 60 := by exact_mod_cast this
        omega

theorem letter_C (lat : ℝ) (h : -80 ≤ lat ∧ lat < -72) : utmLetterDesignator lat = 'C' := by
  obtain ⟨h1, h2⟩ := h
  unfold utmLetterDesignator
  rw [if_pos ⟨h1, h2⟩]

theorem letter_D (lat : ℝ) (h : -72 ≤ lat ∧ lat < -64) : utmLetterDesignator lat = 'D' := by
  obtain ⟨h1, h2⟩ := h
  unfold utmLetterDesignator
  iterate 1 rw [if_neg (by rintro ⟨_, _⟩; linarith)]
  rw [if_pos ⟨h1, h2⟩]

theorem letter_E (lat : ℝ) (h : -64 ≤ lat ∧ lat < -56) : utmLetterDesignator lat = 'E' := by
  obtain ⟨h1, h2⟩ := h
  unfold utmLetterDesignator
  iterate 2 rw [if_neg (by rintro ⟨_, _⟩; linarith)]
  rw [if_pos ⟨h1, h2⟩]

theorem letter_F (lat : ℝ) (h : -56 ≤ lat ∧ lat < -48) : utmLetterDesignator lat = 'F' := by
  obtain ⟨h1, h2⟩ := h
  unfold utmLetterDesignator
  iterate 3 rw [if_neg (by rintro ⟨_, _⟩; linarith)]
  rw [if_pos ⟨h1, h2⟩]

theorem letter_G (lat : ℝ) (h : -48 ≤ lat ∧ lat < -40) : utmLetterDesignator lat = 'G' := by
  obtain ⟨h1, h2⟩ := h
  unfold utmLetterDesignator
  iterate 4 rw [if_neg (by rintro ⟨_, _⟩; linarith)]
  rw [if_pos ⟨h1, h2⟩]

theorem letter_H (lat : ℝ) (h : -40 ≤ lat ∧ lat < -32) : utmLetterDesignator lat = 'H' := by
  obtain ⟨h1, h2⟩ := h
  unfold utmLetterDesignator
  iterate 5 rw [if_neg (by rintro ⟨_, _⟩; linarith)]
  rw [if_pos ⟨h1, h2⟩]

theorem letter_J (lat : ℝ) (h : -32 ≤ lat ∧ lat < -24) : utmLetterDesignator lat = 'J' := by
  obtain ⟨h1, h2⟩ := h
  unfold utmLetterDesignator
  iterate 6 rw [if_neg (by rintro ⟨_, _⟩; linarith)]
  rw [if_pos ⟨h1, h2⟩]

theorem letter_K (lat : ℝ) (h : -24 ≤ lat ∧ lat < -16) : utmLetterDesignator lat = 'K' := by
  obtain ⟨h1, h2⟩ := h
  unfold utmLetterDesignator
  iterate 7 rw [if_neg (by rintro ⟨_, _⟩; linarith)]
  rw [if_pos ⟨h1, h2⟩]

theorem letter_L (lat : ℝ) (h : -16 ≤ lat ∧ lat < -8) : utmLetterDesignator lat = 'L' := by
  obtain ⟨h1, h2⟩ := h
  unfold utmLetterDesignator
  iterate 8 rw [if_neg (by rintro ⟨_, _⟩; linarith)]
  rw [if_pos ⟨h1, h2⟩]

theorem letter_M (lat : ℝ) (h : -8 ≤ lat ∧ lat < 0) : utmLetterDesignator lat = 'M' := by
  obtain ⟨h1, h2⟩ := h
  unfold utmLetterDesignator
  iterate 9 rw [if_neg (by rintro ⟨_, _⟩; linarith)]
  rw [if_pos ⟨h1, h2⟩]

theorem letter_N (lat : ℝ) (h : 0 ≤ lat ∧ lat < 8) : utmLetterDesignator lat = 'N' := by
  obtain ⟨h1, h2⟩ := h
  unfold utmLetterDesignator
  iterate 10 rw [if_neg (by rintro ⟨_, _⟩; linarith)]
  rw [if_pos ⟨h1, h2⟩]

theorem letter_P (lat : ℝ) (h : 8 ≤ lat ∧ lat < 16) : utmLetterDesignator lat = 'P' := by
  obtain ⟨h1, h2⟩ := h
  unfold utmLetterDesignator
  iterate 11 rw [if_neg (by rintro ⟨_, _⟩; linarith)]
  rw [if_pos ⟨h1, h2⟩]

theorem letter_Q (lat : ℝ) (h : 16 ≤ lat ∧ lat < 24) : utmLetterDesignator lat = 'Q' := by
  obtain ⟨h1, h2⟩ := h
  unfold utmLetterDesignator
  iterate 12 rw [if_neg (by rintro ⟨_, _⟩; linarith)]
  rw [if_pos ⟨h1, h2⟩]

theorem letter_R (lat : ℝ) (h : 24 ≤ lat ∧ lat < 32) : utmLetterDesignator lat = 'R' := by
  obtain ⟨h1, h2⟩ := h
  unfold utmLetterDesignator
  iterate 13 rw [if_neg (by rintro ⟨_, _⟩; linarith)]
  rw [if_pos ⟨h1, h2⟩]

theorem letter_S (lat : ℝ) (h : 32 ≤ lat ∧ lat < 40) : utmLetterDesignator lat = 'S' := by
  obtain ⟨h1, h2⟩ := h
  unfold utmLetterDesignator
  iterate 14 rw [if_neg (by rintro ⟨_, _⟩; linarith)]
  rw [if_pos ⟨h1, h2⟩]

theorem letter_T (lat : ℝ) (h : 40 ≤ lat ∧ lat < 48) : utmLetterDesignator lat = 'T' := by
  obtain ⟨h1, h2⟩ := h
  unfold utmLetterDesignator
  iterate 15 rw [if_neg (by rintro ⟨_, _⟩; linarith)]
  rw [if_pos ⟨h1, h2⟩]

theorem letter_U (lat : ℝ) (h : 48 ≤ lat ∧ lat < 56) : utmLetterDesignator lat = 'U' := by
  obtain ⟨h1, h2⟩ := h
  unfold utmLetterDesignator
  iterate 16 rw [if_neg (by rintro ⟨_, _⟩; linarith)]
  rw [if_pos ⟨h1, h2⟩]

theorem letter_V (lat : ℝ) (h : 56 ≤ lat ∧ lat < 64) : utmLetterDesignator lat = 'V' := by
  obtain ⟨h1, h2⟩ := h
  unfold utmLetterDesignator
  iterate 17 rw [if_neg (by rintro ⟨_, _⟩; linarith)]
  rw [if_pos ⟨h1, h2⟩]

theorem letter_W (lat : ℝ) (h : 64 ≤ lat ∧ lat < 72) : utmLetterDesignator lat = 'W' := by
  obtain ⟨h1, h2⟩ := h
  unfold utmLetterDesignator
  iterate 18 rw [if_neg (by rintro ⟨_, _⟩; linarith)]
  rw [if_pos ⟨h1, h2⟩]

theorem letter_X (lat : ℝ) (h : 72 ≤ lat ∧ lat < 80) : utmLetterDesignator lat = 'X' := by
  obtain ⟨h1, h2⟩ := h
  unfold utmLetterDesignator
  iterate 19 rw [if_neg (by rintro ⟨_, _⟩; linarith)]
  rw [if_pos ⟨h1, h2⟩]

theorem letter_out (lat : ℝ) (h : lat < -80 ∨ 80 ≤ lat) : utmLetterDesignator lat = 'Z' := by
  unfold utmLetterDesignator
  iterate 20 rw [if_neg (by rintro ⟨_, _⟩; rcases h with h | h <;> linarith)]

theorem letter_band (lat : ℝ) (k : Fin 20) (h1 : -80 + 8 * (k : ℝ) ≤ lat) (h2 : lat < -72 + 8 * (k : ℝ)) :
    utmLetterDesignator lat = bandLetter k := by
  fin_cases k <;> norm_num at h1 h2
  · exact letter_C lat ⟨by linarith, by linarith⟩
  · exact letter_D lat ⟨by linarith, by linarith⟩
  · exact letter_E lat ⟨by linarith, by linarith⟩
  · exact letter_F lat ⟨by linarith, by linarith⟩
  · exact letter_G lat ⟨by linarith, by linarith⟩
  · exact letter_H lat ⟨by linarith, by linarith⟩
  · exact letter_J lat ⟨by linarith, by linarith⟩
  · exact letter_K lat ⟨by linarith, by linarith⟩
  · exact letter_L lat ⟨by linarith, by linarith⟩
  · exact letter_M lat ⟨by linarith, by linarith⟩
  · exact letter_N lat ⟨by linarith, by linarith⟩
  · exact letter_P lat ⟨by linarith, by linarith⟩
  · exact letter_Q lat ⟨by linarith, by linarith⟩
  · exact letter_R lat ⟨by linarith, by linarith⟩
  · exact letter_S lat ⟨by linarith, by linarith⟩
  · exact letter_T lat ⟨by linarith, by linarith⟩
  · exact letter_U lat ⟨by linarith, by linarith⟩
  · exact letter_V lat ⟨by linarith, by linarith⟩
  · exact letter_W lat ⟨by linarith, by linarith⟩
  · exact letter_X lat ⟨by linarith, by linarith⟩

theorem band_exists (lat : ℝ) (h1 : -80 ≤ lat) (h2 : lat < 80) :
    ∃ k : Fin 20, -80 + 8 * (k : ℝ) ≤ lat ∧ lat < -72 + 8 * (k : ℝ) := by
  have a1 := Int.floor_le ((lat + 80) / 8)
  have a2 := Int.lt_floor_add_one ((lat + 80) / 8)
  have b1 : 0 ≤ ⌊(lat + 80) / 8⌋ := Int.floor_nonneg.2 (by linarith)
  have b2 : ⌊(lat + 80) / 8⌋ < 20 := Int.floor_lt.2 (by push_cast; linarith)
  obtain ⟨m, hm⟩ := Int.eq_ofNat_of_zero_le b1
  rw [hm] at a1 a2 b2
  refine ⟨⟨m, by omega⟩, ?_, ?_⟩
  · push_cast at a1 a2 ⊢; linarith
  · push_cast at a1 a2 ⊢; linarith

theorem bandLetter_inj : ∀ j k : Fin 20, bandLetter j = bandLetter k → j = k := by decide
theorem bandLetter_ne_Z : ∀ k : Fin 20, bandLetter k ≠ 'Z' := by decide

theorem letter_iff (lat : ℝ) (k : Fin 20) :
    utmLetterDesignator lat = bandLetter k ↔ -80 + 8 * (k : ℝ) ≤ lat ∧ lat < -72 + 8 * (k : ℝ) := by
  constructor
  · intro h
    by_cases hin : -80 ≤ lat ∧ lat < 80
    · obtain ⟨j, h1, h2⟩ := band_exists lat hin.1 hin.2
      rw [letter_band lat j h1 h2] at h
      rw [← bandLetter_inj _ _ h]
      exact ⟨h1, h2⟩
    · have : lat < -80 ∨ 80 ≤ lat := by
        by_contra hc
        push Not at hc
        exact hin hc
      rw [letter_out lat this] at h
      exact absurd h.symm (bandLetter_ne_Z k)
  · rintro ⟨h1, h2⟩
    exact letter_band lat k h1 h2

theorem letter_Z (lat : ℝ) : utmLetterDesignator lat = 'Z' ↔ lat < -80 ∨ 80 ≤ lat := by
  constructor
  · intro h
    by_contra hc
    push Not at hc
    obtain ⟨j, h1, h2⟩ := band_exists lat hc.1 hc.2
    rw [letter_band lat j h1 h2] at h
    exact bandLetter_ne_Z j h
  · exact letter_out lat

/-! ## Projected coordinates -/

/-- The zone's central meridian in degrees. -/
theorem utm_central (lat lon alt : ℝ)
    (h : lon = 6 * ((lla2utm ![lat, lon, alt]).zone.1 : ℝ) - 183) :
    (lla2utm ![lat, lon, alt]).utm 0 = 500000 ∧ (lla2utm ![lat, lon, alt]).k = 0.9996 := by
  simp only [lla2utm, Matrix.cons_val_zero, Matrix.cons_val_one, Matrix.cons_val] at h ⊢
  have e : (((zoneNumber lat lon - 1) * 6 - 180 + 3 : ℤ) : ℝ) = lon := by
    push_cast; linarith
  rw [e]
  constructor <;> ring

theorem utm_mirror (lat lon lon' alt : ℝ)
    (hz : (lla2utm ![lat, lon, alt]).zone = (lla2utm ![lat, lon', alt]).zone)
    (h : lon + lon' = 2 * (6 * ((lla2utm ![lat, lon, alt]).zone.1 : ℝ) - 183)) :
    (lla2utm ![lat, lon', alt]).utm 0 - 500000 = -((lla2utm ![lat, lon, alt]).utm 0 - 500000)
    ∧ (lla2utm ![lat, lon', alt]).utm 1 = (lla2utm ![lat, lon, alt]).utm 1
    ∧ (lla2utm ![lat, lon', alt]).k = (lla2utm ![lat, lon, alt]).k := by
  simp only [lla2utm, Matrix.cons_val_zero, Matrix.cons_val_one, Matrix.cons_val, Prod.mk.injEq, and_true] at h hz ⊢
  rw [← hz]
  generalize zoneNumber lat lon = Z at *
  have e : deg2rad lon' - deg2rad ((((Z - 1) * 6 - 180 + 3 : ℤ) : ℝ))
      = -(deg2rad lon - deg2rad ((((Z - 1) * 6 - 180 + 3 : ℤ) : ℝ))) := by
    unfold deg2rad
    push_cast
    have : lon' = 2 * (6 * (Z : ℝ) - 183) - lon := by linarith
    rw [this]; ring
  rw [e]
  generalize deg2rad lon - deg2rad ((((Z - 1) * 6 - 180 + 3 : ℤ) : ℝ)) = D
  refine ⟨?_, ?_, ?_⟩ <;> ring

theorem utm_south (lat lon alt : ℝ)
    (hz : (lla2utm ![-lat, lon, alt]).zone.1 = (lla2utm ![lat, lon, alt]).zone.1) :
    (lla2utm ![-lat, lon, alt]).utm 0 = (lla2utm ![lat, lon, alt]).utm 0
    ∧ (lla2utm ![-lat, lon, alt]).utm 1 = -(lla2utm ![lat, lon, alt]).utm 1
    ∧ (lla2utm ![-lat, lon, alt]).k = (lla2utm ![lat, lon, alt]).k := by
  simp only [lla2utm, Matrix.cons_val_zero, Matrix.cons_val_one, Matrix.cons_val] at hz ⊢
  rw [hz]
  have e : deg2rad (-lat) = -deg2rad lat := by unfold deg2rad; ring
  rw [e]
  simp only [mul_neg, Real.sin_neg, Real.cos_neg, Real.tan_neg, neg_sq]
  refine ⟨trivial, ?_, trivial⟩
  ring

/-- The northing on the central meridian has the sign of the latitude. -/
theorem utm_north_pos (lat lon alt : ℝ) (hl : 0 < lat)
    (h : lon = 6 * ((lla2utm ![lat, lon, alt]).zone.1 : ℝ) - 183) :
    0 < (lla2utm ![lat, lon, alt]).utm 1 := by
  simp only [lla2utm, Matrix.cons_val_zero, Matrix.cons_val_one, Matrix.cons_val] at h ⊢
  have e : (((zoneNumber lat lon - 1) * 6 - 180 + 3 : ℤ) : ℝ) = lon := by
    push_cast; linarith
  rw [e, sub_self, zero_mul]
  have ht : 0 < deg2rad lat := by
    unfold deg2rad
    have := Real.pi_pos
    positivity
  generalize deg2rad lat = t at *
  have h2 := Real.sin_le (show 0 ≤ 2 * t by linarith)
  have h4 := abs_le.1 (Real.abs_sin_le_abs (x := 4 * t))
  have h6 := Real.sin_le (show 0 ≤ 6 * t by linarith)
  rw [abs_of_pos (show (0:ℝ) < 4 * t by linarith)] at h4
  have e1 := e_sq_lt
  have e2 := e_sq_gt
  have ha := a_pos
  generalize WGS84.e ^ 2 = E at *
  have hE2 : 0 ≤ E ^ 2 := by positivity
  have hE2' : E ^ 2 ≤ 0.0001 := by nlinarith
  have hE3 : 0 ≤ E ^ 3 := by have : 0 < E := by linarith
                             positivity
  have hE3' : E ^ 3 ≤ 0.0001 := by nlinarith
  have c2 : 0 ≤ 3 * E / 8 + 3 * E ^ 2 / 32 + 45 * E ^ 3 / 1024 := by linarith
  have c2' : 3 * E / 8 + 3 * E ^ 2 / 32 + 45 * E ^ 3 / 1024 ≤ 0.01 := by linarith
  have c4 : 0 ≤ 15 * E ^ 2 / 256 + 45 * E ^ 3 / 1024 := by linarith
  have c4' : 15 * E ^ 2 / 256 + 45 * E ^ 3 / 1024 ≤ 0.01 := by linarith
  have c6 : 0 ≤ 35 * E ^ 3 / 3072 := by linarith
  have c6' : 35 * E ^ 3 / 3072 ≤ 0.01 := by linarith
  have c0 : 0.9 ≤ 1 - E / 4 - 3 * E ^ 2 / 64 - 5 * E ^ 3 / 256 := by linarith
  generalize 3 * E / 8 + 3 * E ^ 2 / 32 + 45 * E ^ 3 / 1024 = k2 at *
  generalize 15 * E ^ 2 / 256 + 45 * E ^ 3 / 1024 = k4 at *
  generalize 35 * E ^ 3 / 3072 = k6 at *
  generalize 1 - E / 4 - 3 * E ^ 2 / 64 - 5 * E ^ 3 / 256 = k0 at *
  have m2 : k2 * Real.sin (2 * t) ≤ 0.02 * t := by nlinarith
  have m4 : -(0.04 * t) ≤ k4 * Real.sin (4 * t) := by nlinarith [h4.1]
  have m6 : k6 * Real.sin (6 * t) ≤ 0.06 * t := by nlinarith
  have m0 : 0.9 * t ≤ k0 * t := by nlinarith
  have hM : 0 < k0 * t - k2 * Real.sin (2 * t) + k4 * Real.sin (4 * t) - k6 * Real.sin (6 * t) := by
    nlinarith
  have := mul_pos ha hM
  norm_num
  linarith

end Dis.Geo
