import Verif.Proof.Coordinates64
import Verif.Proof.Correct
import Verif.Proof.HeapNumbers
import Verif.Proof.Round64
import Verif.Proof.UtmConformal
import Verif.Model.RangeUtm

/-!
# UTM zones and bands in floating point
-/

set_option exponentiation.threshold 4096

namespace Dis.Geo

theorem Ap.eq {x : F64} {a : ℝ} (h : Ap x a 0) : ofDouble x = a := sub_eq_zero.1 (abs_nonpos_iff.1 h.2)

theorem le_iff {x y : F64} (hx : x.Finite) (hy : y.Finite) : F64.le x y = true ↔ ofDouble x ≤ ofDouble y := by
  have n1 : x.isNan = false := by
    unfold F64.isNan; rw [decide_eq_false_iff_not]; exact fun h => hx h.1
  have n2 : y.isNan = false := by
    unfold F64.isNan; rw [decide_eq_false_iff_not]; exact fun h => hy h.1
  unfold F64.le ofDouble
  have hU : (0 : ℝ) < 2 ^ 1074 := by positivity
  rw [n1, n2, div_le_div_iff_of_pos_right hU, Int.cast_le]
  simp

theorem within_iff {x : F64} (hx : x.Finite) {lo hi : F64} {l h : ℝ} (hl : Ap lo l 0) (hh : Ap hi h 0) :
    Dbl.within lo x hi = true ↔ l ≤ ofDouble x ∧ ofDouble x < h := by
  unfold Dbl.within
  rw [Bool.and_eq_true, le_iff hl.1 hx, lt_iff hx hh.1, hl.eq, hh.eq]

theorem ap_num (n : ℕ) {r : ℝ} (h : n < 2 ^ 53) (hr : r = n) : Ap (Dbl.num n) r 0 := hr ▸ Ap.num h

theorem ap_minus (n : ℕ) {r : ℝ} (h : n < 2 ^ 53) (hr : r = -n) : Ap (F64.neg (Dbl.num n)) r 0 := hr ▸ (Ap.num h).neg

theorem letter_eq {lat : F64} (h : lat.Finite) :
    Dbl.utmLetterDesignator lat = utmLetterDesignator (ofDouble lat) := by
  unfold Dbl.utmLetterDesignator utmLetterDesignator
  simp only [within_iff h (ap_minus 80 (r := -80) (by norm_num) (by norm_num)) (ap_minus 72 (r := -72) (by norm_num) (by norm_num)),
    within_iff h (ap_minus 72 (r := -72) (by norm_num) (by norm_num)) (ap_minus 64 (r := -64) (by norm_num) (by norm_num)),
    within_iff h (ap_minus 64 (r := -64) (by norm_num) (by norm_num)) (ap_minus 56 (r := -56) (by norm_num) (by norm_num)),
    within_iff h (ap_minus 56 (r := -56) (by norm_num) (by norm_num)) (ap_minus 48 (r := -48) (by norm_num) (by norm_num)),
    within_iff h (ap_minus 48 (r := -48) (by norm_num) (by norm_num)) (ap_minus 40 (r := -40) (by norm_num) (by norm_num)),
    within_iff h (ap_minus 40 (r := -40) (by norm_num) (by norm_num)) (ap_minus 32 (r := -32) (by norm_num) (by norm_num)),
    within_iff h (ap_minus 32 (r := -32) (by norm_num) (by norm_num)) (ap_minus 24 (r := -24) (by norm_num) (by norm_num)),
    within_iff h (ap_minus 24 (r := -24) (by norm_num) (by norm_num)) (ap_minus 16 (r := -16) (by norm_num) (by norm_num)),
    within_iff h (ap_minus 16 (r := -16) (by norm_num) (by norm_num)) (ap_minus 8 (r := -8) (by norm_num) (by norm_num)),
    within_iff h (ap_minus 8 (r := -8) (by norm_num) (by norm_num)) (ap_num 0 (r := 0) (by norm_num) (by norm_num)),
    within_iff h (ap_num 0 (r := 0) (by norm_num) (by norm_num)) (ap_num 8 (r := 8) (by norm_num) (by norm_num)),
    within_iff h (ap_num 8 (r := 8) (by norm_num) (by norm_num)) (ap_num 16 (r := 16) (by norm_num) (by norm_num)),
    within_iff h (ap_num 16 (r := 16) (by norm_num) (by norm_num)) (ap_num 24 (r := 24) (by norm_num) (by norm_num)),
    within_iff h (ap_num 24 (r := 24) (by norm_num) (by norm_num)) (ap_num 32 (r := 32) (by norm_num) (by norm_num)),
    within_iff h (ap_num 32 (r := 32) (by norm_num) (by norm_num)) (ap_num 40 (r := 40) (by norm_num) (by norm_num)),
    within_iff h (ap_num 40 (r := 40) (by norm_num) (by norm_num)) (ap_num 48 (r := 48) (by norm_num) (by norm_num)),
    within_iff h (ap_num 48 (r := 48) (by norm_num) (by norm_num)) (ap_num 56 (r := 56) (by norm_num) (by norm_num)),
    within_iff h (ap_num 56 (r := 56) (by norm_num) (by norm_num)) (ap_num 64 (r := 64) (by norm_num) (by norm_num)),
    within_iff h (ap_num 64 (r := 64) (by norm_num) (by norm_num)) (ap_num 72 (r := 72) (by norm_num) (by norm_num)),
    within_iff h (ap_num 72 (r := 72) (by norm_num) (by norm_num)) (ap_num 80 (r := 80) (by norm_num) (by norm_num))]

theorem floor_quotient (u : ℤ) {d : ℤ} (hd : 0 < d) : ⌊(u : ℝ) / (d : ℝ)⌋ = u / d := by
  have hd' : (0 : ℝ) < d := by exact_mod_cast hd
  rw [Int.floor_eq_iff, le_div_iff₀ hd', div_lt_iff₀ hd']
  constructor
  · exact_mod_cast Int.ediv_mul_le u hd.ne'
  · exact_mod_cast Int.lt_ediv_add_one_mul_self u hd

theorem truncate_eq {x : F64} (h : x.Finite) : Dbl.truncate x = .ok (truncate (ofDouble x)) := by
  have hU : (0 : ℝ) < 2 ^ 1074 := by positivity
  have hc : ((2 ^ 1074 : ℤ) : ℝ) = 2 ^ 1074 := by rw [Int.cast_pow, Int.cast_ofNat]
  unfold Dbl.truncate truncate
  rw [if_neg h]
  congr 1
  unfold ofDouble
  generalize x.units = u
  by_cases hu : 0 ≤ u
  · rw [if_pos (by positivity), Int.tdiv_eq_ediv_of_nonneg hu, eq_comm, ← hc]
    exact floor_quotient _ (by positivity)
  · have hu' : (u : ℝ) < 0 := by exact_mod_cast not_le.1 hu
    rw [if_neg (not_le.2 (div_neg_of_neg_of_pos hu' hU))]
    obtain ⟨v, rfl⟩ : ∃ v, u = -v := ⟨-u, by ring⟩
    rw [Int.neg_tdiv, Int.tdiv_eq_ediv_of_nonneg (by omega), Int.cast_neg, neg_div, Int.ceil_neg, ← hc]
    congr 1
    exact (floor_quotient _ (by positivity)).symm

theorem add_nearest {x y : F64} (h : (F64.add x y).Finite) (w : F64) :
    |ofDouble (F64.add x y) - (ofDouble x + ofDouble y)| ≤ |ofDouble w - (ofDouble x + ofDouble y)| := by
  have key : ((F64.add x y).units - (x.units + y.units)).natAbs ≤ (w.units - (x.units + y.units)).natAbs := by
    by_cases h0 : x.units + y.units = 0
    · obtain ⟨-, -, ⟨h1, -⟩ | ⟨-, h1⟩⟩ := F64.add_finite h
      · rw [h1, h0]; exact Nat.zero_le _
      · exact absurd h0 h1
    · have := (F64.rounded_nearest h (F64.add_form h h0) w).1
      rwa [Int.pow_zero, Int.mul_one, Int.mul_one] at this
  have k2 := (Nat.cast_le (α := ℝ)).2 key
  rw [natAbs_cast, natAbs_cast, Int.cast_sub, Int.cast_sub, Int.cast_add] at k2
  have hU : (0 : ℝ) < 2 ^ 1074 := by positivity
  unfold ofDouble
  rw [← add_div, ← sub_div, ← sub_div, abs_div, abs_div]
  gcongr

/-- A double nearest to `v` is on the same side of another double as `v`. -/
theorem nearest_le {z v w : ℝ} (h : |z - v| ≤ |w - v|) : (w ≤ v → w ≤ z) ∧ (v ≤ w → z ≤ w) := by
  constructor
  · intro hw
    rw [abs_of_nonpos (a := w - v) (by linarith)] at h
    linarith [(abs_le.1 h).1]
  · intro hw
    rw [abs_of_nonneg (a := w - v) (by linarith)] at h
    linarith [(abs_le.1 h).2]

/-- The quotient from which the zone number is computed. -/
theorem zone_quotient {lon : F64} (hf : lon.Finite) (h0 : -180 ≤ ofDouble lon) (h1 : ofDouble lon ≤ 180) :
    (F64.div (F64.add lon (Dbl.num 180)) (Dbl.num 6)).Finite ∧
    (∀ k : ℕ, k ≤ 60 → ((k : ℝ) ≤ (ofDouble lon + 180) / 6 →
        (k : ℝ) ≤ ofDouble (F64.div (F64.add lon (Dbl.num 180)) (Dbl.num 6))) ∧
      ((ofDouble lon + 180) / 6 ≤ k → ofDouble (F64.div (F64.add lon (Dbl.num 180)) (Dbl.num 6)) ≤ k)) ∧
    |ofDouble (F64.div (F64.add lon (Dbl.num 180)) (Dbl.num 6)) - (ofDouble lon + 180) / 6| ≤ 1.4e-14 := by
  have a180 := ap_num 180 (r := 180) (by norm_num) (by norm_num)
  have a6 := ap_num 6 (r := 6) (by norm_num) (by norm_num)
  have hs := (Ap.self hf).add a180 (S := 360) (g := 4e-14) (abs_le.2 ⟨by linarith, by linarith⟩) (by norm_num) (by norm_num)
  obtain ⟨hq, -⟩ := hs.div a6 (Q := 60) (B := 6) (g := 1.4e-14)
    (by rw [abs_div, div_le_iff₀ (by norm_num)]; norm_num; exact abs_le.2 ⟨by linarith, by linarith⟩)
    (by norm_num) (by norm_num) (by norm_num) (by norm_num)
  refine ⟨hq.1, fun k hk => ?_, hq.2⟩
  have k1 := ap_num (6 * k) (r := 6 * k) (by omega) (by push_cast; ring)
  have k2 := ap_num k (r := k) (by omega) rfl
  have s1 := nearest_le (add_nearest hs.1 (Dbl.num (6 * k)))
  have s2 := nearest_le (div_nearest hq.1 a6.1 (Dbl.num k)).1
  rw [k1.eq, a180.eq] at s1
  rw [k2.eq, a6.eq] at s2
  generalize ofDouble (F64.add lon (Dbl.num 180)) = s at *
  generalize ofDouble (F64.div (F64.add lon (Dbl.num 180)) (Dbl.num 6)) = q at *
  constructor
  · intro h
    refine s2.1 ?_
    have := s1.1 (by linarith)
    linarith
  · intro h
    refine s2.2 ?_
    have := s1.2 (by linarith)
    linarith

/-- The number before the exceptions, in doubles and in the reals. -/
theorem zone_first {lon : F64} (hf : lon.Finite) (h0 : -180 ≤ ofDouble lon) (h1 : ofDouble lon ≤ 180) :
    ∃ n : ℤ, Dbl.truncate (F64.div (F64.add lon (Dbl.num 180)) (Dbl.num 6)) = .ok n ∧ (0 ≤ n ∧ n ≤ 60) ∧
      (n = truncate ((ofDouble lon + 180) / 6) ∨
       n = truncate ((ofDouble lon + 180) / 6) + 1 ∧ 6 * (n : ℝ) - 180 - 1e-13 < ofDouble lon ∧
         ofDouble lon < 6 * (n : ℝ) - 180) := by
  obtain ⟨hq, hk, hn⟩ := zone_quotient hf h0 h1
  refine ⟨_, truncate_eq hq, ?_⟩
  generalize ofDouble (F64.div (F64.add lon (Dbl.num 180)) (Dbl.num 6)) = q at *
  obtain ⟨v, hv⟩ : ∃ v, v = (ofDouble lon + 180) / 6 := ⟨_, rfl⟩
  rw [← hv] at hk hn ⊢
  have v0 : 0 ≤ v := by rw [hv]; apply div_nonneg <;> linarith
  have v1 : v ≤ 60 := by rw [hv]; linarith
  have q0 : 0 ≤ q := by simpa using (hk 0 (by norm_num)).1 (by simpa using v0)
  have q1 : q ≤ 60 := by simpa using (hk 60 (by norm_num)).2 (by simpa using v1)
  unfold truncate
  rw [if_pos q0, if_pos v0]
  have f1 : ⌊v⌋ ≤ ⌊q⌋ := by
    obtain ⟨k, hk'⟩ := Int.eq_ofNat_of_zero_le (Int.floor_nonneg.2 v0)
    have kv : (k : ℝ) ≤ v := by
      have := Int.floor_le v
      rw [hk'] at this
      exact_mod_cast this
    have k60 : k ≤ 60 := by exact_mod_cast kv.trans v1
    rw [hk', Int.le_floor]
    exact_mod_cast (hk k k60).1 kv
  have f2 : ⌊q⌋ ≤ 60 := Int.floor_le_iff.2 (by norm_num; linarith)
  refine ⟨⟨Int.floor_nonneg.2 q0, f2⟩, ?_⟩
  rcases f1.eq_or_lt with h | h
  · exact Or.inl h.symm
  · right
    have b1 := Int.floor_le q
    have b2 := Int.lt_floor_add_one v
    have b3 := (abs_le.1 hn).2
    have h' : (⌊v⌋ : ℝ) + 1 ≤ ⌊q⌋ := by exact_mod_cast h
    have e1 : ⌊q⌋ = ⌊v⌋ + 1 := by
      have b4 := Int.floor_le v
      have : (⌊q⌋ : ℝ) < ⌊v⌋ + 2 := by norm_num at b3; linarith
      have : ⌊q⌋ < ⌊v⌋ + 2 := by exact_mod_cast this
      omega
    refine ⟨e1, ?_, ?_⟩
    · norm_num at b3 ⊢; linarith
    · linarith

/-- The zone of the western edge of a zone, away from the exceptions. -/
theorem zone_edge {lat lon : ℝ} {z : ℤ} (h0 : -180 ≤ lon) (hA : ¬ ((56 ≤ lat ∧ lat < 64) ∧ (3 ≤ lon ∧ lon < 12)))
    (hB : ¬ ((72 ≤ lat ∧ lat < 84) ∧ (0 ≤ lon ∧ lon < 42)))
    (h1 : 6 * (z : ℝ) - 186 - 1e-13 < lon) (h2 : lon < 6 * (z : ℝ) - 186) :
    zoneNumber lat (6 * (z : ℝ) - 186) = z := by
  have edge : (6 * (z : ℝ) - 186) = ((6 * z - 186 : ℤ) : ℝ) := by push_cast; ring
  have zone1 : truncate ((6 * (z : ℝ) - 186 + 180) / 6) + 1 = z := by
    have e1 : (6 * (z : ℝ) - 186 + 180) / 6 = ((z - 1 : ℤ) : ℝ) := by push_cast; ring
    have z0 : (0 : ℝ) ≤ ((z - 1 : ℤ) : ℝ) := by push_cast; linarith
    rw [e1]
    unfold truncate
    rw [if_pos z0, Int.floor_intCast]
    ring
  have near (m : ℤ) (h : (m : ℝ) < 6 * (z : ℝ) - 186) : (m : ℝ) ≤ lon := by
    rw [edge] at h
    have h' : m + 1 ≤ 6 * z - 186 := by exact_mod_cast h
    have : (m : ℝ) + 1 ≤ 6 * (z : ℝ) - 186 := by rw [edge]; exact_mod_cast h'
    norm_num at h1
    linarith
  have ne3 : 6 * (z : ℝ) - 186 ≠ 3 := by
    rw [edge]
    intro h
    have : 6 * z - 186 = 3 := by exact_mod_cast h
    omega
  unfold zoneNumber
  simp only []
  rw [if_neg (c := (56 ≤ lat ∧ lat < 64) ∧ _), zone1]
  · by_cases hl : 72 ≤ lat ∧ lat < 84
    · rw [if_pos hl]
      by_cases hz : z = 31
      · rw [hz]; norm_num
      · have no : ¬ (0 ≤ 6 * (z : ℝ) - 186 ∧ 6 * (z : ℝ) - 186 < 42) := by
          rintro ⟨a, b⟩
          refine hB ⟨hl, ?_, by linarith⟩
          have ne0 : 6 * (z : ℝ) - 186 ≠ 0 := by
            rw [edge]
            intro h
            have : 6 * z - 186 = 0 := by exact_mod_cast h
            omega
          exact_mod_cast near 0 (by push_cast; exact lt_of_le_of_ne a (Ne.symm ne0))
        rw [if_neg, if_neg, if_neg, if_neg]
        all_goals
          rintro ⟨a, b⟩
          exact no ⟨by linarith, by linarith⟩
    · rw [if_neg hl]
  · rintro ⟨a, b, c⟩
    refine hA ⟨a, ?_, by linarith⟩
    exact_mod_cast near 3 (by push_cast; exact lt_of_le_of_ne b (Ne.symm ne3))

theorem zone_dbl {lat lon : F64} (hl : lat.Finite) (hf : lon.Finite) (h0 : -180 ≤ ofDouble lon) (h1 : ofDouble lon ≤ 180) :
    ∃ z : ℤ, Dbl.zoneNumber lat lon = .ok z ∧ z ≤ 61 ∧
      (z = zoneNumber (ofDouble lat) (ofDouble lon) ∨
       z = zoneNumber (ofDouble lat) (ofDouble lon) + 1 ∧ 6 * (z : ℝ) - 186 - 1e-13 < ofDouble lon ∧
         ofDouble lon < 6 * (z : ℝ) - 186 ∧ zoneNumber (ofDouble lat) (6 * (z : ℝ) - 186) = z) := by
  obtain ⟨n, e1, ⟨-, n60⟩, hn⟩ := zone_first hf h0 h1
  have edge := zone_edge (z := n + 1) (lat := ofDouble lat) h0
  obtain ⟨F, hF⟩ : ∃ F : ℤ → Prop, F = fun z : ℤ => zoneNumber (ofDouble lat) (6 * (z : ℝ) - 186) = z := ⟨_, rfl⟩
  have hF' (z : ℤ) : (zoneNumber (ofDouble lat) (6 * (z : ℝ) - 186) = z) = F z := by rw [hF]
  simp only [hF'] at edge ⊢
  unfold Dbl.zoneNumber zoneNumber
  simp only [e1, bind_ok]
  simp only [Bool.and_eq_true, within_iff hl (ap_num 56 (r := 56) (by norm_num) (by norm_num)) (ap_num 64 (r := 64) (by norm_num) (by norm_num)),
    within_iff hl (ap_num 72 (r := 72) (by norm_num) (by norm_num)) (ap_num 84 (r := 84) (by norm_num) (by norm_num)),
    within_iff hf (ap_num 3 (r := 3) (by norm_num) (by norm_num)) (ap_num 12 (r := 12) (by norm_num) (by norm_num)),
    within_iff hf (ap_num 0 (r := 0) (by norm_num) (by norm_num)) (ap_num 9 (r := 9) (by norm_num) (by norm_num)),
    within_iff hf (ap_num 9 (r := 9) (by norm_num) (by norm_num)) (ap_num 21 (r := 21) (by norm_num) (by norm_num)),
    within_iff hf (ap_num 21 (r := 21) (by norm_num) (by norm_num)) (ap_num 33 (r := 33) (by norm_num) (by norm_num)),
    within_iff hf (ap_num 33 (r := 33) (by norm_num) (by norm_num)) (ap_num 42 (r := 42) (by norm_num) (by norm_num))]
  have last (hA : ¬ ((56 ≤ ofDouble lat ∧ ofDouble lat < 64) ∧ (3 ≤ ofDouble lon ∧ ofDouble lon < 12)))
      (hB : ¬ ((72 ≤ ofDouble lat ∧ ofDouble lat < 84) ∧ (0 ≤ ofDouble lon ∧ ofDouble lon < 42))) :
      n + 1 ≤ 61 ∧ (n + 1 = truncate ((ofDouble lon + 180) / 6) + 1 ∨
      n + 1 = truncate ((ofDouble lon + 180) / 6) + 1 + 1 ∧ 6 * ((n + 1 : ℤ) : ℝ) - 186 - 1e-13 < ofDouble lon ∧
         ofDouble lon < 6 * ((n + 1 : ℤ) : ℝ) - 186 ∧ F (n + 1)) := by
    refine ⟨by omega, hn.imp (fun h => by rw [h]) (fun h => ?_)⟩
    have b1 : 6 * ((n + 1 : ℤ) : ℝ) - 186 - 1e-13 < ofDouble lon := by have := h.2.1; push_cast; linarith
    have b2 : ofDouble lon < 6 * ((n + 1 : ℤ) : ℝ) - 186 := by have := h.2.2; push_cast; linarith
    exact ⟨by rw [h.1], b1, b2, edge hA hB b1 b2⟩
  refine ⟨_, rfl, ?_⟩
  split_ifs with c1 c2 c3 c4 c5 c6 c7
  all_goals first | exact ⟨by norm_num, Or.inl rfl⟩ | skip
  · refine last c6 fun h => ?_
    by_cases k1 : ofDouble lon < 9
    · exact c2 ⟨h.2.1, k1⟩
    by_cases k2 : ofDouble lon < 21
    · exact c3 ⟨not_lt.1 k1, k2⟩
    by_cases k3 : ofDouble lon < 33
    · exact c4 ⟨not_lt.1 k2, k3⟩
    · exact c5 ⟨not_lt.1 k3, h.2.2⟩
  · exact last (by assumption) (fun h => c1 h.1)

end Dis.Geo
