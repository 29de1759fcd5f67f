import Verif.Proof.Geodetic64d

/-!
# The loop of `ecef2lla` in doubles ends, and what it returns
-/

set_option exponentiation.threshold 4096

namespace Dis.Geo

open WGS84

section
variable {t h : ℝ} (ht : -(Real.pi / 2) < t ∧ t < Real.pi / 2) (hh : |h| ≤ 100000)
include ht hh

omit ht hh in
theorem after_succ {L : Dbl.Libm} {ph zh : F64} {n : ℕ} {s : Dbl.LoopState}
    (e1 : Dbl.ecef2lla_after L ph zh n = .ok s) :
    Dbl.ecef2lla_after L ph zh (n + 1) = Dbl.ecef2lla_body L ph zh s := by
  rw [Dbl.ecef2lla_after, e1]

/-- The state after one round or more. -/
theorem after64 {L : Dbl.Libm} (h1 : L.SquareOk) (h2 : L.SquareReturns) (h3 : L.TrigOk) (h4 : L.ArcOk) {ph zh : F64}
    (hp : Ap ph ((NN t + h) * Real.cos t) 1e-6)
    (hz : Ap zh ((NN t * (1 - e ^ 2) + h) * Real.sin t) 1e-6) (bp : 1 ≤ (NN t + h) * Real.cos t) (n : ℕ) :
    ∃ s, Dbl.ecef2lla_after L ph zh (n + 1) = .ok s ∧ Near64 t h s ∧
      (1 ≤ n → Ap s.lat t ((1.12 + 0.00011 * |h|) / 6235000) ∧ Ap s.alt h (1.17 + 0.0002 * |h|)) := by
  induction n with
  | zero =>
    obtain ⟨s, b1, -, b3, -, -⟩ := first64 ht hh h1 h2 h3 h4 hp hz bp
    refine ⟨s, ?_, b3, by omega⟩
    rw [after_succ (s := Dbl.ecef2lla_init) (by rw [Dbl.ecef2lla_after])]
    exact b1
  | succ n ih =>
    obtain ⟨s, e1, i1, -⟩ := ih
    obtain ⟨s', b1, -, b3, -, -, -, b7, b8⟩ := next64 ht hh h1 h2 h3 h4 hp hz bp i1
    refine ⟨s', ?_, b3, fun _ => ⟨b7, b8⟩⟩
    rw [after_succ e1]
    exact b1

/-- The loop is left in the sixth round at the latest. -/
theorem sixth64 {L : Dbl.Libm} (h1 : L.SquareOk) (h2 : L.SquareReturns) (h3 : L.TrigOk) (h4 : L.ArcOk) {ph zh tol : F64}
    (hp : Ap ph ((NN t + h) * Real.cos t) 1e-6)
    (hz : Ap zh ((NN t * (1 - e ^ 2) + h) * Real.sin t) 1e-6) (bp : 1 ≤ (NN t + h) * Real.cos t)
    (tf : tol.Finite) (tl : 1.3e-10 ≤ ofDouble tol) : Dbl.ecef2lla_leaves L ph zh tol 6 := by
  obtain ⟨s1, a1, n1, -⟩ := after64 ht hh h1 h2 h3 h4 hp hz bp 0
  obtain ⟨s2, a2, n2, -⟩ := after64 ht hh h1 h2 h3 h4 hp hz bp 1
  obtain ⟨s3, a3, n3, -⟩ := after64 ht hh h1 h2 h3 h4 hp hz bp 2
  obtain ⟨s4, a4, n4, -⟩ := after64 ht hh h1 h2 h3 h4 hp hz bp 3
  obtain ⟨s5, b5, p5, n5, l5, -⟩ := next64 ht hh h1 h2 h3 h4 hp hz bp n4
  obtain ⟨s6, b6, p6, n6, l6, -⟩ := next64 ht hh h1 h2 h3 h4 hp hz bp n5
  have b2 := a2
  have b3 := a3
  have b4 := a4
  rw [after_succ a1] at b2
  rw [after_succ a2] at b3
  rw [after_succ a3] at b4
  have d1 := dist64_le hh n2 n1
  have d2 := contract64' ht hh h1 h2 h3 h4 hp hz bp n2 n1 b3 b2
  have d3 := contract64' ht hh h1 h2 h3 h4 hp hz bp n3 n2 b4 b3
  have d4 := contract64' ht hh h1 h2 h3 h4 hp hz bp n4 n3 b5 b4
  obtain ⟨w, -⟩ := contract64 ht hh n5 n4
  have a5 := after_succ a4
  rw [b5] at a5
  have a6 := after_succ a5
  rw [b6] at a6
  unfold Dbl.ecef2lla_leaves
  rw [a6]
  simp only
  have c := lat_change l6 (p6 ▸ l5) (arctan_diff _ _) (by norm_num)
  rw [le_false_iff tf c.1]
  have hpp : 0 < (NN t + h) * Real.cos t := by linarith
  have pos : ∀ {s : Dbl.LoopState}, Near64 t h s → 0 ≤ ofDouble s.N ∧ 0 < den s := by
    intro s hs
    obtain ⟨-, -, i1, i2⟩ := hs
    obtain ⟨-, -, bD, bN, -⟩ := next_errors_wide ht hh i1 i2
    exact ⟨le_trans (by norm_num) bN.1, lt_of_lt_of_le (by norm_num) bD.1⟩
  have l := lat_lip hpp (z := (NN t * (1 - e ^ 2) + h) * Real.sin t) (pos n5).1 (pos n5).2 (pos n4).1 (pos n4).2
  have hR := (R_range ht hh).1
  have l' := l.trans (div_le_div₀ (c := 0.00696 * 0.109) (by norm_num) (w.trans (by
    norm_num at d1 d2 d3 d4 ⊢
    linarith)) (by norm_num) hR)
  have c2 := (abs_le.1 c.2).2
  norm_num at l' c2 tl ⊢
  linarith

omit ht hh in
/-- The loop is entered. -/
theorem entered64 {L : Dbl.Libm} {ph zh tol : F64} (tf : tol.Finite) (tu : ofDouble tol ≤ 80) :
    ¬ Dbl.ecef2lla_leaves L ph zh tol 0 := by
  unfold Dbl.ecef2lla_leaves
  rw [Dbl.ecef2lla_after]
  simp only
  have e1 : Dbl.ecef2lla_init.lat = Dbl.num 0 := by delta Dbl.ecef2lla_init; with_reducible rfl
  have e2 : Dbl.ecef2lla_init.previousLat = Dbl.num 90 := by delta Dbl.ecef2lla_init; with_reducible rfl
  rw [e1, e2]
  have c := Ap.sub (S := 90) (g := 1) (Ap.num (n := 0) (by decide)) (Ap.num (n := 90) (by decide)) (by norm_num)
    (by norm_num) (by norm_num)
  rw [le_false_iff tf (abs_finite c.1), val_abs, not_lt]
  have := abs_le.1 c.2
  norm_num at this
  rw [abs_of_neg (by linarith)]
  linarith

/-- The loop near the ellipsoid. -/
theorem loop64 {L : Dbl.Libm} (h1 : L.SquareOk) (h2 : L.SquareReturns) (h3 : L.TrigOk) (h4 : L.ArcOk) {ph zh tol : F64}
    (hp : Ap ph ((NN t + h) * Real.cos t) 1e-6)
    (hz : Ap zh ((NN t * (1 - e ^ 2) + h) * Real.sin t) 1e-6) (bp : 1 ≤ (NN t + h) * Real.cos t)
    (tf : tol.Finite) (tl : 1.3e-10 ≤ ofDouble tol) (tu : ofDouble tol ≤ 9e-7) :
    ∃ n s, (1 ≤ n ∧ n ≤ 6) ∧ Dbl.ecef2lla_after L ph zh n = .ok s ∧ Dbl.ecef2lla_loop L ph zh tol = some (.ok s) ∧
      Ap s.lat t ((1.12 + 0.00011 * |h|) / 6235000) ∧ Ap s.alt h (1.17 + 0.0002 * |h|) := by
  have hex : ∃ n, Dbl.ecef2lla_leaves L ph zh tol n := ⟨6, sixth64 ht hh h1 h2 h3 h4 hp hz bp tf tl⟩
  classical
  have hle : Nat.find hex ≤ 6 := Nat.find_min' hex (sixth64 ht hh h1 h2 h3 h4 hp hz bp tf tl)
  have hsp := Nat.find_spec hex
  have hne : Nat.find hex ≠ 0 := fun h0 => entered64 (L := L) (ph := ph) (zh := zh) tf (tu.trans (by norm_num)) (h0 ▸ hsp)
  have hloop : Dbl.ecef2lla_loop L ph zh tol = some (Dbl.ecef2lla_after L ph zh (Nat.find hex)) := by
    unfold Dbl.ecef2lla_loop
    rw [dif_pos hex]
  generalize Nat.find hex = n at *
  obtain ⟨k, rfl⟩ : ∃ k, n = k + 1 := ⟨n - 1, by omega⟩
  have hh0 := abs_nonneg h
  rcases Nat.eq_zero_or_pos k with rfl | hk
  · obtain ⟨s, b1, b2, b3, b4, b5⟩ := first64 ht hh h1 h2 h3 h4 hp hz bp
    have a1 : Dbl.ecef2lla_after L ph zh (0 + 1) = .ok s := by
      rw [after_succ (s := Dbl.ecef2lla_init) (by rw [Dbl.ecef2lla_after])]
      exact b1
    unfold Dbl.ecef2lla_leaves at hsp
    rw [a1] at hsp hloop
    simp only [b2] at hsp
    have c0 : Ap (Dbl.num 0) 0 1.1e-12 := by
      have := Ap.num (n := 0) (by decide)
      rw [Nat.cast_zero] at this
      exact this.mono (by norm_num)
    have c := lat_change b4 c0 (by
      have := arctan_diff (W ((NN t * (1 - e ^ 2) + h) * Real.sin t)
        (xs ((NN t + h) * Real.cos t) ((NN t * (1 - e ^ 2) + h) * Real.sin t) 0).1
        (xs ((NN t + h) * Real.cos t) ((NN t * (1 - e ^ 2) + h) * Real.sin t) 0).2 / ((NN t + h) * Real.cos t)) 0
      rw [Real.arctan_zero] at this
      exact this) (by norm_num)
    rw [le_false_iff tf c.1] at hsp
    have c2 := (abs_le.1 c.2).1
    rw [sub_zero] at c2
    obtain ⟨l, m⟩ := accuracy_first ht hh (by
      norm_num at c2 tu ⊢
      linarith)
    refine ⟨1, s, ⟨le_rfl, by norm_num⟩, a1, hloop, b4.to l ?_, b5.to m ?_⟩
    · norm_num
      linarith
    · norm_num
      linarith
  · obtain ⟨s, a1, -, q⟩ := after64 ht hh h1 h2 h3 h4 hp hz bp k
    rw [a1] at hloop
    exact ⟨k + 1, s, ⟨by omega, hle⟩, a1, hloop, (q hk).1, (q hk).2⟩

end

end Dis.Geo
