import Verif.Props.Chart64
import Verif.Proof.Position64

/-!
# The numbers of the demonstration program
-/

set_option exponentiation.threshold 4096

namespace Dis.Geo

open Dbl

theorem half_val : half.Finite ∧ ofDouble half = 1 / 2 := by
  refine ⟨show F64.expo _ ≠ 2047 by decide +kernel, ?_⟩
  rw [val_units (m := 1) 1073 1 (by decide +kernel) rfl]
  norm_num

theorem half_multiples (k : ℕ) (hk : k ≤ 11) : ∃ w : F64, w.Finite ∧ ofDouble w = k * ofDouble half := by
  rw [half_val.2]
  have key : ∀ (w : F64) (m : ℕ), F64.expo w ≠ 2047 → w.units = (m : ℤ) * 2 ^ 1073 →
      ∃ w : F64, w.Finite ∧ ofDouble w = (m : ℝ) * (1 / 2) := fun w m h1 h2 =>
    ⟨w, h1, by rw [val_units (m := m) 1073 1 h2 rfl]; push_cast; ring⟩
  interval_cases k
  · exact key 0x0 0 (by decide +kernel) (by decide +kernel)
  · exact key 0x3fe0000000000000 1 (by decide +kernel) (by decide +kernel)
  · exact key 0x3ff0000000000000 2 (by decide +kernel) (by decide +kernel)
  · exact key 0x3ff8000000000000 3 (by decide +kernel) (by decide +kernel)
  · exact key 0x4000000000000000 4 (by decide +kernel) (by decide +kernel)
  · exact key 0x4004000000000000 5 (by decide +kernel) (by decide +kernel)
  · exact key 0x4008000000000000 6 (by decide +kernel) (by decide +kernel)
  · exact key 0x400c000000000000 7 (by decide +kernel) (by decide +kernel)
  · exact key 0x4010000000000000 8 (by decide +kernel) (by decide +kernel)
  · exact key 0x4012000000000000 9 (by decide +kernel) (by decide +kernel)
  · exact key 0x4014000000000000 10 (by decide +kernel) (by decide +kernel)
  · exact key 0x4016000000000000 11 (by decide +kernel) (by decide +kernel)

theorem zero_mul_val {x y : F64} (hx : x.Finite) (hy : y.Finite) (h : ofDouble x = 0) :
    (F64.mul x y).Finite ∧ ofDouble (F64.mul x y) = 0 := by
  have hz : (F64.mk 0 0 0).units = 0 := by decide
  have hzf : (F64.mk 0 0 0).Finite := show (F64.mk 0 0 0).expo ≠ 2047 by decide
  have v : ∀ {w : F64}, ofDouble w = 0 ↔ w.units = 0 := fun {w} => by
    rw [← hz, ← val_eq]
    unfold ofDouble
    rw [hz]
    simp
  obtain ⟨m1, m2⟩ := F64.mul_exact (w := F64.mk 0 0 0) hx hy hzf (by rw [hz, v.1 h]; simp)
  exact ⟨m1, v.2 (m2.trans hz)⟩

theorem mul_zero_val {x y : F64} (hx : x.Finite) (hy : y.Finite) (h : ofDouble y = 0) :
    (F64.mul x y).Finite ∧ ofDouble (F64.mul x y) = 0 := by
  have hz : (F64.mk 0 0 0).units = 0 := by decide
  have hzf : (F64.mk 0 0 0).Finite := show (F64.mk 0 0 0).expo ≠ 2047 by decide
  have v : ∀ {w : F64}, ofDouble w = 0 ↔ w.units = 0 := fun {w} => by
    rw [← hz, ← val_eq]
    unfold ofDouble
    rw [hz]
    simp
  obtain ⟨m1, m2⟩ := F64.mul_exact (w := F64.mk 0 0 0) hx hy hzf (by rw [hz, v.1 h]; simp)
  exact ⟨m1, v.2 (m2.trans hz)⟩

theorem add_zero_val {x y : F64} (hx : x.Finite) (hy : y.Finite) (h : ofDouble x = 0) (h' : ofDouble y = 0) :
    (F64.add x y).Finite ∧ ofDouble (F64.add x y) = 0 := by
  have hz : (F64.mk 0 0 0).units = 0 := by decide
  have hzf : (F64.mk 0 0 0).Finite := show (F64.mk 0 0 0).expo ≠ 2047 by decide
  have v : ∀ {w : F64}, ofDouble w = 0 ↔ w.units = 0 := fun {w} => by
    rw [← hz, ← val_eq]
    unfold ofDouble
    rw [hz]
    simp
  obtain ⟨m1, m2⟩ := F64.add_exact (w := F64.mk 0 0 0) hx hy hzf (by rw [hz, v.1 h, v.1 h']; simp)
  exact ⟨m1, v.2 (m2.trans hz)⟩

/-- A component that is at rest at 0 stays there. -/
theorem at_rest {o v a t s : F64} (ho : o.Finite ∧ ofDouble o = 0) (hv : v.Finite ∧ ofDouble v = 0)
    (ha : a.Finite ∧ ofDouble a = 0) (ht : t.Finite) (hs : s.Finite) :
    (F64.add (F64.add o (F64.mul v t)) (F64.mul (F64.mul half a) s)).Finite ∧
    ofDouble (F64.add (F64.add o (F64.mul v t)) (F64.mul (F64.mul half a) s)) = 0 := by
  have m1 := zero_mul_val hv.1 ht hv.2
  have m2 := mul_zero_val half_val.1 ha.1 ha.2
  have m3 := zero_mul_val m2.1 hs m2.2
  have m4 := add_zero_val ho.1 m1.1 ho.2 m1.2
  exact add_zero_val m4.1 m3.1 m4.2 m3.2

/-- The component that moves. -/
theorem accelerated {t s : F64} {τ : ℝ} (ht : Bd t τ 5 0) (hs : Bd s (τ ^ 2) 25 6e-15) :
    Ap (F64.add (F64.add (num 0) (F64.mul (num 10) t)) (F64.mul (F64.mul half (num 1)) s)) (10 * τ + τ ^ 2 / 2) 1e-13 := by
  have n0 := Bd.num 0 (r := 0) (by norm_num) (by norm_num)
  have n1 := Bd.num 1 (r := 1) (by norm_num) (by norm_num)
  have n10 := Bd.num 10 (r := 10) (by norm_num) (by norm_num)
  have hh : Bd half (1 / 2) (1 / 2) 0 := by
    refine ⟨⟨half_val.1, by rw [half_val.2]; norm_num⟩, by norm_num [abs_of_pos]⟩
  have m1 := n10.mul ht (C := 50) (g := 6e-15) (by norm_num) (by norm_num) (by norm_num)
  have m2 := n0.add m1 (S := 50) (g := 1.2e-14) (by norm_num) (by norm_num) (by norm_num)
  have m3 := hh.mul n1 (C := 1 / 2) (g := 1e-16) (by norm_num) (by norm_num) (by norm_num)
  have m4 := m3.mul hs (C := 12.5) (g := 8e-15) (by norm_num) (by norm_num) (by norm_num)
  have m5 := m2.add m4 (S := 62.5) (g := 1e-13) (by norm_num) (by norm_num) (by norm_num)
  have := m5.1
  rwa [show 0 + 10 * τ + 1 / 2 * 1 * τ ^ 2 = 10 * τ + τ ^ 2 / 2 by ring] at this

/-- The lists of the demonstration, with names for their numbers. -/
theorem motion_demo : ∃ z o t, z = num 0 ∧ o = num 1 ∧ t = num 10 ∧
    motion demoPdu = ⟨![z, z, z], ![t, z, z], ![o, z, z], ![z, z, z], ![z, z, z]⟩ := by
  refine ⟨num 0, num 1, num 10, rfl, rfl, rfl, ?_⟩
  unfold motion demoPdu
  generalize num 0 = z
  generalize num 1 = o
  generalize num 10 = t
  rfl

/-- The start of the demonstration. -/
theorem start_demo : ∃ start : Dbl.Vec, start = ![0x40424ccccccccccd, 0xc05e79999999999a, num 100] ∧
    (∀ i, (start i).Finite) ∧
    (fun j => ofDouble (start j)) = ![5150992073805005 / 2 ^ 47, -8577949915257242 / 2 ^ 46, 100] := by
  have v0 : ofDouble 0x40424ccccccccccd = 5150992073805005 / 2 ^ 47 := by
    rw [val_units (m := 5150992073805005) 1027 47 (by decide +kernel) rfl]; norm_num
  have v1 : ofDouble 0xc05e79999999999a = -8577949915257242 / 2 ^ 46 := by
    rw [val_units (m := -8577949915257242) 1028 46 (by decide +kernel) rfl]; norm_num
  have f0 : F64.Finite 0x40424ccccccccccd := show F64.expo _ ≠ 2047 by decide +kernel
  have f1 : F64.Finite 0xc05e79999999999a := show F64.expo _ ≠ 2047 by decide +kernel
  have n100 := ap_num 100 (r := 100) (by norm_num) (by norm_num)
  have f2 := n100.1
  have v2 := n100.eq
  refine ⟨_, rfl, ?_, ?_⟩
  all_goals
    clear n100
    generalize num 100 = c at *
    generalize (0x40424ccccccccccd : F64) = a at *
    generalize (0xc05e79999999999a : F64) = b at *
  · intro i
    fin_cases i
    exacts [f0, f1, f2]
  · rw [← v0, ← v1, ← v2]
    funext i
    fin_cases i <;> rfl

/-- The second part of the program, for a point `p` within `ε` of the exact end. -/
theorem moved_near {L : Dbl.Libm} (h1 : L.SquareOk) (h2 : L.SquareReturns) (h3 : L.TrigOk) (h4 : L.ArcOk)
    {start disp : Dbl.Vec} {p q : Vec} {ε r : ℝ} (hf : ∀ i, (start i).Finite) (hlat : |ofDouble (start 0)| ≤ 90)
    (hlon : |ofDouble (start 1)| ≤ 360) (halt : |ofDouble (start 2)| ≤ 50000) (hd : ∀ i, (disp i).Finite)
    (hdl : ∀ i, |ofDouble (disp i)| ≤ 20000)
    (hp : ∀ i, |lla2ecef (fun j => ofDouble (start j)) i + ofDouble (disp i) - p i| ≤ ε) (hε : ε ≤ 1e-8)
    (hq : OnEllipsoid q) (hpq : len (p - q) ≤ 100000) (hr : r = Real.sqrt (p 0 ^ 2 + p 1 ^ 2)) (haxis : 1 ≤ r) :
    ∃ a b lat lon alt lla, Dbl.moved L start disp = some (.ok (a, b, lla)) ∧
      (∀ i, Ap (a i) (lla2ecef (fun j => ofDouble (start j)) i) 2.6e-8) ∧
      (∀ i, Ap (b i) (p i) (2.7e-8 + ε)) ∧
      lla2ecef ![lat, lon, alt] = p ∧ (-90 < lat ∧ lat < 90) ∧ (-180 < lon ∧ lon ≤ 180) ∧ |alt| ≤ len (p - q) ∧
      (∀ i, i ≠ 1 → (lla i).Finite) ∧
      |ofDouble (lla 0) - lat| ≤ 1.1e-5 + 1.1e-9 * |alt| ∧
      |ofDouble (lla 2) - alt| ≤ 1.17 + 0.0002 * |alt| ∧
      ((ofDouble (b 1) = 0 → (b 1).sign = 0) → (lla 1).Finite ∧
        |Real.cos (ofDouble (lla 1) * Real.pi / 180) - Real.cos (lon * Real.pi / 180)|
          ≤ 3.01 * (2.7e-8 + ε) / r + 2e-15 ∧
        |Real.sin (ofDouble (lla 1) * Real.pi / 180) - Real.sin (lon * Real.pi / 180)|
          ≤ 3.01 * (2.7e-8 + ε) / r + 2e-15) := by
  obtain ⟨a, ea, ha⟩ := lla2ecef_near h1 h2 h3 hf hlat hlon (halt.trans (by norm_num))
  have ha1 : ∀ i, Ap (a i) (lla2ecef (fun j => ofDouble (start j)) i) 2.58e-8 := fun i =>
    (ha i).1.mono (by norm_num at halt ⊢; linarith)
  have hb : ∀ i, Ap (vadd a disp i) (p i) (2.7e-8 + ε) := fun i => by
    have ha2 : |lla2ecef (fun j => ofDouble (start j)) i| ≤ 6460000 :=
      (ha i).2.trans (by norm_num at halt ⊢; linarith)
    have := (ha1 i).add (Ap.self (hd i)) (S := 6480000) (g := 2.7e-8)
      ((abs_add_le _ _).trans (by linarith [hdl i])) (by norm_num) (by norm_num)
    exact this.to (hp i) le_rfl
  obtain ⟨lat, lon, alt, lla, c1, c2, c3, c4, c5, c6, c7, c8, c9⟩ := C71_point L h1 h2 h3 h4 (vadd a disp)
    Dbl.defaultTolerance p q (2.7e-8 + ε) r (fun i => (hb i).1) (fun i => (hb i).2) (by norm_num at hε ⊢; linarith) hq hpq
    hr haxis defaultTolerance_finite defaultTolerance_range.1 defaultTolerance_range.2
  refine ⟨a, vadd a disp, lat, lon, alt, lla, ?_, fun i => (ha1 i).mono (by norm_num), hb, c1, c2, c3, c4, c6, c7, c8, c9⟩
  unfold moved
  rw [ea]
  dsimp only
  rw [c5]

end Dis.Geo
