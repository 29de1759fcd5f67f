import Verif.Proof.FloatValue
import Verif.Proof.Streams

/-!
# C04: single- and double-precision fields

`x.units` is the exact value of a finite pattern in units of 2^-1074 (`Verif/Spec/Float.lean`), so
`(x.units - y.units).natAbs` is the distance of two values.
-/

set_option exponentiation.threshold 4096

namespace Dis

/-- **C04.** A finite double written with `write_float` is read back by `read_float` as the value of
a binary32 pattern `y` with its sign. No binary32 value is nearer, and if another one is as near,
`y` is the one with an even significand. -/
theorem C04_float_nearest (x : F64) (hx : x.Finite) (b : Bytes) (h : (write_float x).Emits b) :
    ∃ (y : F32) (z : F64), Reads read_float b z ∧ y.Finite ∧ z.Finite ∧ z.units = y.units ∧
      z.sign = x.sign ∧
      ∀ y' : F32, y'.Finite →
        (x.units - z.units).natAbs ≤ (x.units - y'.units).natAbs ∧
        ((x.units - z.units).natAbs = (x.units - y'.units).natAbs → y'.units ≠ z.units →
          y.frac % 2 = 0) := by
  obtain ⟨y, hy⟩ := ok_float.1 h.ok
  have hr := rt_float x b h
  have hq : quant x = widen y := by unfold quant; rw [hy]
  rw [hq] at hr
  obtain ⟨hyf, hys, hym⟩ := narrow_finite hx hy
  obtain ⟨hwf, hws, hwm⟩ := widen_value y hyf
  have hmag : (widen y).mag = mag32 (narrowMag x.expo x.frac) := by rw [hwm, F32.mag_eq, hym]
  have hu : (widen y).units = y.units := by unfold F64.units F32.units; rw [hws, hwm]
  refine ⟨y, widen y, hr, hyf, hwf, hu, by rw [hws, hys], fun y' _ => ?_⟩
  have hne := narrowMag_nearest (e := x.expo) x.frac_lt (y'.expo * 2 ^ 23 + y'.frac)
  have hze := narrowMag_nearest (e := x.expo) x.frac_lt 0
  have h0 : mag32 0 = 0 := by simp [mag32]
  have hpar : y.frac % 2 = narrowMag x.expo x.frac % 2 := by rw [← hym]; omega
  dsimp only at hne hze
  rw [← F32.mag_eq, ← hmag] at hne
  rw [h0, ← hmag] at hze
  have hX : (if x.expo = 0 then x.frac else 2 ^ 52 + x.frac) * 2 ^ (max x.expo 1 - 1) = x.mag := rfl
  rw [hX] at hne hze
  rw [hpar]
  have hs1 := x.sign_lt
  have hs2 := y'.sign_lt
  unfold F64.units F32.units
  rw [hws, hys]
  generalize (widen y).mag = Z at *
  generalize y'.mag = Y at *
  generalize x.mag = X at *
  generalize narrowMag x.expo x.frac = m at *
  obtain ⟨n1, n2⟩ := hne
  obtain ⟨z1, z2⟩ := hze
  split <;> split
  · refine ⟨by omega, fun h1 h2 => n2 (by omega) (by omega)⟩
  · -- the other sign: no nearer than zero
    refine ⟨by omega, fun h1 h2 => z2 (by omega) (by omega)⟩
  · refine ⟨by omega, fun h1 h2 => z2 (by omega) (by omega)⟩
  · refine ⟨by omega, fun h1 h2 => n2 (by omega) (by omega)⟩

/-- **C04.** `write_float` raises exactly for finite values from (2^25-1)·2^103 on, half a unit in
the last place above the largest finite binary32, and then it raises `OverflowError`. -/
theorem C04_float_overflow (x : F64) (e : PyErr) :
    (write_float x).res = .error e ↔
      e = .overflowError ∧ x.Finite ∧ (2 ^ 25 - 1) * 2 ^ 103 * 2 ^ 1074 ≤ x.units.natAbs := by
  have hu : x.units.natAbs = x.mag := by
    unfold F64.units
    split <;> omega
  have hp : (2 ^ 25 - 1) * 2 ^ 103 * 2 ^ 1074 = (2 ^ 25 - 1) * 2 ^ 1177 := by
    rw [Nat.mul_assoc, ← Nat.pow_add]
  rw [hu, hp]
  have h1 : (write_float x).res = .error e ↔ narrow x = .error e := by
    unfold write_float W.writeFixed packF
    cases narrow x with
    | ok y => exact ⟨(fun h => by cases h), (fun h => by cases h)⟩
    | error e' => exact ⟨(fun h => by cases h; rfl), (fun h => by cases h; rfl)⟩
  rw [h1, narrow_overflow]
  refine and_congr_right fun _ => and_congr_right fun hf => ?_
  have hlt := x.expo_lt
  unfold F64.Finite at hf
  exact narrowMag_overflow (by omega) x.frac_lt

/-- **C04.** A double whose value is that of some binary32 comes back bit-identical (the sign of
zero included). -/
theorem C04_binary32_exact (x : F64) (hx : x.Finite) (y : F32) (hy : y.Finite)
    (h : x.units = y.units) : ∃ b, (write_float x).Emits b ∧ Reads read_float b x := by
  have hok : (write_float x).Ok := by
    cases hr : (write_float x).res with
    | ok u => exact ⟨u, hr⟩
    | error e =>
      exfalso
      obtain ⟨-, -, hbig⟩ := (C04_float_overflow x e).1 hr
      rw [h] at hbig
      have hu : y.units.natAbs = y.mag := by
        unfold F32.units
        split <;> omega
      rw [hu] at hbig
      have hlt := y.expo_lt
      have hfl := y.frac_lt
      unfold F32.Finite at hy
      have hm : y.mag ≤ (2 ^ 24 - 1) * 2 ^ 253 * 2 ^ 925 := by
        unfold F32.mag
        refine Nat.mul_le_mul_right _ (Nat.mul_le_mul ?_ (Nat.pow_le_pow_right (by decide) (by omega)))
        split <;> omega
      have hp : (2 ^ 25 - 1) * 2 ^ 103 * 2 ^ 1074 = ((2 ^ 25 - 1) * 2 ^ 252) * 2 ^ 925 := by
        rw [Nat.mul_assoc]
      rw [hp] at hbig
      have h2 := Nat.le_of_mul_le_mul_right (Nat.le_trans hbig hm) (Nat.pow_pos (by decide))
      omega
  obtain ⟨y2, z, hr, -, hzf, -, hzs, hn⟩ := C04_float_nearest x hx _ hok.emits
  refine ⟨_, hok.emits, ?_⟩
  have hd := (hn y hy).1
  rw [h, Int.sub_self] at hd
  have hz : z.units = x.units := by rw [h]; omega
  have : z = x := by
    refine F64.mag_inj hzs ?_
    unfold F64.units at hz
    rw [hzs] at hz
    split at hz <;> omega
  rwa [this] at hr

/-- **C04.** Every binary32 pattern that is not a signalling NaN is written back unchanged. -/
theorem C04_pattern_preserved (b : Bytes) (x : F64) (h : Reads read_float b x) (hn : ¬ x.isNaN) :
    (write_float x).Emits b := by
  obtain ⟨-, h1⟩ := post_float.reads h
  exact h1 hn

/-- **C04.** Infinities pass through. -/
theorem C04_infinity (x : F64) (hx : x.Infinite) :
    ∃ b, (write_float x).Emits b ∧ Reads read_float b x := by
  obtain ⟨h1, h2⟩ := hx
  have hs := x.sign_lt
  have hn : narrow x = .ok (BitVec.ofNat 32 (x.sign * 2 ^ 31 + 255 * 2 ^ 23)) := by
    unfold narrow
    dsimp only
    rw [if_pos h1, if_pos h2]
  have hok : (write_float x).Ok := ok_float.2 ⟨_, hn⟩
  refine ⟨_, hok.emits, ?_⟩
  have hr := rt_float x _ hok.emits
  have hq : quant x = x := by
    unfold quant
    rw [hn]
    dsimp only
    obtain ⟨y, hy⟩ : ∃ y : F32, BitVec.ofNat 32 (x.sign * 2 ^ 31 + 255 * 2 ^ 23) = y := ⟨_, rfl⟩
    have hyn : y.toNat = x.sign * 2 ^ 31 + 255 * 2 ^ 23 := by rw [← hy, BitVec.toNat_ofNat]; omega
    rw [hy]
    have e1 : y.sign = x.sign := by unfold F32.sign; omega
    have e2 : y.expo = 255 := by unfold F32.expo; omega
    have e3 : y.frac = 0 := by unfold F32.frac; omega
    unfold widen
    dsimp only
    rw [if_pos e2, if_pos e3, e1]
    conv => rhs; rw [← F64.mk_eta x]
    rw [h1, h2]
  rwa [hq] at hr

/-- **C04.** A NaN stays a NaN. -/
theorem C04_nan (x : F64) (hx : x.isNaN) :
    ∃ b z, (write_float x).Emits b ∧ Reads read_float b z ∧ z.isNaN ∧ z.sign = x.sign := by
  obtain ⟨h1, h2⟩ := hx
  have hs := x.sign_lt
  have hf := x.frac_lt
  have hn : narrow x = .ok (BitVec.ofNat 32
      (x.sign * 2 ^ 31 + 255 * 2 ^ 23 + 2 ^ 22 + x.frac / 2 ^ 29 % 2 ^ 22)) := by
    unfold narrow
    dsimp only
    rw [if_pos h1, if_neg h2]
  have hok : (write_float x).Ok := ok_float.2 ⟨_, hn⟩
  refine ⟨_, _, hok.emits, rt_float x _ hok.emits, ?_⟩
  unfold quant
  rw [hn]
  dsimp only
  obtain ⟨y, hy⟩ : ∃ y : F32, BitVec.ofNat 32
      (x.sign * 2 ^ 31 + 255 * 2 ^ 23 + 2 ^ 22 + x.frac / 2 ^ 29 % 2 ^ 22) = y := ⟨_, rfl⟩
  have hyn : y.toNat = x.sign * 2 ^ 31 + 255 * 2 ^ 23 + 2 ^ 22 + x.frac / 2 ^ 29 % 2 ^ 22 := by
    rw [← hy, BitVec.toNat_ofNat]; omega
  rw [hy]
  have e1 : y.sign = x.sign := by unfold F32.sign; omega
  have e2 : y.expo = 255 := by unfold F32.expo; omega
  have e3 : y.frac ≠ 0 := by unfold F32.frac; omega
  have hb : 2 ^ 51 + y.frac % 2 ^ 22 * 2 ^ 29 < 2 ^ 52 := by omega
  rw [widen_nan e2 e3, e1]
  refine ⟨⟨F64.expo_mk hs (by omega) hb, ?_⟩, F64.sign_mk hs (by omega) hb⟩
  rw [F64.frac_mk hs (by omega) hb]
  omega

/-- **C04.** A second trip changes nothing: what `read_float` returned is written and read back
identically, bit for bit. -/
theorem C04_second_trip (x z : F64) (b : Bytes) (h : (write_float x).Emits b)
    (hz : Reads read_float b z) : ∃ b', (write_float z).Emits b' ∧ Reads read_float b' z := by
  have hq : z = quant x := hz.unique (rt_float x b h)
  obtain ⟨y, hy⟩ := ok_float.1 h.ok
  have hok : (write_float z).Ok := ok_float.2 ⟨y, by rw [hq]; exact narrow_quant hy⟩
  refine ⟨_, hok.emits, ?_⟩
  have := rt_float z _ hok.emits
  rwa [show quant z = z by rw [hq, quant_quant]] at this

/-- **C04.** `write_double`/`read_double` return the identical pattern for every double. -/
theorem C04_double (x : F64) : ∃ b, (write_double x).Emits b ∧ b.length = 8 ∧ Reads read_double b x := by
  have hok : (write_double x).Ok := ok_double.2 trivial
  exact ⟨_, hok.emits, sized_double x _ hok.emits, rt_double x _ hok.emits⟩

/-! ## Examples -/

/-- The double 0.1 is finite and not a binary32 value; it is written as 3dcccccd. -/
example : F64.Finite 0x3fb999999999999a ∧ write_float 0x3fb999999999999a = ⟨[0x3d, 0xcc, 0xcc, 0xcd], .ok ()⟩ := by
  unfold F64.Finite
  decide +kernel

/-- 1 + 2^-24 lies halfway between 1 and 1 + 2^-23; the even one is 1. -/
example : write_float 0x3ff0000010000000 = ⟨[0x3f, 0x80, 0, 0], .ok ()⟩ := by decide +kernel

/-- The largest finite binary32 and the first double that overflows. -/
example : (write_float 0x47efffffe0000000).Ok := ⟨(), by decide +kernel⟩
example : (write_float 0x47effffff0000000).res = .error .overflowError := by decide +kernel

example : ∃ b, (write_float 0x7ff0000000000000).Emits b ∧ Reads read_float b 0x7ff0000000000000 :=
  C04_infinity _ (by unfold F64.Infinite; decide +kernel)

example : ∃ b, (write_float 0x8000000000000000).Emits b ∧ Reads read_float b 0x8000000000000000 :=
  C04_binary32_exact _ (by unfold F64.Finite; decide +kernel) 0 (by unfold F32.Finite; decide +kernel) (by decide +kernel)

end Dis
