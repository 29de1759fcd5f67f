import Verif.Proof.Num
import Verif.Spec

/-! # Lemmas about binary32/binary64 conversion -/

set_option linter.unusedVariables false

namespace Dis

theorem F64.sign_mk {s e f : Nat} (hs : s < 2) (he : e < 2048) (hf : f < 2 ^ 52) :
    (F64.mk s e f).sign = s := by
  unfold F64.mk F64.sign; rw [BitVec.toNat_ofNat]; omega

theorem F64.expo_mk {s e f : Nat} (hs : s < 2) (he : e < 2048) (hf : f < 2 ^ 52) :
    (F64.mk s e f).expo = e := by
  unfold F64.mk F64.expo; rw [BitVec.toNat_ofNat]; omega

theorem F64.frac_mk {s e f : Nat} (hs : s < 2) (he : e < 2048) (hf : f < 2 ^ 52) :
    (F64.mk s e f).frac = f := by
  unfold F64.mk F64.frac; rw [BitVec.toNat_ofNat]; omega

theorem F64.mk_eta (x : F64) : F64.mk x.sign x.expo x.frac = x := by
  apply BitVec.eq_of_toNat_eq
  have := x.isLt
  unfold F64.mk F64.sign F64.expo F64.frac; rw [BitVec.toNat_ofNat]; omega

theorem F64.sign_lt (x : F64) : x.sign < 2 := by
  have := x.isLt; unfold F64.sign; omega
theorem F64.expo_lt (x : F64) : x.expo < 2048 := by unfold F64.expo; omega
theorem F64.frac_lt (x : F64) : x.frac < 2 ^ 52 := by unfold F64.frac; omega
theorem F32.sign_lt (x : F32) : x.sign < 2 := by
  have := x.isLt; unfold F32.sign; omega
theorem F32.expo_lt (x : F32) : x.expo < 256 := by unfold F32.expo; omega
theorem F32.frac_lt (x : F32) : x.frac < 2 ^ 23 := by unfold F32.frac; omega

theorem F32.toNat_eq (x : F32) : x.toNat = x.sign * 2 ^ 31 + x.expo * 2 ^ 23 + x.frac := by
  have := x.isLt
  unfold F32.sign F32.expo F32.frac; omega

theorem rne_exact (q s : Nat) : rne (q * 2 ^ s) s = q := by
  have hp : 0 < 2 ^ s := Nat.pow_pos (by decide)
  unfold rne
  simp only [Nat.mul_div_cancel _ hp, Nat.mul_mod_left]
  rw [if_neg (by omega)]

theorem rne_zero (s : Nat) : rne 0 s = 0 := by simpa using rne_exact 0 s

theorem log2_lt_23 {f : Nat} (h : f < 2 ^ 23) (h0 : f ≠ 0) : f.log2 < 23 :=
  (Nat.log2_lt h0).2 h

theorem subnormal_frac_lt {f : Nat} (h : f < 2 ^ 23) (h0 : f ≠ 0) :
    (f - 2 ^ f.log2) * 2 ^ (52 - f.log2) < 2 ^ 52 := by
  have hk := log2_lt_23 h h0
  have h2 : f < 2 ^ (f.log2 + 1) := Nat.lt_log2_self
  have h1 : f - 2 ^ f.log2 < 2 ^ f.log2 := by rw [Nat.pow_succ] at h2; omega
  calc (f - 2 ^ f.log2) * 2 ^ (52 - f.log2) < 2 ^ f.log2 * 2 ^ (52 - f.log2) :=
        Nat.mul_lt_mul_of_pos_right h1 (Nat.pow_pos (by decide))
    _ = 2 ^ 52 := by rw [← Nat.pow_add]; congr 1; omega

theorem subnormal_sig {f : Nat} (h : f < 2 ^ 23) (h0 : f ≠ 0) :
    2 ^ 52 + (f - 2 ^ f.log2) * 2 ^ (52 - f.log2) = f * 2 ^ (52 - f.log2) := by
  have hk := log2_lt_23 h h0
  have h1 : 2 ^ f.log2 ≤ f := Nat.log2_self_le h0
  have : (2 : Nat) ^ 52 = 2 ^ f.log2 * 2 ^ (52 - f.log2) := by
    rw [← Nat.pow_add]; congr 1; omega
  rw [this, ← Nat.add_mul]; congr 1; omega

theorem narrow_mk {s e f : Nat} (hs : s < 2) (he : e < 2047) (hf : f < 2 ^ 52) :
    narrow (F64.mk s e f) = if narrowMag e f < 255 * 2 ^ 23 then
      .ok (BitVec.ofNat 32 (s * 2 ^ 31 + narrowMag e f)) else .error .overflowError := by
  have he' : e < 2048 := by omega
  unfold narrow
  simp only [F64.sign_mk hs he' hf, F64.expo_mk hs he' hf, F64.frac_mk hs he' hf]
  rw [if_neg (by omega)]

/-- Reading a '>f' field and writing it again gives the same pattern, signalling NaNs excepted. -/
theorem narrow_widen (y : F32) (hy : ¬ y.isSNaN) : narrow (widen y) = .ok y := by
  have hs := y.sign_lt
  have he := y.expo_lt
  have hf := y.frac_lt
  have hy' := y.toNat_eq
  have key : ∀ m, m = y.expo * 2 ^ 23 + y.frac → BitVec.ofNat 32 (y.sign * 2 ^ 31 + m) = y := by
    intro m hm
    apply BitVec.eq_of_toNat_eq
    rw [BitVec.toNat_ofNat]; omega
  unfold widen
  simp only
  split
  · rename_i h255
    split
    · rename_i h0
      unfold narrow
      simp only [F64.sign_mk hs (by omega : 2047 < 2048) (by omega : 0 < 2 ^ 52),
        F64.expo_mk hs (by omega : 2047 < 2048) (by omega : 0 < 2 ^ 52),
        F64.frac_mk hs (by omega : 2047 < 2048) (by omega : 0 < 2 ^ 52)]
      simp only [if_true]
      rw [key (255 * 2 ^ 23) (by omega)]
    · rename_i h0
      have hq : ¬ y.frac < 2 ^ 22 := fun h => hy ⟨h255, h0, h⟩
      have hb : 2 ^ 51 + y.frac % 2 ^ 22 * 2 ^ 29 < 2 ^ 52 := by omega
      unfold narrow
      simp only [F64.sign_mk hs (by omega : 2047 < 2048) hb,
        F64.expo_mk hs (by omega : 2047 < 2048) hb, F64.frac_mk hs (by omega : 2047 < 2048) hb]
      rw [if_pos trivial, if_neg (by omega)]
      have hk := key (255 * 2 ^ 23 + 2 ^ 22 + (2 ^ 51 + y.frac % 2 ^ 22 * 2 ^ 29) / 2 ^ 29 % 2 ^ 22)
        (by omega)
      rw [← Nat.add_assoc, ← Nat.add_assoc] at hk
      rw [hk]
  · rename_i h255
    split
    · rename_i he0
      split
      · rename_i h0
        rw [narrow_mk hs (by omega) (by omega)]
        have : narrowMag 0 0 = 0 := by simp [narrowMag, rne_zero]
        rw [this, if_pos (by omega), key 0 (by omega)]
      · rename_i h0
        have hk := log2_lt_23 hf h0
        rw [narrow_mk hs (by omega) (subnormal_frac_lt hf h0)]
        have : narrowMag (y.frac.log2 + 874) ((y.frac - 2 ^ y.frac.log2) * 2 ^ (52 - y.frac.log2))
            = y.frac := by
          unfold narrowMag
          simp only
          rw [if_neg (by omega), subnormal_sig hf h0,
            show max (y.frac.log2 + 874) 1 = y.frac.log2 + 874 by omega,
            show max (y.frac.log2 + 874) 897 - 897 = 0 by omega,
            show 29 + (897 - (y.frac.log2 + 874)) = 52 - y.frac.log2 by omega, rne_exact]
          omega
        rw [this, if_pos (by omega), key _ (by omega)]
    · rename_i he0
      rw [narrow_mk hs (by omega) (by omega)]
      have : narrowMag (y.expo + 896) (y.frac * 2 ^ 29) = y.expo * 2 ^ 23 + y.frac := by
        unfold narrowMag
        simp only
        rw [if_neg (by omega), show 2 ^ 52 + y.frac * 2 ^ 29 = (2 ^ 23 + y.frac) * 2 ^ 29 by omega,
          show max (y.expo + 896) 1 = y.expo + 896 by omega,
          show 29 + (897 - (y.expo + 896)) = 29 by omega, rne_exact]
        omega
      rw [this, if_pos (by omega), key _ rfl]

theorem narrow_not_snan {x : F64} {y : F32} (h : narrow x = .ok y) : ¬ y.isSNaN := by
  have hs := x.sign_lt
  have hf := x.frac_lt
  unfold narrow at h
  simp only at h
  rintro ⟨h1, h2, h3⟩
  unfold F32.expo F32.frac at *
  split at h
  · split at h
    · injection h with h; subst h
      rw [BitVec.toNat_ofNat] at *; omega
    · injection h with h; subst h
      rw [BitVec.toNat_ofNat] at *; omega
  · split at h
    · injection h with h; subst h
      rw [BitVec.toNat_ofNat] at *; omega
    · cases h

theorem narrow_quant {x : F64} {y : F32} (h : narrow x = .ok y) : narrow (quant x) = .ok y := by
  unfold quant; rw [h]; exact narrow_widen y (narrow_not_snan h)

theorem quant_quant (x : F64) : quant (quant x) = quant x := by
  cases h : narrow x with
  | ok y =>
    have := narrow_quant h
    have hq : quant x = widen y := by unfold quant; rw [h]
    unfold quant at *
    rw [h] at *
    simp only at *
    rw [this]
  | error e => 
    have hq : quant x = x := by unfold quant; rw [h]
    rw [hq, hq]

theorem unpackF_packF {x : F64} {b : Bytes} (h : packF x = .ok b) :
    b.length = 4 ∧ unpackF b = .ok (quant x) := by
  unfold packF at h
  cases hn : narrow x with
  | error e => rw [hn] at h; cases h
  | ok y =>
    rw [hn] at h
    cases h
    refine ⟨length_beBytes _ _, ?_⟩
    unfold unpackF quant
    rw [if_pos (length_beBytes _ _), beNat_beBytes, hn,
      Nat.mod_eq_of_lt (by have := y.isLt; omega)]
    simp

theorem unpackD_packD {x : F64} {b : Bytes} (h : packD x = .ok b) :
    b.length = 8 ∧ unpackD b = .ok x := by
  unfold packD at h
  cases h
  refine ⟨length_beBytes _ _, ?_⟩
  unfold unpackD
  rw [if_pos (length_beBytes _ _), beNat_beBytes, Nat.mod_eq_of_lt (by have := x.isLt; omega)]
  simp

theorem packD_unpackD {x : F64} {b : Bytes} (h : unpackD b = .ok x) :
    b.length = 8 ∧ packD x = .ok b := by
  unfold unpackD at h
  split at h
  · rename_i hb
    cases h
    have hlt := beNat_lt b
    rw [hb] at hlt
    refine ⟨hb, ?_⟩
    unfold packD
    rw [BitVec.toNat_ofNat, Nat.mod_eq_of_lt (by omega), ← hb, beBytes_beNat]
  · cases h

theorem widen_nan {y : F32} (h1 : y.expo = 255) (h2 : y.frac ≠ 0) :
    widen y = F64.mk y.sign 2047 (2 ^ 51 + (y.frac % 2 ^ 22) * 2 ^ 29) := by
  unfold widen
  simp only
  rw [if_pos h1, if_neg h2]

theorem widen_isNaN {y : F32} (h : y.isSNaN) : (widen y).isNaN := by
  obtain ⟨h1, h2, h3⟩ := h
  unfold widen
  simp only [h1, h2, if_true, if_false]
  have hb : 2 ^ 51 + y.frac % 2 ^ 22 * 2 ^ 29 < 2 ^ 52 := by omega
  constructor
  · exact F64.expo_mk y.sign_lt (by omega) hb
  · rw [F64.frac_mk y.sign_lt (by omega) hb]; omega

theorem packF_unpackF {x : F64} {b : Bytes} (h : unpackF b = .ok x) :
    b.length = 4 ∧ ∃ b', packF x = .ok b' ∧ b'.length = 4 ∧ (¬ x.isNaN → b' = b) ∧ quant x = x := by
  unfold unpackF at h
  split at h
  · rename_i hb
    cases h
    have hlt := beNat_lt b
    rw [hb] at hlt
    refine ⟨hb, ?_⟩
    obtain ⟨y, hy⟩ : ∃ y : F32, BitVec.ofNat 32 (beNat b) = y := ⟨_, rfl⟩
    rw [hy]
    have hyb : beBytes 4 y.toNat = b := by
      rw [← hy, BitVec.toNat_ofNat, Nat.mod_eq_of_lt (by omega), ← hb, beBytes_beNat]
    by_cases hsn : y.isSNaN
    · have hnan := widen_isNaN hsn
      obtain ⟨h1, h2, h3⟩ := hsn
      have hw : ∃ z : F32, ¬ z.isSNaN ∧ widen y = widen z := by
        have hs := y.sign_lt
        refine ⟨BitVec.ofNat 32 (y.sign * 2 ^ 31 + 255 * 2 ^ 23 + 2 ^ 22 + y.frac), ?_, ?_⟩
        · rintro ⟨-, -, h⟩
          unfold F32.frac at h
          rw [BitVec.toNat_ofNat] at h
          unfold F32.frac at h3
          omega
        · obtain ⟨z, hz⟩ : ∃ z : F32,
            BitVec.ofNat 32 (y.sign * 2 ^ 31 + 255 * 2 ^ 23 + 2 ^ 22 + y.frac) = z := ⟨_, rfl⟩
          rw [hz]
          have hzn : z.toNat = y.sign * 2 ^ 31 + 255 * 2 ^ 23 + 2 ^ 22 + y.frac := by
            rw [← hz, BitVec.toNat_ofNat]; omega
          have e1 : z.sign = y.sign := by unfold F32.sign at *; omega
          have e2 : z.expo = 255 := by
            have : z.expo = z.toNat / 2 ^ 23 % 2 ^ 8 := rfl
            omega
          have e3 : z.frac = 2 ^ 22 + y.frac := by
            have : z.frac = z.toNat % 2 ^ 23 := rfl
            omega
          rw [widen_nan h1 h2, widen_nan e2 (by omega), e1, e3,
            show (2 ^ 22 + y.frac) % 2 ^ 22 = y.frac % 2 ^ 22 by omega]
      obtain ⟨z, hz, hwz⟩ := hw
      refine ⟨beBytes 4 z.toNat, ?_, length_beBytes _ _, fun h => absurd hnan h, ?_⟩
      · unfold packF; rw [hwz, narrow_widen z hz]
      · unfold quant; rw [hwz, narrow_widen z hz]
    · refine ⟨b, ?_, hb, fun _ => rfl, ?_⟩
      · unfold packF; rw [narrow_widen y hsn]; simp only; rw [hyb]
      · unfold quant; rw [narrow_widen y hsn]
  · cases h

end Dis
