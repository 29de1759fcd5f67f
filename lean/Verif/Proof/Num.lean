import Verif.Py.Float

/-! # Lemmas about big-endian digits and `struct` formats -/

namespace Dis

@[simp] theorem length_beBytes (n v : Nat) : (beBytes n v).length = n := by
  induction n with
  | zero => rfl
  | succ n ih => simp [beBytes, ih]

theorem beNat_lt (b : Bytes) : beNat b < 256 ^ b.length := by
  induction b with
  | nil => simp [beNat]
  | cons x xs ih =>
    have hx : x.toNat < 256 := x.toNat_lt
    simp only [beNat, List.length_cons, Nat.pow_succ]
    have : x.toNat * 256 ^ xs.length ≤ 255 * 256 ^ xs.length := Nat.mul_le_mul_right _ (by omega)
    omega

theorem beNat_beBytes (n v : Nat) : beNat (beBytes n v) = v % 256 ^ n := by
  induction n with
  | zero => simp [beBytes, beNat, Nat.mod_one]
  | succ n ih =>
    simp only [beBytes, beNat, length_beBytes, ih]
    have h1 : v % 256 ^ (n + 1) = v % 256 ^ n + 256 ^ n * (v / 256 ^ n % 256) := by
      rw [Nat.pow_succ]; exact Nat.mod_mul
    rw [UInt8.toNat_ofNat', show 2 ^ 8 = 256 from rfl, Nat.mod_mod, h1, Nat.add_comm, Nat.mul_comm]

theorem beBytes_mod (n m v : Nat) (h : n ≤ m) : beBytes n (v % 256 ^ m) = beBytes n v := by
  induction n with
  | zero => rfl
  | succ n ih =>
    simp only [beBytes, ih (by omega)]
    congr 2
    obtain ⟨k, rfl⟩ : ∃ k, m = n + 1 + k := ⟨m - (n + 1), by omega⟩
    rw [Nat.pow_add, Nat.pow_succ, Nat.mul_assoc, Nat.mod_mul_right_div_self, Nat.mod_mul_right_mod]

theorem beBytes_beNat (b : Bytes) : beBytes b.length (beNat b) = b := by
  induction b with
  | nil => rfl
  | cons x xs ih =>
    have hp : 0 < 256 ^ xs.length := Nat.pow_pos (by decide)
    have hlt := beNat_lt xs
    have hx : x.toNat < 256 := x.toNat_lt
    simp only [List.length_cons, beBytes, beNat]
    congr 1
    · rw [Nat.mul_comm, Nat.mul_add_div hp, Nat.div_eq_of_lt hlt, Nat.add_zero,
        Nat.mod_eq_of_lt hx]
      simp
    · rw [← beBytes_mod xs.length xs.length _ (Nat.le_refl _), Nat.mul_comm, Nat.mul_add_mod,
        Nat.mod_eq_of_lt hlt, ih]

theorem beBytes_inj {n v w : Nat} (hv : v < 256 ^ n) (hw : w < 256 ^ n)
    (h : beBytes n v = beBytes n w) : v = w := by
  have := congrArg beNat h
  rwa [beNat_beBytes, beNat_beBytes, Nat.mod_eq_of_lt hv, Nat.mod_eq_of_lt hw] at this

theorem unpackU_packU {n : Nat} {v : Int} {b : Bytes} (h : packU n v = .ok b) :
    b.length = n ∧ unpackU n b = .ok v := by
  unfold packU at h
  split at h
  · rename_i hr
    cases h
    refine ⟨length_beBytes _ _, ?_⟩
    unfold unpackU
    rw [if_pos (length_beBytes _ _), beNat_beBytes, Nat.mod_eq_of_lt (by omega)]
    congr 1; omega
  · cases h

theorem unpackS_packS {n : Nat} {v : Int} {b : Bytes} (hn : 0 < n) (h : packS n v = .ok b) :
    b.length = n ∧ unpackS n b = .ok v := by
  unfold packS at h
  split at h
  · rename_i hr
    cases h
    refine ⟨length_beBytes _ _, ?_⟩
    unfold unpackS
    have he : 256 ^ n = 2 * (256 ^ n / 2) := by
      obtain ⟨m, rfl⟩ : ∃ m, n = m + 1 := ⟨n - 1, by omega⟩
      rw [Nat.pow_succ]; omega
    have hp : 0 < 256 ^ n := Nat.pow_pos (by decide)
    rw [if_pos (length_beBytes _ _), beNat_beBytes]
    generalize 256 ^ n = M at *
    generalize hH : M / 2 = H at *
    have hmod : (v % (M : Int)).toNat % M = (v % (M : Int)).toNat := by
      apply Nat.mod_eq_of_lt
      have := Int.emod_lt_of_pos v (show (0 : Int) < M by omega)
      omega
    rw [hmod]
    congr 1
    by_cases hv : 0 ≤ v
    · have : v % (M : Int) = v := Int.emod_eq_of_lt hv (by omega)
      rw [this, if_pos (by omega)]; omega
    · have : v % (M : Int) = v + M := by
        rw [← Int.add_emod_right, Int.emod_eq_of_lt (by omega) (by omega)]
      rw [this, if_neg (by omega)]; omega
  · cases h

theorem packU_unpackU {n : Nat} {b : Bytes} {v : Int} (h : unpackU n b = .ok v) :
    b.length = n ∧ packU n v = .ok b ∧ 0 ≤ v ∧ v < (256 ^ n : Nat) := by
  unfold unpackU at h
  split at h
  · rename_i hb
    cases h
    have := beNat_lt b
    subst hb
    refine ⟨rfl, ?_, by omega, by omega⟩
    unfold packU
    rw [if_pos (by omega), Int.toNat_natCast, beBytes_beNat]
  · cases h

theorem packS_unpackS {n : Nat} {b : Bytes} {v : Int} (hn : 0 < n) (h : unpackS n b = .ok v) :
    b.length = n ∧ packS n v = .ok b ∧ -((256 ^ n / 2 : Nat) : Int) ≤ v ∧ v < (256 ^ n / 2 : Nat) := by
  unfold unpackS at h
  split at h
  · rename_i hb
    cases h
    have hlt := beNat_lt b
    subst hb
    have he : 256 ^ b.length = 2 * (256 ^ b.length / 2) := by
      obtain ⟨m, hm⟩ : ∃ m, b.length = m + 1 := ⟨b.length - 1, by omega⟩
      rw [hm, Nat.pow_succ]; omega
    have hbb := beBytes_beNat b
    refine ⟨rfl, ?_, ?_⟩
    · unfold packS
      generalize 256 ^ b.length = M at *
      generalize hH : M / 2 = H at *
      split
      · rw [if_pos (by omega), Int.emod_eq_of_lt (by omega) (by omega), Int.toNat_natCast, hbb]
      · have : ((beNat b : Int) - M) % M = beNat b := by
          rw [Int.sub_emod_right, Int.emod_eq_of_lt (by omega) (by omega)]
        rw [if_pos (by omega), this, Int.toNat_natCast, hbb]
    · generalize 256 ^ b.length = M at *
      split <;> omega
  · cases h

end Dis
