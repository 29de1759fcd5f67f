import Verif.Spec.Bitfield
import Verif.Proof.Stream2

/-! # Proof machinery: bit fields -/

namespace Dis

theorem two_pow_pos' (w : Nat) : (0 : Int) < 2 ^ w := by
  have := Nat.two_pow_pos w
  have h : ((2 ^ w : Nat) : Int) = 2 ^ w := by push_cast; rfl
  omega

theorem cast_two_pow (w : Nat) : ((2 ^ w : Nat) : Int) = 2 ^ w := by push_cast; rfl

theorem toNat_emod_cast (v : Int) (w : Nat) : (((v % 2 ^ w).toNat : Nat) : Int) = v % 2 ^ w :=
  Int.toNat_of_nonneg (Int.emod_nonneg _ (by have := two_pow_pos' w; omega))

theorem toNat_emod_lt (v : Int) (w : Nat) : (v % 2 ^ w).toNat < 2 ^ w := by
  have h := Int.emod_lt_of_pos v (two_pow_pos' w)
  have h2 := toNat_emod_cast v w
  have h3 := cast_two_pow w
  omega

theorem packBits_lt (ws : List Nat) (vs : List Int) : packBits ws vs < 2 ^ ws.sum := by
  induction ws generalizing vs with
  | nil => simp [packBits]
  | cons w ws ih =>
    have h1 := toNat_emod_lt (vs.headD 0) w
    have h2 := ih vs.tail
    simp only [packBits, List.sum_cons, Nat.pow_add]
    calc (vs.headD 0 % 2 ^ w).toNat * 2 ^ ws.sum + packBits ws vs.tail
        < (vs.headD 0 % 2 ^ w).toNat * 2 ^ ws.sum + 2 ^ ws.sum := by omega
      _ = ((vs.headD 0 % 2 ^ w).toNat + 1) * 2 ^ ws.sum := by rw [Nat.succ_mul]
      _ ≤ 2 ^ w * 2 ^ ws.sum := Nat.mul_le_mul_right _ h1

theorem unpackBits_mod (ws : List Nat) (n m : Nat) (h : ws.sum ≤ m) :
    unpackBits ws (n % 2 ^ m) = unpackBits ws n := by
  induction ws generalizing m with
  | nil => rfl
  | cons w ws ih =>
    simp only [List.sum_cons] at h
    simp only [unpackBits, ih m (by omega)]
    congr 2
    obtain ⟨k, rfl⟩ := Nat.exists_eq_add_of_le h
    rw [show w + ws.sum + k = ws.sum + (w + k) by omega, Nat.pow_add 2 ws.sum, Nat.mod_mul_right_div_self,
      Nat.pow_add, Nat.mod_mul_right_mod]

theorem unpackBits_packBits (ws : List Nat) (vs : List Int) :
    unpackBits ws (packBits ws vs) = wrapBits ws vs := by
  induction ws generalizing vs with
  | nil => rfl
  | cons w ws ih =>
    have h1 := toNat_emod_lt (vs.headD 0) w
    have h2 := packBits_lt ws vs.tail
    simp only [packBits, unpackBits, wrapBits]
    rw [← unpackBits_mod ws _ ws.sum (Nat.le_refl _)]
    have e1 : ((vs.headD 0 % 2 ^ w).toNat * 2 ^ ws.sum + packBits ws vs.tail) / 2 ^ ws.sum
        = (vs.headD 0 % 2 ^ w).toNat := by
      rw [Nat.mul_comm, Nat.mul_add_div (Nat.two_pow_pos _), Nat.div_eq_of_lt h2, Nat.add_zero]
    have e2 : ((vs.headD 0 % 2 ^ w).toNat * 2 ^ ws.sum + packBits ws vs.tail) % 2 ^ ws.sum
        = packBits ws vs.tail := by
      rw [Nat.mul_comm, Nat.mul_add_mod, Nat.mod_eq_of_lt h2]
    rw [e1, e2, ih, Nat.mod_eq_of_lt h1, toNat_emod_cast]

theorem packBits_unpackBits (ws : List Nat) (n : Nat) :
    packBits ws (unpackBits ws n) = n % 2 ^ ws.sum := by
  induction ws with
  | nil => simp [packBits, Nat.mod_one]
  | cons w ws ih =>
    simp only [packBits, unpackBits, List.headD_cons, List.tail_cons, ih, List.sum_cons]
    rw [show ((n / 2 ^ ws.sum % 2 ^ w : Nat) : Int) % 2 ^ w = ((n / 2 ^ ws.sum % 2 ^ w : Nat) : Int) by
      rw [← cast_two_pow, ← Int.natCast_emod, Nat.mod_mod], Int.toNat_natCast]
    rw [Nat.add_comm w, Nat.pow_add, Nat.mod_mul, Nat.mul_comm, Nat.add_comm]

theorem unpackBits_fit (ws : List Nat) (n : Nat) : BitsFit ws (unpackBits ws n) := by
  induction ws with
  | nil => trivial
  | cons w ws ih =>
    refine ⟨⟨by omega, ?_⟩, ih⟩
    have := Nat.mod_lt (n / 2 ^ ws.sum) (Nat.two_pow_pos w)
    have h3 := cast_two_pow w
    omega

theorem wrapBits_fit (ws : List Nat) (vs : List Int) : BitsFit ws (wrapBits ws vs) := by
  rw [← unpackBits_packBits]; exact unpackBits_fit _ _

theorem wrapBits_of_fit {ws : List Nat} {vs : List Int} (h : BitsFit ws vs) : wrapBits ws vs = vs := by
  induction ws generalizing vs with
  | nil => cases vs with
    | nil => rfl
    | cons => exact h.elim
  | cons w ws ih => cases vs with
    | nil => exact h.elim
    | cons v vs =>
      simp only [wrapBits, List.headD_cons, List.tail_cons, ih h.2,
        Int.emod_eq_of_lt h.1.1 h.1.2]

theorem length_wrapBits (ws : List Nat) (vs : List Int) : (wrapBits ws vs).length = ws.length := by
  induction ws generalizing vs with
  | nil => rfl
  | cons w ws ih => simp [wrapBits, ih]

theorem two_pow_sum {ws : List Nat} (h : ws.sum % 8 = 0) : 2 ^ ws.sum = 256 ^ (ws.sum / 8) := by
  rw [show (256 : Nat) = 2 ^ 8 from rfl, ← Nat.pow_mul]; congr 1; omega

/-! ## The reader and the writer -/

theorem Reads.ofExcept {α} {x : Except PyErr α} {a} (h : x = .ok a) : Reads (R.ofExcept x) [] a := by
  intro pre post; simp [R.ofExcept, h]

theorem Bitfield.reads {ws : List Nat} {b : Bytes} (hl : b.length = ws.sum / 8) :
    Reads (Bitfield.parse ws) b (unpackBits ws (beNat b)) := by
  unfold Bitfield.parse
  have h1 : Reads (read_bytes ((ws.sum / 8 : Nat) : Int)) b b := reads_bytes (by rw [hl])
  have h2 : Reads (R.ofExcept (Bitfield.fromBufferCopy ws b)) [] (unpackBits ws (beNat b)) := by
    apply Reads.ofExcept
    unfold Bitfield.fromBufferCopy
    rw [if_neg (by omega), ← hl, List.take_length]
  simpa using Reads.bind (k := fun b => R.ofExcept (Bitfield.fromBufferCopy ws b)) h1 h2

theorem Bitfield.rt {ws : List Nat} (h8 : ws.sum % 8 = 0) (vs : List Int) :
    RT (Bitfield.serialize ws vs) (Bitfield.parse ws) (wrapBits ws vs) := by
  intro b hb
  rw [emits_bytes.1 hb]
  have := Bitfield.reads (ws := ws) (length_beBytes (ws.sum / 8) (packBits ws vs))
  rw [beNat_beBytes, ← two_pow_sum h8, Nat.mod_eq_of_lt (packBits_lt _ _), unpackBits_packBits] at this
  exact this

theorem Bitfield.sized {ws : List Nat} (vs : List Int) :
    Sized (Bitfield.serialize ws vs) (ws.sum / 8) :=
  (sized_bytes _).of_eq (length_beBytes _ _)

theorem Bitfield.ok {ws : List Nat} (vs : List Int) : (Bitfield.serialize ws vs).Ok ↔ True := ok_bytes

/-- A successful run of the reader read a whole field. -/
theorem Bitfield.parse_inv {ws : List Nat} {pre suf : Bytes} {a s'}
    (h : Bitfield.parse ws ⟨pre ++ suf, pre.length⟩ = (.ok a, s')) :
    ∃ b rest, suf = b ++ rest ∧ s' = ⟨pre ++ suf, pre.length + b.length⟩ ∧ b.length = ws.sum / 8 ∧
      a = unpackBits ws (beNat b) := by
  unfold Bitfield.parse at h
  obtain ⟨b, s1, hr, hk⟩ := R.bind_inv h
  have hb : b = suf.take (ws.sum / 8) ∧ s1 = ⟨pre ++ suf, pre.length + b.length⟩ := by
    rw [read_bytes_run] at hr
    injection hr with e1 e2
    injection e1 with e1
    subst e1
    exact ⟨rfl, e2.symm⟩
  have hlen : b.length = ws.sum / 8 := by
    unfold R.ofExcept Bitfield.fromBufferCopy at hk
    have : ¬ b.length < ws.sum / 8 := by
      intro hlt; rw [if_pos hlt] at hk; cases hk
    have := List.length_take_le (ws.sum / 8) suf
    rw [← hb.1] at this
    omega
  have hr2 := Bitfield.reads hlen pre (suf.drop (ws.sum / 8))
  have hs : suf = b ++ suf.drop (ws.sum / 8) := by rw [hb.1, List.take_append_drop]
  have h' := h
  refine ⟨b, suf.drop (ws.sum / 8), hs, ?_, hlen, ?_⟩
  · rw [List.append_assoc, ← hs] at hr2
    unfold Bitfield.parse at hr2
    rw [hr2] at h
    injection h with _ h
    exact h.symm
  · rw [List.append_assoc, ← hs] at hr2
    unfold Bitfield.parse at hr2
    rw [hr2] at h
    injection h with h
    injection h with h
    exact h.symm

theorem Bitfield.loc (ws : List Nat) : Local (Bitfield.parse ws) := by
  intro pre suf a s' h
  obtain ⟨b, rest, h1, h2, h3, rfl⟩ := Bitfield.parse_inv h
  exact ⟨b, rest, h1, h2, Bitfield.reads h3⟩

theorem Bitfield.post {ws : List Nat} (h8 : ws.sum % 8 = 0) :
    Post (Bitfield.parse ws) (fun b vs => BitsFit ws vs ∧ (Bitfield.serialize ws vs).Emits b) := by
  intro pre suf a s' h
  obtain ⟨b, rest, h1, h2, h3, rfl⟩ := Bitfield.parse_inv h
  refine ⟨b, rest, h1, h2, unpackBits_fit _ _, emits_bytes.2 ?_⟩
  rw [packBits_unpackBits, two_pow_sum h8, beBytes_mod _ _ _ (Nat.le_refl _), ← h3]
  exact (beBytes_beNat b).symm

end Dis
