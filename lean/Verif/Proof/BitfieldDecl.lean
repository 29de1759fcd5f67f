import Verif.Proof.Bitfield
import Verif.Proof.Streams

/-! # Declarations of bit fields and the position of each field -/

namespace Dis

theorem unpackBits_getElem? (ws : List Nat) (n i : Nat) (h : i < ws.length) :
    (unpackBits ws n)[i]? = some ((n / 2 ^ lowBit ws i % 2 ^ ws[i] : Nat) : Int) := by
  induction ws generalizing i with
  | nil => simp at h
  | cons w ws ih =>
    cases i with
    | zero => simp [unpackBits, lowBit]
    | succ i =>
      have := ih i (by simpa using h)
      simpa [unpackBits, lowBit] using this

theorem wrapBits_getElem? (ws : List Nat) (vs : List Int) (i : Nat) (h : i < ws.length) :
    (wrapBits ws vs)[i]? = some (vs.getD i 0 % 2 ^ ws[i]) := by
  induction ws generalizing i vs with
  | nil => simp at h
  | cons w ws ih =>
    cases i with
    | zero => cases vs <;> simp [wrapBits]
    | succ i =>
      have := ih vs.tail i (by simpa using h)
      cases vs <;> simpa [wrapBits] using this

theorem packBits_congr {ws : List Nat} {vs vs' : List Int} (h : ∀ j, vs.getD j 0 = vs'.getD j 0) :
    packBits ws vs = packBits ws vs' := by
  induction ws generalizing vs vs' with
  | nil => rfl
  | cons w ws ih =>
    have h0 : vs.headD 0 = vs'.headD 0 := by
      have := h 0
      cases vs <;> cases vs' <;> first | exact this | simpa using this
    have ht : ∀ j, vs.tail.getD j 0 = vs'.tail.getD j 0 := by
      intro j
      have := h (j + 1)
      cases vs <;> cases vs' <;> first | exact this | simpa using this
    simp only [packBits, h0, ih ht]

theorem packBits_testBit {ws : List Nat} {vs vs' : List Int} {i : Nat}
    (h : ∀ j, j ≠ i → vs.getD j 0 = vs'.getD j 0) {k : Nat}
    (hk : k < lowBit ws i ∨ lowBit ws i + ws.getD i 0 ≤ k) :
    (packBits ws vs).testBit k = (packBits ws vs').testBit k := by
  induction ws generalizing vs vs' i with
  | nil => rfl
  | cons w ws ih =>
    have l1 := packBits_lt ws vs.tail
    have l2 := packBits_lt ws vs'.tail
    simp only [packBits]
    rw [Nat.mul_comm, Nat.testBit_two_pow_mul_add _ l1, Nat.mul_comm, Nat.testBit_two_pow_mul_add _ l2]
    cases i with
    | zero =>
      have ht : ∀ j, vs.tail.getD j 0 = vs'.tail.getD j 0 := by
        intro j
        have := h (j + 1) (by omega)
        cases vs <;> cases vs' <;> first | exact this | simpa using this
      simp only [lowBit, List.drop_succ_cons, List.drop_zero, List.getD_cons_zero] at hk
      split
      · rw [packBits_congr ht]
      · have hkw : w ≤ k - ws.sum := by omega
        have b1 := toNat_emod_lt (vs.headD 0) w
        have b2 := toNat_emod_lt (vs'.headD 0) w
        have hp := Nat.pow_le_pow_right (n := 2) (by omega) hkw
        rw [Nat.testBit_lt_two_pow (by omega), Nat.testBit_lt_two_pow (by omega)]
    | succ i =>
      have h0 : vs.headD 0 = vs'.headD 0 := by
        have := h 0 (by omega)
        cases vs <;> cases vs' <;> first | exact this | simpa using this
      have ht : ∀ j, j ≠ i → vs.tail.getD j 0 = vs'.tail.getD j 0 := by
        intro j hj
        have := h (j + 1) (by omega)
        cases vs <;> cases vs' <;> first | exact this | simpa using this
      split
      · exact ih ht (by simpa [lowBit] using hk)
      · rw [h0]

/-! ## Declarations -/

theorem bitfieldFirstPass_valid {fields : List FieldDescription} (h : ∀ f ∈ fields, f.Valid) (acc : Nat) :
    bitfieldFirstPass acc fields = .ok (acc + (totalBits fields).toNat) ∧ 0 ≤ totalBits fields := by
  induction fields generalizing acc with
  | nil => simp [bitfieldFirstPass, totalBits]
  | cons f fs ih =>
    obtain ⟨h1, bits, h2, h3, h4⟩ := h f (List.mem_cons_self ..)
    have ih := ih (fun g hg => h g (List.mem_cons_of_mem _ hg)) (acc + bits.toNat)
    have ht : totalBits (f :: fs) = bits + totalBits fs := by simp [totalBits, h2]
    have : ¬ (bits ≤ 0 ∨ bits > 32) := by omega
    simp only [bitfieldFirstPass, h1, h2, if_neg this, ih.1, ht]
    refine ⟨?_, by omega⟩
    simp only [Bool.true_eq_false, if_false]
    congr 1; omega

theorem bitfieldFirstPass_invalid {fields : List FieldDescription} (h : ¬ ∀ f ∈ fields, f.Valid) (acc : Nat) :
    bitfieldFirstPass acc fields = .error .valueError := by
  induction fields generalizing acc with
  | nil => simp at h
  | cons f fs ih =>
    unfold bitfieldFirstPass
    split
    · rfl
    · rename_i hi
      split
      · rfl
      · rename_i bits hb
        split
        · rfl
        · rename_i hr
          refine ih (fun hv => h ?_) _
          intro g hg
          rcases List.mem_cons.1 hg with rfl | hg
          · exact ⟨by simpa using hi, bits, hb, by omega, by omega⟩
          · exact hv g hg

theorem bitfieldSecondPass_valid {fields : List FieldDescription} (h : ∀ f ∈ fields, f.Valid) :
    ∃ ws, bitfieldSecondPass fields = .ok ws ∧ fields.map (·.bits) = ws.map (fun w : Nat => some (w : Int)) := by
  induction fields with
  | nil => exact ⟨[], rfl, rfl⟩
  | cons f fs ih =>
    obtain ⟨h1, bits, h2, h3, h4⟩ := h f (List.mem_cons_self ..)
    obtain ⟨ws, e1, e2⟩ := ih (fun g hg => h g (List.mem_cons_of_mem _ hg))
    have : ¬ (bits ≤ 0 ∨ bits > 32) := by omega
    refine ⟨bits.toNat :: ws, ?_, ?_⟩
    · simp [bitfieldSecondPass, bitfieldField, h1, h2, if_neg this, e1]
    · simp only [List.map_cons, h2, e2]
      rw [Int.toNat_of_nonneg (by omega)]

/-- Everything there is to know about an outcome of `bitfield`. -/
theorem bitfield_cases (fields : List FieldDescription) :
    ((∀ f ∈ fields, f.Valid) ∧ (totalBits fields = 8 ∨ totalBits fields = 16 ∨ totalBits fields = 32) ∧
      ∃ ws, bitfield fields = .ok ws ∧ fields.map (·.bits) = ws.map (fun w : Nat => some (w : Int))) ∨
    ((∀ f ∈ fields, f.Valid) ∧ totalBits fields = 24 ∧ bitfield fields = .error .assertionError) ∨
    (¬ ((∀ f ∈ fields, f.Valid) ∧ (totalBits fields = 8 ∨ totalBits fields = 16 ∨ totalBits fields = 24 ∨
        totalBits fields = 32)) ∧ bitfield fields = .error .valueError) := by
  by_cases hv : ∀ f ∈ fields, f.Valid
  · obtain ⟨h1, h2⟩ := bitfieldFirstPass_valid hv 0
    obtain ⟨ws, e1, e2⟩ := bitfieldSecondPass_valid hv
    obtain ⟨n, hn⟩ : ∃ n : Nat, totalBits fields = n := ⟨(totalBits fields).toNat, by omega⟩
    rw [hn, Nat.zero_add, Int.toNat_natCast] at h1
    have key : bitfield fields = if n = 0 then .error .valueError
        else if n % 8 ≠ 0 then .error .valueError
        else match bitfieldBaseSize n with
          | .error e => .error e
          | .ok size => if size = n / 8 then .ok ws else .error .assertionError := by
      unfold bitfield
      simp only [h1, e1]
      rfl
    rw [key, hn]
    by_cases a : n = 8 ∨ n = 16 ∨ n = 32
    · left
      refine ⟨hv, by omega, ws, ?_, e2⟩
      rcases a with rfl | rfl | rfl <;> rfl
    · by_cases b : n = 24
      · right; left
        refine ⟨hv, by omega, ?_⟩
        subst b; rfl
      · right; right
        refine ⟨by rintro ⟨-, h⟩; omega, ?_⟩
        by_cases c : n = 0
        · rw [if_pos c]
        rw [if_neg c]
        by_cases d : n % 8 ≠ 0
        · rw [if_pos d]
        rw [if_neg d, bitfieldBaseSize, if_neg (by omega), if_neg (by omega), if_neg (by omega)]
  · right; right
    refine ⟨fun h => hv h.1, ?_⟩
    unfold bitfield
    rw [bitfieldFirstPass_invalid hv]

theorem sum_of_map {fields : List FieldDescription} {ws : List Nat}
    (h : fields.map (·.bits) = ws.map (fun w : Nat => some (w : Int))) : totalBits fields = ws.sum := by
  induction fields generalizing ws with
  | nil => cases ws with
    | nil => rfl
    | cons => simp at h
  | cons f fs ih => cases ws with
    | nil => simp at h
    | cons w ws =>
      simp only [List.map_cons, List.cons.injEq] at h
      have := ih h.2
      simp only [totalBits, List.map_cons, List.sum_cons, h.1, Option.getD_some] at this ⊢
      omega

theorem bitfield_sum {fields : List FieldDescription} {ws : List Nat} (h : bitfield fields = .ok ws) :
    ws.sum % 8 = 0 ∧ ws.length = fields.length := by
  rcases bitfield_cases fields with ⟨_, ht, ws', e, hm⟩ | ⟨_, _, e⟩ | ⟨_, e⟩
  · rw [h] at e
    injection e with e
    subst e
    have := sum_of_map hm
    have hl := congrArg List.length hm
    simp only [List.length_map] at hl
    omega
  · rw [h] at e; cases e
  · rw [h] at e; cases e

theorem Bitfield.value {ws : List Nat} (h8 : ws.sum % 8 = 0) {vs : List Int} {b : Bytes}
    (hb : (Bitfield.serialize ws vs).Emits b) : beValue b = packBits ws vs := by
  rw [emits_bytes.1 hb, beValue_eq, beNat_beBytes, ← two_pow_sum h8, Nat.mod_eq_of_lt (packBits_lt _ _)]

end Dis
