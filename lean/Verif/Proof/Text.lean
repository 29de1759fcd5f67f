import Verif.Model.Text
import Verif.Proof.Layout

/-! # Lemmas about marking text -/

namespace Dis

/-- What `setString` puts into the list. -/
def markingText (text l : List Int) : List Int :=
  (text ++ List.replicate 11 0).take 11 ++ l.drop 11

theorem setItem_ok {α} {l : List α} {i v} (h : i < l.length) : setItem l i v = .ok (l.set i v) := by
  unfold setItem; rw [if_pos h]

theorem setStringLoop_ok (text : List Int) : ∀ (n i : Nat) (l : List Int), i + n ≤ l.length →
    ∃ l', EntityMarking.setStringLoop text i n l = .ok l' ∧ l'.length = l.length ∧
      ∀ j, l'[j]? = if i ≤ j ∧ j < i + n then some (text[j]?.getD 0) else l[j]? := by
  intro n
  induction n with
  | zero =>
    intro i l _
    exact ⟨l, rfl, rfl, fun j => by rw [if_neg (by omega)]⟩
  | succ n ih =>
    intro i l h
    unfold EntityMarking.setStringLoop
    rw [setItem_ok (by omega)]
    obtain ⟨l', h1, h2, h3⟩ := ih (i + 1)
      (l.set i (if h : i < text.length then text[i] else 0)) (by rw [List.length_set]; omega)
    refine ⟨l', h1, by rw [h2, List.length_set], fun j => ?_⟩
    rw [h3 j]
    by_cases hj : i = j
    · subst hj
      rw [if_neg (by omega), if_pos (by omega), List.getElem?_set_self (by omega)]
      by_cases ht : i < text.length
      · rw [dif_pos ht, List.getElem?_eq_getElem ht]; rfl
      · rw [dif_neg ht, List.getElem?_eq_none (by omega)]; rfl
    · rw [List.getElem?_set_ne hj]
      by_cases hc : i + 1 ≤ j ∧ j < i + 1 + n
      · rw [if_pos hc, if_pos (by omega)]
      · rw [if_neg hc, if_neg (by omega)]

theorem setStringLoop_short (text : List Int) : ∀ (n i : Nat) (l : List Int), i ≤ l.length →
    l.length < i + n → EntityMarking.setStringLoop text i n l = .error .indexError := by
  intro n
  induction n with
  | zero => intro i l _ _; omega
  | succ n ih =>
    intro i l h1 h2
    unfold EntityMarking.setStringLoop
    by_cases hl : i < l.length
    · rw [setItem_ok hl]
      exact ih _ _ (by rw [List.length_set]; omega) (by rw [List.length_set]; omega)
    · unfold setItem; rw [if_neg hl]

theorem markingText_get (text l : List Int) (j : Nat) :
    (markingText text l)[j]? = if 0 ≤ j ∧ j < 0 + 11 then some (text[j]?.getD 0) else l[j]? := by
  unfold markingText
  have hl : ((text ++ List.replicate 11 (0 : Int)).take 11).length = 11 := by
    rw [List.length_take, List.length_append, List.length_replicate]; omega
  by_cases hj : j < 11
  · rw [if_pos (by omega), List.getElem?_append_left (by omega), List.getElem?_take_of_lt hj]
    by_cases ht : j < text.length
    · rw [List.getElem?_append_left ht, List.getElem?_eq_getElem ht]; rfl
    · rw [List.getElem?_append_right (by omega), List.getElem?_replicate,
        if_pos (by omega), List.getElem?_eq_none (by omega)]; rfl
  · rw [if_neg (by omega), List.getElem?_append_right (by omega), hl, List.getElem?_drop]
    congr 1; omega

theorem setString_ok (m : EntityMarking) (text : List Int) (h : 11 ≤ m.characters.length) :
    m.setString text = .ok { m with characters := markingText text m.characters } := by
  obtain ⟨l', h1, -, h3⟩ := setStringLoop_ok text 11 0 m.characters (by omega)
  have e : l' = markingText text m.characters :=
    List.ext_getElem? fun j => by rw [h3, markingText_get]
  unfold EntityMarking.setString
  rw [h1, e]

theorem setString_short (m : EntityMarking) (text : List Int) (h : m.characters.length < 11) :
    m.setString text = .error .indexError := by
  unfold EntityMarking.setString
  rw [setStringLoop_short text 11 0 m.characters (by omega) (by omega)]

/-! ## Decoding -/

theorem toBytes_ok {l : List Int} {b} (h : toBytes l = .ok b) :
    l = b.map fun x => (x.toNat : Int) := by
  induction l generalizing b with
  | nil => cases h; rfl
  | cons v vs ih =>
    unfold toBytes at h
    split at h
    · rename_i hv
      split at h
      · rename_i bs hb
        cases h
        rw [List.map_cons, ← ih hb]
        congr 1
        rw [UInt8.toNat_ofNat']; omega
      · cases h
    · cases h

theorem toBytes_of {b : Bytes} : toBytes (b.map fun x => (x.toNat : Int)) = .ok b := by
  induction b with
  | nil => rfl
  | cons x xs ih =>
    rw [List.map_cons]
    unfold toBytes
    have := x.toNat_lt
    rw [if_pos (by omega), ih]
    simp

theorem toBytes_err {l : List Int} (h : ∃ v ∈ l, v < 0 ∨ 256 ≤ v) : toBytes l = .error .valueError := by
  induction l with
  | nil => obtain ⟨v, hv, -⟩ := h; cases hv
  | cons x xs ih =>
    unfold toBytes
    by_cases hx : 0 ≤ x ∧ x < 256
    · rw [if_pos hx]
      obtain ⟨v, hv, hr⟩ := h
      rcases List.mem_cons.1 hv with rfl | hv
      · omega
      · rw [ih ⟨v, hv, hr⟩]
    · rw [if_neg hx]

theorem utf8_ascii {b : Bytes} (h : ∀ x ∈ b, x.toNat < 128) :
    utf8Decode b = .ok (b.map fun x => (x.toNat : Int)) := by
  induction b with
  | nil => rfl
  | cons x xs ih =>
    rw [utf8Decode.eq_def]
    dsimp only
    rw [if_pos (h x (List.mem_cons_self ..)), ih fun y hy => h y (List.mem_cons_of_mem _ hy)]
    rfl

theorem consChar_ok {c x t} (h : consChar c x = .ok t) : ∃ t', x = .ok t' ∧ t = (c : Int) :: t' := by
  cases x with
  | ok t' => cases h; exact ⟨t', rfl, rfl⟩
  | error e => cases h

/-- A decoded text is no longer than the bytes, and shorter if one of them is not ASCII. -/
theorem utf8_length : ∀ (n : Nat) (b : Bytes), b.length ≤ n → ∀ t, utf8Decode b = .ok t →
    t.length ≤ b.length ∧ ((∃ x ∈ b, 128 ≤ x.toNat) → t.length < b.length) := by
  intro n
  induction n with
  | zero =>
    intro b hb t h
    have : b = [] := List.length_eq_zero_iff.1 (by omega)
    subst this
    cases h
    exact ⟨Nat.le_refl _, fun ⟨x, hx, _⟩ => by cases hx⟩
  | succ n ih =>
    intro b hb t h
    match b with
    | [] => cases h; exact ⟨Nat.le_refl _, fun ⟨x, hx, _⟩ => by cases hx⟩
    | a :: r =>
      rw [List.length_cons] at hb
      rw [utf8Decode.eq_def] at h
      dsimp only at h
      split at h
      · rename_i ha
        obtain ⟨t', h1, rfl⟩ := consChar_ok h
        obtain ⟨h2, h3⟩ := ih r (by omega) t' h1
        simp only [List.length_cons]
        refine ⟨by omega, fun ⟨x, hx, hx8⟩ => ?_⟩
        rcases List.mem_cons.1 hx with rfl | hx
        · omega
        · have := h3 ⟨x, hx, hx8⟩; omega
      · match r with
        | [] => cases h
        | b :: r =>
          dsimp only at h
          simp only [List.length_cons] at hb ⊢
          split at h
          · obtain ⟨t', h1, rfl⟩ := consChar_ok h
            have := (ih r (by omega) t' h1).1
            simp only [List.length_cons]
            exact ⟨by omega, fun _ => by omega⟩
          · match r with
            | [] => cases h
            | c :: r =>
              dsimp only at h
              simp only [List.length_cons] at hb ⊢
              split at h
              · obtain ⟨t', h1, rfl⟩ := consChar_ok h
                have := (ih r (by omega) t' h1).1
                simp only [List.length_cons]
                exact ⟨by omega, fun _ => by omega⟩
              · match r with
                | [] => cases h
                | d :: r =>
                  dsimp only at h
                  simp only [List.length_cons] at hb ⊢
                  split at h
                  · obtain ⟨t', h1, rfl⟩ := consChar_ok h
                    have := (ih r (by omega) t' h1).1
                    simp only [List.length_cons]
                    exact ⟨by omega, fun _ => by omega⟩
                  · cases h

theorem charactersString_ascii (m : EntityMarking) (h : ∀ c ∈ m.characters, 0 ≤ c ∧ c < 128) :
    m.charactersString = .ok (m.characters.filter fun c => c ≠ 0) := by
  unfold EntityMarking.charactersString
  have key : ∀ l : List Int, (∀ c ∈ l, 0 ≤ c ∧ c < 128) → ∃ b : Bytes,
      l = b.map (fun x => (x.toNat : Int)) ∧ ∀ x ∈ b, x.toNat < 128 := by
    intro l hl
    induction l with
    | nil => exact ⟨[], rfl, fun x hx => by cases hx⟩
    | cons v vs ih =>
      obtain ⟨b, h1, h2⟩ := ih fun c hc => hl c (List.mem_cons_of_mem _ hc)
      have hv := hl v (List.mem_cons_self ..)
      have hn : (UInt8.ofNat v.toNat).toNat = v.toNat := by rw [UInt8.toNat_ofNat']; omega
      refine ⟨UInt8.ofNat v.toNat :: b, ?_, ?_⟩
      · rw [List.map_cons, ← h1, hn]; congr 1; omega
      · intro x hx
        rcases List.mem_cons.1 hx with rfl | hx
        · omega
        · exact h2 x hx
  obtain ⟨b, h1, h2⟩ := key (m.characters.filter fun c => c ≠ 0)
    fun c hc => h c (List.mem_filter.1 hc).1
  rw [h1, toBytes_of]
  exact utf8_ascii h2

theorem filter_markingText (text l : List Int) (h : l.length = 11) :
    (markingText text l).filter (fun c => c ≠ 0) = (text.take 11).filter (fun c => c ≠ 0) := by
  unfold markingText
  rw [List.drop_of_length_le (by omega), List.append_nil, List.take_append, List.filter_append]
  rw [show ((List.replicate 11 (0 : Int)).take (11 - text.length)).filter (fun c => c ≠ 0) = [] from ?_,
    List.append_nil]
  rw [List.filter_eq_nil_iff]
  intro a ha
  rw [List.eq_of_mem_replicate (List.mem_of_mem_take ha)]
  decide

end Dis
