import Verif.Proof.Text
import Verif.Proof.Data

/-!
# The UTF-8 decoder against the encoding of Lean's characters
-/

namespace Dis

theorem char_range (c : Char) : c.val.toNat < 0xD800 ∨ 0xDFFF < c.val.toNat ∧ c.val.toNat < 0x110000 := by
  have := c.valid
  unfold UInt32.isValidChar Nat.isValidChar at this
  omega

theorem byte_toNat {n : Nat} (h : n < 256) : (UInt8.ofNat n).toNat = n := by
  rw [UInt8.toNat_ofNat']
  exact Nat.mod_eq_of_lt h

theorem byte_eq {a : UInt8} {n : Nat} (h : a.toNat = n) : a = UInt8.ofNat n := by
  rw [← h, UInt8.ofNat_toNat]

theorem cons_eq {a : UInt8} {n : Nat} {l l' : Bytes} (h : a.toNat = n) (hl : l = l') : a :: l = UInt8.ofNat n :: l' := by
  rw [byte_eq h, hl]

/-- A character in front. -/
theorem utf8_encoded (c : Char) (r : Bytes) :
    utf8Decode (String.utf8EncodeChar c ++ r) = consChar c.val.toNat (utf8Decode r) := by
  have h := char_range c
  unfold String.utf8EncodeChar
  dsimp only
  generalize c.val.toNat = v at h
  split
  · rw [List.cons_append, List.nil_append, utf8Decode.eq_def]
    dsimp only
    rw [byte_toNat (by omega), if_pos (by omega)]
  · split
    · rw [List.cons_append, List.cons_append, List.nil_append, utf8Decode.eq_def]
      dsimp only
      rw [byte_toNat (by omega), byte_toNat (by omega), if_neg (by omega), if_pos (by unfold within; omega)]
      exact congrArg (fun v => consChar v (utf8Decode r)) (by omega)
    · split
      · rw [List.cons_append, List.cons_append, List.cons_append, List.nil_append, utf8Decode.eq_def]
        dsimp only
        rw [byte_toNat (by omega), byte_toNat (by omega), byte_toNat (by omega), if_neg (by omega),
          if_neg (by unfold within; omega), if_pos (by unfold within; omega)]
        exact congrArg (fun v => consChar v (utf8Decode r)) (by omega)
      · rw [List.cons_append, List.cons_append, List.cons_append, List.cons_append, List.nil_append, utf8Decode.eq_def]
        dsimp only
        rw [byte_toNat (by omega), byte_toNat (by omega), byte_toNat (by omega), byte_toNat (by omega), if_neg (by omega),
          if_neg (by unfold within; omega), if_neg (by unfold within; omega), if_pos (by unfold within; omega)]
        exact congrArg (fun v => consChar v (utf8Decode r)) (by omega)

theorem utf8_decodes (cs : List Char) :
    utf8Decode (cs.flatMap String.utf8EncodeChar) = .ok (cs.map fun c => (c.val.toNat : Int)) := by
  induction cs with
  | nil => rfl
  | cons c cs ih =>
    rw [List.flatMap_cons, utf8_encoded, ih]
    rfl

theorem ofNat_val {v : Nat} (h : v < 0xD800 ∨ 0xDFFF < v ∧ v < 0x110000) : (Char.ofNat v).val.toNat = v := by
  have hv : Nat.isValidChar v := by unfold Nat.isValidChar; omega
  unfold Char.ofNat
  rw [dif_pos hv]
  rfl

/-- The bytes of one character, by the code point. -/
theorem encode_ofNat {v : Nat} (h : v < 0xD800 ∨ 0xDFFF < v ∧ v < 0x110000) {b : Bytes}
    (hb : b = (if v ≤ 0x7f then [UInt8.ofNat v]
      else if v ≤ 0x7ff then [UInt8.ofNat (v / 64 % 0x20 + 0xc0), UInt8.ofNat (v % 0x40 + 0x80)]
      else if v ≤ 0xffff then
        [UInt8.ofNat (v / 4096 % 0x10 + 0xe0), UInt8.ofNat (v / 64 % 0x40 + 0x80), UInt8.ofNat (v % 0x40 + 0x80)]
      else [UInt8.ofNat (v / 262144 % 0x08 + 0xf0), UInt8.ofNat (v / 4096 % 0x40 + 0x80),
        UInt8.ofNat (v / 64 % 0x40 + 0x80), UInt8.ofNat (v % 0x40 + 0x80)])) :
    b = String.utf8EncodeChar (Char.ofNat v) := by
  unfold String.utf8EncodeChar
  dsimp only
  rw [ofNat_val h]
  exact hb

theorem utf8_sound : ∀ (n : Nat) (b : Bytes), b.length ≤ n →
    (∀ t, utf8Decode b = .ok t →
      ∃ cs : List Char, b = cs.flatMap String.utf8EncodeChar ∧ t = cs.map fun c => (c.val.toNat : Int)) ∧
    ∀ e, utf8Decode b = .error e → e = .unicodeDecodeError := by
  intro n
  induction n with
  | zero =>
    intro b hb
    have : b = [] := List.length_eq_zero_iff.1 (by omega)
    subst this
    exact ⟨fun t h => ⟨[], rfl, by cases h; rfl⟩, fun e h => by cases h⟩
  | succ n ih =>
    intro b hb
    have step : ∀ {v : Nat} {b r : Bytes}, r.length ≤ n → v < 0xD800 ∨ 0xDFFF < v ∧ v < 0x110000 →
        b = String.utf8EncodeChar (Char.ofNat v) →
        (∀ t, consChar v (utf8Decode r) = .ok t →
          ∃ cs : List Char, b ++ r = cs.flatMap String.utf8EncodeChar ∧ t = cs.map fun c => (c.val.toNat : Int)) ∧
        ∀ e, consChar v (utf8Decode r) = .error e → e = .unicodeDecodeError := by
      intro v b r hr hv hb
      obtain ⟨h1, h2⟩ := ih r hr
      constructor
      · intro t h
        obtain ⟨t', e1, rfl⟩ := consChar_ok h
        obtain ⟨cs, rfl, rfl⟩ := h1 t' e1
        exact ⟨Char.ofNat v :: cs, by rw [List.flatMap_cons, hb], by rw [List.map_cons, ofNat_val hv]⟩
      · intro e h
        cases er : utf8Decode r with
        | ok t => rw [er] at h; cases h
        | error e' =>
          rw [er] at h
          cases h
          exact h2 _ er
    have bad : ∀ b : Bytes, (∀ t, (Except.error PyErr.unicodeDecodeError : Except PyErr (List Int)) = .ok t →
          ∃ cs : List Char, b = cs.flatMap String.utf8EncodeChar ∧ t = cs.map fun c => (c.val.toNat : Int)) ∧
        ∀ e, (Except.error PyErr.unicodeDecodeError : Except PyErr (List Int)) = .error e → e = .unicodeDecodeError :=
      fun _ => ⟨fun t h => (by cases h), fun e h => (by cases h; rfl)⟩
    match b with
    | [] => exact ⟨fun t h => ⟨[], rfl, by cases h; rfl⟩, fun e h => by cases h⟩
    | a :: r =>
      have a8 := a.toNat_lt
      rw [List.length_cons] at hb
      rw [utf8Decode.eq_def]
      dsimp only
      split
      · refine step (b := [a]) (by omega) (by omega) (encode_ofNat (by omega) ?_)
        rw [if_pos (by omega), UInt8.ofNat_toNat]
      · match r with
        | [] => exact bad _
        | b :: r =>
          have b8 := b.toNat_lt
          simp only [List.length_cons] at hb
          dsimp only
          split
          · rename_i hw
            unfold within at hw
            refine step (b := [a, b]) (by omega) (by omega) (encode_ofNat (by omega) ?_)
            rw [if_neg (by omega), if_pos (by omega)]
            exact cons_eq (by omega) (cons_eq (by omega) rfl)
          · match r with
            | [] => exact bad _
            | c :: r =>
              have c8 := c.toNat_lt
              simp only [List.length_cons] at hb
              dsimp only
              split
              · rename_i hw
                unfold within at hw
                refine step (b := [a, b, c]) (by omega) (by omega) (encode_ofNat (by omega) ?_)
                rw [if_neg (by omega), if_neg (by omega), if_pos (by omega)]
                exact cons_eq (by omega) (cons_eq (by omega) (cons_eq (by omega) rfl))
              · match r with
                | [] => exact bad _
                | d :: r =>
                  have d8 := d.toNat_lt
                  simp only [List.length_cons] at hb
                  dsimp only
                  split
                  · rename_i hw
                    unfold within at hw
                    refine step (b := [a, b, c, d]) (by omega) (by omega) (encode_ofNat (by omega) ?_)
                    rw [if_neg (by omega), if_neg (by omega), if_neg (by omega)]
                    exact cons_eq (by omega) (cons_eq (by omega) (cons_eq (by omega) (cons_eq (by omega) rfl)))
                  · exact bad _

/-! ## Signed bytes -/

/-- A byte as a signed number. -/
def charByte (x : UInt8) : Int := if x.toNat < 128 then x.toNat else (x.toNat : Int) - 256

theorem reads_signed_byte (x : UInt8) : Reads read_byte [x] (charByte x) := by
  refine reads_readFixed rfl ?_
  simp [unpackS, beNat, charByte]

theorem reads_signed_bytes (b : Bytes) (n : Nat) (h : b.length = n) :
    Reads (R.times n read_byte) b (b.map charByte) := by
  subst h
  induction b with
  | nil => exact Reads.pure _
  | cons x xs ih =>
    show Reads (R.times (xs.length + 1) _) ([x] ++ xs) _
    exact Reads.bind (reads_signed_byte x) (Reads.map ih _)

end Dis
