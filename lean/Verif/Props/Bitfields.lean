import Verif.Model.Radio
import Verif.Model.Warfare
import Verif.Proof.BitfieldDecl

/-!
# C24, C25: bit fields

`bitfield fields = .ok ws` means that the call built a class whose fields have the widths `ws`.
`Bitfield.serialize ws vs` is `cls(*vs).serialize(out)`.
-/

namespace Dis

/-! ## C24 -/

/-- **C24.** Any values can be packed, into exactly the total of the widths. -/
theorem C24_packs {fields : List FieldDescription} {ws : List Nat} (h : bitfield fields = .ok ws)
    (vs : List Int) :
    ∃ b, (Bitfield.serialize ws vs).Emits b ∧ (8 * b.length : Int) = totalBits fields := by
  refine ⟨_, emits_bytes.2 rfl, ?_⟩
  rw [length_beBytes]
  rcases bitfield_cases fields with ⟨_, ht, ws', e, hm⟩ | ⟨_, _, e⟩ | ⟨_, e⟩
  · rw [h] at e
    injection e with e
    subst e
    rw [sum_of_map hm]
    have := (bitfield_sum h).1
    omega
  · rw [h] at e; cases e
  · rw [h] at e; cases e

/-- **C24.** Packing then unpacking returns every field modulo two to its width; fields that are not
given are zero. -/
theorem C24_round_trip {fields : List FieldDescription} {ws : List Nat} (h : bitfield fields = .ok ws)
    (vs : List Int) (b : Bytes) (hb : (Bitfield.serialize ws vs).Emits b) :
    ∃ r, Reads (Bitfield.parse ws) b r ∧ r.length = fields.length ∧
      ∀ (i : Nat) (hi : i < ws.length), r[i]? = some (vs.getD i 0 % 2 ^ ws[i]) :=
  ⟨_, Bitfield.rt (bitfield_sum h).1 vs b hb, by rw [length_wrapBits, (bitfield_sum h).2],
    fun i hi => wrapBits_getElem? ws vs i hi⟩

/-- **C24.** Each field has its own bits, most significant first: the field `i` stands directly above
the fields behind it. -/
theorem C24_position {fields : List FieldDescription} {ws : List Nat} (h : bitfield fields = .ok ws)
    (vs : List Int) (b : Bytes) (hb : (Bitfield.serialize ws vs).Emits b) (i : Nat) (hi : i < ws.length) :
    beValue b / 2 ^ lowBit ws i % 2 ^ ws[i] = vs.getD i 0 % 2 ^ ws[i] := by
  have h1 := unpackBits_getElem? ws (packBits ws vs) i hi
  rw [unpackBits_packBits, wrapBits_getElem? ws vs i hi] at h1
  injection h1 with h1
  rw [Bitfield.value (bitfield_sum h).1 hb, h1, Int.natCast_emod, Int.natCast_ediv,
    cast_two_pow, cast_two_pow]

/-- **C24.** Changing the field `i` changes no bit outside its own. -/
theorem C24_independent {fields : List FieldDescription} {ws : List Nat} (h : bitfield fields = .ok ws)
    (vs vs' : List Int) (i : Nat) (hs : ∀ j, j ≠ i → vs.getD j 0 = vs'.getD j 0) (b b' : Bytes)
    (hb : (Bitfield.serialize ws vs).Emits b) (hb' : (Bitfield.serialize ws vs').Emits b') (k : Nat)
    (hk : k < lowBit ws i ∨ lowBit ws i + ws.getD i 0 ≤ k) :
    (beValue b).toNat.testBit k = (beValue b').toNat.testBit k := by
  rw [Bitfield.value (bitfield_sum h).1 hb, Bitfield.value (bitfield_sum h).1 hb']
  exact packBits_testBit hs hk

/-- **C24.** Unpacking any bytes of the right length and packing the result gives the same bytes:
nothing is lost in this direction either. -/
theorem C24_no_unused_bits {fields : List FieldDescription} {ws : List Nat} (h : bitfield fields = .ok ws)
    (b : Bytes) (hb : (8 * b.length : Nat) = ws.sum) :
    ∃ vs, Reads (Bitfield.parse ws) b vs ∧ (Bitfield.serialize ws vs).Emits b := by
  have h8 := (bitfield_sum h).1
  refine ⟨_, Bitfield.reads (by omega), emits_bytes.2 ?_⟩
  have hl : b.length = ws.sum / 8 := by omega
  rw [packBits_unpackBits, two_pow_sum h8, beBytes_mod _ _ _ (Nat.le_refl _), ← hl]
  exact (beBytes_beNat b).symm

/-- Three fields of 3, 5 and 8 bits. -/
def exampleFields : List FieldDescription := [⟨true, some 3⟩, ⟨true, some 5⟩, ⟨true, some 8⟩]

example : bitfield exampleFields = .ok [3, 5, 8] := by decide

-- -1, 37 and 258 wrap to 7, 5 and 2
example : (Bitfield.serialize [3, 5, 8] [-1, 37, 258]).Emits [0xe5, 0x02] := ⟨by decide, (), rfl⟩
example : (Bitfield.parse [3, 5, 8] ⟨[0xe5, 0x02], 0⟩).1 = .ok [7, 5, 2] := by decide

-- the middle field stands in bits 8 to 12
example : lowBit [3, 5, 8] 1 = 8 := by decide

example (b b' : Bytes) (hb : (Bitfield.serialize [3, 5, 8] [-1, 37, 258]).Emits b)
    (hb' : (Bitfield.serialize [3, 5, 8] [-1, 0, 258]).Emits b') :
    (beValue b).toNat.testBit 13 = (beValue b').toNat.testBit 13 :=
  C24_independent (fields := exampleFields) (by decide) _ _ 1
    (by intro j hj; match j with | 0 => rfl | 1 => exact absurd rfl hj | 2 => rfl | j + 3 => rfl) _ _ hb hb' 13
    (by decide)

/-! ## C25 -/

/-- **C25.** `bitfield` accepts a declaration exactly when all its fields are INTEGER with a width of 1 to
32 and the widths add up to 8, 16 or 32 (so it has a field); the class then has these widths. -/
theorem C25_accepts (fields : List FieldDescription) (ws : List Nat) :
    bitfield fields = .ok ws ↔
      (∀ f ∈ fields, f.Valid) ∧
      (totalBits fields = 8 ∨ totalBits fields = 16 ∨ totalBits fields = 32) ∧
      fields.map (·.bits) = ws.map (fun w : Nat => some (w : Int)) := by
  constructor
  · intro h
    rcases bitfield_cases fields with ⟨hv, ht, ws', e, hm⟩ | ⟨_, _, e⟩ | ⟨_, e⟩
    · rw [h] at e
      injection e with e
      subst e
      exact ⟨hv, ht, hm⟩
    · rw [h] at e; cases e
    · rw [h] at e; cases e
  · rintro ⟨hv, ht, hm⟩
    rcases bitfield_cases fields with ⟨_, _, ws', e, hm'⟩ | ⟨_, h, e⟩ | ⟨h, e⟩
    · have : ws = ws' := by
        have hh := hm.symm.trans hm'
        exact (List.map_inj_right (fun x y hxy => by injection hxy with hxy; omega)).1 hh
      rw [e, this]
    · omega
    · exact absurd ⟨hv, by omega⟩ h

/-- **C25.** Valid fields adding up to 24 bits raise AssertionError. -/
theorem C25_twenty_four (fields : List FieldDescription) :
    bitfield fields = .error .assertionError ↔ (∀ f ∈ fields, f.Valid) ∧ totalBits fields = 24 := by
  rcases bitfield_cases fields with ⟨hv, ht, ws', e, hm⟩ | ⟨hv, h, e⟩ | ⟨h, e⟩
  · rw [e]
    exact ⟨(fun h => by cases h), fun h => by omega⟩
  · exact ⟨fun _ => ⟨hv, h⟩, fun _ => e⟩
  · rw [e]
    exact ⟨(fun h => by cases h), fun h' => absurd ⟨h'.1, by omega⟩ h⟩

/-- **C25.** Every other declaration raises ValueError, and no other exception exists. -/
theorem C25_rejects (fields : List FieldDescription)
    (h : ¬ ((∀ f ∈ fields, f.Valid) ∧ (totalBits fields = 8 ∨ totalBits fields = 16 ∨
      totalBits fields = 24 ∨ totalBits fields = 32))) :
    bitfield fields = .error .valueError := by
  rcases bitfield_cases fields with ⟨hv, ht, ws', e, hm⟩ | ⟨hv, h', e⟩ | ⟨_, e⟩
  · exact absurd ⟨hv, by omega⟩ h
  · exact absurd ⟨hv, by omega⟩ h
  · exact e

/-- **C25.** The three declarations of the library are accepted, with the widths their codecs use. -/
theorem C25_bitfield_classes :
    bitfield SpreadSpectrum.fields = .ok SpreadSpectrum.struct ∧
    bitfield NetId.fields = .ok NetId.struct ∧
    bitfield DEFireFlags.fields = .ok DEFireFlags.struct := by decide

example : bitfield [⟨true, some 12⟩, ⟨true, some 12⟩] = .error .assertionError := by decide
example : bitfield [] = .error .valueError := by decide
example : bitfield [⟨true, some 33⟩] = .error .valueError := by decide
example : bitfield [⟨true, some 8⟩, ⟨false, some 8⟩] = .error .valueError := by decide
example : bitfield [⟨true, some 32⟩, ⟨true, some 32⟩] = .error .valueError :=
  C25_rejects _ (by rintro ⟨-, h⟩; revert h; decide)

end Dis
