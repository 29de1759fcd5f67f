import Verif.Proof.Streams

/-!
# C01-C03, C05-C07: the integer methods of the streams

Each theorem is followed by a concrete case.
-/

namespace Dis

/-- **C01.** Writing an in-range integer and reading it back with the counterpart method returns it
and moves the position by exactly the width of the field, wherever it stands in the stream. -/
theorem C01_integers_survive :
    ∀ p ∈ intPairs, ∀ v, IntRange p.1.signed p.1.width v →
      ∃ b, (p.1.write v).Emits b ∧ b.length = p.2.width ∧
        ∀ pre post, p.2.read ⟨pre ++ b ++ post, pre.length⟩ =
          (.ok v, ⟨pre ++ b ++ post, pre.length + p.2.width⟩) := by
  intro p hp v hv
  obtain ⟨⟨hn, hw⟩, ⟨-, hr⟩, hwd, hsg⟩ := intPairs_spec p hp
  obtain ⟨b, hb⟩ := (intRange_pack hn).1 hv
  have hu := unpack_pack hn hb
  refine ⟨b, ?_, hu.1.trans hwd, fun pre post => ?_⟩
  · rw [hw]; exact writeFixed_emits.2 hb
  · have := reads_readFixed hu.1 hu.2 pre post
    rw [hr, ← hwd, ← hsg, this, hu.1]

/-- `-2` as a signed 16-bit number between other bytes. -/
example : IntRange true 2 (-2) ∧ (write_short (-2)).Emits [0xff, 0xfe] ∧
    read_short ⟨[9, 0xff, 0xfe, 7, 7], 1⟩ = (.ok (-2), ⟨[9, 0xff, 0xfe, 7, 7], 3⟩) := by
  refine ⟨by decide, ?_, by decide⟩
  exact W.emits_iff.2 (by decide)

/-- **C01**, boolean methods. -/
theorem C01_boolean_survives (v : Bool) :
    ∃ b, (write_boolean v).Emits b ∧ b.length = 1 ∧
      ∀ pre post, read_boolean ⟨pre ++ b ++ post, pre.length⟩ =
        (.ok v, ⟨pre ++ b ++ post, pre.length + 1⟩) := by
  refine ⟨[if v then 1 else 0], ⟨rfl, (), rfl⟩, rfl, fun pre post => ?_⟩
  exact rt_boolean v [if v then 1 else 0] ⟨rfl, (), rfl⟩ pre post

/-- `True` is written as one byte 1 and read back. -/
example : (write_boolean true).Emits [1] ∧ read_boolean ⟨[0, 1], 1⟩ = (.ok true, ⟨[0, 1], 2⟩) :=
  ⟨W.emits_iff.2 (by decide), by decide⟩

/-- **C02.** An integer write method given a value out of range raises `struct.error` and writes
nothing. -/
theorem C02_out_of_range_rejected :
    ∀ w ∈ intWriters, ∀ v, ¬ IntRange w.signed w.width v →
      w.write v = ⟨[], .error .structError⟩ := by
  intro w hw v hv
  obtain ⟨hn, h⟩ := intWriters_spec w hw
  rw [h]
  cases hp : (if w.signed then packS w.width v else packU w.width v) with
  | ok b => exact absurd ((intRange_pack hn).2 ⟨b, hp⟩) hv
  | error e =>
    cases pack_error hp
    rfl

/-- 256 does not fit an unsigned byte, -1 not an unsigned 64-bit number. -/
example : ¬ IntRange false 1 256 ∧ write_unsigned_byte 256 = ⟨[], .error .structError⟩ ∧
    ¬ IntRange false 8 (-1) ∧ write_uint64 (-1) = ⟨[], .error .structError⟩ := by decide

/-- **C02**, converse: a value in range is written with exactly the width of the method. -/
theorem C02_in_range_accepted :
    ∀ w ∈ intWriters, ∀ v, IntRange w.signed w.width v →
      (w.write v).res = .ok () ∧ (w.write v).out.length = w.width := by
  intro w hw v hv
  obtain ⟨hn, h⟩ := intWriters_spec w hw
  obtain ⟨b, hb⟩ := (intRange_pack hn).1 hv
  rw [h, hb]
  refine ⟨rfl, ?_⟩
  have := (pack_value hb).1
  simpa [W.writeFixed, W.bind_def, W.bind, W.ofExcept, W.emit] using this

/-- The largest unsigned 64-bit number takes eight bytes. -/
example : IntRange false 8 18446744073709551615 ∧
    (write_uint64 18446744073709551615).out = List.replicate 8 255 := by decide

/-- **C03.** The bytes written for an in-range integer are its base-256 digits, most significant
first, modulo `256 ^ width`. -/
theorem C03_network_byte_order :
    ∀ w ∈ intWriters, ∀ v, IntRange w.signed w.width v →
      beValue (w.write v).out = v % 256 ^ w.width ∧ (w.write v).out.length = w.width := by
  intro w hw v hv
  obtain ⟨hn, h⟩ := intWriters_spec w hw
  obtain ⟨b, hb⟩ := (intRange_pack hn).1 hv
  have := pack_value hb
  have e : (w.write v).out = b := by
    rw [h, hb]; simp [W.writeFixed, W.bind_def, W.bind, W.ofExcept, W.emit]
  rw [e, beValue_eq, this.2, pow_cast]
  exact ⟨rfl, this.1⟩

/-- 0x01020304 is written as the bytes 1, 2, 3, 4. -/
example : IntRange false 4 0x01020304 ∧ (write_unsigned_int 0x01020304).out = [1, 2, 3, 4] ∧
    beValue [1, 2, 3, 4] = 0x01020304 := by decide

/-- **C03**, reading: the number read is in range and congruent to the base-256 value of the bytes. -/
theorem C03_reading :
    ∀ r ∈ intReaders, ∀ b, b.length = r.width → ∃ v,
      IntRange r.signed r.width v ∧ v % 256 ^ r.width = beValue b % 256 ^ r.width ∧
        ∀ pre post, r.read ⟨pre ++ b ++ post, pre.length⟩ =
          (.ok v, ⟨pre ++ b ++ post, pre.length + r.width⟩) := by
  intro r hr b hb
  obtain ⟨hn, h⟩ := intReaders_spec r hr
  have hlt := beNat_lt b
  rw [hb] at hlt
  have h1 := two_pow_8_half hn
  have h2 := half_256 hn
  have run : ∀ v, (if r.signed then unpackS r.width else unpackU r.width) b = .ok v →
      ∀ pre post, r.read ⟨pre ++ b ++ post, pre.length⟩ =
          (.ok v, ⟨pre ++ b ++ post, pre.length + r.width⟩) := by
    intro v hv pre post
    rw [h, reads_readFixed hb hv pre post, hb]
  have h3 := two_pow_8 r.width
  rcases hs : r.signed with _ | _ <;>
    simp only [hs, Bool.false_eq_true, if_true, if_false] at run <;> simp only [IntRange, beValue_eq, pow_cast,
      Bool.false_eq_true, if_true, if_false]
  · refine ⟨beNat b, by omega, rfl, run _ ?_⟩
    unfold unpackU; rw [if_pos hb]
  · by_cases hlo : beNat b < 256 ^ r.width / 2
    · refine ⟨beNat b, by omega, rfl, run _ ?_⟩
      unfold unpackS; rw [if_pos hb, if_pos hlo]
    · refine ⟨(beNat b : Int) - (256 ^ r.width : Nat), by omega, ?_, run _ ?_⟩
      · exact Int.sub_emod_right ..
      · unfold unpackS; rw [if_pos hb, if_neg hlo]

/-- The bytes ff fe read as a signed short are -2. -/
example : read_int16 ⟨[0xff, 0xfe], 0⟩ = (.ok (-2), ⟨[0xff, 0xfe], 2⟩) ∧
    (-2 : Int) % 256 ^ 2 = beValue [0xff, 0xfe] % 256 ^ 2 := by decide

/-- **C03**, booleans: `True` is the byte 1, `False` the byte 0; any other byte than 0 is read as `True`. -/
theorem C03_boolean (v : Bool) (x : UInt8) :
    (write_boolean v).Emits [if v then 1 else 0] ∧
      ∀ pre post, read_boolean ⟨pre ++ [x] ++ post, pre.length⟩ =
        (.ok (x ≠ 0), ⟨pre ++ [x] ++ post, pre.length + 1⟩) := by
  refine ⟨⟨rfl, (), rfl⟩, reads_readFixed rfl ?_⟩
  by_cases h : x = 0
  · subst h
    rfl
  · have : x.toNat ≠ 0 := fun e => h (UInt8.toNat.inj e)
    simp [unpackU, beNat, h, this]

example : read_boolean ⟨[7, 0x80], 1⟩ = (.ok true, ⟨[7, 0x80], 2⟩) := by decide

/-- **C05.** A fixed-size integer read with fewer bytes left than its width raises `struct.error`,
whatever the position of the stream, also beyond its end. -/
theorem C05_no_fabricated_integers :
    ∀ r ∈ intReaders, ∀ s : InStream, s.data.length < s.pos + r.width →
      (r.read s).1 = .error .structError := by
  intro r hr s hs
  obtain ⟨hn, h⟩ := intReaders_spec r hr
  rw [h]
  exact (readFixed_short hn (fun _ _ => unpack_len) (fun _ _ => unpack_err) hs).1

/-- Three bytes are not enough for a 32-bit number. -/
example : (read_int ⟨[1, 2, 3], 0⟩).1 = .error .structError ∧
    (read_unsigned_byte ⟨[1, 2, 3], 7⟩).1 = .error .structError := by decide

/-- **C05**, boolean and floating-point reads. -/
theorem C05_no_fabricated_others (s : InStream) :
    (s.data.length < s.pos + 1 → (read_boolean s).1 = .error .structError) ∧
    (s.data.length < s.pos + 4 → (read_float s).1 = .error .structError ∧
      (read_float32 s).1 = .error .structError) ∧
    (s.data.length < s.pos + 8 → (read_double s).1 = .error .structError ∧
      (read_float64 s).1 = .error .structError) := by
  refine ⟨fun h => ?_, fun h => ?_, fun h => ?_⟩
  · refine (readFixed_short (by decide) (fun b v hb => ?_) (fun b e hb => ?_) h).1
    · cases hu : unpackU 1 b with
      | ok w => exact unpackU_len hu
      | error e => rw [hu] at hb; cases hb
    · cases hu : unpackU 1 b with
      | ok w => rw [hu] at hb; cases hb
      | error e' => rw [hu] at hb; cases hb; exact unpackU_err hu
  · have := (readFixed_short (by decide) (fun _ _ => unpackF_len) (fun _ _ => unpackF_err) h).1
    exact ⟨this, this⟩
  · have := (readFixed_short (by decide) (fun _ _ => unpackD_len) (fun _ _ => unpackD_err) h).1
    exact ⟨this, this⟩

/-- Seven bytes are not enough for a double. -/
example : (read_double ⟨[1, 2, 3, 4, 5, 6, 7], 0⟩).1 = .error .structError := by decide

/-- **C05**, converse: with enough bytes left every fixed-size integer read succeeds. -/
theorem C05_reads_succeed :
    ∀ r ∈ intReaders, ∀ s : InStream, s.pos + r.width ≤ s.data.length →
      ∃ v, r.read s = (.ok v, { s with pos := s.pos + r.width }) := by
  intro r hr s hs
  obtain ⟨v, -, -, h⟩ := C03_reading r hr ((s.data.drop s.pos).take r.width) (by simp; omega)
  refine ⟨v, ?_⟩
  have := h (s.data.take s.pos) ((s.data.drop s.pos).drop r.width)
  rw [List.append_assoc, List.take_append_drop, List.take_append_drop, List.length_take,
    Nat.min_eq_left (by omega)] at this
  exact this

/-- Two bytes from position 1 of a four-byte stream. -/
example : read_unsigned_short ⟨[1, 2, 3, 4], 1⟩ = (.ok 0x0203, ⟨[1, 2, 3, 4], 3⟩) := by decide

/-- **C06.** `write_utf` followed by `read_utf` returns the same bytes, for at most 65535 of them. -/
theorem C06_utf_survives (t : Bytes) (ht : t.length ≤ 65535) :
    ∃ b, (write_utf t).Emits b ∧ b.length = 2 + t.length ∧
      ∀ pre post, read_utf ⟨pre ++ b ++ post, pre.length⟩ =
        (.ok t, ⟨pre ++ b ++ post, pre.length + (2 + t.length)⟩) := by
  obtain ⟨c, hc⟩ := packU_ok_iff (n := 2) (v := t.length).2 (by omega)
  have he : (write_utf t).Emits (c ++ t) := W.Emits.bind (writeFixed_emits.2 hc) (emits_bytes.2 rfl)
  have hl : (c ++ t).length = 2 + t.length := by simp [packU_len hc]
  refine ⟨_, he, hl, fun pre post => ?_⟩
  rw [rt_utf t _ he pre post, hl]

/-- Three bytes and their length. -/
example : (write_utf [68, 73, 83]).Emits [0, 3, 68, 73, 83] ∧
    read_utf ⟨[0, 3, 68, 73, 83, 9], 0⟩ = (.ok [68, 73, 83], ⟨[0, 3, 68, 73, 83, 9], 5⟩) :=
  ⟨W.emits_iff.2 (by decide), by decide⟩

/-- **C06.** `write_utf` of more than 65535 bytes raises `struct.error` and writes nothing. -/
theorem C06_utf_too_long (t : Bytes) (ht : 65535 < t.length) :
    write_utf t = ⟨[], .error .structError⟩ := by
  have : packU 2 (t.length : Int) = .error .structError := by
    unfold packU; rw [if_neg (by omega)]
  unfold write_utf; rw [this]; rfl

/-- 65536 bytes are too many. -/
example : write_utf (List.replicate 65536 0) = ⟨[], .error .structError⟩ :=
  C06_utf_too_long _ (by rw [List.length_replicate]; decide)

/-- **C06.** `read_bytes` returns what is left of the stream if that is less than asked for, without
raising. -/
theorem C06_read_bytes_short (n : Nat) (s : InStream) :
    read_bytes n s = (.ok ((s.data.drop s.pos).take n),
      { s with pos := s.pos + min n (s.data.length - s.pos) }) := by
  have : ¬ ((n : Int) < 0) := by omega
  simp [read_bytes, R.readRaw, this]

/-- Asking for five of the two bytes left. -/
example : read_bytes 5 ⟨[1, 2, 3], 1⟩ = (.ok [2, 3], ⟨[1, 2, 3], 3⟩) := by decide

/-- **C06.** A string whose encoding is cut short behind the length is read as the bytes that are
left, without raising; cut inside the length it raises `struct.error`. -/
theorem C06_read_utf_truncated (t : Bytes) (ht : t.length ≤ 65535) (k : Nat) :
    ∃ b, (write_utf t).Emits b ∧
      (k < 2 → (read_utf ⟨b.take k, 0⟩).1 = .error .structError) ∧
      (2 ≤ k → (read_utf ⟨b.take k, 0⟩).1 = .ok (t.take (k - 2))) := by
  obtain ⟨c, hc⟩ := packU_ok_iff (n := 2) (v := t.length).2 (by omega)
  have he : (write_utf t).Emits (c ++ t) := W.Emits.bind (writeFixed_emits.2 hc) (emits_bytes.2 rfl)
  have hcl := packU_len hc
  refine ⟨_, he, fun hk => ?_, fun hk => ?_⟩
  · have h1 := (readFixed_short (n := 2) (by decide) (un := unpackU 2) (fun _ _ => unpackU_len)
      (fun _ _ => unpackU_err) (s := ⟨(c ++ t).take k, 0⟩) (by simp; omega)).1
    unfold read_utf
    rcases hr : R.readFixed 2 (unpackU 2) ⟨(c ++ t).take k, 0⟩ with ⟨x, s'⟩
    rw [hr] at h1
    simp only at h1
    subst h1
    rw [R.bind_error hr]
  · have e : (c ++ t).take k = c ++ t.take (k - 2) := by
      rw [List.take_append, hcl, List.take_of_length_le (by omega)]
    rw [e]
    have h1 := reads_readFixed (n := 2) hcl (unpackU_packU hc).2 [] (t.take (k - 2))
    simp only [List.nil_append, List.length_nil, Nat.zero_add] at h1
    unfold read_utf
    rw [R.bind_ok h1]
    have h2 := read_bytes_run t.length c (t.take (k - 2))
    unfold read_bytes at h2
    rw [h2, List.take_of_length_le (by simp; omega)]

/-- Cut after the first of three bytes. -/
example : (read_utf ⟨[0, 3, 68], 0⟩).1 = .ok [68] ∧ (read_utf ⟨[0], 0⟩).1 = .error .structError := by
  decide

/-! ## C07: the two pairs that do not match -/

/-- **C07**, the property itself: unsigned 64-bit numbers round-trip. The code does not have it. -/
def C07_uint64_round_trips : Prop :=
  ∀ v, IntRange false 8 v → ∃ b, (write_uint64 v).Emits b ∧ Reads read_uint64 b v

/-- **C07** is violated: `read_uint64` reads a signed number. -/
theorem C07_uint64_violated : ¬ C07_uint64_round_trips := by
  intro h
  obtain ⟨b, hb, hr⟩ := h 9223372036854775808 (by decide)
  have := (rt_uint64 _ b hb).unique hr
  revert this; decide

/-- **C07**, what holds: values below 2^63 round-trip; a value `v` from 2^63 on comes back as
`v - 2^64`. -/
theorem C07_uint64_partial (v : Int) (hv : IntRange false 8 v) :
    ∃ b, (write_uint64 v).Emits b ∧ b.length = 8 ∧
      (v < 2 ^ 63 → Reads read_uint64 b v) ∧ (2 ^ 63 ≤ v → Reads read_uint64 b (v - 2 ^ 64)) := by
  obtain ⟨b, hb⟩ := (intRange_pack (by decide)).1 hv
  have he : (write_uint64 v).Emits b := writeFixed_emits.2 hb
  have := rt_uint64 v b he
  refine ⟨b, he, (pack_value hb).1, fun h => ?_, fun h => ?_⟩
  · rwa [if_pos (by omega)] at this
  · rwa [if_neg (by omega)] at this

/-- Both sides of the limit. -/
example : Reads read_uint64 [0x7f, 255, 255, 255, 255, 255, 255, 255] (2 ^ 63 - 1) ∧
    Reads read_uint64 [0x80, 0, 0, 0, 0, 0, 0, 0] (-2 ^ 63) :=
  ⟨rt_uint64 (2 ^ 63 - 1) _ (W.emits_iff.2 (by decide)), rt_uint64 (2 ^ 63) _ (W.emits_iff.2 (by decide))⟩

/-- **C07**, 8-bit characters: what `write_char8` writes for an ASCII character is one byte, so
`read_char8`, which reads two, raises on it; followed by another byte it returns a different
character, unless the written one is NUL. -/
theorem C07_char8_violated (v : Int) (h0 : 0 ≤ v) (hv : v < 128) :
    ∃ b, (write_char8 v).Emits b ∧ b.length = 1 ∧ (read_char8 ⟨b, 0⟩).1 = .error .structError ∧
      ∀ x : UInt8, (read_char8 ⟨b ++ [x], 0⟩).1 = .ok (256 * v + x.toNat) ∧
        (v ≠ 0 → (read_char8 ⟨b ++ [x], 0⟩).1 ≠ .ok v) := by
  have hp : packS 1 v = .ok (beBytes 1 v.toNat) := by
    unfold packS; rw [if_pos (by omega), Int.emod_eq_of_lt h0 (by omega)]
  have he : (write_char8 v).Emits (beBytes 1 v.toNat) := writeFixed_emits.2 hp
  refine ⟨_, he, rfl, ?_, fun x => ?_⟩
  · exact (readFixed_short (n := 2) (by decide) (fun _ _ => unpackU_len) (fun _ _ => unpackU_err)
      (s := ⟨beBytes 1 v.toNat, 0⟩) (by simp [length_beBytes])).1
  · have hr : (read_char8 ⟨beBytes 1 v.toNat ++ [x], 0⟩).1 = .ok (256 * v + x.toNat) := by
      unfold read_char8 read_char
      rw [readFixed_long]
      simp only [List.drop_zero]
      rw [List.take_of_length_le (by simp [length_beBytes])]
      unfold unpackU
      rw [if_pos (by simp [length_beBytes])]
      refine congrArg Except.ok ?_
      have hn : (UInt8.ofNat (v.toNat % 256)).toNat = v.toNat := by
        rw [UInt8.toNat_ofNat', Nat.mod_mod, Nat.mod_eq_of_lt (by omega)]
      simp only [beBytes, Nat.pow_zero, Nat.div_one, List.cons_append, List.nil_append, beNat,
        List.length_cons, List.length_nil, hn]
      omega
    refine ⟨hr, fun hne h => ?_⟩
    rw [hr] at h
    injection h with h
    omega

/-- The letter A followed by a space. -/
example : (write_char8 65).Emits [65] ∧ (read_char8 ⟨[65], 0⟩).1 = .error .structError ∧
    (read_char8 ⟨[65, 32], 0⟩).1 = .ok 16672 := ⟨W.emits_iff.2 (by decide), by decide, by decide⟩

end Dis
