import Verif.Proof.Data
import Verif.Proof.Catalog
import Verif.Proof.Utf8

/-!
# C29–C31: marking text, variable datums, signal data

A text is the list of its code points; `text.take 11` are its first eleven characters. `digits n v`
are the `n` bytes of a number in network order (`Verif/Spec/Layout.lean`).
-/

namespace Dis

/-! ## C29 -/

/-- **C29.** After `setString` with an ASCII text without NUL, `charactersString` returns its first
eleven characters: the text itself if it has at most eleven. -/
theorem C29_text (m : EntityMarking) (hm : m.characters.length = 11) (text : List Int)
    (ht : ∀ c ∈ text, 0 < c ∧ c < 128) :
    ∃ m', m.setString text = .ok m' ∧ m'.charactersString = .ok (text.take 11) := by
  refine ⟨_, setString_ok m text (by omega), ?_⟩
  rw [charactersString_ascii]
  · show Except.ok ((markingText text m.characters).filter _) = _
    rw [filter_markingText _ _ hm, List.filter_eq_self.2]
    intro c hc
    have := ht c (List.mem_of_mem_take hc)
    exact decide_eq_true (by omega)
  · intro c hc
    unfold markingText at hc
    rw [List.drop_of_length_le (by omega), List.append_nil] at hc
    rcases List.mem_append.1 (List.mem_of_mem_take hc) with h | h
    · have := ht c h; omega
    · rw [List.eq_of_mem_replicate h]; decide

/-- **C29.** In particular short texts come back whole. -/
theorem C29_short_text (m : EntityMarking) (hm : m.characters.length = 11) (text : List Int)
    (ht : ∀ c ∈ text, 0 < c ∧ c < 128) (hl : text.length ≤ 11) :
    ∃ m', m.setString text = .ok m' ∧ m'.charactersString = .ok text := by
  obtain ⟨m', h1, h2⟩ := C29_text m hm text ht
  exact ⟨m', h1, by rw [h2, List.take_of_length_le hl]⟩

/-- **C29.** The text survives the wire: twelve bytes, read back by any marking object, which then
returns the same text. -/
theorem C29_over_the_wire (m s : EntityMarking) (hm : m.characters.length = 11)
    (hc : 0 ≤ m.characterSet ∧ m.characterSet ≤ 255) (text : List Int)
    (ht : ∀ c ∈ text, 0 < c ∧ c < 128) :
    ∃ m' b m'', m.setString text = .ok m' ∧ m'.serialize.Emits b ∧ b.length = 12 ∧
      Reads (s.parse) b m'' ∧ m''.charactersString = .ok (text.take 11) := by
  obtain ⟨m', h1, h2⟩ := C29_text m hm text ht
  have e := (setString_ok m text (by omega)).symm.trans h1
  cases e
  have hl : (markingText text m.characters).length = 11 := by
    unfold markingText
    rw [List.length_append, List.length_take, List.length_append, List.length_replicate,
      List.length_drop]; omega
  have hok : (EntityMarking.serialize { m with characters := markingText text m.characters }).Ok := by
    refine (EntityMarking.ok_iff _).2 ⟨hc, Nat.le_of_eq hl.symm, fun x hx => ?_⟩
    have hx' : x ∈ markingText text m.characters := List.mem_of_mem_take hx
    unfold markingText at hx'
    rw [List.drop_of_length_le (by omega), List.append_nil] at hx'
    unfold S8
    rcases List.mem_append.1 (List.mem_of_mem_take hx') with h | h
    · have := ht x h; omega
    · rw [List.eq_of_mem_replicate h]; decide
  refine ⟨_, _, _, h1, hok.emits, EntityMarking.sized _ _ hok.emits, EntityMarking.rt s _ _ hok.emits, ?_⟩
  rw [← h2]
  unfold EntityMarking.charactersString EntityMarking.after
  dsimp only
  rw [List.take_of_length_le (Nat.le_of_eq hl)]

/-- **C29.** Every marking that can be written occupies twelve bytes. -/
theorem C29_twelve_bytes (m : EntityMarking) (b : Bytes) (h : m.serialize.Emits b) : b.length = 12 :=
  EntityMarking.sized m b h

/-- **C29.** With a character of code 128 or above among the first eleven, the marking cannot be
written. -/
theorem C29_not_ascii (m m' : EntityMarking) (text : List Int) (h : m.setString text = .ok m')
    (ht : ∃ c ∈ text.take 11, 128 ≤ c) : ¬ m'.serialize.Ok := by
  by_cases hl : 11 ≤ m.characters.length
  · rw [setString_ok m text hl] at h
    cases h
    obtain ⟨c, hc, hc8⟩ := ht
    intro hok
    obtain ⟨-, -, h2⟩ := (EntityMarking.ok_iff _).1 hok
    have hm : c ∈ (markingText text m.characters).take 11 := by
      unfold markingText
      rw [List.take_append, List.mem_append]
      left
      rw [List.take_take, Nat.min_self, List.take_append, List.mem_append]
      exact Or.inl hc
    have := (h2 c hm).2
    omega
  · rw [setString_short m text (by omega)] at h
    cases h

/-- **C29.** Nor does `charactersString` return such a text: it raises or returns something else. -/
theorem C29_not_ascii_text (m m' : EntityMarking) (hm : m.characters.length = 11) (text : List Int)
    (h : m.setString text = .ok m') (ht : ∃ c ∈ text.take 11, 128 ≤ c) :
    m'.charactersString ≠ .ok (text.take 11) := by
  rw [setString_ok m text (by omega)] at h
  cases h
  intro hs
  unfold EntityMarking.charactersString at hs
  dsimp only at hs
  rw [filter_markingText _ _ hm] at hs
  obtain ⟨c, hc, hc8⟩ := ht
  cases hb : toBytes ((text.take 11).filter fun c => c ≠ 0) with
  | error e => rw [hb] at hs; cases hs
  | ok b =>
    rw [hb] at hs
    have e := toBytes_ok hb
    have hle : b.length ≤ (text.take 11).length := by
      have h1 := congrArg List.length e
      rw [List.length_map] at h1
      rw [← h1]
      exact List.length_filter_le _ _
    have hmem : c ∈ b.map fun x => (x.toNat : Int) := by
      rw [← e, List.mem_filter]
      exact ⟨hc, decide_eq_true (by omega)⟩
    obtain ⟨x, hx, hxc⟩ := List.mem_map.1 hmem
    have := (utf8_length b.length b (Nat.le_refl _) _ hs).2 ⟨x, hx, by omega⟩
    omega

/-- **C29.** A marking whose list has fewer than eleven elements cannot be set: `IndexError`. -/
theorem C29_short_list (m : EntityMarking) (text : List Int) (h : m.characters.length < 11) :
    m.setString text = .error .indexError :=
  setString_short m text h

/-- **C29.** What `charactersString` returns in general: the text whose UTF-8 encoding the numbers other than 0 are.
If they are none, it raises `UnicodeDecodeError`, and `ValueError` if one of them is no byte. -/
theorem C29_decoding (m : EntityMarking) :
    (∀ cs : List Char, m.charactersString = .ok (cs.map fun c => (c.val.toNat : Int)) ↔
      m.characters.filter (fun c => c ≠ 0) = (cs.flatMap String.utf8EncodeChar).map fun x => (x.toNat : Int)) ∧
    (∀ text, m.charactersString = .ok text → ∃ cs : List Char, text = cs.map fun c => (c.val.toNat : Int)) ∧
    ∀ e, m.charactersString = .error e →
      e = if ∃ c ∈ m.characters, c < 0 ∨ 256 ≤ c then .valueError else .unicodeDecodeError := by
  unfold EntityMarking.charactersString
  cases hb : toBytes (m.characters.filter fun c => c ≠ 0) with
  | error e =>
    have hv : ∃ c ∈ m.characters, c < 0 ∨ 256 ≤ c := by
      refine Classical.byContradiction fun hn => ?_
      have hall : ∀ c ∈ m.characters, 0 ≤ c ∧ c < 256 := fun c hc => by
        have : ¬ (c < 0 ∨ 256 ≤ c) := fun h => hn ⟨c, hc, h⟩
        omega
      have : toBytes (m.characters.filter fun c => c ≠ 0)
          = .ok ((m.characters.filter fun c => c ≠ 0).map fun c => UInt8.ofNat c.toNat) := by
        rw [← toBytes_of, List.map_map]
        congr 1
        refine (List.map_id _).symm.trans (List.map_congr_left fun c hc => ?_)
        have := hall c (List.mem_filter.1 hc).1
        simp only [id, Function.comp]
        rw [byte_toNat (by omega)]
        omega
      rw [this] at hb
      cases hb
    have he : toBytes (m.characters.filter fun c => c ≠ 0) = .error .valueError := by
      obtain ⟨c, hc, h⟩ := hv
      exact toBytes_err ⟨c, List.mem_filter.2 ⟨hc, decide_eq_true (by omega)⟩, h⟩
    rw [hb] at he
    cases he
    dsimp only
    refine ⟨fun cs => ⟨fun h => (by cases h), fun h => ?_⟩, fun t h => (by cases h), fun e h => ?_⟩
    · rw [h, toBytes_of] at hb
      cases hb
    · cases h
      rw [if_pos hv]
  | ok b =>
    have e := toBytes_ok hb
    have hn : ¬ ∃ c ∈ m.characters, c < 0 ∨ 256 ≤ c := by
      rintro ⟨c, hc, h⟩
      rw [toBytes_err ⟨c, List.mem_filter.2 ⟨hc, decide_eq_true (by omega)⟩, h⟩] at hb
      cases hb
    obtain ⟨s1, s2⟩ := utf8_sound b.length b (Nat.le_refl _)
    dsimp only
    refine ⟨fun cs => ⟨fun h => ?_, fun h => ?_⟩, fun t h => ?_, fun err h => ?_⟩
    · obtain ⟨cs', h1, h2⟩ := s1 _ h
      have : cs = cs' := List.map_inj_right (fun a b h => Char.ext (UInt32.toNat.inj (Int.ofNat.inj h))) |>.1 h2
      rw [e, h1, this]
    · rw [e] at h
      rw [List.map_inj_right (fun a b h => UInt8.toNat.inj (Int.ofNat.inj h)) |>.1 h]
      exact utf8_decodes cs
    · obtain ⟨cs, -, h2⟩ := s1 _ h
      exact ⟨cs, h2⟩
    · rw [if_neg hn]
      exact s2 err h

/-- The bytes of "né€" (and a zero between them) held in a marking. -/
example : (⟨0, [0x6e, 0xc3, 0xa9, 0, 0xe2, 0x82, 0xac]⟩ : EntityMarking).charactersString
    = .ok (['n', 'é', '€'].map fun c => (c.val.toNat : Int)) :=
  ((C29_decoding _).1 _).2 (by decide)

/-- **C29.** A marking received from the network: bytes are read as signed numbers, so if all eleven are ASCII the
text is that of the bytes other than zero, and otherwise asking for it raises `ValueError`, UTF-8 or not. -/
theorem C29_received (m : EntityMarking) (set : UInt8) (text : Bytes) (h : text.length = 11) :
    ∃ m', Reads m.parse (set :: text) m' ∧ m'.characterSet = set.toNat ∧
      ((∀ x ∈ text, x.toNat < 128) →
        m'.charactersString = .ok ((text.filter fun x => x ≠ 0).map fun x => (x.toNat : Int))) ∧
      ((∃ x ∈ text, 128 ≤ x.toNat) → m'.charactersString = .error .valueError) := by
  refine ⟨_, Reads.bind (b1 := [set]) (b2 := text) (reads_byte set)
    (Reads.map (reads_signed_bytes text 11 h) fun cs => { m with characterSet := set.toNat, characters := cs }), rfl,
    fun ha => ?_, fun ⟨x, hx, h8⟩ => ?_⟩
  · have e : text.map charByte = text.map fun x => (x.toNat : Int) :=
      List.map_congr_left fun x hx => by unfold charByte; rw [if_pos (ha x hx)]
    rw [charactersString_ascii]
    · show Except.ok (List.filter _ (text.map charByte)) = _
      rw [e, List.filter_map]
      congr 2
      refine List.filter_congr fun x _ => ?_
      have : x.toNat = 0 ↔ x = 0 := ⟨fun h => UInt8.toNat.inj h, fun h => by rw [h]; rfl⟩
      simp [this]
    · intro c hc
      replace hc : c ∈ text.map charByte := hc
      rw [e] at hc
      obtain ⟨x, hx, rfl⟩ := List.mem_map.1 hc
      have := ha x hx
      omega
  · unfold EntityMarking.charactersString
    have := x.toNat_lt
    have hs : charByte x ≠ 0 ∧ charByte x < 0 := by
      unfold charByte
      rw [if_neg (by omega)]
      omega
    rw [toBytes_err ⟨charByte x, List.mem_filter.2 ⟨List.mem_map.2 ⟨x, hx, rfl⟩, decide_eq_true hs.1⟩, Or.inl hs.2⟩]

/-- "né" in UTF-8, received. -/
example : ∃ m', Reads (EntityMarking.init).parse [1, 0x6e, 0xc3, 0xa9, 0, 0, 0, 0, 0, 0, 0, 0] m' ∧
    m'.charactersString = .error .valueError := by
  obtain ⟨m', h1, -, -, h2⟩ := C29_received EntityMarking.init 1 [0x6e, 0xc3, 0xa9, 0, 0, 0, 0, 0, 0, 0, 0] rfl
  exact ⟨m', h1, h2 ⟨0xc3, by decide, by decide⟩⟩

/-- "TANK" for an `EntityMarking()`, and "ABCDEFGHIJKLM", of which eleven letters stay. -/
example : ∃ m', (EntityMarking.init).setString [84, 65, 78, 75] = .ok m' ∧
    m'.charactersString = .ok [84, 65, 78, 75] :=
  C29_short_text _ rfl _ (by decide) (by decide)

example : ((EntityMarking.init).setString [65, 66, 67, 68, 69, 70, 71, 72, 73, 74, 75, 76, 77]).toOption.map
    EntityMarking.charactersString = some (.ok [65, 66, 67, 68, 69, 70, 71, 72, 73, 74, 75]) := by
  decide +kernel

/-- "é" is stored as 233, which is not UTF-8; "Ã©" is read back as "é". -/
example : ((EntityMarking.init).setString [233]).toOption.map EntityMarking.charactersString
      = some (.error .unicodeDecodeError) ∧
    ((EntityMarking.init).setString [195, 169]).toOption.map EntityMarking.charactersString
      = some (.ok [233]) := by
  decide +kernel

example : ∃ m', (EntityMarking.init).setString [233] = .ok m' ∧ ¬ m'.serialize.Ok :=
  ⟨_, rfl, C29_not_ascii EntityMarking.init _ [233] rfl ⟨233, by decide, by decide⟩⟩

example : (EntityMarking.init 1 [65, 66]).setString [67] = .error .indexError :=
  C29_short_list _ _ (by decide)

/-! ## C30 -/

/-- **C30.** A datum whose length is a whole number of bytes occupies a multiple of eight bytes. -/
theorem C30_aligned (o : VariableDatum) (h8 : o.variableDatumLength % 8 = 0) (b : Bytes)
    (h : o.serialize.Emits b) : b.length % 8 = 0 := by
  rw [VariableDatum.sized o b h]
  have := ((VariableDatum.ok_iff o).1 h.ok).2.1.1
  unfold VariableDatum.wireSize
  omega

/-- **C30.** Any other length breaks the alignment: one byte is missing. -/
theorem C30_misaligned (o : VariableDatum) (h8 : o.variableDatumLength % 8 ≠ 0) (b : Bytes)
    (h : o.serialize.Emits b) : b.length % 8 = 7 := by
  rw [VariableDatum.sized o b h]
  have := ((VariableDatum.ok_iff o).1 h.ok).2.1.1
  unfold VariableDatum.wireSize
  omega

/-- **C30.** The bytes: id, bit length, the data bytes, and fewer than eight zeros. -/
theorem C30_bytes (o : VariableDatum) (b : Bytes) (h : o.serialize.Emits b) :
    ∃ (data : Bytes) (k : Nat), k < 8 ∧
      b = digits 4 o.variableDatumID ++ digits 4 o.variableDatumLength ++ data ++ List.replicate k 0 ∧
      (data.map fun x => (x.toNat : Int)) = o.variableData.take (o.variableDatumLength / 8).toNat ∧
      data.length = (o.variableDatumLength / 8).toNat := by
  have hl := VariableDatum.lay o
  unfold Lay at hl
  rw [hl] at h
  unfold VariableDatum.wire at h
  simp only [List.flatten_cons, List.flatten_nil, List.append_nil] at h
  obtain ⟨b1, r1, h1, k1, rfl⟩ := Slot.stream_emits_append.1 h
  obtain ⟨b2, r2, h2, k2, rfl⟩ := Slot.stream_emits_append.1 k1
  obtain ⟨b3, b4, h3, k3, rfl⟩ := Slot.stream_emits_append.1 k2
  rw [u32_encode (Slot.stream_emits_one.1 h1), u32_encode (Slot.stream_emits_one.1 h2), stream_zeros k3]
  obtain ⟨e1, e2⟩ := stream_bytes h3
  refine ⟨b3, (o.datumPaddingSizeInBits / 8).toNat, ?_, by simp only [List.append_assoc], e1, e2⟩
  rw [VariableDatum.padding_eq]
  omega

/-- **C30.** The reader skips the padding whatever it contains, and keeps the data. -/
theorem C30_padding_skipped (s : VariableDatum) (id len : Int) (hid : U32 id) (hlen : U32 len)
    (data pad : Bytes) (hd : data.length = (len / 8).toNat) (hp : pad.length = ((-len) % 64 / 8).toNat) :
    Reads (VariableDatum.parse s) (digits 4 id ++ digits 4 len ++ data ++ pad)
      { variableDatumID := id, variableDatumLength := len,
        variableData := s.variableData ++ data.map fun x => (x.toNat : Int) } := by
  have hw : ∀ v, U32 v → Reads read_unsigned_int (digits 4 v) v := by
    intro v hv
    obtain ⟨b, hb⟩ := encode_u32 hv
    have := u32_encode hb
    subst this
    refine rt_unsigned_int v _ ?_
    have hl := lay_unsigned_int v
    unfold Lay at hl
    rw [hl]
    exact Slot.stream_emits_one.2 hb
  rw [List.append_assoc, List.append_assoc]
  unfold VariableDatum.parse
  refine Reads.bind (hw id hid) (Reads.bind (hw len hlen) (Reads.bind (reads_all_bytes data _ hd)
    (Reads.map (reads_all_bytes pad _ ?_) _)))
  rw [hp, VariableDatum.padding_eq]

/-- **C30.** A bit length that asks for more bytes than there are raises `IndexError`. -/
theorem C30_too_long (o : VariableDatum) (hid : U32 o.variableDatumID) (hlen : U32 o.variableDatumLength)
    (hd : ∀ x ∈ o.variableData, U8 x) (hl : o.variableData.length < (o.variableDatumLength / 8).toNat) :
    o.serialize.res = .error .indexError := by
  have e := VariableDatum.lay o
  unfold Lay at e
  rw [e]
  unfold VariableDatum.wire
  simp only [List.flatten_cons, List.flatten_nil, List.append_nil]
  obtain ⟨b1, h1⟩ := encode_u32 hid
  obtain ⟨b2, h2⟩ := encode_u32 hlen
  rw [stream_res_append (Slot.stream_emits_one.2 h1).ok, stream_res_append (Slot.stream_emits_one.2 h2).ok]
  exact stream_beyond hd hl

/-- Two data bytes, six of padding; twelve bits, of which one byte is written; a missing byte. -/
example : (VariableDatum.init 5 16 [1, 2]).serialize
    = ⟨[0, 0, 0, 5, 0, 0, 0, 16, 1, 2, 0, 0, 0, 0, 0, 0], .ok ()⟩ := by decide +kernel

example : (VariableDatum.init 5 12 [1, 2]).serialize
    = ⟨[0, 0, 0, 5, 0, 0, 0, 12, 1, 0, 0, 0, 0, 0, 0], .ok ()⟩ := by decide +kernel

example : (VariableDatum.init 5 24 [1, 2]).serialize.res = .error .indexError :=
  C30_too_long _ (by unfold U32; decide) (by unfold U32; decide) (by unfold U8; decide) (by decide)

example : Reads (VariableDatum.parse VariableDatum.init)
    (digits 4 5 ++ digits 4 16 ++ [1, 2] ++ [9, 9, 9, 9, 9, 9]) ⟨5, 16, [1, 2]⟩ :=
  C30_padding_skipped VariableDatum.init 5 16 (by unfold U32; decide) (by unfold U32; decide)
    [1, 2] [9, 9, 9, 9, 9, 9] rfl rfl

/-! ## C31 -/

/-- **C31.** Up to 8191 data bytes are carried unchanged by a PDU whose other fields can be
written. -/
theorem C31_carried (o : SignalPdu) (hf : { o with data := [] }.serialize.Ok)
    (hd : ∀ x ∈ o.data, U8 x) (hl : o.data.length ≤ 8191) :
    ∃ b o', o.serialize.Emits b ∧ b.length = 32 + o.data.length ∧
      Reads (SignalPdu.parse SignalPdu.init) b o' ∧ o'.data = o.data := by
  obtain ⟨h1, h2, h3, h4, h5, h6, -, h8, -⟩ := (SignalPdu.ok_iff _).1 hf
  have hok : o.serialize.Ok := (SignalPdu.ok_iff o).2
    ⟨h1, h2, h3, h4, h5, h6, ⟨by omega, by omega⟩, h8, hd⟩
  refine ⟨_, _, hok.emits, ?_, SignalPdu.rt SignalPdu.init o _ hok.emits, ?_⟩
  · rw [SignalPdu.sized o _ hok.emits]; unfold SignalPdu.wireSize; omega
  · exact List.nil_append _

/-- **C31.** With 8192 or more data bytes `serialize` raises `struct.error`, whatever the other
fields. -/
theorem C31_too_long (o : SignalPdu) (hl : 8192 ≤ o.data.length) :
    o.serialize.res = .error .structError := by
  have e := SignalPdu.lay o
  unfold Lay at e
  have hn : ¬ o.serialize.Ok := by
    intro h
    have := ((SignalPdu.ok_iff o).1 h).2.2.2.2.2.2.1.2
    omega
  rw [e] at hn ⊢
  exact stream_plain (SignalPdu.wire_plain o) hn

example : ∃ b o', (SignalPdu.init (data := [1, 2, 255])).serialize.Emits b ∧ b.length = 35 ∧
    Reads (SignalPdu.parse SignalPdu.init) b o' ∧ o'.data = [1, 2, 255] :=
  C31_carried (SignalPdu.init (data := [1, 2, 255])) (by refine ⟨(), ?_⟩; decide +kernel)
    (by unfold U8; decide) (by decide)

example : (SignalPdu.init (data := List.replicate 8192 7)).serialize.res = .error .structError :=
  C31_too_long _ (by show 8192 ≤ (List.replicate 8192 (7 : Int)).length; rw [List.length_replicate]; decide)

end Dis
