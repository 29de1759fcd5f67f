import Verif.Proof.SVWrong

/-!
# C27, C28: standard variable records

`parseStandardVariableRecord` expects a 32-bit type and a 16-bit length in front of the contents;
the records write a 32-bit length, and three of the four classes then write type and length again.
So no record can be read back as it was written (C27 is violated by the code; the theorems below say
how, and that the reader is right about records laid out as it expects).
-/

namespace Dis

/-! ## C27 -/

theorem SVRecord.after_unknown {r : SVRecord} {u} (h : r.after = .unknown u) : r = .unknown u := by
  cases r <;> simp [SVRecord.after] at h ⊢
  exact h

/-- What the reader makes of the bytes of a record. -/
theorem SVRecord.reread (r : SVRecord) {b : Bytes} (hb : r.serialize.Emits b) (e : SVBase)
    (pre post : Bytes) {a s}
    (h : parseStandardVariableRecord e ⟨pre ++ b ++ post, pre.length⟩ = (.ok a, s)) :
    (r.firstPadding.isSome = true → a.firstPadding = some r.announced) ∧
    (a = r.after → s.pos ≠ pre.length + b.length) ∧
    (r.firstPadding = none → a ≠ r.after) := by
  have hsize := r.sized b hb
  cases r with
  | highFidelityHAVEQUICKRadio r =>
    obtain ⟨b1, lo, b3, rfl, l1, l2, hlo, -, hp⟩ := sv_header (t := 3000) (m := 40) (w2 := r.body) hb
      (by decide)
    rw [hp] at h
    obtain ⟨c, hc, h⟩ := ofExcept_ok h
    cases getClass_ok hc
    obtain ⟨rfl, r', rfl, hr'⟩ := highFidelity_reread hlo l2 h
    refine ⟨fun _ => by rw [SVRecord.firstPadding, hr']; rfl, fun _ => ?_, fun h => by cases h⟩
    simp only [SVRecord.wireSize] at hsize
    simp only [List.length_append, hsize, l1] at hsize ⊢
    omega
  | directedEnergyPrecisionAimpoint r =>
    obtain ⟨b1, lo, b3, rfl, l1, l2, hlo, -, hp⟩ := sv_header (t := 4000) (m := 96) hb (by decide)
    rw [hp] at h
    obtain ⟨c, hc, h⟩ := ofExcept_ok h
    cases getClass_ok hc
    obtain ⟨rfl, r', rfl, hr'⟩ := precision_reread hlo l2 h
    refine ⟨fun _ => by rw [SVRecord.firstPadding, hr']; rfl, fun _ => ?_, fun h => by cases h⟩
    simp only [SVRecord.wireSize] at hsize
    simp only [List.length_append, hsize, l1] at hsize ⊢
    omega
  | directedEnergyDamage r =>
    obtain ⟨b1, lo, b3, rfl, l1, l2, hlo, -, hp⟩ := sv_header (t := 4500) (m := 40) hb (by decide)
    rw [hp] at h
    obtain ⟨c, hc, h⟩ := ofExcept_ok h
    cases getClass_ok hc
    obtain ⟨rfl, r', rfl, hr'⟩ := damage_reread hlo l2 h
    refine ⟨fun _ => by rw [SVRecord.firstPadding, hr']; rfl, fun _ => ?_, fun h => by cases h⟩
    simp only [SVRecord.wireSize] at hsize
    simp only [List.length_append, hsize, l1] at hsize ⊢
    omega
  | directedEnergyAreaAimpoint r =>
    have hok := (SVRecord.ok_iff _).1 hb.ok
    have hm := r.marshalledSize_eq
    obtain ⟨b1, lo, b3, rfl, l1, l2, hlo, hb3, hp⟩ := sv_header (t := 4001) (m := r.marshalledSize) hb
      (by have := hok.2; omega)
    obtain ⟨bt, b4, rfl, ht, -⟩ := W.emits_bind.1 hb3
    have et : bt = beBytes 4 4001 := ht.1.symm
    subst et
    rw [hp] at h
    obtain ⟨c, hc, h⟩ := ofExcept_ok h
    cases getClass_ok hc
    have r0 : Reads read_uint16 (beBytes 2 0) 0 := reads_readFixed (length_beBytes _ _) (by decide)
    have r1 : Reads read_uint16 (beBytes 2 4001) 4001 := reads_readFixed (length_beBytes _ _) (by decide)
    rw [show beBytes 4 4001 ++ b4 ++ post = beBytes 2 0 ++ (beBytes 2 4001 ++ (b4 ++ post)) by
      rw [List.append_assoc, ← List.append_assoc (beBytes 2 0)]; rfl] at h
    obtain ⟨hs, r', rfl, hr', hr'', -⟩ := area_reread (pre := pre ++ b1) (post := b4 ++ post) hlo l2 r0
      rfl r1 rfl h
    refine ⟨fun _ => by rw [SVRecord.firstPadding, hr', hm]; rfl, fun ha => ?_, fun h => by cases h⟩
    simp only [SVRecord.after, SVRecord.directedEnergyAreaAimpoint.injEq] at ha
    rw [ha] at hr''
    have hl := congrArg List.length hr''
    simp only [DirectedEnergyAreaAimpoint.after, DirectedEnergyAreaAimpoint.init, List.nil_append,
      List.length_map, List.length_nil] at hl
    rw [hs, List.length_append, l1, hsize]
    simp only [SVRecord.wireSize, DirectedEnergyAreaAimpoint.wireSize, hl]
    omega
  | unknown r =>
    have hok : U32 r.recordType ∧ 6 + r.data.length ≤ 65535 := (SVRecord.ok_iff _).1 hb.ok
    have ne : a ≠ SVRecord.unknown r := by
      intro ha
      obtain ⟨b1, lo, b3, rfl, l1, l2, hlo, hb3, hp⟩ := sv_header (t := r.recordType)
        (m := r.marshalledSize) hb
        (by have := hok.2; unfold UnknownStandardVariableRecord.marshalledSize; omega)
      rw [hp] at h
      obtain ⟨c, hc, h⟩ := ofExcept_ok h
      subst ha
      cases c with
      | unknown t =>
        obtain ⟨r', s1, h1, h3⟩ := R.bind_inv h
        cases h3
        unfold UnknownStandardVariableRecord.parse at h1
        have h1 := checked h1
        obtain ⟨dat, s2, h2, h3⟩ := R.bind_inv h1
        cases h3
        unfold read_bytes R.readRaw at h2
        simp only [Prod.mk.injEq, Except.ok.injEq, List.drop_left] at h2
        rw [if_pos (by decide)] at h2
        have := congrArg List.length h2.1
        simp only [SVRecord.wireSize] at hsize
        simp only [List.length_append] at this hsize
        omega
      | highFidelityHAVEQUICKRadio => obtain ⟨r', s1, h1, h3⟩ := R.bind_inv h; cases h3
      | directedEnergyPrecisionAimpoint => obtain ⟨r', s1, h1, h3⟩ := R.bind_inv h; cases h3
      | directedEnergyAreaAimpoint => obtain ⟨r', s1, h1, h3⟩ := R.bind_inv h; cases h3
      | directedEnergyDamage => obtain ⟨r', s1, h1, h3⟩ := R.bind_inv h; cases h3
    exact ⟨(nomatch ·), fun ha => absurd ha ne, fun _ => ne⟩

/-- **C27 (violated).** No record, of whatever class, is read back as the record it was with all of its
bytes consumed, wherever it stands in a stream and whatever type is expected. -/
theorem C27_never_read_back (r : SVRecord) (b : Bytes) (hb : r.serialize.Emits b) (e : SVBase)
    (pre post : Bytes) :
    parseStandardVariableRecord e ⟨pre ++ b ++ post, pre.length⟩ ≠
      (.ok r.after, ⟨pre ++ b ++ post, pre.length + b.length⟩) := by
  intro h
  exact (r.reread hb e pre post h).2.1 rfl rfl

/-- **C27 (violated).** If the reader returns a record at all, the length of the written record appears
in it as padding. -/
theorem C27_length_as_padding (r : SVRecord) (hr : r.firstPadding.isSome = true) (b : Bytes)
    (hb : r.serialize.Emits b) (e : SVBase) (pre post : Bytes) (a : SVRecord) (s : InStream)
    (h : parseStandardVariableRecord e ⟨pre ++ b ++ post, pre.length⟩ = (.ok a, s)) :
    a.firstPadding = some r.announced :=
  (r.reread hb e pre post h).1 hr

/-- **C27 (violated).** So a record whose padding is not by accident its own length — the constructors
set it to zero — comes back different or not at all. -/
theorem C27_differs (r : SVRecord) (hr : r.firstPadding ≠ some r.announced) (b : Bytes)
    (hb : r.serialize.Emits b) (e : SVBase) (pre post : Bytes) (a : SVRecord) (s : InStream)
    (h : parseStandardVariableRecord e ⟨pre ++ b ++ post, pre.length⟩ = (.ok a, s)) : a ≠ r.after := by
  obtain ⟨h1, -, h3⟩ := r.reread hb e pre post h
  cases hp : r.firstPadding with
  | none => exact h3 hp
  | some p =>
    intro ha
    have h1 := h1 (by rw [hp]; rfl)
    have e2 : r.after.firstPadding = r.firstPadding := by cases r <;> rfl
    rw [ha, e2] at h1
    exact hr h1

/-- **C27.** The reader does read records that are laid out as it expects (and as the standard has
them): type, 16-bit length, contents. -/
theorem C27_conforming_partial (r : SVRecord) (e : SVBase) (len : Int) (ha : r.Admissible e)
    (hp : r.Proper len) (hl : 0 ≤ len ∧ len % 8 = 0) (b : Bytes) (hb : (r.conforming len).Emits b) :
    Reads (parseStandardVariableRecord e) b r.after := by
  revert b
  show RT _ _ _
  have cls : ∀ c, getStandardVariableClass r.recordType e = .ok c →
      (∀ w : W Unit, RT w (SVClass.parse c len) r.after →
        RT (write_uint32 r.recordType >>= fun _ => write_uint16 len >>= fun _ => w)
          (parseStandardVariableRecord e) r.after) := by
    intro c hc w hw
    unfold parseStandardVariableRecord
    refine RT.bind (rt_uint32 _) <| RT.bind (rt_uint16 _) <| RT.silent (Reads.ofExcept hc) hw
  cases r with
  | highFidelityHAVEQUICKRadio r =>
    refine cls .highFidelityHAVEQUICKRadio ?_ r.body ?_
    · cases e <;> first | rfl | exact ha.elim
    · exact RT.last (HighFidelityHAVEQUICKRadio.rt len hl _ r)
  | directedEnergyPrecisionAimpoint r =>
    refine cls .directedEnergyPrecisionAimpoint ?_ r.body ?_
    · cases e <;> first | rfl | exact ha.elim
    · exact RT.last (DirectedEnergyPrecisionAimpoint.rt len hl _ r)
  | directedEnergyAreaAimpoint r =>
    refine cls .directedEnergyAreaAimpoint ?_ r.body ?_
    · cases e <;> first | rfl | exact ha.elim
    · exact RT.last (DirectedEnergyAreaAimpoint.rt len hl _ r)
  | directedEnergyDamage r =>
    refine cls .directedEnergyDamage ?_ r.body ?_
    · cases e <;> first | rfl | exact ha.elim
    · exact RT.last (DirectedEnergyDamage.rt len hl _ r)
  | unknown r =>
    obtain ⟨n1, n2, n3, n4, hlen⟩ := hp
    cases e with
    | variableTransmitterParameters => exact ha.elim
    | damageDescription => exact ha.elim
    | standardVariable =>
      by_cases ht : 0 ≤ r.recordType
      · refine cls (.unknown r.recordType) ?_ (write_bytes r.data) ?_
        · show getStandardVariableClass r.recordType .standardVariable = _
          unfold getStandardVariableClass variableRecordClass
          rw [if_neg (show ¬ r.recordType < 0 by omega)]
          simp [n1, n2, n3, n4, SVClass.isSubclass]
        · refine RT.last (f := SVRecord.unknown) (a := r) ?_
          unfold UnknownStandardVariableRecord.parse
          refine RT.silent (StandardVariableRecord.parse_reads hl) ?_
          have := RT.last (w := write_bytes r.data) (r := read_bytes (len - 6)) (a := r.data)
            (f := fun d => ({ recordType := r.recordType, data := d } : UnknownStandardVariableRecord)) ?_
          · exact this
          · intro b hb
            rw [emits_bytes.1 hb]
            exact reads_bytes (by omega)
      · refine RT.of_not_ok ?_
        intro h
        have := (W.ok_bind.1 h).1
        exact ht (ok_uint32.1 this).1

/-- A radio record. -/
def exampleRadio : HighFidelityHAVEQUICKRadio :=
  HighFidelityHAVEQUICKRadio.init (some (NetId.init 5 1 2)) 1 77 1 2 3 4 5 6

example : exampleRadio.serialize.Emits exampleRadio.serialize.out := ⟨rfl, (), by decide +kernel⟩

example : (parseStandardVariableRecord .variableTransmitterParameters
    ⟨exampleRadio.serialize.out, 0⟩).1 =
      .ok (.highFidelityHAVEQUICKRadio
        { padding1 := 40, netId := { netNumber := 0, frequencyTable := 0, mode := 0, padding := 0 },
          todTransmitIndicator := 1, padding2 := 0x58, todDelta := 0x01000000, wod1 := 0x004d0000,
          wod2 := 0x00010000, wod3 := 0x00020000, wod4 := 0x00030000, wod5 := 0x00040000,
          wod6 := 0x00050000 }) := by decide +kernel

example : (SVRecord.conforming 40 (.highFidelityHAVEQUICKRadio exampleRadio)).Emits
    (SVRecord.conforming 40 (.highFidelityHAVEQUICKRadio exampleRadio)).out := ⟨rfl, (), by decide +kernel⟩

example : parseStandardVariableRecord .variableTransmitterParameters
    ⟨(SVRecord.conforming 40 (.highFidelityHAVEQUICKRadio exampleRadio)).out, 0⟩ =
      (.ok (.highFidelityHAVEQUICKRadio exampleRadio),
        ⟨(SVRecord.conforming 40 (.highFidelityHAVEQUICKRadio exampleRadio)).out, 40⟩) := by decide +kernel

/-! ## C28 -/

/-- **C28.** The registered type numbers give their class where it is a subclass of the expected one,
TypeError elsewhere; negative numbers raise ValueError; all others give the placeholder class if the
base class is expected, TypeError elsewhere. -/
theorem C28_dispatch (t : Int) (e : SVBase) :
    getStandardVariableClass t e =
      if t < 0 then .error .valueError
      else match e with
        | .standardVariable =>
          if t = 3000 then .ok .highFidelityHAVEQUICKRadio
          else if t = 4000 then .ok .directedEnergyPrecisionAimpoint
          else if t = 4001 then .ok .directedEnergyAreaAimpoint
          else if t = 4500 then .ok .directedEnergyDamage
          else .ok (.unknown t)
        | .variableTransmitterParameters =>
          if t = 3000 then .ok .highFidelityHAVEQUICKRadio else .error .typeError
        | .damageDescription =>
          if t = 4000 then .ok .directedEnergyPrecisionAimpoint
          else if t = 4001 then .ok .directedEnergyAreaAimpoint
          else if t = 4500 then .ok .directedEnergyDamage
          else .error .typeError := by
  unfold getStandardVariableClass variableRecordClass
  by_cases h0 : t < 0
  · rw [if_pos h0, if_pos h0]
  rw [if_neg h0, if_neg h0]
  by_cases h1 : t = 3000
  · subst h1; cases e <;> rfl
  by_cases h2 : t = 4000
  · subst h2; cases e <;> rfl
  by_cases h3 : t = 4001
  · subst h3; cases e <;> rfl
  by_cases h4 : t = 4500
  · subst h4; cases e <;> rfl
  cases e <;> simp [h1, h2, h3, h4, SVClass.isSubclass]

/-- **C28.** The dispatch is what reading a record does: the type number at the front of the bytes
decides, and an inadmissible one raises the exception of the dispatch after six bytes. -/
theorem C28_reader (t len : Int) (e : SVBase) (x : PyErr) (hx : getStandardVariableClass t e = .error x)
    (b : Bytes) (hb : (do write_uint32 t; write_uint16 len).Emits b) (pre post : Bytes) :
    parseStandardVariableRecord e ⟨pre ++ b ++ post, pre.length⟩ =
      (.error x, ⟨pre ++ b ++ post, pre.length + 6⟩) := by
  have hl : b.length = 6 := (Sized.bind (sized_uint32 t) (sized_uint16 len)) b hb
  obtain ⟨b1, b2, rfl, h1, h2⟩ := W.emits_bind.1 hb
  unfold parseStandardVariableRecord
  have e1 := rt_uint32 t _ h1 pre (b2 ++ post)
  have e2 := rt_uint16 len _ h2 (pre ++ b1) post
  simp only [List.append_assoc, List.length_append, Nat.add_assoc] at e1 e2 hl ⊢
  rw [R.bind_ok e1, R.bind_ok e2, hl, hx]
  rfl

example : getStandardVariableClass 4001 .damageDescription = .ok .directedEnergyAreaAimpoint := by decide
example : getStandardVariableClass 4001 .variableTransmitterParameters = .error .typeError := by decide
example : getStandardVariableClass 7 = .ok (.unknown 7) := by decide
example : getStandardVariableClass 7 .damageDescription = .error .typeError := by decide
example : getStandardVariableClass (-1) = .error .valueError := by decide

example : parseStandardVariableRecord .damageDescription ⟨[9, 0, 0, 11, 184, 0, 40, 1, 2], 1⟩ =
    (.error .typeError, ⟨[9, 0, 0, 11, 184, 0, 40, 1, 2], 7⟩) :=
  C28_reader 3000 40 .damageDescription .typeError rfl [0, 0, 11, 184, 0, 40]
    ⟨by decide, (), by decide +kernel⟩ [9] [1, 2]

end Dis
