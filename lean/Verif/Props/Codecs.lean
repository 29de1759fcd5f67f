import Verif.Proof.Inhabited
import Verif.Props.Streams

/-!
# C08-C13, C15-C18, C45: serialization and parsing of all wire classes

`catalog` lists the classes with their constructor, `serialize`, `parse` and specification; the
theorems hold for each of them and all of their objects. `catalog_inhabited` shows that the
hypotheses are met in every class; concrete cases follow each theorem.
-/

namespace Dis

/-- An entity with a moving turret: the message used in the examples. -/
def exampleEntity : EntityStatePdu :=
  { EntityStatePdu.init (entityID := some (EntityIdentifier.init (entityNumber := 42))) (forceId := 1)
      (entityType := some (EntityType.init 1 2 225 1))
      (entityLinearVelocity := some (Vector3Float.init (F64.mk 0 1024 0) (F64.mk 1 1023 0)))
      (entityLocation := some (WorldCoordinates.init (F64.mk 0 1045 12345)))
      (variableParameters := [VariableParameter.init 0 (F64.mk 0 1023 7) 9 8 7, VariableParameter.init 1])
    with exerciseID := 3, timestamp := 1000 }

/-- Its 176 bytes. -/
def exampleBytes : Bytes := exampleEntity.serialize.out

theorem exampleEmits : exampleEntity.serialize.Emits exampleBytes := ⟨rfl, (), by decide +kernel⟩

theorem mem_catalog_EntityStatePdu : Codec.EntityStatePdu ∈ catalog := by
  simp only [catalog, List.mem_append]
  have : Codec.EntityStatePdu ∈ catalogPdus3 := by simp [catalogPdus3]
  simp [this]

/-! ## C08 -/

/-- **C08.** Parsing what `serialize` emitted into a fresh object yields the object `after fresh o`:
every wire field of `o`, single-precision fields rounded, defaults elsewhere. -/
theorem C08_round_trip :
    ∀ c ∈ catalog, ∀ o, c.Decodable o → ∀ b, (c.serialize o).Emits b →
      (c.parse c.fresh).Returns b (c.after c.fresh o) :=
  fun c hc o hd b hb => ((catalog_verified c hc).rt c.fresh o hd b hb).returns

/-- **C08.** An object whose single-precision fields hold single-precision values, whose fixed arrays
have their length, and whose attributes without a wire field have their default, comes back equal in
every attribute. -/
theorem C08_exact :
    ∀ c ∈ catalog, ∀ o, c.Decodable o → c.Canon o → ∀ b, (c.serialize o).Emits b →
      (c.parse c.fresh).Returns b o := by
  intro c hc o hd hcn b hb
  have := C08_round_trip c hc o hd b hb
  rwa [(catalog_verified c hc).canon o hcn] at this

/-- **C08.** What comes back serializes to the same bytes again, in the classes that keep every bit
they read. -/
theorem C08_same_wire_fields :
    ∀ c ∈ catalog, c.lossless = true → ∀ o, c.Decodable o → ∀ b, (c.serialize o).Emits b →
      c.Live (c.after c.fresh o) → c.NoNaN (c.after c.fresh o) →
      (c.serialize (c.after c.fresh o)).Emits b := by
  intro c hc hl o hd b hb hlive hn
  have v := catalog_verified c hc
  exact (v.post.reads (v.rt c.fresh o hd b hb) hlive).2 hl hn

theorem exampleCanon : EntityStatePdu.Canon exampleEntity := by
  simp only [EntityStatePdu.Canon, Vector3Float.Canon, EulerAngles.Canon,
    DeadReckoningParameters.Canon, EntityMarking.Canon]
  decide +kernel

theorem exampleNoNaN : EntityStatePdu.NoNaN exampleEntity := by
  simp only [EntityStatePdu.NoNaN, Vector3Float.NoNaN, EulerAngles.NoNaN,
    DeadReckoningParameters.NoNaN, F64.isNaN]
  decide +kernel

example : (EntityStatePdu.parse EntityStatePdu.init).Returns exampleBytes exampleEntity :=
  C08_exact _ mem_catalog_EntityStatePdu exampleEntity trivial exampleCanon _ exampleEmits

example : (EntityStatePdu.serialize
    (EntityStatePdu.after EntityStatePdu.init exampleEntity)).Emits exampleBytes := by
  have e := (catalog_verified _ mem_catalog_EntityStatePdu).canon _ exampleCanon
  refine C08_same_wire_fields _ mem_catalog_EntityStatePdu rfl exampleEntity trivial _ exampleEmits
    trivial ?_
  rw [e]; exact exampleNoNaN

/-! ## C09 -/

/-- **C09.** Wherever the bytes of an object stand in a stream, parsing them leaves the position
right behind them; neither what precedes nor what follows matters. -/
theorem C09_consumes_exactly :
    ∀ c ∈ catalog, ∀ s o, c.Decodable o → ∀ b, (c.serialize o).Emits b → ∀ pre post,
      c.parse s ⟨pre ++ b ++ post, pre.length⟩ =
        (.ok (c.after s o), ⟨pre ++ b ++ post, pre.length + b.length⟩) :=
  fun c hc s o hd b hb => (catalog_verified c hc).rt s o hd b hb

/-- **C09.** Two messages written back to back are read back to back. -/
theorem C09_back_to_back :
    ∀ c ∈ catalog, ∀ d ∈ catalog, ∀ o p, c.Decodable o → d.Decodable p →
      ∀ b, (do c.serialize o; d.serialize p : W Unit).Emits b →
        (do let x ← c.parse c.fresh; let y ← d.parse d.fresh; return (x, y) : R _).Returns b
          (c.after c.fresh o, d.after d.fresh p) := by
  intro c hc d hd o p ho hp b hb
  have h := RT.bind ((catalog_verified c hc).rt c.fresh o ho) (w2 := d.serialize p)
    (k := fun x => do let y ← d.parse d.fresh; return (x, y))
    (RT.last (f := fun y => (c.after c.fresh o, y)) ((catalog_verified d hd).rt d.fresh p hp))
  exact (h b hb).returns

/-- **C09.** Any number of messages of one class written one after the other are read one after the
other. -/
theorem C09_sequence :
    ∀ c ∈ catalog, ∀ l : List c.Obj, (∀ o ∈ l, c.Decodable o) →
      ∀ b, (W.forEach l c.serialize).Emits b →
        (R.times l.length (c.parse c.fresh)).Returns b (l.map (c.after c.fresh)) := by
  intro c hc l hl b hb
  exact (RT.forEach (fun o ho => (catalog_verified c hc).rt c.fresh o (hl o ho)) b hb).returns

example (pre post : Bytes) :
    EntityStatePdu.parse EntityStatePdu.init ⟨pre ++ exampleBytes ++ post, pre.length⟩ =
      (.ok exampleEntity, ⟨pre ++ exampleBytes ++ post, pre.length + exampleBytes.length⟩) := by
  have := C09_consumes_exactly _ mem_catalog_EntityStatePdu EntityStatePdu.init exampleEntity trivial _
    exampleEmits pre post
  have e := (catalog_verified _ mem_catalog_EntityStatePdu).canon _ exampleCanon
  rw [show Codec.EntityStatePdu.after EntityStatePdu.init exampleEntity = exampleEntity from e] at this
  exact this

/-! ## C10 -/

/-- **C10.** If the bytes of an object are cut short anywhere, parsing them raises, whatever object
`parse` is called on; except for the classes with a list `parse` can never read, the exception is
`struct.error`. -/
theorem C10_truncation_detected :
    ∀ c ∈ catalog, ∀ s o, c.Decodable o → ∀ b, (c.serialize o).Emits b →
      ∀ t u, b = t ++ u → u ≠ [] →
        (c.parse s).Raises t ∧
        (c.onlyStruct = true → (c.parse s ⟨t, 0⟩).1 = .error .structError) := by
  intro c hc s o hd b hb t u htu hu
  have v := catalog_verified c hc
  have h := (v.loc s).truncated (v.rt s o hd b hb) htu hu
  refine ⟨h, fun ho => ?_⟩
  obtain ⟨e, he⟩ := h
  rw [he, v.only ho s _ _ he]

/-- **C10.** No byte string accepted by `parse` in full is a proper prefix of another one: this holds
for any input, not only for the output of `serialize`. -/
theorem C10_accepted_prefix_free :
    ∀ c ∈ catalog, ∀ s b b' o o',
      c.parse s ⟨b, 0⟩ = (.ok o, ⟨b, b.length⟩) → c.parse s ⟨b', 0⟩ = (.ok o', ⟨b', b'.length⟩) →
      b <+: b' → b = b' := by
  intro c hc s b b' o o' h h' hp
  have full : ∀ b o, c.parse s ⟨b, 0⟩ = (.ok o, ⟨b, b.length⟩) → Reads (c.parse s) b o := by
    intro b o h
    obtain ⟨b1, rest, e1, e2, hr⟩ := (catalog_verified c hc).loc s [] b o _ (by simpa using h)
    injection e2 with _ e2
    subst e1
    have : rest = [] := by
      cases rest with
      | nil => rfl
      | cons x xs => simp at e2
    subst this
    simpa using hr
  exact (full b o h).prefix_free (full b' o' h') hp

example : (EntityStatePdu.parse EntityStatePdu.init ⟨exampleBytes.take 175, 0⟩).1 =
    .error .structError :=
  (C10_truncation_detected _ mem_catalog_EntityStatePdu EntityStatePdu.init exampleEntity trivial _
    exampleEmits (exampleBytes.take 175) (exampleBytes.drop 175) (List.take_append_drop ..).symm
    (by decide +kernel)).2 rfl

/-! ## C11 -/

/-- **C11.** If `parse` accepts some input, serializing the object it returns succeeds and emits
exactly the bytes that were consumed, provided no single-precision field is a NaN and the class keeps
every bit it reads (`lossless` and `Live` say which do). -/
theorem C11_reserialize :
    ∀ c ∈ catalog, ∀ d o st, c.parse c.fresh ⟨d, 0⟩ = (.ok o, st) → c.Live o →
      c.lossless = true → c.NoNaN o →
        st.data = d ∧ st.pos ≤ d.length ∧ (c.serialize o).Emits (d.take st.pos) := by
  intro c hc d o st h hl hls hn
  obtain ⟨b, rest, rfl, rfl, hq⟩ := (catalog_verified c hc).post [] d o st (by simpa using h)
  refine ⟨rfl, by simp, ?_⟩
  simpa using (hq hl).2 hls hn

/-- **C11.** In all classes, what `parse` returns can be serialized and comes back unchanged when the
result is parsed. -/
theorem C11_stable :
    ∀ c ∈ catalog, ∀ d o st, c.parse c.fresh ⟨d, 0⟩ = (.ok o, st) → c.Live o → c.Decodable o →
      ∃ b, (c.serialize o).Emits b ∧ (c.parse c.fresh).Returns b o := by
  intro c hc d o st h hl hd
  have v := catalog_verified c hc
  obtain ⟨b, rest, rfl, rfl, hq⟩ := v.post [] d o st (by simpa using h)
  have hok := (v.ok_iff o).2 (hq hl).1.1
  exact ⟨_, hok.emits, C08_exact c hc o hd (hq hl).1.2 _ hok.emits⟩

example : ∃ o st, EntityStatePdu.parse EntityStatePdu.init ⟨exampleBytes ++ [1, 2, 3], 0⟩ = (.ok o, st) ∧
    EntityStatePdu.NoNaN o ∧ st.pos = 176 ∧ (EntityStatePdu.serialize o).Emits exampleBytes := by
  have h := C09_consumes_exactly _ mem_catalog_EntityStatePdu EntityStatePdu.init exampleEntity trivial _
    exampleEmits [] [1, 2, 3]
  have e := (catalog_verified _ mem_catalog_EntityStatePdu).canon _ exampleCanon
  rw [show Codec.EntityStatePdu.after EntityStatePdu.init exampleEntity = exampleEntity from e] at h
  refine ⟨exampleEntity, _, by simpa [Codec.EntityStatePdu] using h, exampleNoNaN, by decide +kernel, exampleEmits⟩

/-! ## C12 -/

/-- **C12.** `serialize` succeeds exactly when every field fits its slot, in two forms: the class's
own list of conditions `Fits`, and slot by slot over its wire layout. -/
theorem C12_succeeds_iff_fits :
    ∀ c ∈ catalog, ∀ o, ((c.serialize o).Ok ↔ c.Fits o) ∧
      ((c.serialize o).Ok ↔ ∀ s ∈ c.wire o, ∃ b, s.encode = .ok b) := by
  intro c hc o
  have v := catalog_verified c hc
  refine ⟨v.ok_iff o, ?_⟩
  rw [v.lay o]
  exact Slot.stream_ok

/-- **C12.** `serialize` raises the exception of the first slot that does not fit. -/
theorem C12_raises_iff :
    ∀ c ∈ catalog, ∀ o e, (c.serialize o).res = .error e ↔
      ∃ pre s post, c.wire o = pre ++ s :: post ∧ (∀ s' ∈ pre, ∃ b, s'.encode = .ok b) ∧
        s.encode = .error e := by
  intro c hc o e
  rw [(catalog_verified c hc).lay o]
  exact Slot.stream_error

example : (EntityStatePdu.serialize exampleEntity).Ok ∧
    (EntityStatePdu.serialize { exampleEntity with forceId := 256 }).res = .error .structError :=
  ⟨exampleEmits.ok, by decide +kernel⟩

/-! ## C13 -/

/-- **C13.** A successful `serialize` emits exactly the number of bytes the class prescribes: a
constant plus the sizes of the list elements; it is also the sum of the widths of its slots. -/
theorem C13_size :
    ∀ c ∈ catalog, ∀ o b, (c.serialize o).Emits b →
      b.length = c.size o ∧ b.length = ((c.wire o).map Slot.width).sum := by
  intro c hc o b hb
  have v := catalog_verified c hc
  refine ⟨v.sized o b hb, ?_⟩
  rw [v.lay o] at hb
  exact Slot.stream_size hb

/-- The sizes of the fixed part of some PDUs, as in IEEE 1278.1. -/
theorem C13_known_sizes (e : EntityStatePdu) (f : FirePdu) (d : DetonationPdu) (c : CollisionPdu)
    (g : SignalPdu) (w : CreateEntityPdu) :
    e.wireSize = 144 + 16 * e.variableParameters.length ∧ f.wireSize = 96 ∧
    d.wireSize = 104 + 16 * d.variableParameters.length ∧ c.wireSize = 60 ∧
    g.wireSize = 32 + g.data.length ∧ w.wireSize = 28 :=
  ⟨rfl, rfl, rfl, rfl, by simp [SignalPdu.wireSize], rfl⟩

example : exampleBytes.length = 144 + 16 * 2 := by decide +kernel

/-! ## C15 -/

/-- **C15.** The count on the wire equals the number of elements of the list (times 8 where the field
holds a number of bits), for every count field of every class. -/
theorem C15_counts_tell_the_truth :
    ∀ c ∈ catalog, ∀ f ∈ c.counts, ∀ o b, (c.serialize o).Emits b →
      f.offset + f.width ≤ b.length ∧
      beValue ((b.drop f.offset).take f.width) = f.scale * f.len o := by
  intro c hc f hf o b hb
  have v := catalog_verified c hc
  rw [v.lay o] at hb
  obtain ⟨pre, post, s, hw, hsz, -, he, hmax, herr, hlt⟩ := v.counted f hf o
  rw [hw, Slot.stream_append] at hb
  obtain ⟨b1, b2, rfl, h1, h2⟩ := W.emits_bind.1 hb
  have hl := hsz _ h1
  simp only [Slot.stream] at h2
  cases hs : s.encode with
  | error e => rw [hs] at h2; obtain ⟨-, _, h⟩ := h2; cases h
  | ok x =>
    rw [hs] at h2
    obtain ⟨h2, -⟩ := h2
    have hx := he x hs
    have hxl : x.length = f.width := by rw [hx, length_digits]
    subst h2
    have hle : f.scale * f.len o ≤ f.max := by
      rcases Nat.lt_or_ge f.max (f.scale * f.len o) with h | h
      · rw [hmax.2 h] at hs; cases hs
      · exact h
    refine ⟨by simp [hl, hxl], ?_⟩
    rw [List.drop_append_of_le_length (by omega), ← hl, List.drop_length, List.nil_append,
      List.take_append_of_le_length (by omega), List.take_of_length_le (by omega), hx,
      digits_nat _ _ (by omega), beValue_eq, beNat_beBytes, Nat.mod_eq_of_lt (by omega)]
    simp

/-- **C15.** A list too long for its count field makes `serialize` raise before anything from the
count field on is written, so no wrong count is ever emitted; the exception is `struct.error` if
everything before the count field fits. -/
theorem C15_too_long_raises :
    ∀ c ∈ catalog, ∀ f ∈ c.counts, ∀ o, f.max < f.scale * f.len o →
      (c.serialize o).out.length ≤ f.offset ∧ ∃ e, (c.serialize o).res = .error e ∧
        (e = .structError ∨ ∃ pre s post, c.wire o = pre ++ s :: post ∧ s.encode = .error e ∧
          (pre.map Slot.width).sum ≤ f.offset) := by
  intro c hc f hf o hlong
  have v := catalog_verified c hc
  obtain ⟨pre, post, s, hw, hsz, hwd, he, hmax, herr, hlt⟩ := v.counted f hf o
  have hs := hmax.2 hlong
  by_cases hpre : ∀ s' ∈ pre, ∃ b, s'.encode = .ok b
  · rw [v.lay o, hw, Slot.stream_out hpre hs]
    exact ⟨Nat.le_trans (Slot.stream_out_le pre) hwd, _, rfl, .inl rfl⟩
  · have hres : ∃ e, (Slot.stream pre).res = .error e := by
      cases h : (Slot.stream pre).res with
      | error e => exact ⟨e, rfl⟩
      | ok u => exact absurd (Slot.stream_ok.1 ⟨u, h⟩) hpre
    obtain ⟨e, hres⟩ := hres
    obtain ⟨p1, s1, q1, rfl, h1, h2⟩ := Slot.stream_error.1 hres
    have hw1 : (p1.map Slot.width).sum ≤ f.offset := by
      unfold WidthL at hwd
      simp only [List.map_append, List.sum_append] at hwd
      omega
    rw [v.lay o, hw, List.append_assoc, List.cons_append, Slot.stream_out h1 h2]
    refine ⟨Nat.le_trans (Slot.stream_out_le p1) hw1, e, rfl, .inr ⟨p1, s1, q1 ++ s :: post, ?_, h2, hw1⟩⟩
    simp

/-- **C15.** The one count field that stands behind variable-length parts: the four bytes right
before the variable datum records of an `AggregateStatePdu` hold their number. -/
theorem C15_aggregate_state (o : AggregateStatePdu) (b : Bytes) (hb : o.serialize.Emits b) :
    ∃ x y z, b = x ++ y ++ z ∧ y.length = 4 ∧ beValue y = o.variableDatumRecords.length ∧
      (W.forEach o.variableDatumRecords VariableDatum.serialize).Emits z := by
  have hw : ∃ pre, o.wire = pre ++ ([.u32 (o.variableDatumRecords.length : Int)] ++
      o.variableDatumRecords.flatMap VariableDatum.wire) :=
    ⟨[_, _, _, _, _, _, _, _, _, _, _, _, _, _, _, _, _, _, _].flatten, by
      simp only [AggregateStatePdu.wire, List.flatten_cons, List.flatten_nil, List.append_assoc,
        List.append_nil]; rfl⟩
  obtain ⟨pre, hw⟩ := hw
  rw [AggregateStatePdu.lay o, hw, Slot.stream_append, Slot.stream_append] at hb
  obtain ⟨x, r, rfl, -, hr⟩ := W.emits_bind.1 hb
  obtain ⟨y, z, rfl, hy, hz⟩ := W.emits_bind.1 hr
  refine ⟨x, y, z, by simp, ?_, ?_, ?_⟩
  · rw [← lay_unsigned_int] at hy
    exact sized_unsigned_int _ _ hy
  · rw [← lay_unsigned_int] at hy
    have h4 := sized_unsigned_int _ _ hy
    have := (C03_network_byte_order ⟨"write_unsigned_int", write_unsigned_int, 4, false⟩
      (by simp [intWriters, intPairs]) (o.variableDatumRecords.length : Int)
      ((by have := ok_unsigned_int.1 hy.ok; unfold U32 at this; simp [IntRange]; omega))).1
    rw [hy.out_eq] at this
    rw [this]
    have := ok_unsigned_int.1 hy.ok
    unfold U32 at this
    show _ % 4294967296 = _
    omega
  · rw [← Lay.forEach VariableDatum.lay] at hz
    exact hz

/-- 256 variable parameters are one too many for an `EntityStatePdu`, and its count stands at byte 19. -/
example (l : List VariableParameter) (hl : l.length = 256) :
    beValue ((exampleBytes.drop 19).take 1) = 2 ∧
    ∃ e, (EntityStatePdu.serialize { exampleEntity with variableParameters := l }).res = .error e := by
  constructor
  · exact (C15_counts_tell_the_truth _ mem_catalog_EntityStatePdu _ (List.mem_singleton.2 rfl)
      exampleEntity _ exampleEmits).2
  · obtain ⟨e, he, -⟩ := (C15_too_long_raises _ mem_catalog_EntityStatePdu _ (List.mem_singleton.2 rfl)
      { exampleEntity with variableParameters := l } (show 255 < 1 * l.length by omega)).2
    exact ⟨e, he⟩

/-! ## C16 -/

/-- **C16.** Two objects of a class that serialize to the same bytes have the same wire fields
(single-precision fields after rounding), and are equal if both are in canonical form; no encoding is
a proper prefix of another encoding of the class. -/
theorem C16_distinct_encodings :
    ∀ c ∈ catalog, ∀ o p, c.Decodable o → c.Decodable p → ∀ b b', (c.serialize o).Emits b →
      (c.serialize p).Emits b' → b <+: b' →
        b = b' ∧ (∀ s, c.after s o = c.after s p) ∧ (c.Canon o → c.Canon p → o = p) := by
  intro c hc o p ho hp b b' hb hb' hpre
  have v := catalog_verified c hc
  have e : b = b' := (v.rt c.fresh o ho b hb).prefix_free (v.rt c.fresh p hp b' hb') hpre
  subst e
  have h : ∀ s, c.after s o = c.after s p := fun s =>
    (v.rt s o ho b hb).unique (v.rt s p hp b hb')
  refine ⟨rfl, h, fun ho' hp' => ?_⟩
  rw [← v.canon o ho', ← v.canon p hp', h]

example : ¬ exampleEntity.serialize.Emits
    ({ exampleEntity with forceId := 2 } : EntityStatePdu).serialize.out := by
  intro h
  have hp : ({ exampleEntity with forceId := 2 } : EntityStatePdu).serialize.Ok := ⟨(), by decide +kernel⟩
  have hc : EntityStatePdu.Canon { exampleEntity with forceId := 2 } := exampleCanon
  have := (C16_distinct_encodings _ mem_catalog_EntityStatePdu exampleEntity
    { exampleEntity with forceId := 2 } trivial trivial _ _ h hp.emits (List.prefix_refl _)).2.2
    exampleCanon hc
  have hf := congrArg EntityStatePdu.forceId this
  revert hf
  decide +kernel

/-! ## C17 -/

/-- **C17.** When `serialize` raises `e`, some slot of the layout cannot be written and raises `e`,
and the output consists of exactly the encodings of the slots before it. -/
theorem C17_failed_serialize_prefix :
    ∀ c ∈ catalog, ∀ o e, (c.serialize o).res = .error e →
      ∃ pre s post, ∃ bs : List Bytes, c.wire o = pre ++ s :: post ∧ s.encode = .error e ∧
        pre.map Slot.encode = bs.map .ok ∧ (c.serialize o).out = bs.flatten := by
  intro c hc o e he
  have v := catalog_verified c hc
  obtain ⟨pre, s, post, hw, h1, h2⟩ := (C12_raises_iff c hc o e).1 he
  obtain ⟨bs, hbs, hout⟩ := Slot.stream_flatten h1
  refine ⟨pre, s, post, bs, hw, h2, hbs, ?_⟩
  rw [v.lay o, hw, Slot.stream_out h1 h2, hout]

/-- **C17.** The output is not empty in general: here 18 bytes are left behind, so a caller must
discard the stream. -/
theorem C17_output_left_behind :
    (EntityStatePdu.serialize { exampleEntity with forceId := 256 }).res = .error .structError ∧
    (EntityStatePdu.serialize { exampleEntity with forceId := 256 }).out = exampleBytes.take 18 := by
  decide +kernel

/-! ## C18 -/

/-- `parse` called `k` times on the same object and message (sequence of calls of
/repo/opendis/dis7.py:4869-4887). -/
def parseAgain {α : Type} (parse : α → R α) : Nat → α → R α
  | 0, s => pure s
  | k + 1, s => do let s' ← parse s; let _ ← R.seek 0; parseAgain parse k s'

/-- **C18.** Parsing into a used object overwrites what `after` says and appends to every counted
list: the number of elements afterwards is the sum. -/
theorem C18_lists_are_appended :
    ∀ c ∈ catalog, ∀ s o, c.Decodable o → ∀ b, (c.serialize o).Emits b →
      (c.parse s).Returns b (c.after s o) ∧
      ∀ f ∈ c.counts, f.len (c.after s o) = f.len s + f.len o := by
  intro c hc s o hd b hb
  have v := catalog_verified c hc
  exact ⟨(v.rt s o hd b hb).returns, fun f hf => v.appended f hf s o hd ((v.ok_iff o).1 hb.ok)⟩

/-- **C18.** Parsing the same message `k` times leaves `k` copies of each list. -/
theorem C18_k_times :
    ∀ c ∈ catalog, ∀ o, c.Decodable o → ∀ b, (c.serialize o).Emits b → ∀ k s,
      ∃ s', (parseAgain c.parse k s).Returns b s' ∧
        ∀ f ∈ c.counts, f.len s' = f.len s + k * f.len o := by
  intro c hc o hd b hb k
  have v := catalog_verified c hc
  induction k with
  | zero => intro s; exact ⟨s, rfl, by simp⟩
  | succ k ih =>
    intro s
    obtain ⟨s', h1, h2⟩ := ih (c.after s o)
    refine ⟨s', ?_, fun f hf => ?_⟩
    · unfold R.Returns at h1 ⊢
      have hr := (v.rt s o hd b hb).run
      unfold parseAgain
      rw [R.bind_ok hr]
      exact h1
    · rw [h2 f hf, v.appended f hf s o hd ((v.ok_iff o).1 hb.ok), Nat.add_mul]
      omega

/-- **C18** spelled out for `EntityStatePdu`: the old variable parameters stay in front, the new ones
follow, and all other wire fields are those of the message. -/
theorem C18_entity_state (s o : EntityStatePdu) (b : Bytes) (hb : o.serialize.Emits b) :
    ∃ r, (s.parse).Returns b r ∧
      r.variableParameters = s.variableParameters ++ o.variableParameters ∧
      r.forceId = o.forceId ∧ r.entityID = o.entityID ∧ r.entityType = o.entityType ∧
      r.entityLocation = o.entityLocation ∧ r.entityAppearance = o.entityAppearance ∧
      r.capabilities = o.capabilities ∧ r.exerciseID = o.exerciseID ∧ r.timestamp = o.timestamp := by
  refine ⟨_, (EntityStatePdu.rt s o b hb).returns, ?_, rfl, rfl, rfl, rfl, rfl, rfl, rfl, rfl⟩
  have h : ∀ x, VariableParameter.after VariableParameter.init x = x := fun x => by
    cases x; rfl
  simp only [EntityStatePdu.after, funext h, List.map_id']

example : ∃ r, (EntityStatePdu.parse exampleEntity).Returns exampleBytes r ∧
    r.variableParameters.length = 4 := by
  obtain ⟨r, h1, h2, -⟩ := C18_entity_state exampleEntity exampleEntity _ exampleEmits
  exact ⟨r, h1, by rw [h2]; decide⟩

/-! ## C45 -/

/-- **C45.** What `serialize` does is to write the slots of the class's layout one after the other,
stopping with the exception of the first that does not fit: order, width, signedness and content of
every field on the wire. -/
theorem C45_wire_layout :
    ∀ c ∈ catalog, ∀ o, c.serialize o = Slot.stream (c.wire o) :=
  fun c hc o => (catalog_verified c hc).lay o

/-- The layout of an event report header spelled out. -/
example (o : EntityIdentifier) : o.serialize = Slot.stream
    [.u16 o.simulationAddress.site, .u16 o.simulationAddress.application, .u16 o.entityNumber] :=
  EntityIdentifier.lay o

end Dis
