import Verif.Proof.CatalogTakes
import Verif.Proof.AnyOnly
import Verif.Props.Factory

/-!
# C56, C57: what arbitrary received bytes can do

The messages are arbitrary: nothing is assumed about who sent them.
-/

namespace Dis

/-! ## C56 -/

/-- The exception of an outcome, if any. -/
def raised {α} : Except PyErr α → Option PyErr
  | .error e => some e
  | .ok _ => none

theorem raised_eq {α} {x : Except PyErr α} {e} : raised x = some e ↔ x = .error e := by
  cases x <;> simp [raised]

/-- A message of type `t` for which `createPdu` raises `e`. -/
def provoke (t : UInt8) (e : PyErr) : Bytes :=
  [0, 0, t] ++
    match e with
    | .structError => []
    | .nameError => if t = 33 then List.replicate 127 0 ++ [0, 1, 0, 0, 0, 1] ++ List.replicate 8 0
        else if t = 7 then List.replicate 21 0 ++ [1, 0, 0, 0]
        else if t = 29 then List.replicate 26 0 ++ [1, 0, 0]
        else if t = 31 then List.replicate 25 0 ++ [0, 8, 0, 0]
        else if t = 40 then List.replicate 22 0 ++ [1]
        else if t = 63 then List.replicate 35 0 ++ [0, 0, 0, 1]
        else []
    | .typeError => if t = 25 then List.replicate 27 0 ++ [0, 1] ++ List.replicate 78 0
        else if t = 69 then List.replicate 31 0 ++ [0, 1] ++ List.replicate 6 0
        else List.replicate 34 0
    | .valueError => if t = 25 then List.replicate 85 0
        else List.replicate 31 0 ++ [0, 1, 0, 0, 0x11, 0x94, 0, 1]
    | _ => []

theorem provoked : ∀ t : Fin 256, ∀ e ∈ exceptionsOfType t,
    raised (createPdu (provoke (UInt8.ofNat t) e)) = some e := by
  decide +kernel

theorem exceptions_table : ∀ t : Fin 256,
    (match PduTypeDecoders.lookup ((t : Nat) : Int) with
      | some c => c.exceptions
      | none => []) = exceptionsOfType t := by
  decide +kernel

/-- **C56.** For every type number the exceptions that `createPdu` raises on some message of that type
are those of the table `exceptionsOfType`, no more and no fewer. -/
theorem C56_exceptions (t : UInt8) (e : PyErr) :
    (∃ d : Bytes, d[2]? = some t ∧ createPdu d = .error e) ↔ e ∈ exceptionsOfType t.toNat := by
  have ht := exceptions_table ⟨t.toNat, t.toNat_lt⟩
  dsimp only at ht
  constructor
  · rintro ⟨d, hd, he⟩
    cases hl : PduTypeDecoders.lookup (t.toNat : Int) with
    | none => rw [createPdu_none hd hl] at he; cases he
    | some c =>
      rw [hl] at ht
      rw [← ht]
      rw [createPdu_some hd hl] at he
      rcases hr : c.decode ⟨d, 0⟩ with ⟨x, s⟩
      rw [hr] at he
      cases x with
      | ok a => cases he
      | error e' => cases he; exact c.raises _ _ (by rw [hr])
  · intro h
    refine ⟨provoke t e, rfl, raised_eq.1 ?_⟩
    have := provoked ⟨t.toNat, t.toNat_lt⟩ e h
    simpa using this

/-- **C56.** Whatever the bytes, the only exceptions are `struct.error`, `NameError`, `TypeError` and
`ValueError`; without messages of types 7, 25, 29, 31, 32, 33, 40, 44, 63 and 69 only `struct.error`. -/
theorem C56_only (d : Bytes) (e : PyErr) (h : createPdu d = .error e) :
    e ∈ [PyErr.structError, .nameError, .typeError, .valueError] ∧
    ((∀ t ∈ [(7 : UInt8), 25, 29, 31, 32, 33, 40, 44, 63, 69], d[2]? ≠ some t) → e = .structError) := by
  by_cases hl : d.length < 3
  · rw [(C19_type_byte_decides d).1 hl] at h
    cases h
    exact ⟨by decide, fun _ => rfl⟩
  · have hd : d[2]? = some d[2] := List.getElem?_eq_getElem (by omega)
    have he := (C56_exceptions d[2] e).1 ⟨d, hd, h⟩
    have key : ∀ t : Fin 256, ∀ e ∈ exceptionsOfType t,
        e ∈ [PyErr.structError, .nameError, .typeError, .valueError] ∧
        ((t : Nat) ∉ [7, 25, 29, 31, 32, 33, 40, 44, 63, 69] → e = .structError) := by decide +kernel
    obtain ⟨h1, h2⟩ := key ⟨d[2].toNat, d[2].toNat_lt⟩ e he
    refine ⟨h1, fun hn => h2 fun hm => ?_⟩
    simp only [List.mem_cons, List.not_mem_nil, or_false] at hm
    have ofNat : ∀ n, d[2].toNat = n → d[2] = UInt8.ofNat n := by
      intro n hn; rw [← hn]; simp
    refine hn d[2] ?_ hd
    rcases hm with h | h | h | h | h | h | h | h | h | h <;> rw [ofNat _ h] <;> decide

/-- A fire message cut short, and one that says it is a transmitter but lacks its record. -/
example : createPdu [7, 1, 2, 2, 0, 0] = .error .structError ∧
    createPdu ([7, 1, 25, 4] ++ List.replicate 84 0) = .error .valueError ∧
    (∀ t ∈ [(7 : UInt8), 25, 29, 31, 32, 33, 40, 44, 63, 69], ([7, 1, 2, 2, 0, 0] : Bytes)[2]? ≠ some t) :=
  ⟨raised_eq.1 (by decide +kernel), raised_eq.1 (by decide +kernel), by decide⟩

/-- No message of type 1 makes the factory raise `TypeError`; some of type 25 do. -/
example : (¬ ∃ d : Bytes, d[2]? = some 1 ∧ createPdu d = .error .typeError) ∧
    ∃ d : Bytes, d[2]? = some 25 ∧ createPdu d = .error .typeError :=
  ⟨fun h => absurd ((C56_exceptions 1 .typeError).1 h) (by decide),
    (C56_exceptions 25 .typeError).2 (by decide)⟩

/-! ## C57 -/

theorem lookup_mem {α} {l : List (Int × α)} {k : Int} {v : α} (h : l.lookup k = some v) : (k, v) ∈ l := by
  induction l with
  | nil => cases h
  | cons x xs ih =>
    rw [List.lookup_cons] at h
    split at h
    · rename_i hk; cases h; rw [eq_of_beq hk]; exact List.mem_cons_self
    · exact List.mem_cons_of_mem _ (ih h)

/-- **C57.** If a class parses an object from the middle of a buffer, it leaves the buffer as it was,
stops at or before its end, and has read at least one byte for every element of the object's counted
lists; and, for all but the two classes named, exactly as many bytes as the object serializes to. -/
theorem C57_bytes_read (c : Codec) (hc : c ∈ catalog) (d : Bytes) (p : Nat) (hp : p ≤ d.length)
    (o : c.Obj) (s : InStream) (h : c.parse c.fresh ⟨d, p⟩ = (.ok o, s)) :
    s.data = d ∧ p ≤ s.pos ∧ s.pos ≤ d.length ∧
    (c.counts.map fun f => f.len o).sum ≤ s.pos - p ∧
    (c.name ∉ ["DirectedEnergyFirePdu", "EntityDamageStatusPdu"] →
      ∀ b, (c.serialize o).Emits b → s.pos = p + b.length) := by
  obtain ⟨m, hm, hs⟩ := catalog_taken c hc
  have hd : d = d.take p ++ d.drop p := (List.take_append_drop p d).symm
  have hpl : (d.take p).length = p := by simp; omega
  have h' : c.parse c.fresh ⟨d.take p ++ d.drop p, (d.take p).length⟩ = (.ok o, s) := by
    rw [← hd, hpl]; exact h
  obtain ⟨b, rest, h1, h2, h3⟩ := hm.takes _ _ _ _ h'
  obtain ⟨b', rest', h1', h2', h3'⟩ := hm.counted _ _ _ _ h'
  rw [h2, ← hd, hpl]
  have hl := congrArg List.length h1
  simp only [List.length_drop, List.length_append] at hl
  refine ⟨rfl, by simp, by simp only; omega, by simp only; omega, fun hn b2 hb2 => ?_⟩
  have := (catalog_verified c hc).sized o b2 hb2
  simp only [this, h3, hs hn]

/-- **C57.** A received message, sent on as it was decoded, is no longer than the data it was decoded
from, unless it is of type 25 or 69; and no message of fewer than 12 bytes is decoded. -/
theorem C57_resend (d : Bytes) (p : AnyPdu) (h : createPdu d = .ok (some p)) :
    12 ≤ d.length ∧
    (p.cls ≠ .TransmitterPdu → p.cls ≠ .EntityDamageStatusPdu →
      ∀ b, p.serialize.Emits b → b.length ≤ d.length) := by
  by_cases hl : d.length < 3
  · rw [(C19_type_byte_decides d).1 hl] at h; cases h
  · have hd : d[2]? = some d[2] := List.getElem?_eq_getElem (by omega)
    cases hc : PduTypeDecoders.lookup (d[2].toNat : Int) with
    | none => rw [createPdu_none hd hc] at h; cases h
    | some c =>
      rw [createPdu_some hd hc] at h
      rcases hr : c.decode ⟨d, 0⟩ with ⟨x, s⟩
      rw [hr] at h
      cases x with
      | error e => cases h
      | ok a =>
        cases h
        have hcls := PduClass.decode_cls c _ _ _ hr
        obtain ⟨b, rest, h1, -, h3⟩ := c.header [] d _ _ hr
        have hlen := congrArg List.length h1
        simp only [List.length_append] at hlen
        refine ⟨by omega, fun n1 n2 b' hb' => ?_⟩
        have n3 : c ≠ .DirectedEnergyFirePdu := by
          intro e
          subst e
          have : ∀ x ∈ PduTypeDecoders, x.2 ≠ .DirectedEnergyFirePdu := by decide
          exact this _ (lookup_mem hc) rfl
        obtain ⟨b, rest, h1, -, h3⟩ := c.resend (by simp_all) [] d _ _ hr
        have hlen := congrArg List.length h1
        simp only [List.length_append] at hlen
        rw [h3 b' hb']
        omega

/-- A message of type 69 with one damage description: 76 bytes. -/
def damageMessage : Bytes :=
  [7, 1, 69, 2] ++ List.replicate 30 0 ++ [0, 1, 0, 0, 0x11, 0x94, 0, 40] ++ List.replicate 34 0

/-- The claim of `C57_resend` for all classes. -/
def C57_never_longer : Prop :=
  ∀ (d : Bytes) (p : AnyPdu) (b : Bytes), createPdu d = .ok (some p) → p.serialize.Emits b →
    b.length ≤ d.length

/-- **C57**, where it fails: `damageMessage` is decoded, and serializes to 84 bytes. -/
theorem C57_damage_message : ∃ o : EntityDamageStatusPdu,
    createPdu damageMessage = .ok (some (.EntityDamageStatusPdu o)) ∧
    ∃ b, o.serialize.Emits b ∧ b.length = 84 ∧ damageMessage.length = 76 := by
  have h : (match createPdu damageMessage with
      | .ok (some (.EntityDamageStatusPdu o)) => decide (o.serialize.res = .ok ()) && o.serialize.out.length == 84
      | _ => false) = true := by decide +kernel
  split at h
  · rename_i o ho
    simp only [Bool.and_eq_true, decide_eq_true_eq, beq_iff_eq] at h
    exact ⟨o, ho, o.serialize.out, ⟨rfl, (), h.1⟩, h.2, by decide⟩
  · cases h

theorem C57_not_all : ¬ C57_never_longer := by
  obtain ⟨o, h1, b, h2, h3, h4⟩ := C57_damage_message
  intro h
  have := h _ _ b h1 h2
  omega

theorem records_growth (l : List SVRecord) :
    6 * l.length ≤ (l.map fun r => 6 + r.contentsSize).sum ∧
    (l.map SVRecord.wireSize).sum ≤ (l.map fun r => 6 + r.contentsSize).sum + 8 * l.length := by
  induction l with
  | nil => exact ⟨Nat.le_refl _, Nat.le_refl _⟩
  | cons x xs ih =>
    have hx : x.wireSize ≤ 14 + x.contentsSize := by
      cases x <;> simp only [SVRecord.wireSize, SVRecord.contentsSize,
        DirectedEnergyAreaAimpoint.wireSize] <;> omega
    simp only [List.length_cons, List.map_cons, List.sum_cons]
    omega

theorem createPdu_inv {d : Bytes} {p : AnyPdu} (h : createPdu d = .ok (some p)) :
    ∃ s, p.cls.decode ⟨d, 0⟩ = (.ok p, s) := by
  by_cases hl : d.length < 3
  · rw [(C19_type_byte_decides d).1 hl] at h; cases h
  · have hd : d[2]? = some d[2] := List.getElem?_eq_getElem (by omega)
    cases hc : PduTypeDecoders.lookup (d[2].toNat : Int) with
    | none => rw [createPdu_none hd hc] at h; cases h
    | some c =>
      rw [createPdu_some hd hc] at h
      rcases hr : c.decode ⟨d, 0⟩ with ⟨x, s⟩
      rw [hr] at h
      cases x with
      | error e => cases h
      | ok a =>
        cases h
        rw [PduClass.decode_cls c _ _ _ hr]
        exact ⟨s, hr⟩

/-- **C57**, the extent: messages of types 69 and 25 grow by at most eight bytes per record, and each
record was at least six bytes of the data. -/
theorem C57_growth (d : Bytes) :
    (∀ o : EntityDamageStatusPdu, createPdu d = .ok (some (.EntityDamageStatusPdu o)) →
      36 + 6 * o.damageDescriptions.length ≤ d.length ∧
      ∀ b, o.serialize.Emits b → b.length ≤ d.length + 8 * o.damageDescriptions.length) ∧
    (∀ o : TransmitterPdu, createPdu d = .ok (some (.TransmitterPdu o)) →
      104 + 6 * o.variableTransmitterParameters.length ≤ d.length ∧
      ∀ b, o.serialize.Emits b → b.length ≤ d.length + 8 * o.variableTransmitterParameters.length) := by
  constructor
  · intro o h
    obtain ⟨s, hr⟩ := createPdu_inv h
    obtain ⟨a, s1, h1, h2⟩ := R.bind_inv hr
    cases h2
    obtain ⟨b, rest, h1, -, h3⟩ := EntityDamageStatusPdu.takes [] d _ _ h1
    have hlen := congrArg List.length h1
    simp only [List.length_append, h3, EntityDamageStatusPdu.receivedSize] at hlen
    have := records_growth o.damageDescriptions
    refine ⟨by omega, fun b' hb' => ?_⟩
    rw [EntityDamageStatusPdu.sized o b' hb', EntityDamageStatusPdu.wireSize]
    omega
  · intro o h
    obtain ⟨s, hr⟩ := createPdu_inv h
    obtain ⟨a, s1, h1, h2⟩ := R.bind_inv hr
    cases h2
    obtain ⟨b, rest, h1, -, h3⟩ := TransmitterPdu.takes [] d _ _ h1
    have hlen := congrArg List.length h1
    simp only [List.length_append, h3, TransmitterPdu.receivedSize] at hlen
    have := records_growth o.variableTransmitterParameters
    refine ⟨by omega, fun b' hb' => ?_⟩
    rw [TransmitterPdu.sized o b' hb', TransmitterPdu.wireSize]
    omega

/-- The growth of `damageMessage`, 84 - 76, is the largest the theorem allows for one record. -/
example : ∃ o : EntityDamageStatusPdu, createPdu damageMessage = .ok (some (.EntityDamageStatusPdu o)) ∧
    ∃ b, o.serialize.Emits b ∧ b.length = damageMessage.length + 8 := by
  obtain ⟨o, h1, b, h2, h3, h4⟩ := C57_damage_message
  exact ⟨o, h1, b, h2, by omega⟩

/-- The example entity followed by three stray bytes is decoded, and is not longer when sent on. -/
example : createPdu (exampleBytes ++ [1, 2, 3]) = .ok (some (.EntityStatePdu exampleEntity)) ∧
    ∀ b, exampleEntity.serialize.Emits b → b.length ≤ 179 := by
  have h : createPdu (exampleBytes ++ [1, 2, 3]) = .ok (some (.EntityStatePdu exampleEntity)) :=
    (C21_factory_round_trip (.EntityStatePdu exampleEntity) trivial (by decide +kernel) _ exampleEmits _).2
      exampleCanon
  refine ⟨h, fun b hb => ?_⟩
  have h2 := (C57_resend _ _ h).2 nofun nofun b hb
  have hl : (exampleBytes ++ [1, 2, 3]).length = 179 := by decide +kernel
  omega

/-- A datum of two bytes in the middle of a buffer: 4 + 4 + 2 + 6 bytes are read, and there is one
byte at least for each of its two and six data bytes. -/
example : ∃ o s, Codec.VariableDatum.parse Codec.VariableDatum.fresh
      ⟨[9, 9, 0, 0, 0, 1, 0, 0, 0, 16, 65, 66, 0, 0, 0, 0, 0, 0, 7], 2⟩ = (.ok o, s) ∧ s.pos = 18 := by
  have h : raised (VariableDatum.parse VariableDatum.init
      ⟨[9, 9, 0, 0, 0, 1, 0, 0, 0, 16, 65, 66, 0, 0, 0, 0, 0, 0, 7], 2⟩).1 = none ∧
    (VariableDatum.parse VariableDatum.init
      ⟨[9, 9, 0, 0, 0, 1, 0, 0, 0, 16, 65, 66, 0, 0, 0, 0, 0, 0, 7], 2⟩).2.pos = 18 := by decide +kernel
  revert h
  generalize hr : VariableDatum.parse _ _ = x
  rcases x with ⟨x | x, s⟩
  · rintro ⟨h, -⟩; cases h
  · exact fun h => ⟨x, s, hr, h.2⟩

end Dis
