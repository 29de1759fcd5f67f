import Verif.Proof.Factory
import Verif.Props.Codecs

/-!
# C14, C19-C23: the PDU header and the factory

`AnyPdu` is the sum of all concrete PDU classes; the theorems hold for each of them and all objects.
-/

namespace Dis

/-! ## C14 -/

/-- **C14.** The first 12 bytes of every PDU are protocol version, exercise id, type, family,
timestamp, length, status and padding, and hold the values of the attributes. -/
theorem C14_header (p : AnyPdu) (b : Bytes) (hb : p.serialize.Emits b) :
    12 ≤ b.length ∧
    fieldAt b 0 1 = p.toPdu.protocolVersion ∧ fieldAt b 1 1 = p.toPdu.exerciseID ∧
    fieldAt b 2 1 = p.toPdu.pduType ∧ fieldAt b 3 1 = p.toPdu.protocolFamily ∧
    fieldAt b 4 4 = p.toPdu.timestamp ∧ fieldAt b 8 2 = p.toPdu.length ∧
    fieldAt b 10 1 = p.toPdu.pduStatus ∧ fieldAt b 11 1 = p.toPdu.padding := by
  obtain ⟨h, post, rfl, hh⟩ := p.begins.emits hb
  obtain ⟨h1, h2, rfl, e1, e2⟩ := W.emits_bind.1 hh
  obtain ⟨b0, r0, rfl, e0, r⟩ := W.emits_bind.1 e1
  obtain ⟨b1, r1, rfl, e1', r⟩ := W.emits_bind.1 r
  obtain ⟨b2, r2, rfl, e2', r⟩ := W.emits_bind.1 r
  obtain ⟨b3, r3, rfl, e3, r⟩ := W.emits_bind.1 r
  obtain ⟨b4, b5, rfl, e4, e5⟩ := W.emits_bind.1 r
  obtain ⟨b6, b7, rfl, e6, e7⟩ := W.emits_bind.1 e2
  obtain ⟨l0, v0⟩ := packU_field (writeFixed_emits.1 e0)
  obtain ⟨l1, v1⟩ := packU_field (writeFixed_emits.1 e1')
  obtain ⟨l2, v2⟩ := packU_field (writeFixed_emits.1 e2')
  obtain ⟨l3, v3⟩ := packU_field (writeFixed_emits.1 e3)
  obtain ⟨l4, v4⟩ := packU_field (writeFixed_emits.1 e4)
  obtain ⟨l5, v5⟩ := packU_field (writeFixed_emits.1 e5)
  obtain ⟨l6, v6⟩ := packU_field (writeFixed_emits.1 e6)
  obtain ⟨l7, v7⟩ := packU_field (writeFixed_emits.1 e7)
  rw [← v0, ← v1, ← v2, ← v3, ← v4, ← v5, ← v6, ← v7]
  simp only [List.append_assoc]
  refine ⟨by simp only [List.length_append]; omega, ?_⟩
  refine ⟨fieldAt_append (pre := []) rfl l0, fieldAt_append l0 l1, ?_⟩
  rw [← List.append_assoc b0]
  refine ⟨fieldAt_append (by simp only [List.length_append]; omega) l2, ?_⟩
  rw [← List.append_assoc _ b2]
  refine ⟨fieldAt_append (by simp only [List.length_append]; omega) l3, ?_⟩
  rw [← List.append_assoc _ b3]
  refine ⟨fieldAt_append (by simp only [List.length_append]; omega) l4, ?_⟩
  rw [← List.append_assoc _ b4]
  refine ⟨fieldAt_append (by simp only [List.length_append]; omega) l5, ?_⟩
  rw [← List.append_assoc _ b5]
  refine ⟨fieldAt_append (by simp only [List.length_append]; omega) l6, ?_⟩
  rw [← List.append_assoc _ b6]
  exact fieldAt_append (by simp only [List.length_append]; omega) l7

/-- The header of the example entity: version 7, exercise 3, type 1, family 1, time 1000. -/
example : exampleBytes.take 12 = [7, 3, 1, 1, 0, 0, 3, 232, 0, 0, 0, 0] ∧
    fieldAt exampleBytes 4 4 = 1000 :=
  ⟨by decide +kernel, (C14_header (.EntityStatePdu exampleEntity) _ exampleEmits).2.2.2.2.2.1⟩

/-! ## C19, C20 -/

/-- **C19.** The third byte alone decides which class the factory uses: too short data raise
`struct.error`; types without an entry in the table yield `None`; for the others the outcome is an
object of the class in the table, or the exception raised by that class. -/
theorem C19_type_byte_decides (d : Bytes) :
    (d.length < 3 → createPdu d = .error .structError) ∧
    ∀ t, d[2]? = some t →
      (PduTypeDecoders.lookup (t.toNat : Int) = none → createPdu d = .ok none) ∧
      ∀ c, PduTypeDecoders.lookup (t.toNat : Int) = some c →
        (∃ p, createPdu d = .ok (some p) ∧ p.cls = c) ∨ ∃ e, createPdu d = .error e := by
  refine ⟨getPdu_short, fun t ht => ⟨createPdu_none ht, fun c hc => ?_⟩⟩
  rw [createPdu_some ht hc]
  rcases hr : c.decode ⟨d, 0⟩ with ⟨x, s⟩
  cases x with
  | ok a => exact .inl ⟨a, rfl, PduClass.decode_cls c _ _ _ hr⟩
  | error e => exact .inr ⟨e, rfl⟩

/-- **C19.** Two messages with the same type byte are never decoded as different classes, and if one
yields `None` so does the other. -/
theorem C19_no_other_byte (d d' : Bytes) (ht : d[2]? = d'[2]?) :
    (∀ p p', createPdu d = .ok (some p) → createPdu d' = .ok (some p') → p.cls = p'.cls) ∧
    (createPdu d = .ok none ↔ createPdu d' = .ok none) := by
  have none_iff : ∀ d : Bytes, createPdu d = .ok none ↔
      ∃ t, d[2]? = some t ∧ PduTypeDecoders.lookup (t.toNat : Int) = none := by
    intro d
    constructor
    · intro h
      cases ht : d[2]? with
      | none =>
        rw [(C19_type_byte_decides d).1 (by have := List.getElem?_eq_none_iff.1 ht; omega)] at h; cases h
      | some t =>
        refine ⟨t, rfl, ?_⟩
        cases hc : PduTypeDecoders.lookup (t.toNat : Int) with
        | none => rfl
        | some c =>
          rcases ((C19_type_byte_decides d).2 t ht).2 c hc with ⟨p, hp, -⟩ | ⟨e, he⟩
          · rw [hp] at h; cases h
          · rw [he] at h; cases h
    · rintro ⟨t, ht, hc⟩; exact createPdu_none ht hc
  refine ⟨fun p p' h h' => ?_, by rw [none_iff, none_iff, ht]⟩
  cases hd : d[2]? with
  | none => rw [(C19_type_byte_decides d).1 (by have := List.getElem?_eq_none_iff.1 hd; omega)] at h; cases h
  | some t =>
    cases hc : PduTypeDecoders.lookup (t.toNat : Int) with
    | none => rw [createPdu_none hd hc] at h; cases h
    | some c =>
      rcases ((C19_type_byte_decides d).2 t hd).2 c hc with ⟨q, hq, hq'⟩ | ⟨e, he⟩
      · rcases ((C19_type_byte_decides d').2 t (ht ▸ hd)).2 c hc with ⟨r, hr, hr'⟩ | ⟨e, he⟩
        · rw [hq] at h; rw [hr] at h'
          injection h with h; injection h with h
          injection h' with h'; injection h' with h'
          rw [← h, ← h', hq', hr']
        · rw [he] at h'; cases h'
      · rw [he] at h; cases h

/-- Type 8 is not registered, type 1 is; two bytes are too short. -/
example : createPdu [7, 0, 8, 0, 0] = .ok none ∧ createPdu [7, 0] = .error .structError ∧
    createPdu [7, 0, 1, 0, 0] = .error .structError ∧ createPdu [7, 0, 0xff] = .ok none ∧
    ∃ p, createPdu exampleBytes = .ok (some p) ∧ p.cls = .EntityStatePdu := by
  refine ⟨by decide +kernel, by decide +kernel, by decide +kernel, by decide +kernel, ?_⟩
  rcases ((C19_type_byte_decides exampleBytes).2 1 (by decide +kernel)).2 .EntityStatePdu (by decide)
    with h | ⟨e, he⟩
  · exact h
  · have : createPdu exampleBytes = .ok (some (.EntityStatePdu exampleEntity)) := by
      have h := C08_exact _ mem_catalog_EntityStatePdu exampleEntity trivial exampleCanon _ exampleEmits
      rw [createPdu_some (t := 1) (c := .EntityStatePdu) (by decide +kernel) (by decide)]
      rcases hr : EntityStatePdu.parse EntityStatePdu.init ⟨exampleBytes, 0⟩ with ⟨x, s⟩
      have hx : x = .ok exampleEntity := by
        have := congrArg Prod.fst hr
        exact this.symm.trans h
      subst hx
      show ((EntityStatePdu.parse EntityStatePdu.init >>= fun p => pure (AnyPdu.EntityStatePdu p))
        ⟨exampleBytes, 0⟩).1.map some = _
      rw [R.bind_ok hr]; rfl
    rw [this] at he; cases he

/-- **C20.** `getPdu` gives the same result and leaves the same stream whatever the position of the
stream was before. -/
theorem C20_position_ignored (d : Bytes) (p q : Nat) : getPdu ⟨d, p⟩ = getPdu ⟨d, q⟩ := by
  have e : ∀ p, getPdu ⟨d, p⟩ = getPdu ⟨d, 0⟩ := fun p => rfl
  rw [e p, e q]

/-- The whole message is read although the stream stands at its end. -/
example : (getPdu ⟨exampleBytes, 176⟩).1 = createPdu exampleBytes :=
  congrArg Prod.fst (C20_position_ignored exampleBytes 176 0)

/-! ## C21 -/

/-- **C21.** A PDU whose class is registered under the type number the object carries, and which has
no part its parser cannot read, comes back from the factory with the same wire fields, whatever
follows it in the data; unchanged if it is in canonical form. -/
theorem C21_factory_round_trip (p : AnyPdu) (hd : p.Decodable)
    (hreg : PduTypeDecoders.lookup p.toPdu.pduType = some p.cls) (b : Bytes)
    (hb : p.serialize.Emits b) (post : Bytes) :
    createPdu (b ++ post) = .ok (some p.received) ∧
      (p.Canon → createPdu (b ++ post) = .ok (some p)) := by
  obtain ⟨hl, -, -, ht, -⟩ := C14_header p b hb
  have h2 : 2 < (b ++ post).length := by simp; omega
  have hb2 : (b ++ post)[2]? = some b[2] := by
    rw [List.getElem?_append_left (by omega), List.getElem?_eq_getElem (by omega)]
  have hv : p.toPdu.pduType = (b[2].toNat : Int) := by
    rw [← ht, fieldAt_byte]
  have : createPdu (b ++ post) = .ok (some p.received) := by
    rw [createPdu_some hb2 (c := p.cls) (by rw [← hv]; exact hreg)]
    have := p.rt hd b hb [] post
    simp only [List.nil_append, List.length_nil, Nat.zero_add] at this
    rw [this]; rfl
  exact ⟨this, fun hc => by rw [this, p.received_canon hc]⟩

/-- **C21.** Which classes that covers: every class but the five listed is registered under the type
number its objects are constructed with. -/
theorem C21_registered (c : PduClass) : PduTypeDecoders.lookup c.pduType = some c ↔
    c ∉ [.ResupplyOfferPdu, .FastEntityStatePdu, .StartResumeReliablePdu, .DirectedEnergyFirePdu,
      .SeesPdu] := by
  cases c <;> decide +kernel

/-- **C21.** Truncated messages are never decoded, except possibly those of type 25. -/
theorem C21_truncated (p : AnyPdu) (hd : p.Decodable) (hn : p.cls ≠ .TransmitterPdu)
    (hreg : PduTypeDecoders.lookup p.toPdu.pduType = some p.cls) (b : Bytes)
    (hb : p.serialize.Emits b) (t u : Bytes) (h : b = t ++ u) (hu : u ≠ []) :
    ∃ e, createPdu t = .error e := by
  obtain ⟨hl, -, -, ht, -⟩ := C14_header p b hb
  by_cases ht3 : t.length < 3
  · exact ⟨_, (C19_type_byte_decides t).1 ht3⟩
  · have hb2 : t[2]? = some t[2] := List.getElem?_eq_getElem (by omega)
    have hv : p.toPdu.pduType = (t[2].toNat : Int) := by
      rw [← ht, fieldAt_byte (by omega)]
      simp only [h]
      rw [List.getElem_append_left (by omega)]
    rw [createPdu_some hb2 (c := p.cls) (by rw [← hv]; exact hreg)]
    obtain ⟨e, he⟩ := (PduClass.loc p.cls hn).truncated (p.rt hd b hb) h hu
    rw [he]; exact ⟨e, rfl⟩

example : createPdu (exampleBytes ++ [1, 2, 3]) = .ok (some (.EntityStatePdu exampleEntity)) ∧
    ∃ e, createPdu (exampleBytes.take 100) = .error e :=
  ⟨(C21_factory_round_trip (.EntityStatePdu exampleEntity) trivial (by decide +kernel) _ exampleEmits _).2
    exampleCanon,
   C21_truncated (.EntityStatePdu exampleEntity) trivial (by decide) (by decide +kernel) _ exampleEmits
    _ (exampleBytes.drop 100) (List.take_append_drop ..).symm (by decide +kernel)⟩

/-! ## C22 -/

/-- **C22**, the property itself: each entry of the table is the class with that type number. The
code does not have it. -/
def C22_table_agrees : Prop := ∀ e ∈ PduTypeDecoders, e.2.pduType = e.1

/-- **C22** is violated, by exactly two entries. -/
theorem C22_exceptions :
    ¬ C22_table_agrees ∧ ∀ e ∈ PduTypeDecoders, e.2.pduType ≠ e.1 ↔
      e = (6, .CollisionElasticPdu) ∨ e = (41, .PointObjectStatePdu) := by
  constructor
  · intro h
    have := h (6, .CollisionElasticPdu) (by decide +kernel)
    revert this; decide
  · decide +kernel

/-- **C22.** What holds: no type number has two entries, and no two classes share a type number,
except that `FastEntityStatePdu` carries the number of `EntityStatePdu`. -/
theorem C22_unique_partial :
    (PduTypeDecoders.map Prod.fst).Nodup ∧ ∀ c c' : PduClass, c ≠ .FastEntityStatePdu →
      c' ≠ .FastEntityStatePdu → c.pduType = c'.pduType → c = c' := by
  refine ⟨by decide +kernel, ?_⟩
  intro c c' h h'
  cases c <;> cases c' <;>
    first | exact fun _ => rfl | exact fun h => absurd h (by decide) | exact absurd rfl h | exact absurd rfl h'

example : PduClass.FastEntityStatePdu.pduType = PduClass.EntityStatePdu.pduType := rfl

/-- **C22**, a consequence: a resupply offer (type 6) is decoded as an elastic collision or raises. -/
theorem C22_resupply_offer (o : ResupplyOfferPdu) (ht : o.pduType = 6) (b : Bytes)
    (hb : o.serialize.Emits b) :
    (∃ p, createPdu b = .ok (some (.CollisionElasticPdu p))) ∨ ∃ e, createPdu b = .error e := by
  obtain ⟨hl, -, -, hv, -⟩ := C14_header (.ResupplyOfferPdu o) b hb
  have hb2 : b[2]? = some b[2] := List.getElem?_eq_getElem (by omega)
  have h6 : (b[2].toNat : Int) = 6 := by
    rw [← ht]
    show _ = (AnyPdu.ResupplyOfferPdu o).toPdu.pduType
    rw [← hv, fieldAt_byte]
  rcases ((C19_type_byte_decides b).2 _ hb2).2 .CollisionElasticPdu (by rw [h6]; decide) with
    ⟨p, hp, hc⟩ | h
  · left
    cases p <;> first | exact ⟨_, hp⟩ | cases hc
  · exact .inr h

/-- A resupply offer with five supplies is long enough to be taken for an elastic collision. -/
example : ∃ p, createPdu (ResupplyOfferPdu.serialize (ResupplyOfferPdu.init
    (supplies := List.replicate 6 SupplyQuantity.init))).out = .ok (some (.CollisionElasticPdu p)) := by
  rcases C22_resupply_offer (ResupplyOfferPdu.init (supplies := List.replicate 6 SupplyQuantity.init))
    rfl _ ⟨rfl, (), by decide +kernel⟩ with h | ⟨e, he⟩
  · exact h
  · have : ((createPdu (ResupplyOfferPdu.serialize (ResupplyOfferPdu.init
      (supplies := List.replicate 6 SupplyQuantity.init))).out).toOption.isSome) = true := by decide +kernel
    rw [he] at this; cases this

/-! ## C23 -/

/-- **C23.** Type 44: the constructor raises `NameError`, so no such message is ever decoded. -/
theorem C23_linear_object (d : Bytes) (h : d[2]? = some 44) : createPdu d = .error .nameError := by
  rw [createPdu_some h (c := .LinearObjectStatePdu) (by decide)]
  rfl

/-- **C23.** Type 32: at least 37 bytes raise `TypeError`, fewer `struct.error`; no such message is
ever decoded. -/
theorem C23_intercom_control (d : Bytes) (h : d[2]? = some 32) :
    createPdu d = .error (if d.length < 37 then .structError else .typeError) := by
  rw [createPdu_some h (c := .IntercomControlPdu) (by decide)]
  have hg : Guarded .typeError (PduClass.decode .IntercomControlPdu) 37 fun _ _ => False := by
    refine Guarded.first ?_ fun a s => ⟨_, _, rfl⟩
    exact Guarded.bind (Fix.bind (fix_header _) fun _ => Fix.pure _) fun _ =>
      Guarded.bind fix_unsigned_byte fun _ => Guarded.bind fix_unsigned_byte fun _ =>
      Guarded.bind (fix_entityID _) fun _ => Guarded.bind fix_unsigned_byte fun _ =>
      Guarded.bind fix_unsigned_byte fun _ => Guarded.bind fix_unsigned_byte fun _ =>
      Guarded.bind fix_unsigned_byte fun _ => Guarded.bind fix_unsigned_byte fun _ =>
      Guarded.bind (fix_entityID _) fun _ => Guarded.bind fix_unsigned_short fun _ =>
      Guarded.bind fix_unsigned_int fun _ =>
      Guarded.first (Guarded.throw _) fun a s => ⟨_, _, rfl⟩
  obtain ⟨h1, h2⟩ := hg d 0 (by omega)
  split
  · obtain ⟨s, hs⟩ := h1 (by omega); rw [hs]; rfl
  · obtain ⟨s, hs⟩ := (h2 (by omega)).2 id; rw [hs]; rfl

/-- **C23.** The five registered types whose list elements `parse` cannot construct: messages that
announce an element raise `NameError`, the others are decoded if they are long enough. -/
theorem C23_unreadable_lists :
    DecodesOnlyEmpty 7 .ResupplyReceivedPdu 28 (fun d => fieldAt d 24 1 ≥ 1) ∧
    DecodesOnlyEmpty 29 .UaPdu 32
      (fun d => fieldAt d 29 1 ≥ 1 ∨ fieldAt d 30 1 ≥ 1 ∨ fieldAt d 31 1 ≥ 1) ∧
    DecodesOnlyEmpty 31 .IntercomSignalPdu 32 (fun d => fieldAt d 28 2 ≥ 8) ∧
    DecodesOnlyEmpty 40 .MinefieldResponseNackPdu 26 (fun d => fieldAt d 25 1 ≥ 1) ∧
    DecodesOnlyEmpty 63 .RecordQueryReliablePdu 42 (fun d => fieldAt d 38 4 ≥ 1) := by
  refine ⟨?_, ?_, ?_, ?_, ?_⟩
  · refine Guarded.decodes (P := fun d p => (fieldAt d (p + 24) 1).toNat = 0 ∧ True) (by decide) ?_
      fun d => by simp; omega
    refine Guarded.first ?_ fun a s => ⟨_, _, rfl⟩
    exact Guarded.bind (Fix.bind (fix_header _) fun _ => Fix.pure _) fun _ =>
      Guarded.bind (fix_entityID _) fun _ => Guarded.bind (fix_entityID _) fun _ =>
      Guarded.count (n := 1) (Q := fun v _ _ => v.toNat = 0 ∧ True) (by decide) fun v =>
      Guarded.bind fix_short fun _ => Guarded.bind fix_byte fun _ => Guarded.nullLast
  · refine Guarded.decodes (P := fun d p => (fieldAt d (p + 29) 1).toNat = 0 ∧
      (fieldAt d (p + 30) 1).toNat = 0 ∧ (fieldAt d (p + 31) 1).toNat = 0 ∧ True) (by decide) ?_
      fun d => by simp; omega
    refine Guarded.first ?_ fun a s => ⟨_, _, rfl⟩
    exact Guarded.bind (Fix.bind (fix_header _) fun _ => Fix.pure _) fun _ =>
      Guarded.bind (fix_entityID _) fun _ => Guarded.bind (fix_eventID _) fun _ =>
      Guarded.bind fix_byte fun _ => Guarded.bind fix_byte fun _ =>
      Guarded.bind fix_unsigned_short fun _ => Guarded.bind fix_unsigned_byte fun _ =>
      Guarded.count (n := 1) (Q := fun v d p => v.toNat = 0 ∧ (fieldAt d p 1).toNat = 0 ∧
        (fieldAt d (p + 1) 1).toNat = 0 ∧ True) (by decide) fun v =>
      Guarded.count (n := 1) (Q := fun w d p => v.toNat = 0 ∧ w.toNat = 0 ∧
        (fieldAt d p 1).toNat = 0 ∧ True) (by decide) fun w =>
      Guarded.count (n := 1) (Q := fun x d p => v.toNat = 0 ∧ w.toNat = 0 ∧ x.toNat = 0 ∧ True)
        (by decide) fun x =>
      Guarded.null (Guarded.null (Guarded.nullLast) rfl) rfl
  · refine Guarded.decodes (P := fun d p => (fieldAt d (p + 28) 2 / 8).toNat = 0 ∧ True) (by decide) ?_
      fun d => by simp; omega
    refine Guarded.first ?_ fun a s => ⟨_, _, rfl⟩
    exact Guarded.bind (Fix.bind (fix_header _) fun _ => Fix.pure _) fun _ =>
      Guarded.bind (fix_entityID _) fun _ => Guarded.bind fix_unsigned_short fun _ =>
      Guarded.bind fix_unsigned_short fun _ => Guarded.bind fix_unsigned_short fun _ =>
      Guarded.bind fix_unsigned_int fun _ =>
      Guarded.count (n := 2) (Q := fun v _ _ => (v / 8).toNat = 0 ∧ True) (by decide) fun v =>
      Guarded.bind fix_unsigned_short fun _ => Guarded.nullLast
  · refine Guarded.decodes (P := fun d p => (fieldAt d (p + 25) 1).toNat = 0 ∧ True) (by decide) ?_
      fun d => by simp; omega
    refine Guarded.first ?_ fun a s => ⟨_, _, rfl⟩
    exact Guarded.bind (Fix.bind (fix_header _) fun _ => Fix.pure _) fun _ =>
      Guarded.bind (fix_entityID _) fun _ => Guarded.bind (fix_entityID _) fun _ =>
      Guarded.bind fix_unsigned_byte fun _ =>
      Guarded.count (n := 1) (Q := fun v _ _ => v.toNat = 0 ∧ True) (by decide) fun v =>
      Guarded.nullLast
  · refine Guarded.decodes (P := fun d p => (fieldAt d (p + 38) 4).toNat = 0 ∧ True) (by decide) ?_
      fun d => by simp; omega
    refine Guarded.first ?_ fun a s => ⟨_, _, rfl⟩
    exact Guarded.bind (fix_management _) fun _ =>
      Guarded.bind fix_unsigned_int fun _ => Guarded.bind fix_unsigned_byte fun _ =>
      Guarded.bind fix_unsigned_short fun _ => Guarded.bind fix_unsigned_byte fun _ =>
      Guarded.bind fix_unsigned_short fun _ => Guarded.bind fix_unsigned_int fun _ =>
      Guarded.count (n := 4) (Q := fun v _ _ => v.toNat = 0 ∧ True) (by decide) fun v =>
      Guarded.nullLast

/-- A resupply-received message with one supply, as this library itself writes it, is rejected. -/
example : createPdu (ResupplyReceivedPdu.serialize (ResupplyReceivedPdu.init
    (supplies := [SupplyQuantity.init]))).out = .error .nameError :=
  ((C23_unreadable_lists.1 _ (by decide +kernel)).2.1) (by decide +kernel) (by decide +kernel)

end Dis
