import Verif.Model.Header
import Verif.Spec.Header
import Verif.Spec.Standard
import Verif.Props.Factory
import Verif.Proof.Sending

/-!
# C49-C51: constructors that lose their arguments, the header constructor, type numbers
-/

namespace Dis

/-! ## C49 -/

/-- **C49.** Arguments that never reach the receiver: `EngineFuel(...)` sends eight zero bytes and
`AngularVelocityVector(...)` twelve whatever the arguments; an `AggregateMarking(...)` arrives without
characters; a `DataQueryPdu(...)` asks with request id and time interval 0. -/
theorem C49_arguments_lost :
    (∀ q u t l : Int, (EngineFuel.init q u t l).serialize.Emits [0, 0, 0, 0, 0, 0, 0, 0]) ∧
    (∀ x y z : F64, (AngularVelocityVector.init x y z).serialize.Emits (List.replicate 12 0)) ∧
    (∀ (s : Int) (l : List Int) (b post : Bytes), (AggregateMarking.init s l).serialize.Emits b →
      ∃ q, (AggregateMarking.parse AggregateMarking.init).Returns (b ++ post) q ∧
        q.characters = List.replicate 31 0) ∧
    (∀ (r t : Int) (f v : List Int) (b post : Bytes), (DataQueryPdu.init r t f v).serialize.Emits b →
      ∃ q, createPdu (b ++ post) = .ok (some (.DataQueryPdu q)) ∧ q.requestID = 0 ∧
        q.timeInterval = 0) := by
  refine ⟨fun q u t l => ⟨?_, (), ?_⟩, fun x y z => ⟨?_, (), ?_⟩, fun s l b post hb => ?_,
    fun r t f v b post hb => ?_⟩
  · show (EngineFuel.init 0 0 0 0).serialize.out = _; decide +kernel
  · show (EngineFuel.init 0 0 0 0).serialize.res = _; decide +kernel
  · show (AngularVelocityVector.init 0 0 0).serialize.out = _; decide +kernel
  · show (AngularVelocityVector.init 0 0 0).serialize.res = _; decide +kernel
  · exact ⟨_, returns_of_rt (AggregateMarking.rt _ _)
      (AggregateMarking.after_canon (o := AggregateMarking.init s l) rfl) hb post, rfl⟩
  · exact ⟨_, (C21_factory_round_trip (.DataQueryPdu (DataQueryPdu.init r t f v)) trivial
      (by show PduTypeDecoders.lookup 18 = some .DataQueryPdu; decide) b hb post).2 trivial, rfl, rfl⟩

/-- Five hundred litres, an angular velocity of 1.5, a marking "A" and a request 7 are lost. -/
example : (EngineFuel.init 500 1 1 1).serialize.out = [0, 0, 0, 0, 0, 0, 0, 0] ∧
    (AngularVelocityVector.init 0x3FF8000000000000).serialize.out = List.replicate 12 0 ∧
    (AggregateMarking.init 1 [65]).serialize = ⟨1 :: List.replicate 31 0, .ok ()⟩ ∧
    (DataQueryPdu.init 7 60 [1] []).serialize.res = .ok () := by decide +kernel

/-- **C49.** Objects of six classes cannot be sent after construction, whatever the arguments. -/
theorem C49_unsendable :
    (∀ d p t a b, ¬ (AttachedParts.init d p t a).serialize.Emits b) ∧
    (∀ t l i b, ¬ (Environment.init t l i).serialize.Emits b) ∧
    (∀ t l i g b, ¬ (EnvironmentGeneral.init t l i g).serialize.Emits b) ∧
    (∀ n t b, ¬ (SilentAggregateSystem.init n t).serialize.Emits b) ∧
    (∀ r i e s b, ¬ (SeparationVP.init r i e s).serialize.Emits b) ∧
    (∀ m t c l d w r p f s v b,
      ¬ (DirectedEnergyFirePdu.init m t c l d w r p f s v).serialize.Emits b) := by
  refine ⟨fun _ _ _ _ _ h => ?_, fun _ _ _ _ h => ?_, fun _ _ _ _ _ h => ?_, fun _ _ _ h => ?_,
    fun _ _ _ _ _ h => ?_, fun _ _ _ _ _ _ _ _ _ _ _ _ h => ?_⟩
  · obtain ⟨-, -, -, -, v, hv, -⟩ := (AttachedParts.ok_iff _).1 h.ok; cases hv
  · obtain ⟨-, -, -, v, hv, -⟩ := (Environment.ok_iff _).1 h.ok; cases hv
  · obtain ⟨-, -, -, ⟨v, hv, -⟩, -⟩ := (EnvironmentGeneral.ok_iff _).1 h.ok; cases hv
  · obtain ⟨-, v, hv, -⟩ := (SilentAggregateSystem.ok_iff _).1 h.ok; cases hv
  · obtain ⟨-, -, -, -, -, -, v, hv, -⟩ := (SeparationVP.ok_iff _).1 h.ok; cases hv
  · obtain ⟨-, -, -, ⟨v, hv, -⟩, -⟩ := (DirectedEnergyFirePdu.ok_iff _).1 h.ok; cases hv

/-- The exception is `AttributeError`, or `struct.error` for the separation record, which passes an object
to `struct.pack`. -/
example : (AttachedParts.init 1 2 3 none).serialize.res = .error .attributeError ∧
    (Environment.init 1 2 3).serialize.res = .error .attributeError ∧
    (EnvironmentGeneral.init 1 2 3 (some 4)).serialize.res = .error .attributeError ∧
    (SilentAggregateSystem.init 1 none).serialize.res = .error .attributeError ∧
    (SeparationVP.init 1 2 none none).serialize.res = .error .structError ∧
    (DirectedEnergyFirePdu.init none none 0x3FF0000000000000).serialize.res = .error .attributeError := by
  decide +kernel

/-- **C49.** Four classes have a list argument that cannot be sent unless it is empty. -/
theorem C49_lists_unsendable :
    (∀ l b, (StandardVariableSpecification.init l).serialize.Emits b → l = []) ∧
    (∀ n t l b, (SilentEntitySystem.init n t l).serialize.Emits b → l = []) ∧
    (∀ i f p k a n j s o l b,
      (GridAxisDescriptorVariable.init i f p k a n j s o l).serialize.Emits b → l = []) ∧
    (∀ e c n t r s l b, (IntercomSignalPdu.init e c n t r s l).serialize.Emits b → l = []) := by
  refine ⟨fun _ _ h => ?_, fun _ _ _ _ h => ?_, fun _ _ _ _ _ _ _ _ _ _ _ h => ?_,
    fun _ _ _ _ _ _ _ _ h => ?_⟩
  · exact ((StandardVariableSpecification.ok_iff _).1 h.ok).2
  · exact ((SilentEntitySystem.ok_iff _).1 h.ok).2.2.2
  · exact ((GridAxisDescriptorVariable.ok_iff _).1 h.ok).2.2.2.2.2
  · exact ((IntercomSignalPdu.ok_iff _).1 h.ok).2.2.2.2.2.2.2.2

/-- An intercom signal without data is sent, one with data raises. -/
example : (IntercomSignalPdu.init none 1 2 3 8000 0 []).serialize.res = .ok () ∧
    (IntercomSignalPdu.init none 1 2 3 8000 1 [1]).serialize.res = .error .attributeError := by
  decide +kernel

/-! ## C50 -/

/-- **C50.** The constructor raises, with `ValueError`, exactly when there is no type number: neither an
argument nor an attribute of the class. -/
theorem C50_type_required (c : PduClassAttributes) (v e : Int) (t f : Option Int) (ts l : Int) :
    (t = none ∧ c.pduType = none → PduSuperclass.construct c v e t f ts l = .error .valueError) ∧
    (t ≠ none ∨ c.pduType ≠ none → ∃ o, PduSuperclass.construct c v e t f ts l = .ok o) := by
  obtain ⟨ct, cf⟩ := c
  refine ⟨?_, ?_⟩
  · rintro ⟨rfl, h⟩; cases h; rfl
  · cases t <;> cases ct <;> cases f <;> rintro (h | h) <;>
      first | exact ⟨_, rfl⟩ | exact absurd rfl h

/-- **C50**, the property itself: a header constructed with a type and a family, from the arguments or
the class, is sent with these. The code does not have it. -/
def C50_header_sent : Prop :=
  ∀ (c : PduClassAttributes) (v e : Int) (t f : Option Int) (ts l T F : Int) (o : HeaderObject)
    (b : Bytes), t.or c.pduType = some T → f.or c.protocolFamily = some F →
    PduSuperclass.construct c v e t f ts l = .ok o → o.serialize.Emits b →
    fieldAt b 2 1 = T ∧ fieldAt b 3 1 = F

/-- **C50.** What is sent: the type is the argument or else the attribute of the class; the family is
taken from the argument only if a type is given as well, and from the class only if no type is given. -/
theorem C50_header_sent_partial (c : PduClassAttributes) (v e : Int) (t f : Option Int) (ts l : Int)
    (o : HeaderObject) (hc : PduSuperclass.construct c v e t f ts l = .ok o) (b : Bytes) :
    o.serialize.Emits b ↔ ∃ T F, t.or c.pduType = some T ∧
      (if t.isSome then f else c.protocolFamily) = some F ∧
      (PduSuperclass.serialize
        { protocolVersion := v, exerciseID := e, pduType := T, protocolFamily := F, timestamp := ts,
          length := l }).Emits b := by
  obtain ⟨ct, cf⟩ := c
  have no : ∀ x, ¬ (W.throw x : W Unit).Ok := fun x => W.not_ok_throw x
  cases t with
  | some T =>
    cases f with
    | some F =>
      cases hc
      simp [HeaderObject.serialize, PduSuperclass.serialize, W.using, HeaderAttribute.get]
    | none =>
      cases hc
      simp only [Option.isSome_some, if_true, reduceCtorEq, false_and, and_false, exists_false, iff_false]
      intro h
      obtain ⟨_, _, _, -, h⟩ := W.emits_bind.1 h
      obtain ⟨_, _, _, -, h⟩ := W.emits_bind.1 h
      obtain ⟨_, _, _, -, h⟩ := W.emits_bind.1 h
      obtain ⟨_, _, _, h, -⟩ := W.emits_bind.1 h
      exact no _ h.ok
  | none =>
    cases ct with
    | none => cases hc
    | some T =>
      cases cf with
      | some F =>
        cases f <;> cases hc <;>
          simp [HeaderObject.serialize, PduSuperclass.serialize, W.using, HeaderAttribute.get,
            HeaderAttribute.ofClass]
      | none =>
        simp only [Option.isSome_none, Bool.false_eq_true, if_false, reduceCtorEq, false_and, and_false,
          exists_false, iff_false]
        intro h
        have h' : (⟨v, e, .num T, .absent, ts, l⟩ : HeaderObject).serialize.Emits b := by
          cases f <;> cases hc <;> exact h
        obtain ⟨_, _, _, -, h⟩ := W.emits_bind.1 h'
        obtain ⟨_, _, _, -, h⟩ := W.emits_bind.1 h
        obtain ⟨_, _, _, -, h⟩ := W.emits_bind.1 h
        obtain ⟨_, _, _, h, -⟩ := W.emits_bind.1 h
        exact no _ h.ok

/-- A class with type and family used without arguments; a class without either used with both. -/
example : (∃ o, PduSuperclass.construct { pduType := some 1, protocolFamily := some 1 } = .ok o ∧
      o.serialize = ⟨[7, 0, 1, 1, 0, 0, 0, 0, 0, 0], .ok ()⟩) ∧
    ∃ o, PduSuperclass.construct {} 7 3 (some 2) (some 2) 1000 96 = .ok o ∧
      o.serialize = ⟨[7, 3, 2, 2, 0, 0, 3, 232, 0, 96], .ok ()⟩ :=
  ⟨⟨_, rfl, by decide +kernel⟩, ⟨_, rfl, by decide +kernel⟩⟩

/-- **C50** is violated: a family passed without a type is not used, although the class declares the
type. -/
theorem C50_family_ignored : ¬ C50_header_sent := by
  intro h
  obtain ⟨-, h⟩ := h { pduType := some 1, protocolFamily := some 1 } 7 0 none (some 2) 0 0 1 2 _
    [7, 0, 1, 1, 0, 0, 0, 0, 0, 0] rfl rfl rfl ⟨by decide +kernel, (), by decide +kernel⟩
  revert h; decide +kernel

/-- **C50**, another consequence: passing a type alone makes the object unsendable, although the class
declares the family. -/
theorem C50_type_alone_unsendable (c : PduClassAttributes) (v e ts l T : Int) :
    ∃ o, PduSuperclass.construct c v e (some T) none ts l = .ok o ∧ ∀ b, ¬ o.serialize.Emits b := by
  refine ⟨_, rfl, fun b h => ?_⟩
  obtain ⟨_, _, _, h, -⟩ := (C50_header_sent_partial c v e (some T) none ts l _ rfl b).1 h
  cases h

example : ∃ o, PduSuperclass.construct { pduType := some 1, protocolFamily := some 1 } (pduType := some 1)
    = .ok o ∧ o.serialize.res = .error .structError := ⟨_, rfl, by decide +kernel⟩

/-! ## C51 -/

/-- **C51**, the property itself: every class carries the type number of its message in the standard, and
the factory decodes messages of that type with that class. The code does not have it. -/
def C51_standard : Prop :=
  ∀ (c : PduClass) (t : Int), c.standardType = some t →
    c.pduType = t ∧ PduTypeDecoders.lookup t = some c

/-- **C51** is violated, by exactly five classes: `RecordQueryReliablePdu` carries the number 63 of another
message instead of 65, and the factory does not decode the numbers of the other four with them. -/
theorem C51_exceptions : ¬ C51_standard ∧ ∀ (c : PduClass) (t : Int), c.standardType = some t →
    ((c.pduType ≠ t ↔ c = .RecordQueryReliablePdu) ∧
     (PduTypeDecoders.lookup t ≠ some c ↔ c ∈ [.RecordQueryReliablePdu, .ResupplyOfferPdu,
        .StartResumeReliablePdu, .DirectedEnergyFirePdu, .SeesPdu])) := by
  constructor
  · intro h
    have := (h .RecordQueryReliablePdu 65 rfl).1
    revert this; decide
  · intro c t h
    cases c <;> cases h <;> decide +kernel

/-- **C51.** What holds: a message with the type number of any other class is decoded as an object of that
class, or raises. -/
theorem C51_decoded_partial (d : Bytes) (t : UInt8) (ht : d[2]? = some t) (c : PduClass)
    (hc : c.standardType = some (t.toNat : Int)) (hn : c ∉ [.RecordQueryReliablePdu, .ResupplyOfferPdu,
        .StartResumeReliablePdu, .DirectedEnergyFirePdu, .SeesPdu]) :
    (∃ p, createPdu d = .ok (some p) ∧ p.cls = c) ∨ ∃ e, createPdu d = .error e := by
  have := fun h => hn ((C51_exceptions.2 c _ hc).2.1 h)
  exact ((C19_type_byte_decides d).2 t ht).2 c (Decidable.not_not.1 this)

/-- **C51.** What happens to the others: supplemental emission (30), reliable start (53), record query
(65) and directed energy fire (68) messages are silently dropped, resupply offers (6) are taken for elastic
collisions, records (63) for record queries and environmental processes (41) for point objects. -/
theorem C51_misread (d : Bytes) (t : UInt8) (ht : d[2]? = some t) :
    (t ∈ [30, 53, 65, 68] → createPdu d = .ok none) ∧
    (t = 6 → ∀ p, createPdu d = .ok (some p) → p.cls = .CollisionElasticPdu) ∧
    (t = 63 → ∀ p, createPdu d = .ok (some p) → p.cls = .RecordQueryReliablePdu) ∧
    (t = 41 → ∀ p, createPdu d = .ok (some p) → p.cls = .PointObjectStatePdu) := by
  have cls : ∀ c, PduTypeDecoders.lookup (t.toNat : Int) = some c →
      ∀ p, createPdu d = .ok (some p) → p.cls = c := by
    intro c hc p hp
    rcases ((C19_type_byte_decides d).2 t ht).2 c hc with ⟨q, hq, hqc⟩ | ⟨e, he⟩
    · rw [hp] at hq; cases hq; exact hqc
    · rw [hp] at he; cases he
  refine ⟨fun h => ((C19_type_byte_decides d).2 t ht).1 ?_, ?_, ?_, ?_⟩
  · simp only [List.mem_cons, List.not_mem_nil, or_false] at h
    rcases h with rfl | rfl | rfl | rfl <;> decide +kernel
  · rintro rfl; exact cls _ (by decide +kernel)
  · rintro rfl; exact cls _ (by decide +kernel)
  · rintro rfl; exact cls _ (by decide +kernel)

/-- A fire message is decoded, a start message with reliability is dropped, a record message without
records comes out as a record query. -/
example : (∃ e, createPdu [7, 0, 2, 2] = .error e) ∧ createPdu [7, 0, 53, 10, 0, 0, 0, 0, 0, 0] = .ok none ∧
    ∃ p, createPdu ([7, 0, 63, 10] ++ List.replicate 40 0) = .ok (some p) ∧
      p.cls = .RecordQueryReliablePdu := by
  refine ⟨⟨.structError, by decide +kernel⟩, by decide +kernel, ?_⟩
  have : (createPdu ([7, 0, 63, 10] ++ List.replicate 40 0)).toOption.join.isSome := by decide +kernel
  cases h : createPdu ([7, 0, 63, 10] ++ List.replicate 40 0) with
  | error e => rw [h] at this; cases this
  | ok p =>
    cases p with
    | none => rw [h] at this; cases this
    | some p => exact ⟨p, rfl, (C51_misread _ 63 (by decide)).2.2.1 rfl p h⟩

end Dis
