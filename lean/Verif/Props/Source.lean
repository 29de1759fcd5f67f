import Verif.Proof.SourceDirected
import Verif.Props.InPlace
import Verif.Props.Codecs
import Verif.Source.Table
import Mathlib.Data.List.Nodup

/-!
# C77: the model does what the source text says

`program` holds the syntax trees of the methods of all record and PDU classes, one node for each node of Python's own
syntax trees (`tools/gensource.py`), and `methods program words streams n` runs them (`Py/Source.lean`). The classes of the
model were written method by method from the same text; here they are compared with the trees: `serialize`, `parse` and the
constructor of each class of `sourced` do what the model says, for all objects and all inputs.
-/

namespace Dis

open Src

theorem sourced_lawful : ∀ e ∈ sourced, e.Lawful := by
  intro e he
  simp only [sourced, List.mem_append] at he
  rcases he with (((((h | h) | h) | h) | h) | h) | h
  · exact sourced1_lawful e h
  · exact sourced2_lawful e h
  · exact sourced3_lawful e h
  · exact sourced4_lawful e h
  · exact sourced5_lawful e h
  · exact sourced6_lawful e h
  · exact sourced7_lawful e h

/-- **C77.** The classes that are compared are classes of the catalogue. -/
theorem C77_catalogued : ∀ e ∈ sourced, e.entry ∈ inPlace := by
  intro e he
  simp only [sourced, List.mem_append] at he
  rcases he with (((((h | h) | h) | h) | h) | h) | h
  · exact sourced1_known e h
  · exact sourced2_known e h
  · exact sourced3_known e h
  · exact sourced4_known e h
  · exact sourced5_known e h
  · exact sourced6_known e h
  · exact sourced7_known e h

/-- **C77.** Names with different spellings have different numbers. -/
theorem C77_names (s t : String) (i : Ident) (hs : (s, i) ∈ names) (ht : (t, i) ∈ names) : s = t := by
  have h : names.map (·.2) = List.range names.length := by decide +kernel
  obtain ⟨a, ha, ea⟩ := List.getElem_of_mem hs
  obtain ⟨b, hb, eb⟩ := List.getElem_of_mem ht
  have key : ∀ (j : Nat) (hj : j < names.length), (names[j]).2 = j := fun j hj => by
    have := congrArg (·[j]?) h
    simpa [hj] using this
  have h1 := key a ha
  have h2 := key b hb
  rw [ea] at h1; rw [eb] at h2
  obtain rfl : a = b := h1.symm.trans h2
  exact congrArg Prod.fst (ea.symm.trans eb)

/-- **C77.** Each class of the model is compared with the class of the source that has its name, and no class twice. -/
theorem C77_named : (∀ e ∈ sourced, (e.entry.codec.name, e.cls) ∈ names) ∧ (sourced.map (·.cls)).Nodup ∧
    sourced.length = 166 := by
  refine ⟨fun e he => ?_, by decide +kernel, by decide +kernel⟩
  have h : sourced.all (fun e => names.any fun p => Nat.beq p.2 e.cls && p.1 == e.entry.codec.name) = true := by
    decide +kernel
  obtain ⟨⟨s, i⟩, hp, hq⟩ := List.any_eq_true.1 (List.all_eq_true.1 h e he)
  simp only [Bool.and_eq_true, beq_iff_eq] at hq
  rw [← Nat.eq_of_beq_eq_true hq.1, ← hq.2]
  exact hp

theorem inPlace_names : (inPlace.map (·.codec.name)).Nodup := by decide +kernel

/-- **C77.** Every class of the catalogue is compared. -/
theorem C77_complete (e : InPlace) (he : e ∈ inPlace) : ∃ d ∈ sourced, d.entry = e := by
  have h : inPlace.all (fun e => sourced.any fun d => d.entry.codec.name == e.codec.name) = true := by decide +kernel
  obtain ⟨d, hd, hn⟩ := List.any_eq_true.1 (List.all_eq_true.1 h e he)
  exact ⟨d, hd, List.inj_on_of_nodup_map inPlace_names (C77_catalogued d hd) he (beq_iff_eq.1 hn)⟩

/-- **C77.** `serialize`: run on the Python object that stands for `x`, the source writes the bytes of the model, ends as
the model says, also when it raises, and leaves the object as it was. -/
theorem C77_serialize (e : Sourced) (he : e ∈ sourced) (n : Nat) (x : e.entry.codec.Obj) (io : Streams) :
    methods program words streams (n + 8) e.cls I.serialize (.obj e.cls (e.fields x)) [.out] [] io =
      ((e.entry.codec.serialize x).res.map fun _ => Val.none, .obj e.cls (e.fields x),
        ⟨io.inp, io.out ++ (e.entry.codec.serialize x).out⟩) :=
  (sourced_lawful e he).serialize n x io

/-- **C77.** `parse`: run on the Python object that stands for `x`, the source consumes what the model consumes, ends as
the model says, and leaves the object in the state the model gives, also when it raises half way. -/
theorem C77_parse (e : Sourced) (he : e ∈ sourced) (n : Nat) (x : e.entry.codec.Obj) (io : Streams) :
    methods program words streams (n + 8) e.cls I.parse (.obj e.cls (e.fields x)) [.inp] [] io =
      ((e.entry.into x io.inp).1.map fun _ => Val.none, .obj e.cls (e.fields (e.entry.into x io.inp).2.1),
        ⟨(e.entry.into x io.inp).2.2, io.out⟩) :=
  (sourced_lawful e he).parse n x io

/-- **C77.** Different objects of the model stand for different Python objects, so nothing is lost in the comparison. -/
theorem C77_faithful (e : Sourced) (he : e ∈ sourced) (x y : e.entry.codec.Obj) (h : e.fields x = e.fields y) : x = y :=
  (sourced_lawful e he).inj x y h

/-- **C77.** The constructor without arguments: it makes the object of the model, except that an attribute may hold the
integer 0 for the float 0 or `False` for the integer 0; this object is written like the object of the model, and parsing into it ends as with the object
of the model. -/
theorem C77_construct (e : Sourced) (he : e ∈ sourced) (hm : e.makes = true) :
    ∃ v, SameFields v (e.fields e.entry.codec.fresh) ∧ ∀ n,
      (∀ st, construct program words (methods program words streams (n + 8)) e.cls [] [] st = (.ok (.obj e.cls v), st)) ∧
      (∀ io, methods program words streams (n + 8) e.cls I.serialize (.obj e.cls v) [.out] [] io =
        ((e.entry.codec.serialize e.entry.codec.fresh).res.map fun _ => Val.none, .obj e.cls v,
          ⟨io.inp, io.out ++ (e.entry.codec.serialize e.entry.codec.fresh).out⟩)) ∧
      ∀ io, match e.entry.codec.parse e.entry.codec.fresh io.inp with
        | (.ok x, s) => methods program words streams (n + 8) e.cls I.parse (.obj e.cls v) [.inp] [] io =
            (.ok Val.none, .obj e.cls (e.fields x), ⟨s, io.out⟩)
        | (.error r, s) => ∃ v', methods program words streams (n + 8) e.cls I.parse (.obj e.cls v) [.inp] [] io =
            (.error r, v', ⟨s, io.out⟩) := by
  obtain ⟨v, hs, h⟩ := (sourced_lawful e he).makes hm
  refine ⟨v, hs, fun n => ⟨(h n).1.made, (h n).2.1, fun io => ?_⟩⟩
  obtain ⟨v', h1, h2⟩ := (h n).2.2 io
  have ha := C59_agrees e.entry (C77_catalogued e he) e.entry.codec.fresh io.inp
  rcases hp : e.entry.codec.parse e.entry.codec.fresh io.inp with ⟨_ | x, s⟩ <;> rw [hp] at ha
  · refine ⟨v', h1.trans ?_⟩
    rw [ha.1, ha.2]; rfl
  · refine h1.trans ?_
    rw [h2 () ha.2.1, ha.1, ha.2.1, ha.2.2]; rfl

/-- **C77.** The round trip in terms of the source alone: if `serialize` of an object writes the bytes `b`, then a new object
that parses `b` ends up with the same attributes, and at the end of `b` (for objects as in C08: lists that can be read back,
singles that are singles, defaults in attributes that are not sent). -/
theorem C77_round_trip (e : Sourced) (he : e ∈ sourced) (hm : e.makes = true) (n : Nat) (x : e.entry.codec.Obj)
    (hd : e.entry.codec.Decodable x) (hc : e.entry.codec.Canon x) (s s' : InStream) (b out : Bytes) (r v' : Val)
    (h : methods program words streams (n + 8) e.cls I.serialize (.obj e.cls (e.fields x)) [.out] [] ⟨s, []⟩ =
      (.ok r, v', ⟨s', b⟩)) :
    ∃ v, (∀ st, construct program words (methods program words streams (n + 8)) e.cls [] [] st = (.ok v, st)) ∧
      methods program words streams (n + 8) e.cls I.parse v [.inp] [] ⟨⟨b, 0⟩, out⟩ =
        (.ok Val.none, .obj e.cls (e.fields x), ⟨⟨b, b.length⟩, out⟩) := by
  have hcat : e.entry.codec ∈ catalog := inPlace_codecs ▸ List.mem_map_of_mem (C77_catalogued e he)
  rw [C77_serialize e he] at h
  simp only [Prod.mk.injEq, Streams.mk.injEq, List.nil_append] at h
  have hb : (e.entry.codec.serialize x).Emits b := by
    refine ⟨h.2.2.2, ?_⟩
    rcases hr : (e.entry.codec.serialize x).res with _ | u
    · rw [hr] at h; cases h.1
    · exact ⟨(), rfl⟩
  have hx := C09_consumes_exactly e.entry.codec hcat e.entry.codec.fresh x hd b hb [] []
  rw [(catalog_verified _ hcat).canon x hc] at hx
  obtain ⟨v, -, hv⟩ := C77_construct e he hm
  refine ⟨_, (hv n).1, ?_⟩
  have := (hv n).2.2 ⟨⟨b, 0⟩, out⟩
  simp only [List.nil_append, List.append_nil, List.length_nil, Nat.zero_add] at hx
  rw [hx] at this
  exact this

/-- **C77.** The constructors of two classes raise. -/
theorem C77_raises (n : Nat) (st : St) :
    construct program words (methods program words streams (n + 8)) I.LinearObjectStatePdu [] [] st = (.error .nameError, st) ∧
    construct program words (methods program words streams (n + 8)) I.AttributePdu [] [] st = (.error .valueError, st) := by
  obtain ⟨l, io⟩ := st
  exact ⟨by kernel_rfl, by kernel_rfl⟩

/-- **C77.** `getStandardVariableClass`: for all numbers and each of the three classes expected, the source returns the class
that the model gives, raises what the model raises, and touches neither stream. -/
theorem C77_getStandardVariableClass (n : Nat) (t : Int) (b : SVBase) (io : Streams) :
    methods program words streams (n + 1) I.__module__ I.getStandardVariableClass .none [.int t, .cls (baseClass b)] [] io =
      ((getStandardVariableClass t b).map classVal, .none, io) :=
  getClass n t b io

/-- **C77.** `parseStandardVariableRecord`: on all inputs the source consumes what the model consumes and returns the record
that the model gives, or raises what the model raises. -/
theorem C77_parseStandardVariableRecord (n : Nat) (b : SVBase) (io : Streams) :
    methods program words streams (n + 5) I.__module__ I.parseStandardVariableRecord .none [.inp, .cls (baseClass b)] [] io =
      ((parseStandardVariableRecord b io.inp).1.map svEnc, .none, ⟨(parseStandardVariableRecord b io.inp).2, io.out⟩) :=
  parseRecord n b io

/-- **C77.** `serialize` of a record of any of the five classes that `parseStandardVariableRecord` can return. -/
theorem C77_serializeRecord (n : Nat) (r : SVRecord) (io : Streams) :
    methods program words streams (n + 7) (svClass r) I.serialize (svEnc r) [.out] [] io =
      (r.serialize.res.map fun _ => Val.none, svEnc r, ⟨io.inp, io.out ++ r.serialize.out⟩) :=
  sv_serializes n r io

/-- **C77.** Different records stand for different Python objects. -/
theorem C77_records_faithful (x y : SVRecord) (h : svEnc x = svEnc y) : x = y := svEnc_inj h

/-! Concrete cases: an entity with a turret, and the trees themselves at work. -/

theorem mem_sourced_EntityStatePdu : Sourced.EntityStatePdu ∈ sourced := by
  have : Sourced.EntityStatePdu ∈ sourced4 := by simp [sourced4]
  simp [sourced, this]

example (io : Streams) : methods program words streams 8 I.EntityStatePdu I.serialize
    (.obj I.EntityStatePdu (EntityStatePdu.fields exampleEntity)) [.out] [] io =
      (.ok Val.none, .obj I.EntityStatePdu (EntityStatePdu.fields exampleEntity), ⟨io.inp, io.out ++ exampleBytes⟩) := by
  have h := C77_serialize _ mem_sourced_EntityStatePdu 0 exampleEntity io
  obtain ⟨-, _, hr⟩ := exampleEmits
  rw [show (Sourced.EntityStatePdu.entry.codec.serialize exampleEntity).res = .ok () from hr] at h
  exact h

example : ∃ v, (∀ st, construct program words (methods program words streams 8) I.EntityStatePdu [] [] st = (.ok v, st)) ∧
    methods program words streams 8 I.EntityStatePdu I.parse v [.inp] [] ⟨⟨exampleBytes, 0⟩, []⟩ =
      (.ok Val.none, .obj I.EntityStatePdu (EntityStatePdu.fields exampleEntity), ⟨⟨exampleBytes, exampleBytes.length⟩, []⟩) := by
  have h := C77_serialize _ mem_sourced_EntityStatePdu 0 exampleEntity ⟨⟨[], 0⟩, []⟩
  obtain ⟨-, _, hr⟩ := exampleEmits
  rw [show (Sourced.EntityStatePdu.entry.codec.serialize exampleEntity).res = .ok () from hr] at h
  exact C77_round_trip _ mem_sourced_EntityStatePdu rfl 0 exampleEntity trivial exampleCanon _ _ _ _ _ _ h

example : ∃ v, construct program words (methods program words streams 8) I.EntityStatePdu [] [] ⟨[], ⟨⟨[], 0⟩, []⟩⟩ =
    (.ok v, ⟨[], ⟨⟨[], 0⟩, []⟩⟩) := by
  obtain ⟨v, -, h⟩ := C77_construct _ mem_sourced_EntityStatePdu rfl
  exact ⟨_, (h 0).1 _⟩

example : methods program words streams 8 I.EntityIdentifier I.serialize (.obj I.EntityIdentifier
    [(I.simulationAddress, .obj I.SimulationAddress [(I.site, .int 1), (I.application, .int 2)]), (I.entityNumber, .int 300)])
      [.out] [] ⟨⟨[], 0⟩, [9]⟩ =
    (.ok Val.none, .obj I.EntityIdentifier
    [(I.simulationAddress, .obj I.SimulationAddress [(I.site, .int 1), (I.application, .int 2)]), (I.entityNumber, .int 300)],
      ⟨⟨[], 0⟩, [9, 0, 1, 0, 2, 1, 44]⟩) := by
  kernel_rfl

example : methods program words streams 1 I.__module__ I.getStandardVariableClass .none
    [.int 4000, .cls I.DamageDescriptionRecord] [] ⟨⟨[], 0⟩, []⟩ =
      (.ok (.cls I.DirectedEnergyPrecisionAimpoint), .none, ⟨⟨[], 0⟩, []⟩) :=
  C77_getStandardVariableClass 0 4000 .damageDescription _

example : methods program words streams 1 I.__module__ I.getStandardVariableClass .none
    [.int 3000, .cls I.DamageDescriptionRecord] [] ⟨⟨[], 0⟩, []⟩ = (.error .typeError, .none, ⟨⟨[], 0⟩, []⟩) :=
  C77_getStandardVariableClass 0 3000 .damageDescription _

example : methods program words streams 5 I.__module__ I.parseStandardVariableRecord .none
    [.inp, .cls I.StandardVariableRecord] [] ⟨⟨[0, 0, 0, 7, 0, 8, 5, 6], 0⟩, []⟩ =
      (.ok (.obj I.UnknownStandardVariableRecord [(I.recordType, .int 7), (I.data, .bytes [5, 6])]), .none,
        ⟨⟨[0, 0, 0, 7, 0, 8, 5, 6], 8⟩, []⟩) :=
  (C77_parseStandardVariableRecord 0 .standardVariable _).trans (by kernel_rfl)

/-- A record of a type that the library does not know. -/
def strangeRecord : SVRecord := .unknown { recordType := 7, data := [5, 6] }

example : svClass strangeRecord = I.UnknownStandardVariableRecord ∧
    svEnc strangeRecord = .obj I.UnknownStandardVariableRecord [(I.recordType, .int 7), (I.data, .bytes [5, 6])] := ⟨rfl, rfl⟩

theorem strangeRecord_bytes : strangeRecord.serialize.out = [0, 0, 0, 7, 0, 0, 0, 8, 0, 0, 0, 7, 0, 8, 5, 6] := by kernel_rfl

example (io : Streams) : (methods program words streams 7 (svClass strangeRecord) I.serialize (svEnc strangeRecord) [.out] []
    io).2.2.out = io.out ++ [0, 0, 0, 7, 0, 0, 0, 8, 0, 0, 0, 7, 0, 8, 5, 6] := by
  rw [C77_serializeRecord 0, strangeRecord_bytes]

example : ("EntityStatePdu", I.EntityStatePdu) ∈ names := C77_named.1 _ mem_sourced_EntityStatePdu

end Dis
