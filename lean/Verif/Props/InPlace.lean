import Verif.Proof.InPlaceCatalog

/-!
# C59: a parse that fails half-way

`parse` changes the object it is called on statement by statement. When it raises, for instance because
the message is cut short, the object keeps what was assigned before. Here the parse methods are programs
on objects (`Verif.Py.InPlace`), and the theorems are about every sequence of calls of `parse` on one
object, each with any stream, each succeeding or raising.
-/

namespace Dis

/-- **Specification for C59.** The objects `o` can become by calls of `parse`, whatever the streams
contain and however the calls end. -/
inductive InPlace.Reaches (e : InPlace) (o : e.codec.Obj) : e.codec.Obj → Prop
  | start : Reaches e o o
  | parse {x : e.codec.Obj} (s : InStream) : Reaches e o x → Reaches e o (e.into x s).2.1

/-- **C59.** The catalogue of programs has the classes of `catalog`, one by one. -/
theorem C59_catalog : inPlace.map (·.codec) = catalog := inPlace_codecs

/-- **C59.** In every class the program ends as the `parse` of the other theorems: at the same position,
with the same exception, or else with the object being the result. -/
theorem C59_agrees (e : InPlace) (he : e ∈ inPlace) (o : e.codec.Obj) (s : InStream) :
    (e.into o s).2.2 = (e.codec.parse o s).2 ∧
    match (e.codec.parse o s).1 with
    | .ok x => (e.into o s).1 = .ok () ∧ (e.into o s).2.1 = x
    | .error r => (e.into o s).1 = .error r := by
  rw [← (inPlace_lawful e he).agrees o, P.run]
  rcases e.into o s with ⟨_ | _, x, s'⟩
  · exact ⟨rfl, rfl⟩
  · exact ⟨rfl, rfl, rfl⟩

/-- **C59.** No sequence of parses changes an attribute that the class does not read from the stream, or
removes or changes an element of a list: lists only get longer. -/
theorem C59_since (e : InPlace) (he : e ∈ inPlace) (o x : e.codec.Obj) (h : e.Reaches o x) :
    e.Since o x := by
  have l := inPlace_lawful e he
  induction h with
  | start => exact l.refl o
  | parse s _ ih => exact l.trans _ _ _ ih (l.since _ s)

/-- **C59.** Whether a message is accepted, the exception if it is not, and how many bytes are consumed,
do not depend on the object `parse` is called on. -/
theorem C59_ends (e : InPlace) (he : e ∈ inPlace) (o x : e.codec.Obj) (s : InStream) :
    (e.into o s).2.2 = (e.into x s).2.2 ∧ (e.into o s).1 = (e.into x s).1 := by
  have h := (inPlace_lawful e he).blind o x s
  have h1 := C59_agrees e he o s
  have h2 := C59_agrees e he x s
  revert h h1 h2
  rcases e.codec.parse o s with ⟨_ | _, s1⟩ <;> rcases e.codec.parse x s with ⟨_ | _, s2⟩ <;>
    rintro ⟨h, h'⟩ h1 h2
  · exact ⟨h1.1.trans (h.trans h2.1.symm), h1.2.trans ((congrArg _ h').trans h2.2.symm)⟩
  · exact h'.elim
  · exact h'.elim
  · exact ⟨h1.1.trans (h.trans h2.1.symm), h1.2.1.trans h2.2.1.symm⟩

/-- **C59.** In a class without lists earlier parses leave no trace: an object that was parsed before, even
unsuccessfully, parses every stream exactly as it did at first. -/
theorem C59_reuse (e : InPlace) (he : e ∈ inPlace) (hl : e.lists = false) (o x : e.codec.Obj)
    (h : e.Reaches o x) : e.codec.parse x = e.codec.parse o := by
  have l := inPlace_lawful e he
  have := l.again o x (C59_since e he o x h)
  rwa [l.plain hl] at this

/-- **C59.** In the other classes the only trace earlier parses leave is what they appended to lists: with
the lists cut back the object parses every stream exactly as it did at first. -/
theorem C59_leftovers (e : InPlace) (he : e ∈ inPlace) (o x : e.codec.Obj) (h : e.Reaches o x) :
    e.codec.parse (e.trim o x) = e.codec.parse o :=
  (inPlace_lawful e he).again o x (C59_since e he o x h)

/-- **C59.** How many classes there are of each kind. -/
theorem C59_kinds : (inPlace.filter (·.lists)).length = 45 ∧ inPlace.length = 166 := ⟨rfl, rfl⟩

/-- **C59.** The same for the two classes outside the catalogue: how the parse ends, what stays, and how a
later parse goes. -/
theorem C59_transmitter (o : TransmitterPdu) (s : InStream) :
    P.run TransmitterPdu.parseInto o = TransmitterPdu.parse o ∧
    TransmitterPdu.Since o (TransmitterPdu.parseInto o s).2.1 ∧
    Blind TransmitterPdu.parse ∧
    ∀ x, TransmitterPdu.Since o x →
      TransmitterPdu.parse (TransmitterPdu.trim o x) = TransmitterPdu.parse o :=
  ⟨o.into, o.since s, TransmitterPdu.blind, fun _ h => TransmitterPdu.again h⟩

private theorem raises_bind {σ α β} {p : P σ α} {k : α → P σ β}
    (h : ∀ a o s, ∃ e, (k a o s).1 = .error e) (o : σ) (s : InStream) : ∃ e, ((p >>= k) o s).1 = .error e := by
  rw [P.bind_def, P.bind]
  rcases p o s with ⟨e | a, o', s'⟩
  · exact ⟨e, rfl⟩
  · exact h a o' s'

/-- **C59.** `IntercomControlPdu.parse` raises whatever the stream and the object, yet attributes it does not
read stay. -/
theorem C59_intercom (o : IntercomControlPdu) (s : InStream) :
    (∃ e, (IntercomControlPdu.parseInto o s).1 = .error e) ∧
    IntercomControlPdu.Since o (IntercomControlPdu.parseInto o s).2.1 ∧
    P.run IntercomControlPdu.parseInto o = IntercomControlPdu.parse o := by
  refine ⟨?_, o.since s, o.into⟩
  revert o s
  unfold IntercomControlPdu.parseInto
  iterate 20 refine raises_bind fun _ => ?_
  exact fun o s => ⟨.typeError, rfl⟩

/-- The case the theorems are about: a first call raises half-way, the second one succeeds. Four of the
six bytes of an identifier, then all six: the second result is the one a fresh object gives. -/
example :
    let x := (EntityIdentifier.parseInto EntityIdentifier.init ⟨[0, 9, 0, 8], 0⟩).2.1
    (EntityIdentifier.parseInto EntityIdentifier.init ⟨[0, 9, 0, 8], 0⟩).1 = .error .structError ∧
    x ≠ EntityIdentifier.init ∧ InPlace.EntityIdentifier.Reaches EntityIdentifier.init x ∧
    (EntityIdentifier.parseInto x ⟨[0, 1, 0, 2, 0, 3], 0⟩).2.1 =
      EntityIdentifier.init (some (SimulationAddress.init 1 2)) 3 :=
  ⟨by decide +kernel, by decide +kernel, .parse (e := .EntityIdentifier) _ .start, by decide +kernel⟩

example : InPlace.EntityIdentifier ∈ inPlace ∧ InPlace.EntityIdentifier.lists = false ∧
    InPlace.DataQueryDatumSpecification ∈ inPlace ∧
    InPlace.DataQueryDatumSpecification.lists = true := by
  simp [inPlace, inPlaceCommon, inPlaceRecords1, InPlace.EntityIdentifier,
    InPlace.DataQueryDatumSpecification]

/-- **C59, violated in the code.** One would expect a call of `parse` that raises to leave the object as
it was. It does not: after a message cut short the identifier (3, 44, 5) has become (9, 8, 5), which is
neither the old nor a received one. -/
theorem C59_unchanged_violated :
    ¬ ∀ e ∈ inPlace, ∀ o s err, (e.into o s).1 = .error err → (e.into o s).2.1 = o := by
  intro h
  have := h .EntityIdentifier (by simp [inPlace, inPlaceCommon])
    (EntityIdentifier.init (some (SimulationAddress.init 3 44)) 5) ⟨[0, 9, 0, 8], 0⟩ .structError
    (by decide +kernel)
  exact absurd this (by
    show ¬ (EntityIdentifier.parseInto _ _).2.1 = (_ : EntityIdentifier)
    decide +kernel)

/-- What it became. -/
example : (EntityIdentifier.parseInto (EntityIdentifier.init (some (SimulationAddress.init 3 44)) 5)
      ⟨[0, 9, 0, 8], 0⟩).2.1 = EntityIdentifier.init (some (SimulationAddress.init 9 8)) 5 := by
  decide +kernel

/-- **C59, violated in the code.** `C59_reuse` does not extend to classes with lists: a message with two
numbers is cut short in the second one and then received in full; the object then has three. -/
theorem C59_reuse_violated :
    ¬ ∀ e ∈ inPlace, ∀ o x, e.Reaches o x → e.codec.parse x = e.codec.parse o := by
  intro h
  have := h .DataQueryDatumSpecification (by simp [inPlace, inPlaceRecords1])
    DataQueryDatumSpecification.init _
    (.parse (e := .DataQueryDatumSpecification) ⟨[0, 0, 0, 2, 0, 0, 0, 0, 0, 0, 0, 7, 0, 0, 0], 0⟩ .start)
  have := congrFun this ⟨[0, 0, 0, 2, 0, 0, 0, 0, 0, 0, 0, 7, 0, 0, 0, 8], 0⟩
  exact absurd this (by
    show ¬ DataQueryDatumSpecification.parse (DataQueryDatumSpecification.parseInto _ _).2.1 _ =
      DataQueryDatumSpecification.parse DataQueryDatumSpecification.init _
    decide +kernel)

/-- The numbers it has. -/
example : (DataQueryDatumSpecification.parseInto
      (DataQueryDatumSpecification.parseInto DataQueryDatumSpecification.init
        ⟨[0, 0, 0, 2, 0, 0, 0, 0, 0, 0, 0, 7, 0, 0, 0], 0⟩).2.1
      ⟨[0, 0, 0, 2, 0, 0, 0, 0, 0, 0, 0, 7, 0, 0, 0, 8], 0⟩).2.1.fixedDatumIDs = [7, 7, 8] := by
  decide +kernel

end Dis
