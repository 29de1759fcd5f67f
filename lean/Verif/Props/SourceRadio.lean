import Verif.Proof.SourceTransmitter
import Verif.Proof.SourceIntercom
import Verif.Props.Source
import Verif.Props.Transmitter

/-!
# C77 for the two PDUs outside the catalogue: TransmitterPdu and IntercomControlPdu
-/

namespace Dis

open Src

/-- **C77.** `TransmitterPdu.serialize`: the source writes the bytes of the model and ends as the model says, for all
modulation parameters, antenna patterns and variable parameters. -/
theorem C77_transmitter_serialize (n : Nat) (x : TransmitterPdu) (io : Streams) :
    methods program words streams (n + 8) I.TransmitterPdu I.serialize (.obj I.TransmitterPdu (TransmitterPdu.fields x)) [.out] [] io =
      (x.serialize.res.map fun _ => Val.none, .obj I.TransmitterPdu (TransmitterPdu.fields x),
        ⟨io.inp, io.out ++ x.serialize.out⟩) :=
  Src.TransmitterPdu.serializes n x io

/-- **C77.** `TransmitterPdu.parse`: the source chooses the classes of the modulation parameters and of the antenna pattern as
the model does, ends as the model says, and leaves the object in the state the model gives, also when it raises half way. -/
theorem C77_transmitter_parse (n : Nat) (x : TransmitterPdu) (io : Streams) :
    methods program words streams (n + 8) I.TransmitterPdu I.parse (.obj I.TransmitterPdu (TransmitterPdu.fields x)) [.inp] [] io =
      ((TransmitterPdu.parseInto x io.inp).1.map fun _ => Val.none,
        .obj I.TransmitterPdu (TransmitterPdu.fields (TransmitterPdu.parseInto x io.inp).2.1),
        ⟨(TransmitterPdu.parseInto x io.inp).2.2, io.out⟩) :=
  Src.TransmitterPdu.parses n x io

/-- **C77.** `TransmitterPdu()`. -/
theorem C77_transmitter_construct (n : Nat) (st : St) :
    construct program words (methods program words streams (n + 8)) I.TransmitterPdu [] [] st =
      (.ok (.obj I.TransmitterPdu (TransmitterPdu.fields TransmitterPdu.init)), st) :=
  (Src.TransmitterPdu.makes (n + 4)).made st

/-- **C77.** Different transmitter PDUs stand for different Python objects. -/
theorem C77_transmitter_faithful (x y : TransmitterPdu) (h : TransmitterPdu.fields x = TransmitterPdu.fields y) : x = y :=
  Src.TransmitterPdu.inj h

/-- **C77.** The round trip of a transmitter PDU in terms of the source alone (for objects as in C26). -/
theorem C77_transmitter_round_trip (n : Nat) (x : TransmitterPdu) (hd : x.Decodable) (hc : x.Canon) (s s' : InStream)
    (b out : Bytes) (r v' : Val)
    (h : methods program words streams (n + 8) I.TransmitterPdu I.serialize (.obj I.TransmitterPdu (TransmitterPdu.fields x))
      [.out] [] ⟨s, []⟩ = (.ok r, v', ⟨s', b⟩)) :
    ∃ v, (∀ st, construct program words (methods program words streams (n + 8)) I.TransmitterPdu [] [] st = (.ok v, st)) ∧
      methods program words streams (n + 8) I.TransmitterPdu I.parse v [.inp] [] ⟨⟨b, 0⟩, out⟩ =
        (.ok Val.none, .obj I.TransmitterPdu (TransmitterPdu.fields x), ⟨⟨b, b.length⟩, out⟩) := by
  rw [C77_transmitter_serialize] at h
  simp only [Prod.mk.injEq, Streams.mk.injEq, List.nil_append] at h
  have hb : x.serialize.Emits b := by
    refine ⟨h.2.2.2, ?_⟩
    rcases hr : x.serialize.res with _ | u
    · rw [hr] at h; cases h.1
    · exact ⟨(), rfl⟩
  have hx := C26_round_trip_partial x hd b hb [] []
  rw [TransmitterPdu.after_canon hc, ← (C59_transmitter TransmitterPdu.init ⟨b, 0⟩).1] at hx
  simp only [List.nil_append, List.append_nil, List.length_nil, Nat.zero_add] at hx
  refine ⟨_, C77_transmitter_construct n, ?_⟩
  rw [C77_transmitter_parse]
  unfold P.run at hx
  rcases hp : TransmitterPdu.parseInto TransmitterPdu.init ⟨b, 0⟩ with ⟨e | u, y, s1⟩
  · rw [hp] at hx; cases hx
  · rw [hp] at hx
    obtain ⟨h1, h2⟩ := Prod.mk.injEq .. ▸ hx
    cases h1
    subst h2
    rfl

/-- **C77.** `IntercomControlPdu.serialize`: the source writes the bytes of the model and ends as the model says; in particular
it raises `TypeError` after the fixed part when the parameters are not a list. -/
theorem C77_intercom_serialize (n : Nat) (x : IntercomControlPdu) (io : Streams) :
    methods program words streams (n + 8) I.IntercomControlPdu I.serialize (.obj I.IntercomControlPdu (IntercomControlPdu.fields x))
      [.out] [] io =
      (x.serialize.res.map fun _ => Val.none, .obj I.IntercomControlPdu (IntercomControlPdu.fields x),
        ⟨io.inp, io.out ++ x.serialize.out⟩) :=
  Src.IntercomControlPdu.serializes n x io

/-- **C77.** `IntercomControlPdu.parse`. -/
theorem C77_intercom_parse (n : Nat) (x : IntercomControlPdu) (io : Streams) :
    methods program words streams (n + 8) I.IntercomControlPdu I.parse (.obj I.IntercomControlPdu (IntercomControlPdu.fields x))
      [.inp] [] io =
      ((IntercomControlPdu.parseInto x io.inp).1.map fun _ => Val.none,
        .obj I.IntercomControlPdu (IntercomControlPdu.fields (IntercomControlPdu.parseInto x io.inp).2.1),
        ⟨(IntercomControlPdu.parseInto x io.inp).2.2, io.out⟩) :=
  Src.IntercomControlPdu.parses n x io

/-- **C77.** `IntercomControlPdu()`. -/
theorem C77_intercom_construct (n : Nat) (st : St) :
    construct program words (methods program words streams (n + 8)) I.IntercomControlPdu [] [] st =
      (.ok (.obj I.IntercomControlPdu (IntercomControlPdu.fields IntercomControlPdu.init)), st) :=
  (Src.IntercomControlPdu.makes (n + 4)).made st

/-- **C77.** Different intercom control PDUs stand for different Python objects. -/
theorem C77_intercom_faithful (x y : IntercomControlPdu) (h : IntercomControlPdu.fields x = IntercomControlPdu.fields y) :
    x = y :=
  Src.IntercomControlPdu.inj h

/-- **C77.** In terms of the source alone: an intercom control PDU cannot be parsed, whatever the bytes. -/
theorem C77_intercom_raises (n : Nat) (x : IntercomControlPdu) (io : Streams) :
    ∃ e, (methods program words streams (n + 8) I.IntercomControlPdu I.parse
      (.obj I.IntercomControlPdu (IntercomControlPdu.fields x)) [.inp] [] io).1 = .error e := by
  rw [C77_intercom_parse]
  obtain ⟨⟨e, h⟩, -⟩ := C59_intercom x io.inp
  exact ⟨e, by rw [h]; rfl⟩

/-- **C77.** A new intercom control PDU cannot be written either: its parameters are `None`. -/
theorem C77_intercom_fresh (n : Nat) (io : Streams) :
    (methods program words streams (n + 8) I.IntercomControlPdu I.serialize
      (.obj I.IntercomControlPdu (IntercomControlPdu.fields IntercomControlPdu.init)) [.out] [] io).1 = .error .typeError := by
  rw [C77_intercom_serialize]
  have : IntercomControlPdu.init.serialize.res = .error .typeError := by decide +kernel
  rw [this]; rfl

/-! Concrete cases: a SINCGARS radio on a directional antenna, and an intercom with a list of two records. -/

theorem exampleTransmitter_emits : exampleTransmitter.serialize.res = .ok () := by decide +kernel

theorem exampleTransmitter_canon : exampleTransmitter.Canon := by
  refine ⟨?_, ?_, by decide +kernel, by decide +kernel, by decide +kernel, ?_, ?_, ?_, rfl⟩
  · simp only [RadioCommunicationsFamilyPdu.Canon]
  · simp only [Vector3Float.Canon]; decide +kernel
  · simp only [ModulationType.Canon, SpreadSpectrum.Canon]; decide +kernel
  · intro p hp
    cases hp
    trivial
  · intro p hp
    cases hp
    simp only [AntennaPatternRecord.Canon, BeamAntennaPattern.Canon, EulerAngles.Canon]; decide +kernel

example (io : Streams) : methods program words streams 8 I.TransmitterPdu I.serialize
    (.obj I.TransmitterPdu (TransmitterPdu.fields exampleTransmitter)) [.out] [] io =
      (.ok Val.none, .obj I.TransmitterPdu (TransmitterPdu.fields exampleTransmitter),
        ⟨io.inp, io.out ++ exampleTransmitter.serialize.out⟩) := by
  have h := C77_transmitter_serialize 0 exampleTransmitter io
  rwa [exampleTransmitter_emits] at h

example : ∃ v, (∀ st, construct program words (methods program words streams 8) I.TransmitterPdu [] [] st = (.ok v, st)) ∧
    methods program words streams 8 I.TransmitterPdu I.parse v [.inp] [] ⟨⟨exampleTransmitter.serialize.out, 0⟩, []⟩ =
      (.ok Val.none, .obj I.TransmitterPdu (TransmitterPdu.fields exampleTransmitter),
        ⟨⟨exampleTransmitter.serialize.out, exampleTransmitter.serialize.out.length⟩, []⟩) := by
  have h := C77_transmitter_serialize 0 exampleTransmitter ⟨⟨[], 0⟩, []⟩
  rw [exampleTransmitter_emits] at h
  exact C77_transmitter_round_trip 0 exampleTransmitter ⟨rfl, rfl, rfl⟩ exampleTransmitter_canon _ _ _ _ _ _ h

/-- An intercom with a list of two records. -/
def exampleIntercom : IntercomControlPdu :=
  IntercomControlPdu.init (controlType := 1) (intercomParameters := .records [⟨1, 2, 3⟩, ⟨4, 5, 6⟩])

example (io : Streams) : (methods program words streams 8 I.IntercomControlPdu I.serialize
    (.obj I.IntercomControlPdu (IntercomControlPdu.fields exampleIntercom)) [.out] [] io).1 = .ok Val.none := by
  have h := C77_intercom_serialize 0 exampleIntercom io
  rw [h]
  have : exampleIntercom.serialize.res = .ok () := by decide +kernel
  rw [this]; rfl

end Dis
