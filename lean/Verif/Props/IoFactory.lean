import Verif.Proof.IoReceived
import Verif.Props.Received
import Verif.Props.Robustness

/-!
# C79: what the factory of the source does with an arbitrary message

The claims about the factory (C19, C20, C21, C23, C56, C57, C60), stated of the syntax trees alone: `createPdu` of
`opendis/PduFactory.py`, run by the interpreter of `Py/Io.lean` with the streams and the classes of the source.
-/

namespace Dis

open Src Io

/-- **C79 (C19).** The third byte decides: with fewer than three bytes the source raises `struct.error`; with a type that
has no entry in `PduTypeDecoders` it returns `None`; otherwise it returns an object of the class in the table, or raises. -/
theorem C79_type_byte_decides (file : Io.Val → Except PyErr Bytes) (k n : Nat) (d : Bytes) (io : Streams) :
    (d.length < 3 → received file k n d io = .error .structError) ∧
    ∀ t, d[2]? = some t →
      (PduTypeDecoders.lookup (t.toNat : Int) = none → received file k n d io = .ok (.val .none)) ∧
      ∀ c, PduTypeDecoders.lookup (t.toNat : Int) = some c →
        (∃ fs, received file k n d io = .ok (.val (.obj (ident c) fs))) ∨ ∃ e, received file k n d io = .error e := by
  have := received_iff file k n d io
  obtain ⟨h1, h2⟩ := C19_type_byte_decides d
  refine ⟨fun h => received_of_error (h1 h) .., fun t ht => ⟨fun h => ?_, fun c hc => ?_⟩⟩
  · rw [(h2 t ht).1 h] at this; exact this
  · rcases (h2 t ht).2 c hc with ⟨p, hp, rfl⟩ | ⟨e, he⟩
    · rw [hp] at this
      obtain ⟨v, hv, this⟩ := this
      obtain ⟨fs, rfl, -⟩ := value_shape p v hv
      exact .inl ⟨fs, this⟩
    · exact .inr ⟨e, received_of_error he ..⟩

/-- **C79 (C20).** The position of the stream given to `getPdu` of the source does not matter, nor do the caller's streams
to `createPdu`. -/
theorem C79_position_ignored (file : Io.Val → Except PyErr Bytes) (k n : Nat) (d : Bytes) (p q : Nat) (out : Bytes)
    (io io' : Streams) :
    run modules (world file k) (n + 2) none I.getPdu [.val .inp] ⟨⟨d, p⟩, out⟩ =
      run modules (world file k) (n + 2) none I.getPdu [.val .inp] ⟨⟨d, q⟩, out⟩ ∧
    received file k n d io = received file k n d io' := by
  constructor
  · have h := C79_getPdu file k n ⟨⟨d, p⟩, out⟩
    have h' := C79_getPdu file k n ⟨⟨d, q⟩, out⟩
    dsimp only at h h'
    rw [C20_position_ignored d p q] at h
    revert h h'
    rcases getPdu ⟨d, q⟩ with ⟨e | _ | x, s⟩
    · intro h h'; rw [h, h']
    · intro h h'; rw [h, h']
    · rintro ⟨v, hv, h⟩ ⟨w, hw, h'⟩
      obtain rfl : v = w := Option.some.inj (hv.symm.trans hw)
      rw [h, h']
  · have h := received_iff file k n d io
    have h' := received_iff file k n d io'
    revert h h'
    rcases createPdu d with e | _ | x
    · intro h h'; rw [h, h']
    · intro h h'; rw [h, h']
    · rintro ⟨v, hv, h⟩ ⟨w, hw, h'⟩
      obtain rfl : v = w := Option.some.inj (hv.symm.trans hw)
      rw [h, h']

/-- **C79 (C60).** Whenever the source returns an object, its header attributes are the numbers in the first 12 bytes of the
data, and it is of the class in the table for its type. -/
theorem C79_received_header (file : Io.Val → Except PyErr Bytes) (k n : Nat) (d : Bytes) (io : Streams) (v : Src.Val)
    (h : received file k n d io = .ok (.val v)) (hv : v ≠ .none) :
    ∃ c fs, v = .obj (ident c) fs ∧ 12 ≤ d.length ∧ PduTypeDecoders.lookup (fieldAt d 2 1) = some c ∧
      look I.protocolVersion fs = some (.int (fieldAt d 0 1)) ∧ look I.exerciseID fs = some (.int (fieldAt d 1 1)) ∧
      look I.pduType fs = some (.int (fieldAt d 2 1)) ∧ look I.protocolFamily fs = some (.int (fieldAt d 3 1)) ∧
      look I.timestamp fs = some (.int (fieldAt d 4 4)) ∧ look I.length fs = some (.int (fieldAt d 8 2)) ∧
      look I.pduStatus fs = some (.int (fieldAt d 10 1)) ∧ look I.padding fs = some (.int (fieldAt d 11 1)) := by
  obtain ⟨p, hp, hw⟩ := received_obj h hv
  obtain ⟨fs, rfl, hs⟩ := value_shape p v hw
  obtain ⟨hl, h0, h1, h2, h3, h4, h5, h6, h7⟩ := C60_header d p hp
  rw [h0, h1, h2, h3, h4, h5, h6, h7]
  exact ⟨p.cls, fs, rfl, hl, C60_type d p hp, hs⟩

/-- **C79 (C56).** For each type byte, exactly the exceptions of the table are raised by the source, by some message of that
type; whatever the data, it raises `struct.error`, `NameError`, `TypeError` or `ValueError`, or nothing. -/
theorem C79_exceptions (file : Io.Val → Except PyErr Bytes) (k n : Nat) (io : Streams) :
    (∀ (t : UInt8) (e : PyErr),
      (∃ d : Bytes, d[2]? = some t ∧ received file k n d io = .error e) ↔ e ∈ exceptionsOfType t.toNat) ∧
    ∀ d e, received file k n d io = .error e →
      e ∈ [PyErr.structError, .nameError, .typeError, .valueError] ∧
      ((∀ t ∈ [(7 : UInt8), 25, 29, 31, 32, 33, 40, 44, 63, 69], d[2]? ≠ some t) → e = .structError) := by
  refine ⟨fun t e => ?_, fun d e h => C56_only d e (received_error h)⟩
  rw [← C56_exceptions t e]
  exact ⟨fun ⟨d, hd, h⟩ => ⟨d, hd, received_error h⟩, fun ⟨d, hd, h⟩ => ⟨d, hd, received_of_error h ..⟩⟩

/-- **C79 (C23).** Messages of type 44 always raise `NameError` in the source; those of type 32 raise `TypeError` from 37
bytes on and `struct.error` below. -/
theorem C79_never_decoded (file : Io.Val → Except PyErr Bytes) (k n : Nat) (d : Bytes) (io : Streams) :
    (d[2]? = some 44 → received file k n d io = .error .nameError) ∧
    (d[2]? = some 32 → received file k n d io = .error (if d.length < 37 then .structError else .typeError)) :=
  ⟨fun h => received_of_error (C23_linear_object d h) .., fun h => received_of_error (C23_intercom_control d h) ..⟩

/-- **C79 (C21).** A proper beginning of what the source writes for a registered object is never decoded by the source
(for classes other than `TransmitterPdu`). -/
theorem C79_truncated (file : Io.Val → Except PyErr Bytes) (k n : Nat) (p : AnyPdu) (v r v' : Src.Val)
    (hv : value p = some v) (hd : p.Decodable) (hn : p.cls ≠ .TransmitterPdu)
    (hreg : PduTypeDecoders.lookup p.toPdu.pduType = some p.cls) (s s' : InStream) (b t u : Bytes) (io : Streams)
    (h : (world file k).call (ident p.cls) I.serialize v [.out] [] ⟨s, []⟩ = (.ok r, v', ⟨s', b⟩))
    (hb : b = t ++ u) (hu : u ≠ []) : ∃ e, received file k n t io = .error e := by
  rw [all_serialize file k _ p v hv] at h
  simp only [Prod.mk.injEq, Streams.mk.injEq, List.nil_append] at h
  have he : p.serialize.Emits b := by
    refine ⟨h.2.2.2, ?_⟩
    rcases hr : p.serialize.res with _ | u
    · rw [hr] at h; cases h.1
    · exact ⟨(), rfl⟩
  obtain ⟨e, h'⟩ := C21_truncated p hd hn hreg b he t u hb hu
  exact ⟨e, received_of_error h' ..⟩

/-- **C79 (C57).** What the source writes when an object it received is sent on, if it writes it at all, is not longer than
the message it came from (for classes other than `TransmitterPdu` and `EntityDamageStatusPdu`). -/
theorem C79_resend (file : Io.Val → Except PyErr Bytes) (k n : Nat) (d b : Bytes) (io : Streams) (c : Ident)
    (fs : List (Ident × Src.Val)) (r v' : Src.Val) (s s' : InStream)
    (h : received file k n d io = .ok (.val (.obj c fs))) (ht : c ≠ I.TransmitterPdu) (hd : c ≠ I.EntityDamageStatusPdu)
    (hb : (world file k).call c I.serialize (.obj c fs) [.out] [] ⟨s, []⟩ = (.ok r, v', ⟨s', b⟩)) :
    b.length ≤ d.length := by
  obtain ⟨p, hp, hw⟩ := received_obj h (by simp)
  obtain ⟨fs', he, -⟩ := value_shape p _ hw
  obtain ⟨rfl, rfl⟩ : c = ident p.cls ∧ fs = fs' := by simpa using he
  rw [all_serialize file k _ p _ hw] at hb
  simp only [Prod.mk.injEq, Streams.mk.injEq, List.nil_append] at hb
  refine (C57_resend d p hp).2 (fun e => ht (by rw [e]; rfl)) (fun e => hd (by rw [e]; rfl)) b ⟨hb.2.2.2, ?_⟩
  rcases hr : p.serialize.res with _ | u
  · rw [hr] at hb; cases hb.1
  · exact ⟨(), rfl⟩

/-- **C79.** `createPduFromFilePath` of the source returns or raises for a file what `createPdu` does for its contents. -/
theorem C79_file_contents (file : Io.Val → Except PyErr Bytes) (k n : Nat) (p : Io.Val) (d : Bytes) (h : file p = .ok d)
    (io io' : Streams) :
    (run modules (world file k) (n + 3) none I.createPduFromFilePath [p] io).1 = received file k n d io' := by
  obtain ⟨io'', h1⟩ := (C79_createPduFromFilePath file k n p io).2 d h
  have h2 := received_iff file k n d io'
  rw [show createPduFromFile d = createPdu d from rfl] at h1
  revert h1 h2
  rcases createPdu d with e | _ | x
  · intro h1 h2; rw [h1, h2]
  · intro h1 h2; rw [h1, h2]
  · rintro ⟨v, hv, h1⟩ ⟨w, hw, h2⟩
    obtain rfl : v = w := Option.some.inj (hv.symm.trans hw)
    rw [h1, h2]

example (io : Streams) : (run modules (world (fun _ => .ok [7, 1, 44]) 0) 3 none I.createPduFromFilePath [.str [97]] io).1 =
    .error .nameError :=
  (C79_file_contents (fun _ => .ok [7, 1, 44]) 0 0 (.str [97]) _ rfl io io).trans ((C79_never_decoded _ 0 0 _ io).1 rfl)

/-! Concrete cases: an entity state, cut short and with the type of another message. -/

theorem exampleSent (file : Io.Val → Except PyErr Bytes) :
    (world file 0).call I.EntityStatePdu I.serialize (.obj I.EntityStatePdu (EntityStatePdu.fields exampleEntity)) [.out] []
      ⟨⟨[], 0⟩, []⟩ = (.ok .none, .obj I.EntityStatePdu (EntityStatePdu.fields exampleEntity), ⟨⟨[], 0⟩, exampleBytes⟩) := by
  obtain ⟨-, _, hr⟩ := exampleEmits
  refine (all_serialize _ 0 _ (.EntityStatePdu exampleEntity) _ rfl).trans ?_
  rw [show (AnyPdu.EntityStatePdu exampleEntity).serialize.res = .ok () from hr]
  rfl

example (io : Streams) : (∃ fs, received (fun _ => .error .typeError) 0 0 exampleBytes io =
      .ok (.val (.obj I.EntityStatePdu fs)) ∧ look I.pduType fs = some (.int 1)) ∧
    (∃ e, received (fun _ => .error .typeError) 0 0 (exampleBytes.take 100) io = .error e) ∧
    received (fun _ => .error .typeError) 0 0 (exampleBytes.set 2 44) io = .error .nameError ∧
    received (fun _ => .error .typeError) 0 0 (exampleBytes.set 2 200) io = .ok (.val .none) := by
  refine ⟨?_, ?_, (C79_never_decoded _ 0 0 _ io).1 (by decide +kernel),
    ((C79_type_byte_decides _ 0 0 _ io).2 200 (by decide +kernel)).1 (by decide +kernel)⟩
  · have hp := (C21_factory_round_trip (.EntityStatePdu exampleEntity) trivial (by decide +kernel) _ exampleEmits []).2
      exampleCanon
    rw [List.append_nil] at hp
    exact ⟨EntityStatePdu.fields exampleEntity, received_of_obj hp rfl .., congrArg some (congrArg Src.Val.int (by decide +kernel))⟩
  · exact C79_truncated _ 0 0 (.EntityStatePdu exampleEntity) _ _ _ rfl trivial (by decide) (by decide +kernel) ⟨[], 0⟩ _ _ _
      (exampleBytes.drop 100) io (exampleSent _) (List.take_append_drop ..).symm (by decide +kernel)

/-- The entity received and sent on. -/
example (io : Streams) : exampleBytes.length ≤ (exampleBytes ++ [1, 2, 3]).length :=
  C79_resend (fun _ => .error .typeError) 0 0 _ _ io I.EntityStatePdu (EntityStatePdu.fields exampleEntity) _ _ ⟨[], 0⟩ _
    (received_of_obj ((C21_factory_round_trip (.EntityStatePdu exampleEntity) trivial (by decide +kernel) _ exampleEmits
      [1, 2, 3]).2 exampleCanon) rfl ..) (by decide) (by decide) (exampleSent _)

end Dis
