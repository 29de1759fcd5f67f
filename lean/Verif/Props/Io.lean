import Verif.Proof.IoDecoders
import Verif.Props.Factory

/-!
# C79: the models of the streams and of the factory are the source

The syntax trees of `opendis/stream.py`, `opendis/types.py` and `opendis/PduFactory.py` (`Source/Io.lean`), run by the
interpreter of `Py/Io.lean`, do what the models of the streams (`Model/Stream.lean`) and of the factory
(`Model/Factory.lean`) do. With this the table `streams`, with which C77 runs the trees of the records and PDUs, is what the
source says too (`C79_table`).
-/

namespace Dis

open Src Io

theorem numbered (l : List (String × Ident)) (h : l.map (·.2) = List.range l.length) (s t : String) (i : Ident)
    (hs : (s, i) ∈ l) (ht : (t, i) ∈ l) : s = t := by
  obtain ⟨a, ha, ea⟩ := List.getElem_of_mem hs
  obtain ⟨b, hb, eb⟩ := List.getElem_of_mem ht
  have key : ∀ (j : Nat) (hj : j < l.length), (l[j]).2 = j := fun j hj => by
    have := congrArg (·[j]?) h
    simpa [hj] using this
  have h1 := key a ha
  have h2 := key b hb
  rw [ea] at h1; rw [eb] at h2
  obtain rfl : a = b := h1.symm.trans h2
  exact congrArg Prod.fst (ea.symm.trans eb)

/-- **C79.** Names with different spellings have different numbers, also together with the names of C77. -/
theorem C79_names (s t : String) (i : Ident) (hs : (s, i) ∈ names ++ ioNames) (ht : (t, i) ∈ names ++ ioNames) : s = t :=
  numbered _ (by decide +kernel) s t i hs ht

/-- **C79.** Reading a number: each method of the source reads, returns and raises as the model's method of that name. -/
theorem C79_read (O : World) (n : Nat) (io : Streams) :
    (∀ r ∈ integerReaders, run modules O (n + 2) (some I.DataInputStream) r.1 [] io = reads (fun v => .val (.int v)) r.2 io) ∧
    (∀ r ∈ floatReaders, run modules O (n + 2) (some I.DataInputStream) r.1 [] io = reads (fun v => .val (.float v)) r.2 io) ∧
    run modules O (n + 2) (some I.DataInputStream) I.read_boolean [] io = reads (fun v => .val (.bool v)) read_boolean io := by
  simp only [integerReaders, floatReaders, List.forall_mem_cons]
  refine ⟨⟨read_byte_runs .., read_unsigned_byte_runs .., read_short_runs .., read_unsigned_short_runs .., read_int_runs ..,
    read_unsigned_int_runs .., read_long_runs .., read_int8_runs .., read_int16_runs .., read_int32_runs .., read_int64_runs ..,
    read_uint8_runs .., read_uint16_runs .., read_uint32_runs .., read_uint64_runs .., ?_⟩,
    ⟨read_float_runs .., read_double_runs .., read_float32_runs .., read_float64_runs .., ?_⟩, read_boolean_runs ..⟩ <;> nofun

/-- **C79.** Reading characters and bytes. -/
theorem C79_read_text (O : World) (n : Nat) (io : Streams) :
    run modules O (n + 2) (some I.DataInputStream) I.read_char [] io = reads Io.char read_char io ∧
    run modules O (n + 2) (some I.DataInputStream) I.read_char8 [] io = reads Io.char read_char8 io ∧
    run modules O (n + 2) (some I.DataInputStream) I.read_utf [] io = reads (fun b => .val (.bytes b)) read_utf io ∧
    ∀ k : Int, run modules O (n + 2) (some I.DataInputStream) I.read_bytes [.val (.int k)] io =
      reads (fun b => .val (.bytes b)) (read_bytes k) io := by
  refine ⟨read_char_runs .., read_char8_runs .., read_utf_runs .., fun k => ?_⟩
  rw [read_bytes_runs, reads, reads]
  unfold readerBytes
  simp only [Bind.bind, R.bind]
  rcases read_bytes k io.inp with ⟨_ | _, _⟩ <;> rfl

/-- **C79.** Writing a number: each method writes and raises as the model's method of that name; an integer given to a method
for floats is converted, anything else is refused with `struct.error`. -/
theorem C79_write (O : World) (n : Nat) (v : Src.Val) (io : Streams) :
    (∀ r ∈ integerWriters, run modules O (n + 2) (some I.DataOutputStream) r.1 [.val v] io = writes (packInt r.2 v) io) ∧
    (∀ r ∈ floatWriters, run modules O (n + 2) (some I.DataOutputStream) r.1 [.val v] io = writes (packFloat r.2 v) io) ∧
    ∀ w : Io.Val, run modules O (n + 2) (some I.DataOutputStream) I.write_boolean [w] io = writes (write_boolean (Io.truth w)) io := by
  simp only [integerWriters, floatWriters, List.forall_mem_cons]
  refine ⟨⟨write_byte_runs .., write_unsigned_byte_runs .., write_short_runs .., write_unsigned_short_runs .., write_int_runs ..,
    write_unsigned_int_runs .., write_long_runs .., write_int8_runs .., write_int16_runs .., write_int32_runs ..,
    write_int64_runs .., write_uint8_runs .., write_uint16_runs .., write_uint32_runs .., write_uint64_runs .., ?_⟩,
    ⟨write_float_runs .., write_double_runs .., write_float32_runs .., write_float64_runs .., ?_⟩,
    fun w => write_boolean_runs ..⟩ <;> nofun

/-- **C79.** Writing characters and bytes. -/
theorem C79_write_text (O : World) (n : Nat) (v : Io.Val) (b : Bytes) (io : Streams) :
    run modules O (n + 2) (some I.DataOutputStream) I.write_char [v] io = writes (character write_char v) io ∧
    run modules O (n + 2) (some I.DataOutputStream) I.write_char8 [v] io = writes (character write_char8 v) io ∧
    run modules O (n + 2) (some I.DataOutputStream) I.write_utf [.val (.bytes b)] io = writes (write_utf b) io ∧
    run modules O (n + 2) (some I.DataOutputStream) I.write_bytes [.val (.bytes b)] io = writes (write_bytes b) io :=
  ⟨write_char_runs .., write_char8_runs .., write_utf_runs .., write_bytes_runs O (n + 1) (.bytes b) io⟩

/-- **C79.** The table of C77 is what the trees of the streams do. -/
theorem C79_table : treeStreams = streams := treeStreams_eq

/-- **C79.** `PduTypeDecoders` of the source has the keys and the classes of the model's table, in the same order. -/
theorem C79_decoders (O : World) (C : Io.Call) (io : Streams) :
    eval modules O C (.name I.PduTypeDecoders) ⟨[], io⟩ =
      (.ok (.dict (PduTypeDecoders.map fun p => (p.1, ident p.2))), ⟨[], io⟩) :=
  eval_table rfl

/-- **C79.** `getPdu` of the source, with the objects and the streams of the source, does what the model's does: it returns the
Python object for the model's PDU, or `None`, or raises the same exception, and consumes the same bytes. -/
theorem C79_getPdu (file : Io.Val → Except PyErr Bytes) (k n : Nat) (io : Streams) :
    match getPdu io.inp with
    | (.ok (some x), s) => ∃ v, value x = some v ∧
        run modules (world file k) (n + 2) none I.getPdu [.val .inp] io = (.ok (.val v), ⟨s, io.out⟩)
    | (.ok none, s) => run modules (world file k) (n + 2) none I.getPdu [.val .inp] io = (.ok (.val .none), ⟨s, io.out⟩)
    | (.error e, s) => run modules (world file k) (n + 2) none I.getPdu [.val .inp] io = (.error e, ⟨s, io.out⟩) :=
  getPdu_runs file k n io fun _ _ c _ _ => all_decode c

/-- **C79.** `createPdu` of the source does what the model's does. -/
theorem C79_createPdu (file : Io.Val → Except PyErr Bytes) (k n : Nat) (d : Bytes) (io : Streams) :
    ∃ io', match createPdu d with
    | .ok (some x) => ∃ v, value x = some v ∧
        run modules (world file k) (n + 3) none I.createPdu [.val (.bytes d)] io = (.ok (.val v), io')
    | .ok none => run modules (world file k) (n + 3) none I.createPdu [.val (.bytes d)] io = (.ok (.val .none), io')
    | .error e => run modules (world file k) (n + 3) none I.createPdu [.val (.bytes d)] io = (.error e, io') := by
  rw [createPdu_runs]
  have := C79_getPdu file k n ⟨⟨d, 0⟩, io.out⟩
  unfold createPdu
  revert this
  dsimp only
  rcases getPdu ⟨d, 0⟩ with ⟨e | _ | x, s⟩ <;> exact fun h => ⟨_, h⟩

/-- **C79.** `createPduFromFilePath` of the source does what the model's does with the contents of the file; if the file
cannot be opened it raises what `open` raises. -/
theorem C79_createPduFromFilePath (file : Io.Val → Except PyErr Bytes) (k n : Nat) (p : Io.Val) (io : Streams) :
    (∀ e, file p = .error e →
      run modules (world file k) (n + 3) none I.createPduFromFilePath [p] io = (.error e, io)) ∧
    ∀ d, file p = .ok d → ∃ io', match createPduFromFile d with
    | .ok (some x) => ∃ v, value x = some v ∧
        run modules (world file k) (n + 3) none I.createPduFromFilePath [p] io = (.ok (.val v), io')
    | .ok none => run modules (world file k) (n + 3) none I.createPduFromFilePath [p] io = (.ok (.val .none), io')
    | .error e => run modules (world file k) (n + 3) none I.createPduFromFilePath [p] io = (.error e, io') := by
  rw [createPduFromFilePath_runs]
  refine ⟨fun e he => ?_, fun d hd => ?_⟩
  · show (match file p with | .ok d => _ | .error e => _) = _
    rw [he]
  · have hf : (world file k).file p = .ok d := hd
    rw [hf]
    have := C79_getPdu file k n ⟨⟨d, 0⟩, io.out⟩
    unfold createPduFromFile
    revert this
    dsimp only
    rcases getPdu ⟨d, 0⟩ with ⟨e | _ | x, s⟩ <;> exact fun h => ⟨_, h⟩

/-- **C79.** The round trip in terms of the source alone: what the source writes for the Python object of a PDU, the source's
factory turns back into the same object, whatever follows it (for PDUs as in C21). -/
theorem C79_round_trip (file : Io.Val → Except PyErr Bytes) (k n : Nat) (p : AnyPdu) (v r v' : Src.Val) (hv : value p = some v)
    (hd : p.Decodable) (hc : p.Canon) (hreg : PduTypeDecoders.lookup p.toPdu.pduType = some p.cls) (s s' : InStream)
    (b post : Bytes) (io : Streams)
    (h : (world file k).call (ident p.cls) I.serialize v [.out] [] ⟨s, []⟩ = (.ok r, v', ⟨s', b⟩)) :
    ∃ io', run modules (world file k) (n + 3) none I.createPdu [.val (.bytes (b ++ post))] io = (.ok (.val v), io') := by
  rw [all_serialize file k _ p v hv] at h
  simp only [Prod.mk.injEq, Streams.mk.injEq, List.nil_append] at h
  have hb : p.serialize.Emits b := by
    refine ⟨h.2.2.2, ?_⟩
    rcases hr : p.serialize.res with _ | u
    · rw [hr] at h; cases h.1
    · exact ⟨(), rfl⟩
  have hp := (C21_factory_round_trip p hd hreg b hb post).2 hc
  obtain ⟨io', h'⟩ := C79_createPdu file k n (b ++ post) io
  rw [hp] at h'
  obtain ⟨w, hw, h'⟩ := h'
  obtain rfl : v = w := Option.some.inj (hv.symm.trans hw)
  exact ⟨io', h'⟩

/-! Concrete cases: an entity with a turret through the factory of the source; the trees themselves at work. -/

example (post : Bytes) : ∃ io', run modules (world (fun _ => .error .typeError) 0) 3 none I.createPdu
    [.val (.bytes (exampleBytes ++ post))] ⟨⟨[], 0⟩, []⟩ =
      (.ok (.val (.obj I.EntityStatePdu (EntityStatePdu.fields exampleEntity))), io') := by
  obtain ⟨-, _, hr⟩ := exampleEmits
  refine C79_round_trip _ 0 0 (.EntityStatePdu exampleEntity) _ .none
    (.obj I.EntityStatePdu (EntityStatePdu.fields exampleEntity)) rfl trivial exampleCanon (by decide +kernel) ⟨[], 0⟩ ⟨[], 0⟩
    exampleBytes post _ ((all_serialize _ 0 _ (.EntityStatePdu exampleEntity) _ rfl).trans ?_)
  rw [show (AnyPdu.EntityStatePdu exampleEntity).serialize.res = .ok () from hr]
  rfl

/-- A SINCGARS radio on a directional antenna, through the factory of the source. -/
example (post : Bytes) : ∃ io', run modules (world (fun _ => .error .typeError) 0) 3 none I.createPdu
    [.val (.bytes (exampleTransmitter.serialize.out ++ post))] ⟨⟨[], 0⟩, []⟩ =
      (.ok (.val (.obj I.TransmitterPdu (TransmitterPdu.fields exampleTransmitter))), io') := by
  refine C79_round_trip _ 0 0 (.TransmitterPdu exampleTransmitter) _ .none
    (.obj I.TransmitterPdu (TransmitterPdu.fields exampleTransmitter)) rfl ⟨rfl, rfl, rfl⟩ exampleTransmitter_canon
    (by decide +kernel) ⟨[], 0⟩ ⟨[], 0⟩ exampleTransmitter.serialize.out post _
    ((all_serialize _ 0 _ (.TransmitterPdu exampleTransmitter) _ rfl).trans ?_)
  rw [show (AnyPdu.TransmitterPdu exampleTransmitter).serialize.res = .ok () from exampleTransmitter_emits]
  rfl

set_option linter.constructorNameAsVariable false in
example : ∃ v io', run modules (world (fun _ => .ok (exampleBytes ++ [1, 2, 3])) 0) 3 none I.createPduFromFilePath [.str [97]]
    ⟨⟨[], 0⟩, []⟩ = (.ok (.val v), io') := by
  have key : ∀ d x, createPduFromFile d = .ok (some x) → ∃ v io', run modules (world (fun _ => .ok d) 0) 3 none
      I.createPduFromFilePath [.str [97]] ⟨⟨[], 0⟩, []⟩ = (.ok (.val v), io') := by
    intro d x hp
    obtain ⟨io', h⟩ := (C79_createPduFromFilePath (fun _ => .ok d) 0 0 (.str [97]) ⟨⟨[], 0⟩, []⟩).2 d rfl
    rw [hp] at h
    obtain ⟨v, -, h⟩ := h
    exact ⟨v, io', h⟩
  exact key _ _ ((C21_factory_round_trip (.EntityStatePdu exampleEntity) trivial (by decide +kernel) _ exampleEmits _).2 exampleCanon)

example : run modules alone 2 (some I.DataInputStream) I.read_unsigned_short [] ⟨⟨[7, 1, 44], 1⟩, [9]⟩ =
    (.ok (.val (.int 300)), ⟨⟨[7, 1, 44], 3⟩, [9]⟩) :=
  ((C79_read alone 0 ⟨⟨[7, 1, 44], 1⟩, [9]⟩).1 (I.read_unsigned_short, read_unsigned_short) (by simp [integerReaders])).trans rfl

example : run modules alone 2 (some I.DataOutputStream) I.write_uint16 [.val (.int 300)] ⟨⟨[], 0⟩, [9]⟩ =
    (.ok (.val .none), ⟨⟨[], 0⟩, [9, 1, 44]⟩) :=
  ((C79_write alone 0 (.int 300) ⟨⟨[], 0⟩, [9]⟩).1 (I.write_uint16, write_uint16) (by simp [integerWriters])).trans rfl

example : run modules alone 2 (some I.DataInputStream) I.read_char [] ⟨⟨[0, 65], 0⟩, []⟩ =
    (.ok (.str [65]), ⟨⟨[0, 65], 2⟩, []⟩) :=
  (C79_read_text alone 0 ⟨⟨[0, 65], 0⟩, []⟩).1.trans rfl

example : run modules alone 2 (some I.DataOutputStream) I.write_utf [.val (.bytes [65, 66])] ⟨⟨[], 0⟩, [9]⟩ =
    (.ok (.val .none), ⟨⟨[], 0⟩, [9, 0, 2, 65, 66]⟩) :=
  (C79_write_text alone 0 (.str []) [65, 66] ⟨⟨[], 0⟩, [9]⟩).2.2.1.trans rfl

end Dis
