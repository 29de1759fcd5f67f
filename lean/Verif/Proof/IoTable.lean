import Verif.Proof.Io

/-!
# The table of the streams is the one of the source (C79)
-/

namespace Dis.Io

open Src

/-- A row of the methods that read. -/
def readRow (m : Ident) (args : List Src.Val) : R Src.Val := fun s =>
  match run modules alone 2 (some I.DataInputStream) m (args.map .val) ⟨s, []⟩ with
  | (r, io) => (known r, io.inp)

/-- A row of the methods that write. -/
def writeRow (m : Ident) (v : Src.Val) : W Unit :=
  match run modules alone 2 (some I.DataOutputStream) m [.val v] ⟨⟨[], 0⟩, []⟩ with
  | (r, io) => ⟨io.out, (known r).map fun _ => ()⟩

theorem readRow_eq {α : Type} (m : Ident) (v : α → Src.Val) (r : R α)
    (h : ∀ io, run modules alone 2 (some I.DataInputStream) m [] io = reads (fun x => .val (v x)) r io)
    (body : List Stmt) (hp : find modules (some I.DataInputStream) m = some ⟨[], body⟩) :
    readRow m = reader v r := by
  funext args s
  cases args with
  | nil =>
    rw [readRow, List.map_nil, h, reads]
    show _ = R.bind r _ s
    rw [R.bind]
    rcases r s with ⟨_ | _, _⟩ <;> rfl
  | cons a as =>
    rw [readRow, run, hp]
    rfl

theorem readBytes_eq : readRow I.read_bytes = readerBytes := by
  funext args s
  rcases args with _ | ⟨a, _ | ⟨b, bs⟩⟩
  · rw [readRow, run, show find modules (some I.DataInputStream) I.read_bytes = some DataInputStream.read_bytes from rfl]
    rfl
  · rw [readRow, List.map_cons, List.map_nil, read_bytes_runs, reads]
    generalize readerBytes [a] = r
    show (known ((r s).1.map _), (r s).2) = r s
    rcases r s with ⟨_ | _, _⟩ <;> rfl
  · rw [readRow, run, show find modules (some I.DataInputStream) I.read_bytes = some DataInputStream.read_bytes from rfl]
    cases a <;> rfl

theorem writeRow_eq (m : Ident) (w : Src.Val → W Unit)
    (h : ∀ v io, run modules alone 2 (some I.DataOutputStream) m [.val v] io = writes (w v) io) :
    writeRow m = w := by
  funext v
  rw [writeRow, h, writes]
  rcases w v with ⟨o, _ | _⟩ <;> rfl

theorem treeStreams_eq : treeStreams = streams := by
  have hr : streams.reads.map (fun p => (p.1, readRow p.1)) = streams.reads := by
    show [(I.read_byte, readRow I.read_byte), (I.read_unsigned_byte, readRow I.read_unsigned_byte),
      (I.read_short, readRow I.read_short), (I.read_unsigned_short, readRow I.read_unsigned_short),
      (I.read_int, readRow I.read_int), (I.read_unsigned_int, readRow I.read_unsigned_int),
      (I.read_long, readRow I.read_long), (I.read_uint8, readRow I.read_uint8),
      (I.read_uint16, readRow I.read_uint16), (I.read_uint32, readRow I.read_uint32),
      (I.read_uint64, readRow I.read_uint64), (I.read_float, readRow I.read_float),
      (I.read_double, readRow I.read_double), (I.read_float32, readRow I.read_float32),
      (I.read_float64, readRow I.read_float64), (I.read_bytes, readRow I.read_bytes)] = _
    rw [readRow_eq I.read_byte .int read_byte (read_byte_runs alone 1) _ rfl,
      readRow_eq I.read_unsigned_byte .int read_unsigned_byte (read_unsigned_byte_runs alone 1) _ rfl,
      readRow_eq I.read_short .int read_short (read_short_runs alone 1) _ rfl,
      readRow_eq I.read_unsigned_short .int read_unsigned_short (read_unsigned_short_runs alone 1) _ rfl,
      readRow_eq I.read_int .int read_int (read_int_runs alone 1) _ rfl,
      readRow_eq I.read_unsigned_int .int read_unsigned_int (read_unsigned_int_runs alone 1) _ rfl,
      readRow_eq I.read_long .int read_long (read_long_runs alone 1) _ rfl,
      readRow_eq I.read_uint8 .int read_uint8 (read_uint8_runs alone 0) _ rfl,
      readRow_eq I.read_uint16 .int read_uint16 (read_uint16_runs alone 0) _ rfl,
      readRow_eq I.read_uint32 .int read_uint32 (read_uint32_runs alone 0) _ rfl,
      readRow_eq I.read_uint64 .int read_uint64 (read_uint64_runs alone 0) _ rfl,
      readRow_eq I.read_float .float read_float (read_float_runs alone 1) _ rfl,
      readRow_eq I.read_double .float read_double (read_double_runs alone 1) _ rfl,
      readRow_eq I.read_float32 .float read_float32 (read_float32_runs alone 0) _ rfl,
      readRow_eq I.read_float64 .float read_float64 (read_float64_runs alone 0) _ rfl,
      readBytes_eq]
    rfl
  have hw : streams.writes.map (fun p => (p.1, writeRow p.1)) = streams.writes := by
    show [(I.write_byte, writeRow I.write_byte), (I.write_unsigned_byte, writeRow I.write_unsigned_byte),
      (I.write_short, writeRow I.write_short), (I.write_unsigned_short, writeRow I.write_unsigned_short),
      (I.write_int, writeRow I.write_int), (I.write_unsigned_int, writeRow I.write_unsigned_int),
      (I.write_long, writeRow I.write_long), (I.write_uint8, writeRow I.write_uint8),
      (I.write_uint16, writeRow I.write_uint16), (I.write_uint32, writeRow I.write_uint32),
      (I.write_uint64, writeRow I.write_uint64), (I.write_float, writeRow I.write_float),
      (I.write_double, writeRow I.write_double), (I.write_float32, writeRow I.write_float32),
      (I.write_float64, writeRow I.write_float64), (I.write_bytes, writeRow I.write_bytes)] = _
    rw [writeRow_eq I.write_byte _ (write_byte_runs alone 1),
      writeRow_eq I.write_unsigned_byte _ (write_unsigned_byte_runs alone 1),
      writeRow_eq I.write_short _ (write_short_runs alone 1),
      writeRow_eq I.write_unsigned_short _ (write_unsigned_short_runs alone 1),
      writeRow_eq I.write_int _ (write_int_runs alone 1),
      writeRow_eq I.write_unsigned_int _ (write_unsigned_int_runs alone 1),
      writeRow_eq I.write_long _ (write_long_runs alone 1),
      writeRow_eq I.write_uint8 _ (write_uint8_runs alone 0),
      writeRow_eq I.write_uint16 _ (write_uint16_runs alone 0),
      writeRow_eq I.write_uint32 _ (write_uint32_runs alone 0),
      writeRow_eq I.write_uint64 _ (write_uint64_runs alone 1),
      writeRow_eq I.write_float _ (write_float_runs alone 1),
      writeRow_eq I.write_double _ (write_double_runs alone 1),
      writeRow_eq I.write_float32 _ (write_float32_runs alone 0),
      writeRow_eq I.write_float64 _ (write_float64_runs alone 0),
      writeRow_eq I.write_bytes _ (write_bytes_runs alone 1)]
    rfl
  show StreamTable.mk (streams.reads.map fun p => (p.1, readRow p.1)) (streams.writes.map fun p => (p.1, writeRow p.1)) = _
  rw [hr, hw]

end Dis.Io
