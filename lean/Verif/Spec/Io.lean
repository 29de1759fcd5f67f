import Verif.Source.Io
import Verif.Source.Streams

/-!
# What is compared with the source of the streams and of the factory (C79)

`run modules O n` runs the syntax trees of the functions and methods, nested at most `n` deep; `O` is the world of objects
and files.
-/

namespace Dis.Io

open Src

/-- A call that does to the input stream what `r` does, with the result put as `f` says
(/repo/opendis/stream.py:31-104). -/
def reads {α : Type} (f : α → Val) (r : R α) (io : Streams) : Except PyErr Val × Streams :=
  match r io.inp with
  | (x, s) => (x.map f, ⟨s, io.out⟩)

/-- A call that writes what `w` writes and returns `None` (/repo/opendis/stream.py:111-184). -/
def writes (w : W Unit) (io : Streams) : Except PyErr Val × Streams :=
  (w.res.map fun _ => .val .none, ⟨io.inp, io.out ++ w.out⟩)

/-- A character, for its code point (/repo/opendis/stream.py:40-41). -/
def char (c : Int) : Val := .str [c.toNat]

/-- The methods that read an integer, by name (/repo/opendis/stream.py:34-104). -/
def integerReaders : List (Ident × R Int) :=
  [(I.read_byte, read_byte),
   (I.read_unsigned_byte, read_unsigned_byte),
   (I.read_short, read_short),
   (I.read_unsigned_short, read_unsigned_short),
   (I.read_int, read_int),
   (I.read_unsigned_int, read_unsigned_int),
   (I.read_long, read_long),
   (I.read_int8, read_int8),
   (I.read_int16, read_int16),
   (I.read_int32, read_int32),
   (I.read_int64, read_int64),
   (I.read_uint8, read_uint8),
   (I.read_uint16, read_uint16),
   (I.read_uint32, read_uint32),
   (I.read_uint64, read_uint64)]

/-- The methods that read a float, by name (/repo/opendis/stream.py:43-80). -/
def floatReaders : List (Ident × R F64) :=
  [(I.read_float, read_float),
   (I.read_double, read_double),
   (I.read_float32, read_float32),
   (I.read_float64, read_float64)]

/-- The methods that write an integer, by name (/repo/opendis/stream.py:114-184). -/
def integerWriters : List (Ident × (Int → W Unit)) :=
  [(I.write_byte, write_byte),
   (I.write_unsigned_byte, write_unsigned_byte),
   (I.write_short, write_short),
   (I.write_unsigned_short, write_unsigned_short),
   (I.write_int, write_int),
   (I.write_unsigned_int, write_unsigned_int),
   (I.write_long, write_long),
   (I.write_int8, write_int8),
   (I.write_int16, write_int16),
   (I.write_int32, write_int32),
   (I.write_int64, write_int64),
   (I.write_uint8, write_uint8),
   (I.write_uint16, write_uint16),
   (I.write_uint32, write_uint32),
   (I.write_uint64, write_uint64)]

/-- The methods that write a float, by name (/repo/opendis/stream.py:123-160). -/
def floatWriters : List (Ident × (F64 → W Unit)) :=
  [(I.write_float, write_float),
   (I.write_double, write_double),
   (I.write_float32, write_float32),
   (I.write_float64, write_float64)]

/-- A method that writes a character given by its code point, for any value: what is not a string of length one is refused
(/repo/opendis/stream.py:120, :153). -/
def character (w : Int → W Unit) : Val → W Unit
  | .str [c] => w c
  | _ => W.throw .typeError

/-- A world without objects and files; the streams need none (/repo/opendis/stream.py). -/
def alone : World where
  call _ _ v _ _ io := (.error unsupported, v, io)
  make _ io := (.error unsupported, io)
  file _ := .error unsupported

/-- A value the records and PDUs know (the results of /repo/opendis/stream.py:31-104 except strings). -/
def known : Except PyErr Val → Except PyErr Src.Val
  | .ok (.val v) => .ok v
  | .ok _ => .error unsupported
  | .error e => .error e

/-- The methods of the streams as the trees have them, under the names that the records and PDUs use
(/repo/opendis/stream.py:31-184). -/
def treeStreams : StreamTable where
  reads := streams.reads.map fun p => (p.1, fun args s =>
    match run modules alone 2 (some I.DataInputStream) p.1 (args.map .val) ⟨s, []⟩ with
    | (r, io) => (known r, io.inp))
  writes := streams.writes.map fun p => (p.1, fun v =>
    match run modules alone 2 (some I.DataOutputStream) p.1 [.val v] ⟨⟨[], 0⟩, []⟩ with
    | (r, io) => ⟨io.out, (known r).map fun _ => ()⟩)

end Dis.Io
