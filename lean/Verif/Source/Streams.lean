import Verif.Source.Names
import Verif.Py.Arith

/-!
# The streams, as the source calls them

Names of the methods of `opendis/stream.py` with what they do (`Stream.lean`), and the words of the language.
-/

namespace Dis.Src

/-- The names that mean something to the language (/repo/opendis/dis7.py). -/
def words : Words where
  self := I.self
  init := I.__init__
  cls := I.__class__
  len := I.len
  range := I.range
  list := I.list
  append := I.append
  marshalledSize := I.marshalledSize
  serialize := I.serialize
  parse := I.parse
  module := I.__module__

/-- `struct.pack` with an integer format (/repo/opendis/stream.py:111-146): `struct.error` unless it is given an
integer. -/
def packInt (w : Int → W Unit) : Val → W Unit
  | .int v => w v
  | .bool b => w b.toInt
  | _ => W.throw .structError

/-- An integer where `struct.pack` needs a float; `struct.error` if it is too large. -/
def packIntAsFloat (w : F64 → W Unit) : Option F64 → W Unit
  | some x => w x
  | none => W.throw .structError

/-- `struct.pack` with a float format (/repo/opendis/stream.py:123-127), which applies `float` to its argument. -/
def packFloat (w : F64 → W Unit) : Val → W Unit
  | .float v => w v
  | .int v => packIntAsFloat w (F64.ofInt v)
  | .bool b => packIntAsFloat w (F64.ofInt b.toInt)
  | _ => W.throw .structError

/-- `write_bytes` (/repo/opendis/stream.py:148-150). -/
def packBytes : Val → W Unit
  | .bytes b => write_bytes b
  | _ => W.throw .typeError

/-- A method without arguments that reads a number (/repo/opendis/stream.py:31-66). -/
def reader {α : Type} (v : α → Val) (r : R α) : List Val → R Val
  | [] => do return v (← r)
  | _ => R.throw .typeError

/-- `read_bytes` (/repo/opendis/stream.py:68-70); `None` means everything, and a boolean is an integer. -/
def readerBytes : List Val → R Val
  | [.int n] => do return .bytes (← read_bytes n)
  | [.bool b] => do return .bytes (← read_bytes b.toInt)
  | [.none] => do return .bytes (← read_bytes (-1))
  | _ => R.throw .typeError

/-- The methods of the streams that the records and PDUs use (/repo/opendis/stream.py:31-184). -/
def streams : StreamTable where
  reads :=
   [(I.read_byte, reader .int read_byte),
    (I.read_unsigned_byte, reader .int read_unsigned_byte),
    (I.read_short, reader .int read_short),
    (I.read_unsigned_short, reader .int read_unsigned_short),
    (I.read_int, reader .int read_int),
    (I.read_unsigned_int, reader .int read_unsigned_int),
    (I.read_long, reader .int read_long),
    (I.read_uint8, reader .int read_uint8),
    (I.read_uint16, reader .int read_uint16),
    (I.read_uint32, reader .int read_uint32),
    (I.read_uint64, reader .int read_uint64),
    (I.read_float, reader .float read_float),
    (I.read_double, reader .float read_double),
    (I.read_float32, reader .float read_float32),
    (I.read_float64, reader .float read_float64),
    (I.read_bytes, readerBytes)]
  writes :=
   [(I.write_byte, packInt write_byte),
    (I.write_unsigned_byte, packInt write_unsigned_byte),
    (I.write_short, packInt write_short),
    (I.write_unsigned_short, packInt write_unsigned_short),
    (I.write_int, packInt write_int),
    (I.write_unsigned_int, packInt write_unsigned_int),
    (I.write_long, packInt write_long),
    (I.write_uint8, packInt write_uint8),
    (I.write_uint16, packInt write_uint16),
    (I.write_uint32, packInt write_uint32),
    (I.write_uint64, packInt write_uint64),
    (I.write_float, packFloat write_float),
    (I.write_double, packFloat write_double),
    (I.write_float32, packFloat write_float32),
    (I.write_float64, packFloat write_float64),
    (I.write_bytes, packBytes)]

end Dis.Src
