import Verif.Py.Float
import Verif.Py.Object

/-!
# Specification vocabulary

What it means for a reader to accept bytes, for a writer to succeed, and so on. These notions do
not mention any particular class.
-/

namespace Dis

/-- `Reads r b a`: wherever the bytes `b` stand in a stream, running `r` from their start returns
`a` and leaves the position right behind them (specification notion for the read methods,
/repo/opendis/stream.py:27-104). -/
def Reads {α : Type} (r : R α) (b : Bytes) (a : α) : Prop :=
  ∀ pre post, r ⟨pre ++ b ++ post, pre.length⟩ =
    (.ok a, ⟨pre ++ b ++ post, pre.length + b.length⟩)

/-- `w.Emits b`: the writer succeeds and its output is exactly `b` (specification notion for
`serialize` methods, /repo/opendis/dis7.py). -/
def W.Emits {α : Type} (w : W α) (b : Bytes) : Prop := w.out = b ∧ ∃ a, w.res = .ok a

/-- `w.Ok`: the writer does not raise (specification notion, /repo/opendis/dis7.py). -/
def W.Ok {α : Type} (w : W α) : Prop := ∃ a, w.res = .ok a

/-- The reader `r` raises on the whole of `d`, started at its beginning (specification notion,
/repo/opendis/PduFactory.py:84-92). -/
def R.Raises {α : Type} (r : R α) (d : Bytes) : Prop := ∃ e, (r ⟨d, 0⟩).1 = .error e

/-- `r` returns `a` on the data `d` started at its beginning (specification notion,
/repo/opendis/PduFactory.py:84-92). -/
def R.Returns {α : Type} (r : R α) (d : Bytes) (a : α) : Prop := (r ⟨d, 0⟩).1 = .ok a

/-! ## Value ranges of the wire types -/

/-- Fits an unsigned byte ('B', /repo/opendis/stream.py:118). -/
def U8 (v : Int) : Prop := 0 ≤ v ∧ v ≤ 255
/-- Fits a signed byte ('b', /repo/opendis/stream.py:115). -/
def S8 (v : Int) : Prop := -128 ≤ v ∧ v ≤ 127
/-- Fits an unsigned 16-bit integer ('>H', /repo/opendis/stream.py:133). -/
def U16 (v : Int) : Prop := 0 ≤ v ∧ v ≤ 65535
/-- Fits a signed 16-bit integer ('>h', /repo/opendis/stream.py:130). -/
def S16 (v : Int) : Prop := -32768 ≤ v ∧ v ≤ 32767
/-- Fits an unsigned 32-bit integer ('>I', /repo/opendis/stream.py:146). -/
def U32 (v : Int) : Prop := 0 ≤ v ∧ v ≤ 4294967295
/-- Fits a signed 32-bit integer ('>i', /repo/opendis/stream.py:143). -/
def S32 (v : Int) : Prop := -2147483648 ≤ v ∧ v ≤ 2147483647
/-- Fits a signed 64-bit integer ('>q', /repo/opendis/stream.py:136). -/
def S64 (v : Int) : Prop := -9223372036854775808 ≤ v ∧ v ≤ 9223372036854775807
/-- Fits an unsigned 64-bit integer ('>Q', /repo/opendis/stream.py:184). -/
def U64 (v : Int) : Prop := 0 ≤ v ∧ v ≤ 18446744073709551615

/-- The double can be packed as a single without `OverflowError` ('>f', /repo/opendis/stream.py:127);
`C04_float_overflow` characterises these values by their magnitude. -/
def F32Fits (x : F64) : Prop := ∃ y, narrow x = .ok y

/-- The double that comes back after packing `x` as a single and unpacking it
(/repo/opendis/stream.py:127 then :47); `C04_float_nearest` characterises it. -/
def quant (x : F64) : F64 :=
  match narrow x with
  | .ok y => widen y
  | .error _ => x

/-- Not-a-number pattern of a double (value domain of /repo/opendis/stream.py:44). -/
def F64.isNaN (x : F64) : Prop := x.expo = 2047 ∧ x.frac ≠ 0

/-- Signalling-NaN pattern of a single (value domain of /repo/opendis/stream.py:47). -/
def F32.isSNaN (y : F32) : Prop := y.expo = 255 ∧ y.frac ≠ 0 ∧ y.frac < 2 ^ 22

/-- The integer in such an attribute, 0 if it holds an object (/repo/opendis/dis7.py:3600-3621). -/
def IntOr.toIntD {α : Type} : IntOr α → Int
  | .int v => v
  | .obj _ => 0

end Dis
