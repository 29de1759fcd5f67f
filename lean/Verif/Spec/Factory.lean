import Verif.Spec.AnyPdu
import Verif.Spec.Streams

/-! # Specification vocabulary for messages and the factory -/

namespace Dis

/-- The unsigned big-endian number in the `n` bytes of `b` from offset `off`: how a count or header
field of a message is found (e.g. written by /repo/opendis/dis7.py:3462-3469). -/
def fieldAt (b : Bytes) (off n : Nat) : Int := beValue ((b.drop off).take n)

/-- A message type the factory can decode only as long as no list element is announced:
shorter messages than the fixed part raise `struct.error`, messages announcing an element raise
`NameError`, the others are decoded (/repo/opendis/PduFactory.py:84-92 with the `null()` calls of
/repo/opendis/dis7.py:4278, :4353, :6579, :6860-6868, :7297). -/
def DecodesOnlyEmpty (t : UInt8) (c : PduClass) (size : Nat) (announces : Bytes → Prop) : Prop :=
  ∀ d : Bytes, d[2]? = some t →
    (d.length < size → createPdu d = .error .structError) ∧
    (size ≤ d.length → announces d → createPdu d = .error .nameError) ∧
    (size ≤ d.length → ¬ announces d → ∃ p, createPdu d = .ok (some p) ∧ p.cls = c)

end Dis
