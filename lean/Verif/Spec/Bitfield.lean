import Verif.Model.Bitfield

/-! # Specification of bit fields -/

namespace Dis

/-- The values of the fields of widths `ws` given as `vs`: each modulo two to its width, missing
ones zero (specification of /repo/opendis/record/bitfield.py:99-111). -/
def wrapBits : List Nat → List Int → List Int
  | [], _ => []
  | w :: ws, vs => vs.headD 0 % 2 ^ w :: wrapBits ws vs.tail

/-- `vs` holds one value per field of widths `ws`, each within its width (specification of
/repo/opendis/record/bitfield.py:99-111). -/
def BitsFit : List Nat → List Int → Prop
  | [], [] => True
  | w :: ws, v :: vs => (0 ≤ v ∧ v < 2 ^ w) ∧ BitsFit ws vs
  | _, _ => False

/-- A field description `bitfield` may accept: of type INTEGER, an `int` width from 1 to 32
(specification of /repo/opendis/record/bitfield.py:66-74). -/
def FieldDescription.Valid (f : FieldDescription) : Prop :=
  f.isInteger = true ∧ ∃ bits, f.bits = some bits ∧ 1 ≤ bits ∧ bits ≤ 32

/-- The sum of the widths (specification of /repo/opendis/record/bitfield.py:73). -/
def totalBits (fields : List FieldDescription) : Int := (fields.map (·.bits.getD 0)).sum

/-- Number of the least significant bit of field `i`: the widths of the fields behind it (a big-endian
`ctypes` structure starts with the most significant bits, /repo/opendis/record/bitfield.py:99). -/
def lowBit (ws : List Nat) (i : Nat) : Nat := (ws.drop (i + 1)).sum

end Dis
