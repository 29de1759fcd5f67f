import Verif.Stream

/-!
# Strings: the built-ins that `EntityMarking` uses

A Python string is the list of its code points.
-/

namespace Dis

/-- `l[i] = v` for a non-negative index: `IndexError` beyond the end
(/repo/opendis/dis7.py:1225 and :1227). -/
def setItem {α : Type} (l : List α) (i : Nat) (v : α) : Except PyErr (List α) :=
  if i < l.length then .ok (l.set i v) else .error .indexError

/-- `bytes(iterable of ints)`: `ValueError` for a number outside 0..255
(/repo/opendis/dis7.py:1231). -/
def toBytes : List Int → Except PyErr Bytes
  | [] => .ok []
  | v :: vs =>
    if 0 ≤ v ∧ v < 256 then
      match toBytes vs with
      | .ok bs => .ok (UInt8.ofNat v.toNat :: bs)
      | .error e => .error e
    else .error .valueError

/-- A decoded character in front of the decoded rest (/repo/opendis/dis7.py:1231). -/
def consChar (c : Nat) : Except PyErr (List Int) → Except PyErr (List Int)
  | .ok cs => .ok ((c : Int) :: cs)
  | .error e => .error e

/-- `lo ≤ x ≤ hi` (byte ranges of the UTF-8 decoder behind /repo/opendis/dis7.py:1231). -/
abbrev within (lo hi x : Nat) : Prop := lo ≤ x ∧ x ≤ hi

/-- `b.decode("utf-8")`, strict: well-formed sequences of one to four bytes (no overlong forms, no
surrogates, nothing above U+10FFFF), `UnicodeDecodeError` otherwise (/repo/opendis/dis7.py:1231). -/
def utf8Decode : Bytes → Except PyErr (List Int)
  | [] => .ok []
  | a :: r =>
    if a.toNat < 0x80 then consChar a.toNat (utf8Decode r)
    else match r with
      | [] => .error .unicodeDecodeError
      | b :: r =>
        if within 0xC2 0xDF a.toNat ∧ within 0x80 0xBF b.toNat then
          consChar ((a.toNat - 0xC0) * 64 + (b.toNat - 0x80)) (utf8Decode r)
        else match r with
          | [] => .error .unicodeDecodeError
          | c :: r =>
            if (a.toNat = 0xE0 ∧ within 0xA0 0xBF b.toNat
                ∨ (within 0xE1 0xEC a.toNat ∨ within 0xEE 0xEF a.toNat) ∧ within 0x80 0xBF b.toNat
                ∨ a.toNat = 0xED ∧ within 0x80 0x9F b.toNat) ∧ within 0x80 0xBF c.toNat then
              consChar ((a.toNat - 0xE0) * 4096 + (b.toNat - 0x80) * 64 + (c.toNat - 0x80))
                (utf8Decode r)
            else match r with
              | [] => .error .unicodeDecodeError
              | d :: r =>
                if (a.toNat = 0xF0 ∧ within 0x90 0xBF b.toNat
                    ∨ within 0xF1 0xF3 a.toNat ∧ within 0x80 0xBF b.toNat
                    ∨ a.toNat = 0xF4 ∧ within 0x80 0x8F b.toNat)
                    ∧ within 0x80 0xBF c.toNat ∧ within 0x80 0xBF d.toNat then
                  consChar ((a.toNat - 0xF0) * 262144 + (b.toNat - 0x80) * 4096
                    + (c.toNat - 0x80) * 64 + (d.toNat - 0x80)) (utf8Decode r)
                else .error .unicodeDecodeError

end Dis
