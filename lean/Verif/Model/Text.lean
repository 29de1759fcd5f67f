import Verif.Model.Records2
import Verif.Py.Text

/-!
# Marking text: `EntityMarking.setString` and `charactersString`

A Python string is the list of its code points; `Py/Text.lean` has the built-ins used (`bytes`, `bytes.decode`).
-/

namespace Dis

/-- The loop of `setString` from index `i`, `n` steps to go, /repo/opendis/dis7.py:1223-1228. -/
def EntityMarking.setStringLoop (new_str : List Int) (i n : Nat) (characters : List Int) :
    Except PyErr (List Int) :=
  match n with
  | 0 => .ok characters
  | n + 1 =>
    match setItem characters i (if h : i < new_str.length then new_str[i] else 0) with
    | .ok characters => EntityMarking.setStringLoop new_str (i + 1) n characters
    | .error e => .error e

/-- `setString`, /repo/opendis/dis7.py:1222-1228; returns the updated object. What an `IndexError`
leaves half-changed is not modelled. -/
def EntityMarking.setString (self : EntityMarking) (new_str : List Int) :
    Except PyErr EntityMarking :=
  match EntityMarking.setStringLoop new_str 0 11 self.characters with
  | .ok characters => .ok { self with characters := characters }
  | .error e => .error e

/-- `charactersString`, /repo/opendis/dis7.py:1230-1231: `filter(None, ...)` drops the zeros. -/
def EntityMarking.charactersString (self : EntityMarking) : Except PyErr (List Int) :=
  match toBytes (self.characters.filter (fun c => c ≠ 0)) with
  | .ok b => utf8Decode b
  | .error e => .error e

end Dis
