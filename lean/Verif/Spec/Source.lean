import Verif.Source.Streams
import Verif.Source.Program
import Verif.Spec.InPlaceCatalog

/-!
# What is compared with the source (C77)

`program` is the text of the classes as syntax trees, `methods program words streams n` runs it with calls nested at most
`n` deep. The model's classes are those of the catalogue.
-/

namespace Dis.Src

mutual

/-- The same value, except that an integer may stand for the float it equals, as in attributes that a constructor gives
`0` and that are floats otherwise (e.g. /repo/opendis/dis7.py:1135), and a boolean for the integer it equals, as in the
attribute that a constructor gives `False` and that is a number once parsed (/repo/opendis/record/warfare/enums.py:18). -/
inductive Same : Val → Val → Prop
  | refl (v : Val) : Same v v
  | int {i : Int} {f : F64} : F64.ofInt i = some f → Same (.int i) (.float f)
  | bool {b : Bool} : Same (.bool b) (.int b.toInt)
  | obj {c : Ident} {fs gs : List (Ident × Val)} : SameFields fs gs → Same (.obj c fs) (.obj c gs)

/-- The same attributes with the same values in this sense (see `Same`; e.g. /repo/opendis/dis7.py:1135). -/
inductive SameFields : List (Ident × Val) → List (Ident × Val) → Prop
  | nil : SameFields [] []
  | cons {f : Ident} {v w : Val} {fs gs : List (Ident × Val)} :
    Same v w → SameFields fs gs → SameFields ((f, v) :: fs) ((f, w) :: gs)

end

/-- A class of the model with its name in the source and the attributes of its objects (classes of
/repo/opendis/dis7.py and /repo/opendis/record). -/
structure Sourced where
  /-- the class of the model -/
  entry : InPlace
  /-- its name in the source -/
  cls : Ident
  /-- the attributes of the Python object that an object of the model stands for, with their values -/
  fields : entry.codec.Obj → List (Ident × Val)
  /-- the constructor without arguments does not raise -/
  makes : Bool

end Dis.Src
