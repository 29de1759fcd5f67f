import Verif.Spec.SourceCatalog

/-!
# Arguments of constructors (C77)
-/

namespace Dis.Src

/-- An argument that may be `None` (e.g. /repo/opendis/dis7.py:3941). -/
def optArg {α : Type} (enc : α → Val) : Option α → Val
  | .none => .none
  | some x => enc x

/-- A list of arguments that may be `None` (e.g. /repo/opendis/dis7.py:78). -/
def listArg {α : Type} (enc : α → Val) : Option (List α) → Val
  | .none => .none
  | some l => .list (l.map enc)

/-- **Specification for C77.** The parameters get the values `vs` when a function is called with the positional arguments `args` and
the named arguments `kws`: by position as far as these go, then by name, then by default
(e.g. the parameters of /repo/opendis/dis7.py:3940-3947, left out in the calls of :3949-3962). -/
def Supplied : List (Ident × Option Expr) → List Val → List (Ident × Val) → List Val → Prop
  | [], args, _, vs => args = [] ∧ vs = []
  | _ :: ps, a :: args, kws, v :: vs => a = v ∧ Supplied ps args kws vs
  | (x, d) :: ps, [], kws, v :: vs =>
    (look x kws = some v ∨ look x kws = none ∧ ∃ e, d = some e ∧ constant e = some v) ∧ Supplied ps [] kws vs
  | _ :: _, _, _, [] => False

/-- A constructor with its arguments. -/
structure Constructor where
  /-- the class -/
  cls : Sourced
  /-- its parameters (e.g. /repo/opendis/dis7.py:3940-3947) -/
  params : List (Ident × Option Expr)
  /-- the arguments, as the model has them -/
  Args : Type
  /-- the Python values they stand for -/
  values : Args → List Val
  /-- the object the model makes of them -/
  make : Args → cls.entry.codec.Obj

end Dis.Src
