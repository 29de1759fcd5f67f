import Verif.Spec.HeapCatalog
import Verif.Model.HeapFactory

/-!
# What a constructor does with its arguments

An object made by a constructor with arguments is the object made without them, with the arguments put in
place of what they stand for (`Param`, `Ctor.built`).
-/

namespace Dis

/-- **Specification for C69.** Truth of a value that is not an object or a list, as in `x or T()` (e.g.
/repo/opendis/dis7.py:3776): `None`, zero, `False` and `b''` are false. -/
def Scalar.truth : Scalar → Bool
  | .absent | .none => false
  | .int v => v ≠ 0
  | .float v => !(v = 0 ∨ v = 0x8000000000000000)
  | .bool b => b
  | .bytes b => !b.isEmpty
  | .cls _ => true

/-- **Specification for C69.** Truth of a value: empty lists are false, objects are true (e.g.
/repo/opendis/dis7.py:3776). -/
def Tree.truth : Tree → Bool
  | .sc v => v.truth
  | .obj _ => true
  | .list ts => !ts.isEmpty

/-- **Specification for C69.** What a constructor does with an argument. -/
inductive Keeps where
  /-- `self.f = x` (e.g. /repo/opendis/dis7.py:3778) -/
  | asIs
  /-- `self.f = x or T()`, `self.f = x or []` (e.g. /repo/opendis/dis7.py:3776) -/
  | orFresh
  /-- `self.f = list(x) if x else []` (/repo/opendis/dis7.py:4992-4996) -/
  | copy
  /-- `self.f = x & 1` (/repo/opendis/dis7.py:3156) -/
  | lowBit

/-- **Specification for C69.** What the attribute is in the end: `u` is what it would be without the argument
(e.g. /repo/opendis/dis7.py:3776). -/
def Keeps.value (k : Keeps) (given : Option Tree) (u : Tree) : Tree :=
  match given with
  | none => u
  | some t =>
    match k, t with
    | .asIs, t => t
    | .orFresh, t => if t.truth then t else u
    | .copy, t => if t.truth then t else u
    | .lowBit, .sc (.int v) => .sc (.int (v % 2))
    | .lowBit, .sc (.bool b) => .sc (.int (if b then 1 else 0))
    | .lowBit, t => t

/-- **Specification for C69.** The arguments with which the constructor does not raise: integers for `x & 1`
and `bool` (/repo/opendis/dis7.py:3156), lists and false values for `list(x) if x else []`
(/repo/opendis/dis7.py:4992-4996; simplified: other iterables are left out). -/
def Keeps.Accepts : Keeps → Tree → Prop
  | .asIs, _ | .orFresh, _ => True
  | .copy, t => t.truth = false ∨ ∃ ts, t = .list ts
  | .lowBit, t => (∃ v, t = .sc (.int v)) ∨ ∃ b, t = .sc (.bool b)

/-- **Specification for C69.** A parameter of a constructor (e.g. /repo/opendis/dis7.py:3770-3776). -/
structure Param where
  /-- its name -/
  name : String
  /-- the attribute it sets, or the attribute of an attribute; `[]` when the constructor ignores it -/
  path : List String
  /-- how it is used -/
  how : Keeps

/-- **Specification for C69.** A value in which what is at `x.f.g` is replaced (no code counterpart). -/
def Tree.change (f : Tree → Tree) : List String → Tree → Tree
  | [], t => f t
  | n :: ns, .obj fs => .obj (fs.map fun a => if a.1 = n then (a.1, Tree.change f ns a.2) else a)
  | _ :: _, t => t

/-- **Specification for C69.** What is at `x.f.g` (no code counterpart). -/
def Tree.at : List String → Tree → Option Tree
  | [], t => some t
  | n :: ns, .obj fs => (attrOf n fs).bind (Tree.at ns)
  | _ :: _, _ => none

/-- **Specification for C69.** A value in which the argument is put where the parameter says (no code
counterpart). -/
def Param.put (p : Param) (given : Option Tree) (t : Tree) : Tree :=
  if p.path = [] then t else t.change (p.how.value given) p.path

/-- A class with its constructor, called with arguments by name (/repo/opendis/dis7.py and
/repo/opendis/record). Arguments by position are the ones with the names of the first parameters. -/
structure Ctor where
  /-- the class -/
  cls : HeapClass
  /-- the parameters of `__init__`, in order, without `self` -/
  params : List Param
  /-- the constructor -/
  new : List (String × Val) → H Ref

/-- A call of a constructor with arguments by name: `TypeError` for a name that is not the name of a parameter
and for a name given twice (semantics of the language, for the constructors of /repo/opendis/dis7.py). -/
def Ctor.call (c : Ctor) (args : List (String × Val)) : H Ref :=
  if (args.map (·.1)).Nodup ∧ ∀ a ∈ args, a.1 ∈ c.params.map (·.name) then c.new args else H.throw .typeError

/-- **Specification for C69.** The object made by the constructor with arguments: the object made without
them, with the arguments put in place (no code counterpart). -/
def Ctor.built (c : Ctor) (args : List (String × Tree)) : Tree :=
  c.params.foldl (fun t p => p.put (attrOf p.name args) t) (.obj (c.cls.members c.cls.value.fresh))

/-- **Specification for C69.** Arguments the constructor takes without raising: each with the name of another
parameter and a value that suits it (no code counterpart). -/
structure Ctor.Takes (c : Ctor) (args : List (String × Tree)) : Prop where
  once : (args.map (·.1)).Nodup
  named : ∀ a ∈ args, a.1 ∈ c.params.map (·.name)
  suits : ∀ p ∈ c.params, ∀ t, attrOf p.name args = some t → p.how.Accepts t

/-- **Specification for C69.** The arguments `args`, which are numbers and the objects and lists `given`, amount
to `trees` (no code counterpart). -/
inductive Gives : List (String × Val) → List (Ref × Tree) → List (String × Tree) → Prop
  | nil : Gives [] [] []
  /-- `n=v` with a number -/
  | sc (n : String) (v : Scalar) {args given trees} : Gives args given trees →
      Gives ((n, .sc v) :: args) given ((n, .sc v) :: trees)
  /-- `n=y` with an object or a list -/
  | ref (n : String) (y : Ref) (t : Tree) {args given trees} : Gives args given trees →
      Gives ((n, .ref y) :: args) ((y, t) :: given) ((n, t) :: trees)

end Dis
