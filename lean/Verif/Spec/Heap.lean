import Verif.Py.Heap

/-!
# What an object in memory amounts to

`Tree` is an object with everything below it, without references. `Holds h v t F` says that the value `v`,
in the memory `h`, amounts to the tree `t`, that this takes the cells `F`, and that no cell is used twice.
-/

namespace Dis

/-- A value with everything below it (e.g. the object of /repo/opendis/dis7.py:4818-4841). -/
inductive Tree where
  | sc (v : Scalar)
  | obj (attrs : List (String × Tree))
  | list (items : List Tree)

/-- **Specification for C66.** The values, one by one, amount to the trees; `F` are the cells of the objects
and lists in them, each used once. -/
inductive HoldsAll (h : Heap) : List Val → List Tree → List Ref → Prop
  | nil : HoldsAll h [] [] []
  | sc (v : Scalar) {vs : List Val} {ts : List Tree} {G : List Ref} :
      HoldsAll h vs ts G → HoldsAll h (.sc v :: vs) (.sc v :: ts) G
  | obj {r : Ref} {d : List (String × Val)} {fs : List (String × Tree)} {F : List Ref}
      {vs : List Val} {ts : List Tree} {G : List Ref} :
      h[r]? = some (.obj d) → d.map (·.1) = fs.map (·.1) →
      HoldsAll h (d.map (·.2)) (fs.map (·.2)) F → r ∉ F →
      HoldsAll h vs ts G → (∀ x ∈ r :: F, x ∉ G) →
      HoldsAll h (.ref r :: vs) (.obj fs :: ts) (r :: F ++ G)
  | list {r : Ref} {us : List Val} {es : List Tree} {F : List Ref}
      {vs : List Val} {ts : List Tree} {G : List Ref} :
      h[r]? = some (.list us) → HoldsAll h us es F → r ∉ F →
      HoldsAll h vs ts G → (∀ x ∈ r :: F, x ∉ G) →
      HoldsAll h (.ref r :: vs) (.list es :: ts) (r :: F ++ G)

/-- **Specification for C66.** The value amounts to the tree and takes the cells `F`, each once. -/
def Holds (h : Heap) (v : Val) (t : Tree) (F : List Ref) : Prop := HoldsAll h [v] [t] F

/-- **Specification for C66.** From memory `h` to `h'` only the cells `F` have changed and new ones were
added; the cells `F'` are among the ones of `F` and the new ones. -/
structure Grows (h : Heap) (F : List Ref) (h' : Heap) (F' : List Ref) : Prop where
  longer : h.length ≤ h'.length
  within : ∀ r ∈ F', r ∈ F ∨ h.length ≤ r
  frame : ∀ r, r < h.length → r ∉ F → h'[r]? = h[r]?

/-- A list of numbers (e.g. /repo/opendis/dis7.py:83). -/
def Tree.ints (l : List Int) : Tree := .list (l.map fun v => .sc (.int v))

/-- A list of objects of one class (e.g. /repo/opendis/dis7.py:3787). -/
def Tree.objs {α : Type} (fs : α → List (String × Tree)) (l : List α) : Tree := .list (l.map fun v => .obj (fs v))

/-- A number in an attribute that may be absent or `None` at first (e.g. /repo/opendis/dis7.py:3200). -/
def Tree.optInt (d : Scalar) : Option Int → Tree
  | none => .sc d
  | some v => .sc (.int v)

/-- An object in an attribute that may be absent (/repo/opendis/dis7.py:2221-2243). -/
def Tree.optObj {α : Type} (fs : α → List (String × Tree)) : Option α → Tree
  | none => .sc .absent
  | some v => .obj (fs v)

/-- An attribute that holds an object or a number (/repo/opendis/dis7.py:3600, :3621). -/
def Tree.intOr {α : Type} (fs : α → List (String × Tree)) : IntOr α → Tree
  | .int v => .sc (.int v)
  | .obj o => .obj (fs o)

end Dis
