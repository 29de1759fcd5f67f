import Verif.Spec.Heap

/-!
# Numbers of other types

`True` in the place of an integer, integers and truth values in the place of floats.
-/

namespace Dis

/-- **Specification for C68.** The value `v` is written as `w` is: it is `w`, or an integer or truth value in the
place of the nearest double, or a truth value in the place of 0 or 1, or these in the place of a truth value. -/
inductive Scalar.As : Scalar → Scalar → Prop
  | refl (v : Scalar) : Scalar.As v v
  | int {n : Int} {x : F64} : F64.ofInt n = some x → Scalar.As (.int n) (.float x)
  | boolFloat {b : Bool} {x : F64} : F64.ofInt b.toInt = some x → Scalar.As (.bool b) (.float x)
  | bool (b : Bool) : Scalar.As (.bool b) (.int b.toInt)
  | intBool (b : Bool) : Scalar.As (.int b.toInt) (.bool b)

/-- **Specification for C68.** The trees, one by one, have the same attributes and elements, up to the types of
numbers. -/
inductive Tree.AsAll : List Tree → List Tree → Prop
  | nil : Tree.AsAll [] []
  | sc {v w : Scalar} {ts us : List Tree} : v.As w → Tree.AsAll ts us → Tree.AsAll (.sc v :: ts) (.sc w :: us)
  | obj {fs gs : List (String × Tree)} {ts us : List Tree} : fs.map (·.1) = gs.map (·.1) →
      Tree.AsAll (fs.map (·.2)) (gs.map (·.2)) → Tree.AsAll ts us → Tree.AsAll (.obj fs :: ts) (.obj gs :: us)
  | list {es ds : List Tree} {ts us : List Tree} : Tree.AsAll es ds → Tree.AsAll ts us →
      Tree.AsAll (.list es :: ts) (.list ds :: us)

/-- **Specification for C68.** The trees have the same attributes and elements, up to the types of numbers. -/
def Tree.As (t u : Tree) : Prop := Tree.AsAll [t] [u]

end Dis
