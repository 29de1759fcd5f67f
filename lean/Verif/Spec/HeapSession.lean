import Verif.Py.HeapUser
import Verif.Spec.HeapCtors
import Verif.Spec.HeapFactory
import Verif.Model.HeapFactory

/-!
# Programs that use the library, with objects in memory and without

`Session h l`: a program that uses the library may have brought the memory to `h`, and `l` are the objects
and lists it has, each with what it would be if every object were a value of its own. The program creates
objects, with arguments or without, and lists, makes PDUs of messages with the factory, parses data into
objects, replaces numbers, list elements and nested objects at any depth, and appends to lists. What it does not do is put one object in two places.
-/

namespace Dis

open H (Step Place)

/-- **Specification for C66.** An attribute or an element of a value (no code counterpart). -/
def Tree.step : Tree → Step → Option Tree
  | .obj fs, .attr n =>
    match attrOf n fs with
    | some (.sc .absent) => none
    | t => t
  | .list ts, .item i => ts[i]?
  | _, _ => none

/-- **Specification for C66.** `t.f.g[i].k` (no code counterpart). -/
def Tree.get (t : Tree) : List Step → Option Tree
  | [] => some t
  | p :: ps => (t.step p).bind fun u => u.get ps

/-- **Specification for C66.** The value with something replaced in it or appended to it (no code
counterpart). -/
def Tree.put (t : Tree) (pl : Place) (u : Tree) : Option Tree :=
  match t, pl with
  | .obj fs, .attr n => if (attrOf n fs).isSome then some (.obj (putAttr n u fs)) else none
  | .list ts, .item i => if i < ts.length then some (.list (ts.set i u)) else none
  | .list ts, .last => some (.list (ts ++ [u]))
  | _, _ => none

/-- **Specification for C66.** The value with something replaced in `t.f.g[i]` (no code counterpart). -/
def Tree.putAt (t : Tree) (path : List Step) (pl : Place) (u : Tree) : Option Tree :=
  match path with
  | [] => t.put pl u
  | .attr n :: ps => (t.step (.attr n)).bind fun c => (c.putAt ps pl u).bind fun c' => t.put (.attr n) c'
  | .item i :: ps => (t.step (.item i)).bind fun c => (c.putAt ps pl u).bind fun c' => t.put (.item i) c'

/-- **Specification for C66.** The object or list `x` is `r`, or an attribute or element of `r`, or one of
an attribute or element of `r`, and so on (no code counterpart). -/
inductive Reach (h : Heap) : Ref → Ref → Prop
  | here (r : Ref) : Reach h r r
  | attr {r q x : Ref} {d : List (String × Val)} {n : String} : h[r]? = some (.obj d) → (n, .ref q) ∈ d →
      Reach h q x → Reach h r x
  | item {r q x : Ref} {vs : List Val} : h[r]? = some (.list vs) → .ref q ∈ vs → Reach h q x → Reach h r x

/-- **Specification for C66.** A program that uses the library has brought the memory to `h` and has the
objects and lists `l`, each with its value. -/
inductive Session : Heap → List (Ref × Tree) → Prop
  /-- at first the program has nothing; the memory is arbitrary -/
  | start (h : Heap) : Session h []
  /-- the order does not matter -/
  | perm {h l l'} : Session h l → l.Perm l' → Session h l'
  /-- an object is no longer used -/
  | forget {h x l} : Session h (x :: l) → Session h l
  /-- `x = T()` -/
  | new {h l} (c : HeapClass) {s r h' s'} : Session h l → c ∈ heapClasses → c.new h s = (.ok r, h', s') →
      Session h' ((r, .obj (c.members c.value.fresh)) :: l)
  /-- `x = T(f=1, g=y)`, where `y` is not used in any other way -/
  | construct {h l} (c : Ctor) {args given trees s r h' s'} : c ∈ heapCtors → Gives args given trees →
      c.Takes trees → Session h (given ++ l) → c.call args h s = (.ok r, h', s') →
      Session h' ((r, c.built trees) :: l)
  /-- `x = []` -/
  | newList {h l} : Session h l → Session (h ++ [.list []]) ((h.length, .list []) :: l)
  /-- `x = createPdu(data)`, or `x = getPdu(stream)` with any stream, when the result is a PDU -/
  | get {h l} (p : AnyPdu) {s r h' s'} : Session h l → (getPdu s).1 = .ok (some p) →
      getPduHeap h s = (.ok (some r), h', s') → Session h' ((r, .obj p.members) :: l)
  /-- the same when the result is `None` or an exception -/
  | getNone {h l x h' s s'} : Session h l → getPduHeap h s = (x, h', s') → (∀ r, x ≠ .ok (some r)) → Session h' l
  /-- `x.parse(stream)`, whether it raises or not -/
  | parse {h l} (c : HeapClass) {r} (o : c.value.Obj) (s : InStream) : c ∈ heapClasses →
      Session h ((r, .obj (c.members o)) :: l) →
      Session (c.parse r h s).2.1 ((r, .obj (c.members (c.value.parse o s).2.1)) :: l)
  /-- `x.f.g.k = v`, `x.f.g[i] = v` or `x.f.g.append(v)` with a number -/
  | assign {h l r t t'} (path : List Step) (pl : Place) (v : Scalar) (s : InStream) :
      Session h ((r, t) :: l) → t.putAt path pl (.sc v) = some t' →
      Session (H.put (.ref r) path pl (.sc v) h s).2.1 ((r, t') :: l)
  /-- `x.f.g.k = y`, `x.f.g[i] = y` or `x.f.g.append(y)`, where `y` is not used in any other way -/
  | give {h l r t t' q u} (path : List Step) (pl : Place) (s : InStream) :
      Session h ((r, t) :: (q, u) :: l) → t.putAt path pl u = some t' →
      Session (H.put (.ref r) path pl (.ref q) h s).2.1 ((r, t') :: l)

end Dis
