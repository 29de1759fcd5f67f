import Verif.Py.Heap

/-!
# User code on objects in memory

What programs that use the library do with PDUs between calls of its methods: they look at attributes and
list elements, and replace them.
-/

namespace Dis

namespace H

/-- An element of a list, `v[i]`, or an attribute of an object, `v.f`, in user code (e.g.
/repo/examples/dis_receiver.py:45). -/
inductive Step where
  | attr (n : String)
  | item (i : Nat)
  deriving DecidableEq

/-- `v.f` or `v[i]` in user code (e.g. /repo/examples/dis_receiver.py:45). -/
def step (v : Val) (p : Step) : H Val := fun h s =>
  match v, p with
  | .ref r, .attr n =>
    match attr r n h s with
    | (.ok (.sc .absent), h, s) => (.error .attributeError, h, s)
    | x => x
  | .sc _, .attr _ => (.error .attributeError, h, s)
  | .ref r, .item i =>
    match h[r]? with
    | some (.list vs) =>
      match vs[i]? with
      | some w => (.ok w, h, s)
      | .none => (.error .indexError, h, s)
    | _ => (.error .typeError, h, s)
  | .sc _, .item _ => (.error .typeError, h, s)

/-- `v.f.g[i].k` in user code (e.g. /repo/examples/dis_receiver.py:45). -/
def walk (v : Val) : List Step → H Val
  | [] => pure v
  | p :: ps => do walk (← step v p) ps

/-- Where user code puts a value: `x.f = v` (e.g. /repo/examples/dis_sender.py:26-28), `x[i] = v` (e.g.
/repo/opendis/dis7.py:372) or `x.append(v)` (e.g. /repo/opendis/dis7.py:5169). -/
inductive Place where
  | attr (n : String)
  | item (i : Nat)
  | last
  deriving DecidableEq

/-- `x.f.g.k = v`, `x.f.g[i] = v` or `x.f.g.append(v)` in user code (e.g.
/repo/examples/dis_sender.py:26-28). -/
def put (x : Val) (path : List Step) (pl : Place) (v : Val) : H Unit := do
  match ← walk x path with
  | .sc _ => throw .attributeError
  | .ref r =>
    match pl with
    | .attr n => setAttr r n v
    | .item i => setItem r i v
    | .last => append r v

end H

end Dis
