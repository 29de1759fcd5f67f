import Verif.Proof.HeapSession

/-!
# C66: objects do not share

In the other theorems an object is a value. In Python it is a cell of memory that other objects may refer
to. Here constructors, `parse` and `serialize` are programs on a memory of objects (`Verif.Py.Heap`,
`Verif.Model.Heap1` to `Heap5`), and the theorems say that, for a program that does not itself put one object
in two places, the library never makes two objects share anything: every object is what it would be if
it were a value of its own, whatever is done to the others.
-/

namespace Dis

open H (Step Place)

/-- **C66.** The classes with a memory model are those of `catalog` with their methods (first two parts), and
two more PDU classes. -/
theorem C66_catalog : inPlace.map (·.codec) = catalog ∧
    heapClasses.map (·.value) = inPlace.map InPlace.value ++
      [⟨"TransmitterPdu", TransmitterPdu, TransmitterPdu.init, TransmitterPdu.parseInto, TransmitterPdu.serialize⟩,
       ⟨"IntercomControlPdu", IntercomControlPdu, IntercomControlPdu.init, IntercomControlPdu.parseInto,
         IntercomControlPdu.serialize⟩] :=
  ⟨rfl, rfl⟩

/-- **C66.** At any time, nothing can be reached from two of the objects of a program. -/
theorem C66_disjoint {h : Heap} {l : List (Ref × Tree)} (S : Session h l) (i j : Nat) (hij : i ≠ j) (r q : Ref)
    (t u : Tree) (hi : l[i]? = some (r, t)) (hj : l[j]? = some (q, u)) (x : Ref) (hr : Reach h r x)
    (hq : Reach h q x) : False := by
  obtain ⟨m, p⟩ := pick l i j _ _ hij hi hj
  obtain ⟨F, A⟩ := (S.perm p).apart
  obtain ⟨G, K, rfl, B, C, d⟩ := HoldsAll.uncons A
  exact d x (hr.inside B (HoldsAll.mem B r (by simp))) (hq.inside C (HoldsAll.mem C q (by simp)))

/-- **C66.** At any time, each object of a program serializes as its value does, with the same exceptions. -/
theorem C66_serialize {h : Heap} {l : List (Ref × Tree)} (S : Session h l) (c : HeapClass)
    (hc : c ∈ heapClasses) (r : Ref) (o : c.value.Obj) (hr : (r, .obj (c.members o)) ∈ l) :
    c.serialize r h = c.value.serialize o := by
  obtain ⟨F, A⟩ := S.apart
  obtain ⟨l1, l2, rfl⟩ := List.append_of_mem hr
  obtain ⟨F', A', _⟩ := A.perm List.perm_middle
  obtain ⟨G, K, rfl, B, _, _⟩ := HoldsAll.uncons A'
  exact (heapClasses_lawful c hc).shows [] r o h G (by rw [List.append_nil]; exact B.amounts)

/-- **C66.** At any time, `x.f.g[i].k` is what it is in the value of `x`. -/
theorem C66_read {h : Heap} {l : List (Ref × Tree)} (S : Session h l) (r : Ref) (t : Tree) (hr : (r, t) ∈ l)
    (path : List Step) (v : Scalar) (e : t.get path = some (.sc v)) (s : InStream) :
    H.walk (.ref r) path h s = (.ok (.sc v), h, s) := by
  obtain ⟨F, A⟩ := S.apart
  obtain ⟨l1, l2, rfl⟩ := List.append_of_mem hr
  obtain ⟨F', A', _⟩ := A.perm List.perm_middle
  obtain ⟨G, K, rfl, B, _, _⟩ := HoldsAll.uncons A'
  obtain ⟨w, G', ew, C, _⟩ := walk_holds path s B e
  rw [ew, C.sc_iff]

/-- **C66.** At any time, `parse` ends as on the value: the same exception if any, the same position. -/
theorem C66_parse {h : Heap} {l : List (Ref × Tree)} (S : Session h l) (c : HeapClass)
    (hc : c ∈ heapClasses) (r : Ref) (o : c.value.Obj) (hr : (r, .obj (c.members o)) ∈ l) (s : InStream) :
    (c.parse r h s).1 = (c.value.parse o s).1 ∧ (c.parse r h s).2.2 = (c.value.parse o s).2.2 := by
  obtain ⟨F, A⟩ := S.apart
  obtain ⟨l1, l2, rfl⟩ := List.append_of_mem hr
  obtain ⟨F', A', _⟩ := A.perm List.perm_middle
  obtain ⟨G, K, rfl, B, _, _⟩ := HoldsAll.uncons A'
  obtain ⟨e1, e2, _⟩ := (heapClasses_lawful c hc).refines [] r o h G s (by rwa [List.append_nil])
  exact ⟨e1, e2⟩

/-- **C66.** The constructor without arguments never raises and reads nothing. -/
theorem C66_new (c : HeapClass) (hc : c ∈ heapClasses) (h : Heap) (s : InStream) :
    ∃ r h', c.new h s = (.ok r, h', s) := by
  obtain ⟨r, h', _, e, _⟩ := (heapClasses_lawful c hc).makes h s
  exact ⟨r, h', e⟩

/-- **C66.** Replacing what is there in the value succeeds in memory. -/
theorem C66_assign {h : Heap} {l : List (Ref × Tree)} {r : Ref} {t t' : Tree} (S : Session h ((r, t) :: l))
    (path : List Step) (pl : Place) (v : Scalar) (e : t.putAt path pl (.sc v) = some t') (s : InStream) :
    (H.put (.ref r) path pl (.sc v) h s).1 = .ok () := by
  obtain ⟨F, A⟩ := S.apart
  obtain ⟨G, K, rfl, B, _, _⟩ := HoldsAll.uncons A
  obtain ⟨h', _, ep, _⟩ := putAt_holds path s B (w := .sc v) (.sc v .nil) (fun _ h => nomatch h) e
  rw [ep]

/-- **C66.** The same for putting one object in another. -/
theorem C66_give {h : Heap} {l : List (Ref × Tree)} {r q : Ref} {t t' u : Tree}
    (S : Session h ((r, t) :: (q, u) :: l)) (path : List Step) (pl : Place) (e : t.putAt path pl u = some t')
    (s : InStream) : (H.put (.ref r) path pl (.ref q) h s).1 = .ok () := by
  obtain ⟨F, A⟩ := S.apart
  obtain ⟨G, K, rfl, B, C, d⟩ := HoldsAll.uncons A
  obtain ⟨L, M, rfl, C, _, _⟩ := HoldsAll.uncons C
  obtain ⟨h', _, ep, _⟩ := putAt_holds path s B C (fun x hx hg => d x hg (by simp [hx])) e
  rw [ep]

/-- **C66.** Replacing what is not in a list raises `IndexError` and changes nothing. -/
theorem C66_outside {h : Heap} {l : List (Ref × Tree)} (S : Session h l) (r : Ref) (t : Tree) (hr : (r, t) ∈ l)
    (path : List Step) (ts : List Tree) (e : t.get path = some (.list ts)) (i : Nat) (hi : ts.length ≤ i)
    (v : Val) (s : InStream) :
    H.put (.ref r) path (.item i) v h s = (.error .indexError, h, s) := by
  obtain ⟨F, A⟩ := S.apart
  obtain ⟨l1, l2, rfl⟩ := List.append_of_mem hr
  obtain ⟨F', A', _⟩ := A.perm List.perm_middle
  obtain ⟨G, K, rfl, B, _, _⟩ := HoldsAll.uncons A'
  obtain ⟨w, G', ew, C, _⟩ := walk_holds path s B e
  cases w with
  | sc x => unfold Holds at C; cases C
  | ref q =>
    obtain ⟨us, M, rfl, hq, D, _⟩ := Holds.list_iff.mp C
    have hn : ¬ i < us.length := by have := D.length; omega
    simp only [H.put, H.bind_def, H.bind, ew, H.setItem, hq, if_neg hn]

/-- **C66.** Parsing data into one object, whether that succeeds or not, does not change what another one
serializes. -/
theorem C66_parse_other {h : Heap} {l : List (Ref × Tree)} (c c' : HeapClass) (hc : c ∈ heapClasses)
    (hc' : c' ∈ heapClasses) (r q : Ref) (o : c.value.Obj) (o' : c'.value.Obj)
    (S : Session h ((r, .obj (c.members o)) :: l)) (hq : (q, .obj (c'.members o')) ∈ l) (s : InStream) :
    c'.serialize q (c.parse r h s).2.1 = c'.serialize q h := by
  rw [C66_serialize S c' hc' q o' (List.mem_cons_of_mem _ hq),
    C66_serialize (.parse c o s hc S) c' hc' q o' (List.mem_cons_of_mem _ hq)]

/-- **C66.** Nor does an assignment in another object. -/
theorem C66_assign_other {h : Heap} {l : List (Ref × Tree)} (c' : HeapClass) (hc' : c' ∈ heapClasses)
    (r q : Ref) (t t' : Tree) (o' : c'.value.Obj) (S : Session h ((r, t) :: l))
    (hq : (q, .obj (c'.members o')) ∈ l) (path : List Step) (pl : Place) (v : Scalar)
    (e : t.putAt path pl (.sc v) = some t') (s : InStream) :
    c'.serialize q (H.put (.ref r) path pl (.sc v) h s).2.1 = c'.serialize q h := by
  rw [C66_serialize S c' hc' q o' (List.mem_cons_of_mem _ hq),
    C66_serialize (.assign path pl v s S e) c' hc' q o' (List.mem_cons_of_mem _ hq)]

/-! ## A program -/

/-- `x = EntityIdentifier(); y = EntityIdentifier(); y.simulationAddress.site = 17`, then a message of six
bytes is parsed into `x` and a message cut short into `y`. -/
example : ∃ h x y, Session h
    [(y, .obj (Dis.EntityIdentifier.members { simulationAddress := { site := 9, application := 0 }, entityNumber := 0 })),
     (x, .obj (Dis.EntityIdentifier.members { simulationAddress := { site := 1, application := 2 }, entityNumber := 3 }))] ∧
    EntityIdentifier.serializeHeap x h = ⟨[0, 1, 0, 2, 0, 3], .ok ()⟩ ∧
    EntityIdentifier.serializeHeap y h = ⟨[0, 9, 0, 0, 0, 0], .ok ()⟩ ∧
    (HeapClass.EntityIdentifier.parse y h ⟨[0, 7, 0], 0⟩).1 = .error .structError := by
  have hc : HeapClass.EntityIdentifier ∈ heapClasses := by simp [heapClasses, heapCommon]
  have a := Session.new HeapClass.EntityIdentifier (s := ⟨[], 0⟩) (.start []) hc rfl
  have b := Session.new HeapClass.EntityIdentifier (s := ⟨[], 0⟩) a hc rfl
  have c := Session.assign [.attr "simulationAddress"] (.attr "site") (.int 17) ⟨[], 0⟩ b rfl
  have d := Session.parse HeapClass.EntityIdentifier (o := { simulationAddress := {}, entityNumber := 0 })
    ⟨[0, 1, 0, 2, 0, 3], 0⟩ hc (c.perm (.swap _ _ _))
  have e := Session.parse HeapClass.EntityIdentifier
    (o := { simulationAddress := { site := 17, application := 0 }, entityNumber := 0 }) ⟨[0, 9, 0], 0⟩ hc (d.perm (.swap _ _ _))
  exact ⟨_, _, _, e, by decide +kernel, by decide +kernel, by decide +kernel⟩

/-- `x = DetonationPdu(); x.variableParameters[0] = VariableParameter()`, and what is not there is not put there. -/
example : ∃ h x y, Session h
    [(y, .obj (VariableParameter.members VariableParameter.init)), (x, .obj (DetonationPdu.members DetonationPdu.init))] ∧
    ∀ s, H.put (.ref x) [.attr "variableParameters"] (.item 0) (.ref y) h s = (.error .indexError, h, s) := by
  have hc : HeapClass.DetonationPdu ∈ heapClasses := by simp [heapClasses, heapPdus4]
  have hc' : HeapClass.VariableParameter ∈ heapClasses := by simp [heapClasses, heapRecords2]
  have a := Session.new HeapClass.DetonationPdu (s := ⟨[], 0⟩) (.start []) hc rfl
  have b := Session.new HeapClass.VariableParameter (s := ⟨[], 0⟩) a hc' rfl
  exact ⟨_, _, _, b, fun s => C66_outside b _ _ (.tail _ (.head _)) [.attr "variableParameters"] [] rfl 0 (Nat.le_refl 0) _ s⟩

/-! ## Programs that put one object in two places -/

/-- `a = SimulationAddress(); x = EntityIdentifier(a); y = EntityIdentifier(a)`: the constructor
(/repo/opendis/record/common.py:39-43) keeps the very object it is given. -/
def sharedAddress : H (Ref × Ref) := do
  let a ← SimulationAddress.newHeap
  let x ← EntityIdentifier.newHeap (.ref a)
  let y ← EntityIdentifier.newHeap (.ref a)
  return (x, y)

/-- **C66, disagreement.** Without the restriction on programs the statements fail: two identifiers made from
one simulation address are not independent, parsing a message into one changes what the other
serializes. -/
theorem C66_shared_violated : ∃ h x y s, sharedAddress [] ⟨[], 0⟩ = (.ok (x, y), h, ⟨[], 0⟩) ∧
    (EntityIdentifier.serializeHeap y h).Emits [0, 0, 0, 0, 0, 0] ∧
    (EntityIdentifier.parseHeap x h s).1 = .ok () ∧
    (EntityIdentifier.serializeHeap y (EntityIdentifier.parseHeap x h s).2.1).Emits [0, 1, 0, 2, 0, 0] :=
  ⟨_, _, _, ⟨[0, 1, 0, 2, 0, 3], 0⟩, rfl, ⟨by decide +kernel, (), by decide +kernel⟩, by decide +kernel,
    ⟨by decide +kernel, (), by decide +kernel⟩⟩

/-- `l = []` or `l = [VariableParameter()]`, `x = DetonationPdu(variableParameters=l)`, and then
`l.append(VariableParameter())` (constructor at /repo/opendis/dis7.py:6415-6439). -/
def listGiven (empty : Bool) : H Ref := do
  let l ← H.alloc (.list [])
  if !empty then
    let e ← VariableParameter.newHeap
    H.append l (.ref e)
  let x ← DetonationPdu.newHeap (variableParameters := .ref l)
  let e ← VariableParameter.newHeap
  H.append l (.ref e)
  return x

/-- **C66, disagreement.** Whether a PDU keeps a list given to its constructor depends on the list: a list
that is empty is replaced by a new one (`variableParameters or []`), so that what the program appends to
it later is not in the PDU (104 bytes, no parameters), and a list that is not empty is kept (104 + 16 + 16 bytes). -/
theorem C66_empty_list_violated : ∃ h x h' x',
    listGiven true [] ⟨[], 0⟩ = (.ok x, h, ⟨[], 0⟩) ∧ (DetonationPdu.serializeHeap x h).out.length = 104 ∧
    listGiven false [] ⟨[], 0⟩ = (.ok x', h', ⟨[], 0⟩) ∧ (DetonationPdu.serializeHeap x' h').out.length = 136 :=
  ⟨_, _, _, _, rfl, by decide +kernel, rfl, by decide +kernel⟩

end Dis
