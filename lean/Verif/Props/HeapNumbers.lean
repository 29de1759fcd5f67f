import Verif.Props.Heap
import Verif.Proof.HeapNumbers
import Verif.Props.Floats

/-!
# C68: numbers of other types

Python does not check what is assigned to an attribute. `struct.pack` takes `True` where an integer is
expected, and integers and truth values where a float is expected. `v.As w` (`Verif.Spec.HeapNumbers`) says
that `v` can stand in the place of `w` in this way, `t.As u` that two objects are the same up to such numbers at
any depth. Objects are as in C66.
-/

set_option exponentiation.threshold 4096

namespace Dis

open H (Step Place)

/-- **C68.** An object that has integers in the place of floats, or truth values in the place of numbers,
anywhere in it, is serialized exactly as with the numbers they stand for, with the same exceptions. -/
theorem C68_serialize {h : Heap} {l : List (Ref × Tree)} (S : Session h l) (c : HeapClass) (hc : c ∈ heapClasses)
    (r : Ref) (t : Tree) (hr : (r, t) ∈ l) (o : c.value.Obj) (ht : t.As (.obj (c.members o))) :
    c.serialize r h = c.value.serialize o := by
  obtain ⟨F, A⟩ := S.apart
  obtain ⟨l1, l2, rfl⟩ := List.append_of_mem hr
  obtain ⟨F', A', _⟩ := A.perm List.perm_middle
  obtain ⟨G, K, rfl, B, _, _⟩ := HoldsAll.uncons A'
  exact (heapClasses_lawful c hc).shows [] r o h G (by rw [List.append_nil]; exact ⟨t, ht, B⟩)

/-- **C68.** `x.f.g[i].k = v` and `x.f.g[i].k = w` make no difference to what `x` serializes if `v` stands in the
place of `w`. -/
theorem C68_assign {h : Heap} {l : List (Ref × Tree)} (c : HeapClass) (hc : c ∈ heapClasses) (r : Ref) (t : Tree)
    (S : Session h ((r, t) :: l)) (path : List Step) (pl : Place) (v w : Scalar) (hv : v.As w) (o : c.value.Obj)
    (e : t.putAt path pl (.sc w) = some (.obj (c.members o))) (s : InStream) :
    c.serialize r (H.put (.ref r) path pl (.sc v) h s).2.1 = c.serialize r (H.put (.ref r) path pl (.sc w) h s).2.1 := by
  obtain ⟨t1, e1⟩ := Tree.putAt_some (.sc v) path e
  obtain ⟨t2, e2, ht⟩ := Tree.As.putAt (Tree.AsAll.sc hv .nil) path (Tree.as_refl t) e1
  rw [e] at e2
  cases e2
  rw [C68_serialize (.assign path pl v s S e1) c hc r t1 (List.mem_cons_self ..) o ht,
    C66_serialize (.assign path pl w s S e) c hc r o (List.mem_cons_self ..)]

/-- **C68.** An integer stands for a double unless its magnitude is (2^54 - 1)·2^970 or more, half a unit in the last
place above the largest double; the double is finite and a nearest one, with an even significand if there
are two. -/
theorem C68_nearest (n : Int) : (F64.ofInt n = none ↔ (2 ^ 54 - 1) * 2 ^ 970 ≤ n.natAbs) ∧
    ∀ x, F64.ofInt n = some x → x.Finite ∧ ∀ w : F64,
      (x.units - n * 2 ^ 1074).natAbs ≤ (w.units - n * 2 ^ 1074).natAbs ∧
      ((x.units - n * 2 ^ 1074).natAbs = (w.units - n * 2 ^ 1074).natAbs → w.units ≠ x.units → x.frac % 2 = 0) := by
  refine ⟨F64.ofInt_none, fun x e => ?_⟩
  obtain ⟨hx, hf⟩ := F64.ofInt_form e
  refine ⟨hx, fun w => ?_⟩
  have := F64.rounded_nearest hx hf w
  rwa [Int.pow_zero, Int.mul_one, Int.mul_one] at this

/-- **C68.** Up to 2^53 the double is the integer. -/
theorem C68_exact (n : Int) (hn : n.natAbs ≤ 2 ^ 53) : ∃ x, F64.ofInt n = some x ∧ x.units = n * 2 ^ 1074 :=
  F64.ofInt_exact hn

/-- `x = Vector3Float()`, and then numbers are assigned to its attributes. -/
example : ∃ h r, Session h [(r, .obj [("x", .sc (.int 3)), ("y", .sc (.bool true)), ("z", .sc (.float 0))])] ∧
    (Tree.obj [("x", .sc (.int 3)), ("y", .sc (.bool true)), ("z", .sc (.float 0))]).As
      (.obj (Vector3Float.members { x := 0x4008000000000000, y := 0x3FF0000000000000, z := 0 })) ∧
    (HeapClass.Vector3Float.serialize r h).Emits [0x40, 0x40, 0, 0, 0x3F, 0x80, 0, 0, 0, 0, 0, 0] := by
  have hc : HeapClass.Vector3Float ∈ heapClasses := by simp [heapClasses, heapCommon]
  have a := Session.new HeapClass.Vector3Float (s := ⟨[], 0⟩) (.start []) hc rfl
  have b := Session.assign [] (.attr "x") (.int 3) ⟨[], 0⟩ a rfl
  have c := Session.assign [] (.attr "y") (.bool true) ⟨[], 0⟩ b rfl
  exact ⟨_, _, c, .obj rfl (.sc (.int (by decide +kernel)) (.sc (.boolFloat (by decide +kernel)) (.sc (.refl _) .nil))) .nil,
    by decide +kernel, (), by decide +kernel⟩

/-- **C68.** An integer that stands for no double is a `struct.error`, not the `OverflowError` that a float that is
too large for a single-precision field is. -/
theorem C68_too_large {h : Heap} {l : List (Ref × Tree)} (Q : Session h l) (r : Ref) (n : Int) (y z : Tree)
    (hn : (2 ^ 54 - 1) * 2 ^ 970 ≤ n.natAbs) (hr : (r, .obj [("x", .sc (.int n)), ("y", y), ("z", z)]) ∈ l) :
    HeapClass.WorldCoordinates.serialize r h = ⟨[], .error .structError⟩ ∧
    HeapClass.Vector3Float.serialize r h = ⟨[], .error .structError⟩ := by
  obtain ⟨F, A⟩ := Q.apart
  obtain ⟨l1, l2, rfl⟩ := List.append_of_mem hr
  obtain ⟨F', A', _⟩ := A.perm List.perm_middle
  obtain ⟨G, K, rfl, B, _, _⟩ := HoldsAll.uncons A'
  have e : ∀ k, S.putFloat r "x" k h = W.throw .structError :=
    fun k => S.putFloat_big B (by simp [attrOf]) (F64.ofInt_none.mpr hn)
  constructor
  · show WorldCoordinates.serializeHeap r h = _
    unfold WorldCoordinates.serializeHeap
    simp only [S.bind_def, S.bind, e, W.throw_bind]
    rfl
  · show Vector3Float.serializeHeap r h = _
    unfold Vector3Float.serializeHeap
    simp only [S.bind_def, S.bind, e, W.throw_bind]
    rfl

/-- **C68.** A float in the place of an integer is a `struct.error`, also if its value is whole: a
`SimulationAddress` with a float for a site cannot be serialized. -/
theorem C68_float_as_int {h : Heap} {l : List (Ref × Tree)} (Q : Session h l) (r : Ref) (x : F64) (y : Tree)
    (hr : (r, .obj [("site", .sc (.float x)), ("application", y)]) ∈ l) :
    HeapClass.SimulationAddress.serialize r h = ⟨[], .error .structError⟩ := by
  obtain ⟨F, A⟩ := Q.apart
  obtain ⟨l1, l2, rfl⟩ := List.append_of_mem hr
  obtain ⟨F', A', _⟩ := A.perm List.perm_middle
  obtain ⟨G, K, rfl, B, _, _⟩ := HoldsAll.uncons A'
  have e : ∀ k, S.putInt r "site" k h = W.throw .structError := fun k => S.putInt_float (v := x) B (by simp [attrOf])
  show SimulationAddress.serializeHeap r h = _
  unfold SimulationAddress.serializeHeap
  simp only [S.bind_def, S.bind, e, W.throw_bind]
  rfl

/-- Both kinds of objects are reached: `x.x = 10**400` and `a.site = 5.0`. -/
example : ∃ h x a y z u, Session h [(a, .obj [("site", .sc (.float 0x4014000000000000)), ("application", u)]),
    (x, .obj [("x", .sc (.int (10 ^ 400))), ("y", y), ("z", z)])] ∧
    (2 ^ 54 - 1) * 2 ^ 970 ≤ ((10 : Int) ^ 400).natAbs := by
  have hc : HeapClass.Vector3Float ∈ heapClasses := by simp [heapClasses, heapCommon]
  have hc' : HeapClass.SimulationAddress ∈ heapClasses := by simp [heapClasses, heapCommon]
  have a := Session.new HeapClass.Vector3Float (s := ⟨[], 0⟩) (.start []) hc rfl
  have b := Session.assign [] (.attr "x") (.int (10 ^ 400)) ⟨[], 0⟩ a rfl
  have c := Session.new HeapClass.SimulationAddress (s := ⟨[], 0⟩) b hc' rfl
  have d := Session.assign [] (.attr "site") (.float 0x4014000000000000) ⟨[], 0⟩ c rfl
  exact ⟨_, _, _, _, _, _, d, by decide +kernel⟩

/-- **C68, disagreement.** An integer in a single-precision field need not be sent as the nearest single: it is
rounded to a double first. With 2^60 + 2^36 + 1 the field reads back as 2^60, although 2^60 + 2^37 is
nearer. -/
theorem C68_single_violated : ∃ (n : Int) (h : Heap) (r : Ref) (b : Bytes) (z : F64) (w : F32),
    Session h [(r, .obj [("x", .sc (.int n)), ("y", .sc (.float 0)), ("z", .sc (.float 0))])] ∧
    (HeapClass.Vector3Float.serialize r h).Emits b ∧ Reads read_float (b.take 4) z ∧ w.Finite ∧
    (w.units - n * 2 ^ 1074).natAbs < (z.units - n * 2 ^ 1074).natAbs := by
  have hc : HeapClass.Vector3Float ∈ heapClasses := by simp [heapClasses, heapCommon]
  have a := Session.new HeapClass.Vector3Float (s := ⟨[], 0⟩) (.start []) hc rfl
  have b := Session.assign [] (.attr "x") (.int (2 ^ 60 + 2 ^ 36 + 1)) ⟨[], 0⟩ a rfl
  refine ⟨2 ^ 60 + 2 ^ 36 + 1, _, _, [0x5D, 0x80, 0, 0, 0, 0, 0, 0, 0, 0, 0, 0], 0x43B0000000000000, 0x5D800001, b,
    ⟨by decide +kernel, (), by decide +kernel⟩, ?_, by unfold F32.Finite; decide, by decide +kernel⟩
  have h4 : (write_float 0x43B0000000000000).Emits [0x5D, 0x80, 0, 0] := ⟨by decide +kernel, (), by decide +kernel⟩
  have hr := rt_float _ _ h4
  rwa [show quant 0x43B0000000000000 = 0x43B0000000000000 by decide +kernel] at hr

end Dis
