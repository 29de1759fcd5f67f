import Verif.Props.Heap
import Verif.Proof.HeapArgsTable

/-!
# C69: constructors with arguments

`T(f=1, g=y)` on the memory of objects (`Verif.Model.HeapArgs`). What each parameter stands for is in the
table `heapCtors` (`Verif.Spec.HeapCtors`). With the step `Session.construct` the theorems of C66 hold for
programs that call constructors with arguments.
-/

namespace Dis

open H (Step Place)

/-- **C69.** Every class has its constructor in the table. -/
theorem C69_catalog : heapCtors.map (·.cls) = heapClasses := by
  simp only [heapCtors, heapClasses, List.map_append]
  rfl

/-- **C69.** At any time, a call of a constructor with numbers and with objects and lists that the program
has, by the names of parameters, makes an object and reads nothing. -/
theorem C69_new {h : Heap} {l given : List (Ref × Tree)} (Q : Session h (given ++ l)) (c : Ctor)
    (hc : c ∈ heapCtors) (args : List (String × Val)) (trees : List (String × Tree)) (g : Gives args given trees)
    (ok : c.Takes trees) (s : InStream) : ∃ r h', c.call args h s = (.ok r, h', s) := by
  obtain ⟨F, A⟩ := Q.apart
  unfold Apart at A
  rw [List.map_append, List.map_append] at A
  obtain ⟨G, K, rfl, B, _, _⟩ := HoldsAll.split (by simp) A
  obtain ⟨r, h', _, e, _⟩ := Ctor.call_builds hc g ok (h := h) B s
  exact ⟨r, h', e⟩

/-- **C69.** The new object is none of the objects that were there, and what the program has not given to the
constructor serializes as before. -/
theorem C69_others {h : Heap} {l given : List (Ref × Tree)} (Q : Session h (given ++ l)) (c : Ctor)
    (hc : c ∈ heapCtors) (args : List (String × Val)) (trees : List (String × Tree)) (g : Gives args given trees)
    (ok : c.Takes trees) (s s' : InStream) (r : Ref) (h' : Heap) (e : c.call args h s = (.ok r, h', s'))
    (k : HeapClass) (hk : k ∈ heapClasses) (q : Ref) (o : k.value.Obj) (hq : (q, .obj (k.members o)) ∈ l) :
    k.serialize q h' = k.serialize q h ∧ ∀ x, Reach h' q x → ¬ Reach h' r x := by
  have Q' := Session.construct c hc g ok Q e
  refine ⟨?_, fun x hx hr => ?_⟩
  · rw [C66_serialize Q k hk q o (List.mem_append_right _ hq),
      C66_serialize Q' k hk q o (List.mem_cons_of_mem _ hq)]
  · obtain ⟨i, hi⟩ := List.getElem?_of_mem hq
    exact C66_disjoint Q' 0 (i + 1) (by omega) r q _ _ rfl (by simpa using hi) x hr hx

/-- **C69.** The object serializes as the value that has the arguments in place of what they stand for. -/
theorem C69_serialize {h : Heap} {l given : List (Ref × Tree)} (Q : Session h (given ++ l)) (c : Ctor)
    (hc : c ∈ heapCtors) (args : List (String × Val)) (trees : List (String × Tree)) (g : Gives args given trees)
    (ok : c.Takes trees) (s s' : InStream) (r : Ref) (h' : Heap) (e : c.call args h s = (.ok r, h', s'))
    (o : c.cls.value.Obj) (ho : c.built trees = .obj (c.cls.members o)) :
    c.cls.serialize r h' = c.cls.value.serialize o := by
  have Q' := Session.construct c hc g ok Q e
  rw [ho] at Q'
  exact C66_serialize Q' c.cls (C69_catalog ▸ List.mem_map_of_mem hc) r o (by simp)

/-- **C69.** The constructor without arguments is the one of C66. -/
theorem C69_default (c : Ctor) (hc : c ∈ heapCtors) :
    c.call [] = c.cls.new ∧ c.built [] = .obj (c.cls.members c.cls.value.fresh) :=
  ⟨by simpa [Ctor.call] using heapCtors_default c hc, built_nil c⟩

/-- **C69.** An argument is where its parameter says: the value itself, or for `x or T()` what is there without
the argument when the argument is false. -/
theorem C69_attribute (c : Ctor) (hc : c ∈ heapCtors) (p : Param) (hp : p ∈ c.params) (hn : p.path ≠ [])
    (args : List (String × Tree)) : ∃ u, (Tree.obj (c.cls.members c.cls.value.fresh)).at p.path = some u ∧
      (c.built args).at p.path = some (p.how.value (attrOf p.name args) u) := (heapCtors_clear c hc).at hp hn args

/-- **C69.** Arguments change nothing else: what is at a path that leads to no parameter's place, and that no
parameter's place leads to, is as in the object made without arguments. -/
theorem C69_attribute_other (c : Ctor) (path : List String) (args : List (String × Tree))
    (h : ∀ p ∈ c.params, p.path = [] ∨ ¬ p.path <+: path ∧ ¬ path <+: p.path) :
    (c.built args).at path = (Tree.obj (c.cls.members c.cls.value.fresh)).at path := puts_other h

/-- **C69.** A name that no parameter has, or a name given twice, is a `TypeError`, and nothing changes. -/
theorem C69_unknown (c : Ctor) (args : List (String × Val)) (h : Heap) (s : InStream)
    (bad : (∃ a ∈ args, ∀ p ∈ c.params, p.name ≠ a.1) ∨ ¬ (args.map (·.1)).Nodup) :
    c.call args h s = (.error .typeError, h, s) := by
  unfold Ctor.call
  rw [if_neg]
  · rfl
  · rintro ⟨h1, h2⟩
    rcases bad with ⟨a, ha, hb⟩ | hb
    · obtain ⟨p, hp, e⟩ := List.mem_map.mp (h2 a ha)
      exact hb p hp e
    · exact hb h1

/-- **C69.** The parameters of a constructor have different names. -/
theorem C69_names (c : Ctor) (hc : c ∈ heapCtors) : (c.params.map (·.name)).Nodup := (heapCtors_clear c hc).2.2

/-! ## A program -/

/-- `a = SimulationAddress(site=1, application=2); x = EntityIdentifier(simulationAddress=a, entityNumber=3);
y = EntityIdentifier(entityNumber=4)`: the hypotheses of the theorems above hold at each call, and `x` and `y`
serialize as they should. -/
example : ∃ h x y, Session h
    [(y, .obj (Dis.EntityIdentifier.members { simulationAddress := {}, entityNumber := 4 })),
     (x, .obj (Dis.EntityIdentifier.members { simulationAddress := { site := 1, application := 2 }, entityNumber := 3 }))] ∧
    EntityIdentifier.serializeHeap x h = ⟨[0, 1, 0, 2, 0, 3], .ok ()⟩ ∧
    EntityIdentifier.serializeHeap y h = ⟨[0, 0, 0, 0, 0, 4], .ok ()⟩ := by
  have ha : Ctor.SimulationAddress ∈ heapCtors := by simp [heapCtors, ctorsCommon]
  have hx : Ctor.EntityIdentifier ∈ heapCtors := by simp [heapCtors, ctorsCommon]
  have a := Session.construct (s := ⟨[], 0⟩) Ctor.SimulationAddress ha
    (.sc "site" (.int 1) (.sc "application" (.int 2) .nil))
    ⟨by simp, by simp [Ctor.SimulationAddress], by simp [Ctor.SimulationAddress, Keeps.Accepts]⟩ (.start []) rfl
  have b := Session.construct (s := ⟨[], 0⟩) Ctor.EntityIdentifier hx
    (.ref "simulationAddress" _ _ (.sc "entityNumber" (.int 3) .nil))
    ⟨by simp, by simp [Ctor.EntityIdentifier], by simp [Ctor.EntityIdentifier, Keeps.Accepts]⟩ a rfl
  have c := Session.construct (s := ⟨[], 0⟩) Ctor.EntityIdentifier hx
    (.sc "entityNumber" (.int 4) .nil)
    ⟨by simp, by simp [Ctor.EntityIdentifier], by simp [Ctor.EntityIdentifier, Keeps.Accepts]⟩ b rfl
  exact ⟨_, _, _, c, by decide +kernel, by decide +kernel⟩

/-- A name that is not the name of a parameter: `EntityIdentifier(site=1)`. -/
example : Ctor.EntityIdentifier.call [("site", .sc (.int 1))] [] ⟨[], 0⟩ = (.error .typeError, [], ⟨[], 0⟩) :=
  C69_unknown _ _ _ _ (.inl ⟨_, List.mem_singleton.mpr rfl, by decide⟩)

/-! ## What constructors do not keep -/

/-- The parameters of a constructor that it ignores (no code counterpart). -/
def Ctor.ignored (c : Ctor) : List (String × String) :=
  (c.params.filter fun p => decide (p.path = [])).map fun p => (c.cls.value.name, p.name)

set_option maxRecDepth 8000 in
/-- **C69, disagreement.** Ten parameters of four constructors are ignored: `EngineFuel` and
`AngularVelocityVector` write constants over all their arguments (/repo/opendis/dis7.py:1969-1981, 2710-2716),
`AggregateMarking` makes its own `characters` (2738-2744), and `DataQueryPdu` sets `requestID` and `timeInterval`
to zero (4066-4077). -/
theorem C69_ignored_violated : heapCtors.flatMap Ctor.ignored =
    [("EngineFuel", "fuelQuantity"), ("EngineFuel", "fuelMeasurementUnits"), ("EngineFuel", "fuelType"),
     ("EngineFuel", "fuelLocation"), ("AngularVelocityVector", "x"), ("AngularVelocityVector", "y"),
     ("AngularVelocityVector", "z"), ("AggregateMarking", "characters"), ("DataQueryPdu", "requestID"),
     ("DataQueryPdu", "timeInterval")] := by decide +kernel

/-- **C69, disagreement.** Such an argument is lost without an error: `AngularVelocityVector(x=x, y=y, z=z)` is
`AngularVelocityVector()`, and `EngineFuel(...)` is `EngineFuel()`, whatever the arguments. -/
theorem C69_ignored_lost_violated (args : List (String × Val)) :
    Ctor.AngularVelocityVector.new args = Ctor.AngularVelocityVector.new [] ∧
      Ctor.EngineFuel.new args = Ctor.EngineFuel.new [] := ⟨rfl, rfl⟩

/-- **C69.** `BeamStatus(beamState=x)` with anything but an integer or a `bool` is a `TypeError`: the constructor
computes `x & 1` (/repo/opendis/dis7.py:3154-3156). No other constructor raises on account of the type of an argument except
`TransmitterPdu`, which copies a list (`C69_new`). -/
theorem C69_beam_state (v : Val) (hi : ∀ i, v ≠ .sc (.int i)) (hb : ∀ b, v ≠ .sc (.bool b)) (h : Heap) (s : InStream) :
    (Ctor.BeamStatus.call [("beamState", v)] h s).1 = .error .typeError := by
  have e : Ctor.BeamStatus.call [("beamState", v)] =
      (H.argInt v >>= fun i => BeamStatus.newHeap i) := by
    unfold Ctor.call
    rw [if_pos (by simp [Ctor.BeamStatus])]
    rfl
  rw [e]
  match v with
  | .sc (.int i) => exact absurd rfl (hi i)
  | .sc (.bool b) => exact absurd rfl (hb b)
  | .sc .absent | .sc .none | .sc (.float _) | .sc (.bytes _) | .sc (.cls _) | .ref _ => rfl

/-- The hypotheses hold of `1.0`. -/
example : (Ctor.BeamStatus.call [("beamState", .sc (.float 0x3FF0000000000000))] [] ⟨[], 0⟩).1 = .error .typeError :=
  C69_beam_state _ (by simp) (by simp) _ _

/-- `l = [HighFidelityHAVEQUICKRadio()]`, `x = TransmitterPdu(variableTransmitterParameters=l)`, and then
`l.append(HighFidelityHAVEQUICKRadio())` (constructor at /repo/opendis/dis7.py:4952-4996). -/
def listCopied : H Ref := do
  let l ← H.alloc (.list [])
  let e ← HighFidelityHAVEQUICKRadio.newHeap
  H.append l (.ref e)
  let x ← TransmitterPdu.newHeap (variableTransmitterParameters := .ref l)
  let e ← HighFidelityHAVEQUICKRadio.newHeap
  H.append l (.ref e)
  return x

/-- **C69.** `TransmitterPdu` keeps a copy of the list: what the program appends to its list later is not in the
PDU (the number of parameters, in bytes 30 and 31, is 1). For the other PDUs see
`C66_empty_list_violated`. -/
theorem C69_copied : ∃ h x, listCopied [] ⟨[], 0⟩ = (.ok x, h, ⟨[], 0⟩) ∧
    (TransmitterPdu.serializeHeap x h).res = .ok () ∧ (TransmitterPdu.serializeHeap x h).out.length = 146 ∧
    ((TransmitterPdu.serializeHeap x h).out.drop 30).take 2 = [0, 1] :=
  ⟨_, _, rfl, by decide +kernel, by decide +kernel, by decide +kernel⟩

end Dis
