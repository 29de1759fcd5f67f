import Verif.Model.HeapSpecial
import Verif.Model.Factory

/-!
# `opendis/PduFactory.py` on a memory of objects

Generated by `tools/genheap.py` from the list of classes in `Verif.Model.Factory`.
-/

namespace Dis

/-- `LinearObjectStatePdu.__init__`, /repo/opendis/dis7.py:4119-4141, statement by statement up to line 4136,
which raises: `numberOfSegments` is not a parameter. Without the arguments that are not used before. -/
def LinearObjectStatePdu.initHeap (self : Ref) (objectID : Val := .sc .none) (referencedObjectID : Val := .sc .none)
    (updateNumber : Val := .sc (.int 0)) (forceID : Val := .sc (.int 0)) : H Unit := do
  SyntheticEnvironmentFamilyPdu.initHeap self
  H.setOr self "objectID" objectID EntityIdentifier.newHeap
  H.setOr self "referencedObjectID" referencedObjectID EntityIdentifier.newHeap
  H.setAttr self "updateNumber" updateNumber
  H.setAttr self "forceID" forceID
  H.throw .nameError

/-- `LinearObjectStatePdu(...)`, /repo/opendis/dis7.py:4119-4141. -/
def LinearObjectStatePdu.newHeap (objectID : Val := .sc .none) (referencedObjectID : Val := .sc .none)
    (updateNumber : Val := .sc (.int 0)) (forceID : Val := .sc (.int 0)) : H Ref :=
  H.new LinearObjectStatePdu.attrs fun self =>
    LinearObjectStatePdu.initHeap self objectID referencedObjectID updateNumber forceID

/-- `AttributePdu.__init__`, /repo/opendis/dis7.py:5342-5365. Only its first statement: the constructor of the
superclasses raises (/repo/opendis/dis7.py:3444-3445), as the class has no `pduType`. -/
def AttributePdu.initHeap (self : Ref) : H Unit := do
  EntityInformationFamilyPdu.initHeap self

/-- `AttributePdu(...)`, /repo/opendis/dis7.py:5342-5365. -/
def AttributePdu.newHeap : H Ref :=
  H.new AttributePdu.attrs fun self => AttributePdu.initHeap self

/-- `pdu = Decoder(); pdu.parse(inputStream); return pdu`, /repo/opendis/PduFactory.py:73-76, dispatched on the
class (lines of the classes beside each). -/
def PduClass.decodeHeap : PduClass → H Ref
DECODE

/-- `pdu.serialize(outputStream)`, dispatched on the class (lines of the classes beside each). -/
def PduClass.serializeHeap : PduClass → Ref → S Unit
SERIALIZE

/-- `getPdu`, /repo/opendis/PduFactory.py:67-81; `none` is Python's `None`. -/
def getPduHeap : H (Option Ref) := do
  H.read (R.seek 2)
  let pduType ← H.read read_byte
  H.read (R.seek 0)
  match PduTypeDecoders.lookup pduType with
  | some decoder => do
    let pdu ← decoder.decodeHeap
    return some pdu
  | none => return none

/-- `createPdu`, /repo/opendis/PduFactory.py:84-92: `getPdu` on a stream of its own. -/
def createPduHeap (data : Bytes) : H (Option Ref) := fun h s =>
  match getPduHeap h ⟨data, 0⟩ with
  | (x, h', _) => (x, h', s)

end Dis
-----
import Verif.Spec.HeapFieldsSpecial
import Verif.Model.Factory

/-!
# The attributes of a PDU by name

Generated by `tools/genheap.py` from the list of classes in `Verif.Model.Factory`.
-/

namespace Dis

/-- The attributes of a PDU by name (lines of the classes beside each). -/
def AnyPdu.members : AnyPdu → List (String × Tree)
MEMBERS

end Dis
-----
import Verif.Proof.HeapSpecial
import Verif.Proof.InPlaceCatalog
import Verif.Model.HeapFactory
import Verif.Spec.HeapFactory

/-!
# The factory on a memory of objects

Generated by `tools/genheap.py` from the list of classes in `Verif.Model.Factory`.
-/

namespace Dis

/-- The program raises and leaves all there was as it was. -/
def RaisesNew (c : H Ref) (e : PyErr) : Prop :=
  ∀ h s, ∃ h', c h s = (.error e, h', s) ∧ Grows h [] h' []

/-- The program, part of a constructor, raises and changes nothing but its object. -/
def RaisesInit (c : Ref → H Unit) (fs : List (String × Tree)) (e : PyErr) : Prop :=
  ∀ self h F s, Holds h (.ref self) (.obj fs) F → ∃ h' F', c self h s = (.error e, h', s) ∧ Grows h F h' F'

theorem RaisesInit.bind {c d : Ref → H Unit} {fs fs' : List (String × Tree)} {e : PyErr} (a : Inits c fs fs')
    (b : RaisesInit d fs' e) : RaisesInit (fun self => c self >>= fun _ => d self) fs e := by
  intro self h F s A
  obtain ⟨h1, F1, e1, A1, g1⟩ := a self h F s A
  obtain ⟨h2, F2, e2, g2⟩ := b self h1 F1 s A1
  refine ⟨h2, F2, ?_, g1.trans g2⟩
  simp only [H.bind_def, H.bind, e1, e2]

theorem RaisesInit.throw {fs : List (String × Tree)} {e : PyErr} : RaisesInit (fun _ => H.throw e) fs e :=
  fun _ h F _ _ => ⟨h, F, rfl, .refl h F⟩

theorem RaisesInit.new {attrs : List (String × Scalar)} {c : Ref → H Unit} {e : PyErr}
    (a : RaisesInit c (attrs.map fun a => (a.1, .sc a.2)) e) : RaisesNew (H.new attrs c) e := by
  intro h s
  obtain ⟨h', F', e', g⟩ := a h.length (h ++ [.obj (attrs.map fun a => (a.1, .sc a.2))]) [h.length] s
    (Holds.obj_iff.mpr ⟨_, [], rfl, by simp, by simp, HoldsAll.scalars attrs, fun h => nomatch h⟩)
  refine ⟨h', ?_, ?_⟩
  · simp only [H.new, H.bind_def, H.bind, H.alloc, e']
  · refine ⟨Nat.le_trans (by simp) g.longer, (fun _ h => nomatch h), fun r hr _ => ?_⟩
    rw [g.frame r (Nat.lt_of_lt_of_le hr (by simp)) (by
      intro hm; simp at hm; exact absurd hr (Nat.not_lt.mpr (Nat.le_of_eq hm.symm))), List.getElem?_append_left hr]

theorem Loads.raises {τ : Type} {new : H Ref} {c : Ref → H Unit} {e : PyErr} {k : τ → R AnyPdu}
    (hn : RaisesNew new e) : Loads (H.load new c) (R.ofExcept (.error e) >>= k) AnyPdu.members := by
  intro h s
  obtain ⟨h', e1, g⟩ := hn h s
  refine ⟨h', ?_⟩
  simp only [R.bind_def, R.bind, R.ofExcept, H.load, H.bind_def, H.bind, e1]
  exact ⟨trivial, g⟩

theorem LinearObjectStatePdu.raises : RaisesNew LinearObjectStatePdu.newHeap .nameError := by
  refine RaisesInit.new ?_
  unfold LinearObjectStatePdu.initHeap
  refine .bind (SyntheticEnvironmentFamilyPdu.inits 44 9 _) ?_
  refine .bind (.setOr' EntityIdentifier.makesNew (by simp [attrOf, SyntheticEnvironmentFamilyPdu.members, Pdu.members, PduSuperclass.members])) ?_
  refine .bind (.setOr' EntityIdentifier.makesNew (by simp [attrOf_putAttr_isSome, attrOf, SyntheticEnvironmentFamilyPdu.members, Pdu.members, PduSuperclass.members])) ?_
  refine .bind (.set' (by simp [attrOf_putAttr_isSome, attrOf, SyntheticEnvironmentFamilyPdu.members, Pdu.members, PduSuperclass.members])) ?_
  refine .bind (.set' (by simp [attrOf_putAttr_isSome, attrOf, SyntheticEnvironmentFamilyPdu.members, Pdu.members, PduSuperclass.members])) ?_
  exact .throw

theorem AttributePdu.raises : RaisesNew AttributePdu.newHeap .valueError := by
  intro h s
  refine ⟨h ++ [.obj ((putAttr "exerciseID" (.sc (.int 0)) (putAttr "protocolVersion" (.sc (.int 7))
    (AttributePdu.attrs.map fun a => (a.1, .sc a.2)))))], ?_, by simp, (fun _ h => nomatch h),
    fun r hr _ => List.getElem?_append_left hr⟩
  simp [AttributePdu.newHeap, H.new, AttributePdu.initHeap, EntityInformationFamilyPdu.initHeap, Pdu.initHeap,
    PduSuperclass.initHeap, H.bind_def, H.bind, H.alloc, H.setAttr, H.hasAttr, AttributePdu.attrs, attrOf, putAttr, H.throw]

theorem PduClass.loads (c : PduClass) : Loads c.decodeHeap c.decode AnyPdu.members := by
  cases c
LOADS

theorem Shows.alone {σ : Type} {fs : σ → List (String × Tree)} {w : σ → W Unit} {c : Ref → S Unit}
    (hs : Shows fs w c) (r : Ref) (o : σ) (h : Heap) (F : List Ref) (A : Holds h (.ref r) (.obj (fs o)) F) :
    c r h = w o := hs [] r o h F (by rw [List.append_nil]; exact A.amounts)

theorem AnyPdu.shows (r : Ref) (p : AnyPdu) (h : Heap) (F : List Ref) (A : Holds h (.ref r) (.obj p.members) F) :
    p.cls.serializeHeap r h = p.serialize :=
  match p, A with
SHOWS

/-- What the factory gives, against what it gives with values. -/
theorem getPdu_loads (h : Heap) (s : InStream) : ∃ h',
    match getPdu s with
    | (.ok (some p), s') => ∃ r F, getPduHeap h s = (.ok (some r), h', s') ∧ Holds h' (.ref r) (.obj p.members) F ∧
        Grows h [] h' F
    | (.ok none, s') => getPduHeap h s = (.ok none, h', s') ∧ Grows h [] h' []
    | (.error e, s') => getPduHeap h s = (.error e, h', s') ∧ Grows h [] h' [] := by
  have same : Grows h [] h [] := .refl h []
  simp only [getPdu, getPduHeap, H.bind_def, H.bind, H.read, R.bind_def, R.bind]
  rcases R.seek 2 s with ⟨_ | _, s1⟩
  · exact ⟨h, rfl, same⟩
  rcases hb : read_byte s1 with ⟨_ | t, s2⟩
  · simp only [hb]; exact ⟨h, rfl, same⟩
  simp only [hb]
  rcases R.seek 0 s2 with ⟨_ | _, s3⟩
  · exact ⟨h, rfl, same⟩
  simp only
  cases PduTypeDecoders.lookup t with
  | none => exact ⟨h, rfl, same⟩
  | some c =>
    obtain ⟨h', q⟩ := c.loads h s3
    refine ⟨h', ?_⟩
    revert q
    simp only [H.bind, R.bind_def, R.bind]
    rcases c.decode s3 with ⟨_ | p, s4⟩
    · rintro ⟨e, g⟩
      rw [e]
      exact ⟨rfl, g⟩
    · rintro ⟨r, F, e, A, g⟩
      rw [e]
      exact ⟨r, F, rfl, A, g⟩

end Dis
