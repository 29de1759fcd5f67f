import Verif.Props.Heap

/-!
# C67: the factory makes new objects

`createPdu` and `getPdu` as programs on a memory of objects (`Verif.Model.HeapFactory`): the PDU they return is
new, down to its last part; it is what the other theorems say of it as a value; and whatever data comes
in, also data that raises, nothing that was in memory before is changed.
-/

namespace Dis

open H (Step Place)

/-- **C67.** The outcome of `createPdu` on the memory is that of the other theorems: the same exception, or
`None`, or a PDU. -/
theorem C67_outcome (data : Bytes) (h : Heap) (s : InStream) :
    (createPduHeap data h s).2.2 = s ∧
    match createPdu data with
    | .error e => (createPduHeap data h s).1 = .error e
    | .ok none => (createPduHeap data h s).1 = .ok none
    | .ok (some _) => ∃ r, (createPduHeap data h s).1 = .ok (some r) := by
  obtain ⟨h', q⟩ := getPdu_loads h ⟨data, 0⟩
  revert q
  simp only [createPduHeap, createPdu]
  rcases getPdu ⟨data, 0⟩ with ⟨_ | _ | p, s'⟩
  · rintro ⟨e, _⟩; rw [e]; exact ⟨trivial, rfl⟩
  · rintro ⟨e, _⟩; rw [e]; exact ⟨trivial, rfl⟩
  · rintro ⟨r, F, e, _⟩; rw [e]; exact ⟨trivial, r, rfl⟩

/-- **C67.** The PDU serializes as the value does, its attributes are those of the value, and neither it nor
anything that can be reached from it was there before. -/
theorem C67_pdu (data : Bytes) (h : Heap) (s : InStream) (p : AnyPdu) (hp : createPdu data = .ok (some p)) (r : Ref)
    (hr : (createPduHeap data h s).1 = .ok (some r)) :
    p.cls.serializeHeap r (createPduHeap data h s).2.1 = p.serialize ∧
    (∀ path v, (Tree.obj p.members).get path = some (.sc v) → ∀ s',
      H.walk (.ref r) path (createPduHeap data h s).2.1 s' = (.ok (.sc v), (createPduHeap data h s).2.1, s')) ∧
    ∀ x, Reach (createPduHeap data h s).2.1 r x → h.length ≤ x := by
  obtain ⟨h', q⟩ := getPdu_loads h ⟨data, 0⟩
  revert q hr hp
  simp only [createPduHeap, createPdu]
  rcases getPdu ⟨data, 0⟩ with ⟨_ | _ | p', s'⟩
  · exact fun hp => nomatch hp
  · exact fun hp => nomatch hp
  rintro hp hr ⟨r', F, e, A, g⟩
  simp only [Except.ok.injEq, Option.some.injEq] at hp
  subst hp
  rw [e] at hr ⊢
  simp only [Except.ok.injEq, Option.some.injEq] at hr
  subst hr
  refine ⟨AnyPdu.shows _ _ _ _ A, fun path v ev s' => ?_, fun x hx => ?_⟩
  · obtain ⟨w, G', ew, C, _⟩ := walk_holds path s' A ev
    rw [ew, C.sc_iff]
  · rcases g.within x (hx.inside A (HoldsAll.mem A r' (by simp))) with hx | hx
    · cases hx
    · exact hx

/-- **C67.** Whatever the data and the outcome, nothing that was in memory before is changed. -/
theorem C67_others (data : Bytes) (h : Heap) (s : InStream) (x : Ref) (hx : x < h.length) :
    (createPduHeap data h s).2.1[x]? = h[x]? := by
  obtain ⟨h', q⟩ := getPdu_loads h ⟨data, 0⟩
  revert q
  simp only [createPduHeap]
  rcases getPdu ⟨data, 0⟩ with ⟨_ | _ | p, s'⟩
  · rintro ⟨e, g⟩; rw [e]; exact g.frame x hx fun h => nomatch h
  · rintro ⟨e, g⟩; rw [e]; exact g.frame x hx fun h => nomatch h
  · rintro ⟨r, F, e, _, g⟩; rw [e]; exact g.frame x hx fun h => nomatch h

/-- **C67.** At any time in a program, a PDU that came from the factory serializes as its value, the value
that the other theorems are about (`C66_read`, `C66_disjoint` and the others apply too). -/
theorem C67_serialize {h : Heap} {l : List (Ref × Tree)} (S : Session h l) (r : Ref) (p : AnyPdu)
    (hr : (r, .obj p.members) ∈ l) : p.cls.serializeHeap r h = p.serialize := by
  obtain ⟨F, A⟩ := S.apart
  obtain ⟨l1, l2, rfl⟩ := List.append_of_mem hr
  obtain ⟨F', A', _⟩ := A.perm List.perm_middle
  obtain ⟨G, K, rfl, B, _, _⟩ := HoldsAll.uncons A'
  exact p.shows r h G B

/-- A receiver that keeps what it receives: `for data in datas: try: pdu = createPdu(data)`, and if that is a
PDU, `pdus.append(pdu)` (user code; the loop of /repo/examples/dis_receiver.py:57-58 without the socket). -/
def createAll (datas : List Bytes) (h : Heap) : List Ref × Heap :=
  match datas with
  | [] => ([], h)
  | data :: datas =>
    match createPduHeap data h ⟨[], 0⟩ with
    | (.ok (some r), h', _) => (r :: (createAll datas h').1, (createAll datas h').2)
    | (_, h', _) => createAll datas h'

/-- **Specification for C67.** The PDUs in a list of messages, as values (no code counterpart). -/
def created (datas : List Bytes) : List AnyPdu :=
  datas.filterMap fun data =>
    match createPdu data with
    | .ok p => p
    | .error _ => none

theorem createAll_session (datas : List Bytes) : ∀ (h : Heap) (l : List (Ref × Tree)), Session h l →
    (createAll datas h).1.length = (created datas).length ∧
    Session (createAll datas h).2 (((createAll datas h).1.zip ((created datas).map fun p => .obj p.members)) ++ l) := by
  induction datas with
  | nil => exact fun h l S => ⟨rfl, S⟩
  | cons data datas ih =>
    intro h l S
    have out := (C67_outcome data h ⟨[], 0⟩).2
    have e : createPduHeap data h ⟨[], 0⟩ = ((getPduHeap h ⟨data, 0⟩).1, (getPduHeap h ⟨data, 0⟩).2.1, ⟨[], 0⟩) := rfl
    rcases hg : getPduHeap h ⟨data, 0⟩ with ⟨x, h', s'⟩
    rw [hg] at e
    simp only [createAll, created, List.filterMap_cons, e] at out ⊢
    have ec : createPdu data = (getPdu ⟨data, 0⟩).1 := rfl
    rcases hc : createPdu data with _ | _ | p
    · rw [hc] at out
      simp only at out
      subst out
      exact ih h' l (.getNone S hg fun r hr => nomatch hr)
    · rw [hc] at out
      simp only at out
      subst out
      exact ih h' l (.getNone S hg fun r hr => nomatch hr)
    · rw [hc] at out
      obtain ⟨r, hr⟩ := out
      subst hr
      obtain ⟨e1, S1⟩ := ih h' _ (.get p S (ec ▸ hc) hg)
      refine ⟨by simpa [created] using e1, ?_⟩
      simp only [List.map_cons, List.zip_cons_cons, List.cons_append]
      exact S1.perm List.perm_middle

/-- **C67.** A receiver that keeps all it receives, from any messages in any order, good and bad: in the
end every PDU it kept is the one its message was decoded to, as if the others had never come, and no two
of them share anything. -/
theorem C67_receiver (datas : List Bytes) (h : Heap) :
    (createAll datas h).1.length = (created datas).length ∧
    (∀ (i : Nat) (r : Ref) (p : AnyPdu), (createAll datas h).1[i]? = some r → (created datas)[i]? = some p →
      p.cls.serializeHeap r (createAll datas h).2 = p.serialize) ∧
    ∀ (i j : Nat) (r q : Ref), i ≠ j → (createAll datas h).1[i]? = some r → (createAll datas h).1[j]? = some q →
      ∀ x, Reach (createAll datas h).2 r x → Reach (createAll datas h).2 q x → False := by
  obtain ⟨e, S⟩ := createAll_session datas h [] (.start h)
  rw [List.append_nil] at S
  refine ⟨e, fun i r p hr hp => C67_serialize S r p ?_, fun i j r q hij hr hq x hx hy => ?_⟩
  · refine List.mem_of_getElem? (i := i) ?_
    simp [List.getElem?_zip_eq_some, hr, hp]
  · obtain ⟨t, ht⟩ : ∃ t, (created datas)[i]? = some t := by
      obtain ⟨hlt, _⟩ := List.getElem?_eq_some_iff.mp hr
      exact ⟨_, List.getElem?_eq_getElem (e ▸ hlt)⟩
    obtain ⟨u, hu⟩ : ∃ u, (created datas)[j]? = some u := by
      obtain ⟨hlt, _⟩ := List.getElem?_eq_some_iff.mp hq
      exact ⟨_, List.getElem?_eq_getElem (e ▸ hlt)⟩
    exact C66_disjoint S i j hij r q (.obj t.members) (.obj u.members) (by simp [List.getElem?_zip_eq_some, hr, ht])
      (by simp [List.getElem?_zip_eq_some, hq, hu]) x hx hy

/-- An `AcknowledgePdu` (32 bytes), a message cut short, one of an unknown type, and an `AcknowledgePdu` with
another request: the receiver keeps two PDUs, which are the two messages. -/
def acknowledge (request : UInt8) : Bytes :=
  [7, 1, 15, 5, 0, 0, 0, 0, 0, 32, 0, 0, 0, 17, 0, 23, 0, 42, 0, 1, 0, 2, 0, 3, 0, 1, 0, 2, 0, 0, 0, request]

example : ∃ r q h, createAll [acknowledge 4, (acknowledge 5).take 31, [7, 1, 255, 0], acknowledge 6] [] = ([r, q], h) ∧
    r ≠ q ∧ AcknowledgePdu.serializeHeap r h = ⟨acknowledge 4, .ok ()⟩ ∧
    AcknowledgePdu.serializeHeap q h = ⟨acknowledge 6, .ok ()⟩ :=
  ⟨_, _, _, rfl, by decide +kernel, by decide +kernel, by decide +kernel⟩

/-- The hypotheses of `C67_pdu`. -/
example : ∃ p r, createPdu (acknowledge 4) = .ok (some p) ∧ (createPduHeap (acknowledge 4) [.list []] ⟨[], 0⟩).1 = .ok (some r) ∧
    p.cls = .AcknowledgePdu ∧ r = 1 :=
  ⟨_, _, rfl, rfl, rfl, rfl⟩

/-- **C67.** The two constructors that raise (the first one in any `createPdu` of a message of type 44) also leave
everything as it was. -/
theorem C67_raises (h : Heap) (s : InStream) :
    (∃ h', (LinearObjectStatePdu.newHeap : H Ref) h s = (.error .nameError, h', s) ∧ ∀ x, x < h.length → h'[x]? = h[x]?) ∧
    ∃ h', AttributePdu.newHeap h s = (.error .valueError, h', s) ∧ ∀ x, x < h.length → h'[x]? = h[x]? := by
  obtain ⟨h1, e1, g1⟩ := LinearObjectStatePdu.raises h s
  obtain ⟨h2, e2, g2⟩ := AttributePdu.raises h s
  exact ⟨⟨h1, e1, fun x hx => g1.frame x hx fun h => nomatch h⟩, h2, e2, fun x hx => g2.frame x hx fun h => nomatch h⟩

end Dis
