import Verif.Proof.AnyHeader

/-!
# The header fields of data that were decoded
-/

namespace Dis

theorem Pdu.fields {h : Pdu} {b : Bytes} (post : Bytes) (hh : (Pdu.serialize h).Emits b) :
    12 ≤ (b ++ post).length ∧
    fieldAt (b ++ post) 0 1 = h.protocolVersion ∧ fieldAt (b ++ post) 1 1 = h.exerciseID ∧
    fieldAt (b ++ post) 2 1 = h.pduType ∧ fieldAt (b ++ post) 3 1 = h.protocolFamily ∧
    fieldAt (b ++ post) 4 4 = h.timestamp ∧ fieldAt (b ++ post) 8 2 = h.length ∧
    fieldAt (b ++ post) 10 1 = h.pduStatus ∧ fieldAt (b ++ post) 11 1 = h.padding := by
  obtain ⟨h1, h2, rfl, e1, e2⟩ := W.emits_bind.1 hh
  obtain ⟨b0, r0, rfl, e0, r⟩ := W.emits_bind.1 e1
  obtain ⟨b1, r1, rfl, e1', r⟩ := W.emits_bind.1 r
  obtain ⟨b2, r2, rfl, e2', r⟩ := W.emits_bind.1 r
  obtain ⟨b3, r3, rfl, e3, r⟩ := W.emits_bind.1 r
  obtain ⟨b4, b5, rfl, e4, e5⟩ := W.emits_bind.1 r
  obtain ⟨b6, b7, rfl, e6, e7⟩ := W.emits_bind.1 e2
  obtain ⟨l0, v0⟩ := packU_field (writeFixed_emits.1 e0)
  obtain ⟨l1, v1⟩ := packU_field (writeFixed_emits.1 e1')
  obtain ⟨l2, v2⟩ := packU_field (writeFixed_emits.1 e2')
  obtain ⟨l3, v3⟩ := packU_field (writeFixed_emits.1 e3)
  obtain ⟨l4, v4⟩ := packU_field (writeFixed_emits.1 e4)
  obtain ⟨l5, v5⟩ := packU_field (writeFixed_emits.1 e5)
  obtain ⟨l6, v6⟩ := packU_field (writeFixed_emits.1 e6)
  obtain ⟨l7, v7⟩ := packU_field (writeFixed_emits.1 e7)
  rw [← v0, ← v1, ← v2, ← v3, ← v4, ← v5, ← v6, ← v7]
  simp only [List.append_assoc]
  refine ⟨by simp only [List.length_append]; omega, ?_⟩
  refine ⟨fieldAt_append (pre := []) rfl l0, fieldAt_append l0 l1, ?_⟩
  rw [← List.append_assoc b0]
  refine ⟨fieldAt_append (by simp only [List.length_append]; omega) l2, ?_⟩
  rw [← List.append_assoc _ b2]
  refine ⟨fieldAt_append (by simp only [List.length_append]; omega) l3, ?_⟩
  rw [← List.append_assoc _ b3]
  refine ⟨fieldAt_append (by simp only [List.length_append]; omega) l4, ?_⟩
  rw [← List.append_assoc _ b4]
  refine ⟨fieldAt_append (by simp only [List.length_append]; omega) l5, ?_⟩
  rw [← List.append_assoc _ b5]
  refine ⟨fieldAt_append (by simp only [List.length_append]; omega) l6, ?_⟩
  rw [← List.append_assoc _ b6]
  exact fieldAt_append (by simp only [List.length_append]; omega) l7

/-- A message that was decoded begins with the serialized header of the object. -/
theorem createPdu_header {d : Bytes} {p : AnyPdu} (h : createPdu d = .ok (some p)) :
    ∃ b post, d = b ++ post ∧ (Pdu.serialize p.toPdu).Emits b ∧
      ∃ t, d[2]? = some t ∧ PduTypeDecoders.lookup (t.toNat : Int) = some p.cls := by
  cases ht : d[2]? with
  | none =>
    have : createPdu d = .error .structError :=
      getPdu_short (by have := List.getElem?_eq_none_iff.1 ht; omega)
    rw [h] at this; cases this
  | some t =>
    cases hc : PduTypeDecoders.lookup (t.toNat : Int) with
    | none => rw [createPdu_none ht hc] at h; cases h
    | some c =>
      rw [createPdu_some ht hc] at h
      rcases hr : c.decode ⟨d, 0⟩ with ⟨x, s⟩
      rw [hr] at h
      cases x with
      | error e => cases h
      | ok a =>
        cases h
        obtain ⟨s1, hs⟩ := PduClass.heads c _ _ _ hr
        obtain ⟨b, post, hd, -, hb⟩ := Pdu.post _ [] d _ _ hs
        exact ⟨b, post, hd, hb.2 (by trivial), t, rfl, by rw [PduClass.decode_cls c _ _ _ hr]; exact hc⟩

end Dis
