import Verif.Spec.Bits
import Verif.Proof.Bitfield
import Verif.Proof.Common

/-! # Proofs: validation of byte lengths and the bit-field records -/

namespace Dis

/-- A reader that touches nothing and may only fail. -/
def Silent (r : R Unit) : Prop := ∀ st a s', r st = (.ok a, s') → s' = st

theorem Post.nil {r : R Unit} (h : Silent r) : Post r (fun b _ => b = []) := by
  intro pre suf a s' hr
  exact ⟨[], suf, rfl, h _ _ _ hr, rfl⟩

theorem Post.skip {α} {r : R Unit} {k : Unit → R α} {Q : Bytes → α → Prop} (h : Silent r)
    (h2 : Post (k ()) Q) : Post (r >>= k) Q :=
  Post.bind (Post.nil h) fun _ _ hb => by subst hb; exact h2

theorem VariableRecord.parse_reads {bl : Option Int} (h : ∀ n, bl = some n → 0 ≤ n) :
    Reads (VariableRecord.parse bl) [] () := by
  intro pre post
  cases bl with
  | none => simp [VariableRecord.parse]
  | some n => simp [VariableRecord.parse, h n rfl]

theorem VariableRecord.parse_silent (bl : Option Int) : Silent (VariableRecord.parse bl) := by
  intro st a s' h
  unfold VariableRecord.parse at h
  split at h
  · cases h; rfl
  · split at h
    · cases h; rfl
    · cases h

theorem VariableRecord.parse_loc (bl : Option Int) : Local (VariableRecord.parse bl) := by
  unfold VariableRecord.parse
  split
  · exact Local.pure _
  · exact Local.ite (Local.pure _) (Local.throw _)

theorem StandardVariableRecord.parse_reads {bl : Int} (h : 0 ≤ bl ∧ bl % 8 = 0) :
    Reads (StandardVariableRecord.parse bl) [] () := by
  unfold StandardVariableRecord.parse
  refine Reads.bind (b1 := []) (b2 := []) (VariableRecord.parse_reads ?_) ?_
  · rintro n ⟨⟩; exact h.1
  · rw [if_pos h.2]; exact Reads.pure _

theorem StandardVariableRecord.parse_loc (bl : Int) : Local (StandardVariableRecord.parse bl) := by
  unfold StandardVariableRecord.parse
  exact Local.bind (VariableRecord.parse_loc _) fun _ => Local.ite (Local.pure _) (Local.throw _)

theorem StandardVariableRecord.parse_silent (bl : Int) : Silent (StandardVariableRecord.parse bl) := by
  intro st a s' h
  unfold StandardVariableRecord.parse at h
  obtain ⟨u, s1, h1, h2⟩ := R.bind_inv h
  cases VariableRecord.parse_silent _ _ _ _ h1
  split at h2 <;> cases h2
  rfl

/-! ## SpreadSpectrum -/

theorem boolBit (b : Bool) : (decide (b.toInt % 2 ^ 1 ≠ 0)) = b := by cases b <;> rfl

theorem SpreadSpectrum.rt (s o : SpreadSpectrum) :
    RT (SpreadSpectrum.serialize o) (SpreadSpectrum.parse s) (SpreadSpectrum.after s o) := by
  unfold SpreadSpectrum.serialize SpreadSpectrum.parse
  refine (RT.last (Bitfield.rt (by decide) _)).of_eq ?_
  exact (SpreadSpectrum.mk.injEq ..).mpr ⟨boolBit _, boolBit _, boolBit _, rfl⟩

theorem SpreadSpectrum.loc (s : SpreadSpectrum) : Local (SpreadSpectrum.parse s) := by
  unfold SpreadSpectrum.parse
  exact Local.bind (Bitfield.loc _) fun _ => Local.pure _

theorem SpreadSpectrum.sized (o : SpreadSpectrum) :
    Sized (SpreadSpectrum.serialize o) (SpreadSpectrum.wireSize o) := Bitfield.sized _

theorem SpreadSpectrum.ok_iff (o : SpreadSpectrum) :
    (SpreadSpectrum.serialize o).Ok ↔ SpreadSpectrum.WireOk o := Bitfield.ok _

theorem SpreadSpectrum.after_canon {o : SpreadSpectrum} (h : SpreadSpectrum.Canon o) :
    SpreadSpectrum.after SpreadSpectrum.init o = o := by
  cases o
  exact (SpreadSpectrum.mk.injEq ..).mpr ⟨rfl, rfl, rfl, h.symm⟩

/-- The padding bits are lost, so the bytes need not come back. -/
theorem SpreadSpectrum.post : Post (SpreadSpectrum.parse SpreadSpectrum.init)
    (fun _ o => SpreadSpectrum.WireOk o ∧ SpreadSpectrum.Canon o) := by
  unfold SpreadSpectrum.parse
  exact Post.last (Bitfield.post (by decide)) fun _ _ _ => ⟨trivial, rfl⟩

/-! ## NetId -/

theorem NetId.rt (s o : NetId) : RT (NetId.serialize o) (NetId.parse s) (NetId.after s o) := by
  unfold NetId.serialize NetId.parse
  exact RT.last (Bitfield.rt (by decide) _)

theorem NetId.loc (s : NetId) : Local (NetId.parse s) := by
  unfold NetId.parse
  exact Local.bind (Bitfield.loc _) fun _ => Local.pure _

theorem NetId.sized (o : NetId) : Sized (NetId.serialize o) (NetId.wireSize o) := Bitfield.sized _

theorem NetId.ok_iff (o : NetId) : (NetId.serialize o).Ok ↔ NetId.WireOk o := Bitfield.ok _

theorem NetId.after_canon {s o : NetId} (h : NetId.Canon o) : NetId.after s o = o := by
  obtain ⟨h1, h2, h3, h4⟩ := h
  cases o
  exact (NetId.mk.injEq ..).mpr ⟨Int.emod_eq_of_lt h1.1 h1.2, Int.emod_eq_of_lt h2.1 h2.2,
    Int.emod_eq_of_lt h3.1 h3.2, Int.emod_eq_of_lt h4.1 h4.2⟩

theorem bitsFit4 {a b c d : Nat} {vs : List Int} (h : BitsFit [a, b, c, d] vs) :
    ∃ w x y z, vs = [w, x, y, z] ∧ (0 ≤ w ∧ w < 2 ^ a) ∧ (0 ≤ x ∧ x < 2 ^ b) ∧
      (0 ≤ y ∧ y < 2 ^ c) ∧ (0 ≤ z ∧ z < 2 ^ d) := by
  rcases vs with _ | ⟨w, _ | ⟨x, _ | ⟨y, _ | ⟨z, _ | ⟨t, l⟩⟩⟩⟩⟩ <;> simp [BitsFit] at h
  exact ⟨w, x, y, z, rfl, h.1, h.2.1, h.2.2.1, h.2.2.2⟩

theorem bitsFit3 {a b c : Nat} {vs : List Int} (h : BitsFit [a, b, c] vs) :
    ∃ w x y, vs = [w, x, y] ∧ (0 ≤ w ∧ w < 2 ^ a) ∧ (0 ≤ x ∧ x < 2 ^ b) ∧
      (0 ≤ y ∧ y < 2 ^ c) := by
  rcases vs with _ | ⟨w, _ | ⟨x, _ | ⟨y, _ | ⟨z, l⟩⟩⟩⟩ <;> simp [BitsFit] at h
  exact ⟨w, x, y, rfl, h.1, h.2.1, h.2.2⟩

theorem NetId.post : Post (NetId.parse NetId.init) (fun b o => (NetId.WireOk o ∧ NetId.Canon o) ∧
    (NetId.NoNaN o → (NetId.serialize o).Emits b)) := by
  unfold NetId.parse
  refine Post.last (Bitfield.post (by decide)) fun vs b h => ?_
  obtain ⟨w, x, y, z, rfl, h1, h2, h3, h4⟩ := bitsFit4 h.1
  exact ⟨⟨trivial, h1, h2, h3, h4⟩, fun _ => h.2⟩

/-! ## DEFireFlags -/

theorem DEFireFlags.rt (s o : DEFireFlags) :
    RT (DEFireFlags.serialize o) (DEFireFlags.parse s) (DEFireFlags.after s o) := by
  unfold DEFireFlags.serialize DEFireFlags.parse
  exact RT.last (Bitfield.rt (by decide) _)

theorem DEFireFlags.loc (s : DEFireFlags) : Local (DEFireFlags.parse s) := by
  unfold DEFireFlags.parse
  exact Local.bind (Bitfield.loc _) fun _ => Local.pure _

theorem DEFireFlags.sized (o : DEFireFlags) :
    Sized (DEFireFlags.serialize o) (DEFireFlags.wireSize o) := Bitfield.sized _

theorem DEFireFlags.ok_iff (o : DEFireFlags) :
    (DEFireFlags.serialize o).Ok ↔ DEFireFlags.WireOk o := Bitfield.ok _

theorem DEFireFlags.after_canon {s o : DEFireFlags} (h : DEFireFlags.Canon o) :
    DEFireFlags.after s o = o := by
  obtain ⟨h1, h2, h3⟩ := h
  cases o
  exact (DEFireFlags.mk.injEq ..).mpr ⟨Int.emod_eq_of_lt h1.1 h1.2, Int.emod_eq_of_lt h2.1 h2.2,
    h3.symm⟩

theorem DEFireFlags.post : Post (DEFireFlags.parse DEFireFlags.init) (fun b o => DEFireFlags.Live o →
    (DEFireFlags.WireOk o ∧ DEFireFlags.Canon o) ∧
    (DEFireFlags.NoNaN o → (DEFireFlags.serialize o).Emits b)) := by
  unfold DEFireFlags.parse
  refine Post.last (Bitfield.post (by decide)) fun vs b h hl => ?_
  obtain ⟨w, x, y, rfl, h1, h2, h3⟩ := bitsFit3 h.1
  have hy : y = 0 := hl
  subst hy
  exact ⟨⟨trivial, h1, h2, rfl⟩, fun _ => h.2⟩

end Dis
