import Verif.Spec.Special
import Verif.Proof.Variable
import Verif.Proof.Pdus5

/-! # Proofs for standard variable records -/

namespace Dis

/-! ## DirectedEnergyAreaAimpoint -/

theorem DirectedEnergyAreaAimpoint.rt (bl : Int) (hbl : 0 ≤ bl ∧ bl % 8 = 0)
    (s o : DirectedEnergyAreaAimpoint) :
    RT (DirectedEnergyAreaAimpoint.body o) (DirectedEnergyAreaAimpoint.parse s bl)
      (DirectedEnergyAreaAimpoint.after s o) := by
  unfold DirectedEnergyAreaAimpoint.body DirectedEnergyAreaAimpoint.parse
  exact RT.silent (StandardVariableRecord.parse_reads hbl) <|
    RT.bind (rt_uint16 o.padding) <|
    RT.bind (rt_uint16 _) <|
    RT.bind (rt_uint16 _) <|
    RT.bind (rt_list fun x _ => BeamAntennaPattern.rt (some 40) (by rintro n ⟨⟩; decide) _ x) <|
    RT.last (rt_list fun x _ => DirectedEnergyTargetEnergyDeposition.rt _ x)

theorem DirectedEnergyAreaAimpoint.loc (bl : Int) (s : DirectedEnergyAreaAimpoint) :
    Local (DirectedEnergyAreaAimpoint.parse s bl) := by
  unfold DirectedEnergyAreaAimpoint.parse
  exact Local.bind (StandardVariableRecord.parse_loc bl) fun _ =>
    Local.bind loc_uint16 fun _ =>
    Local.bind loc_uint16 fun _ =>
    Local.bind loc_uint16 fun _ =>
    Local.bind (Local.times (BeamAntennaPattern.loc _ _) _) fun _ =>
    Local.bind (Local.times (DirectedEnergyTargetEnergyDeposition.loc _) _) fun _ =>
    Local.pure _

theorem DirectedEnergyAreaAimpoint.sized (o : DirectedEnergyAreaAimpoint) :
    Sized (DirectedEnergyAreaAimpoint.body o) (DirectedEnergyAreaAimpoint.wireSize o) := by
  unfold DirectedEnergyAreaAimpoint.body
  refine Sized.of_eq (Sized.bind (sized_uint16 _) <|
    Sized.bind (sized_uint16 _) <|
    Sized.bind (sized_uint16 _) <|
    Sized.bind (Sized.forEach_const fun x => BeamAntennaPattern.sized x) <|
    Sized.forEach_const fun x => DirectedEnergyTargetEnergyDeposition.sized x) ?_
  simp only [DirectedEnergyAreaAimpoint.wireSize]
  omega

theorem DirectedEnergyAreaAimpoint.ok_iff (o : DirectedEnergyAreaAimpoint) :
    (DirectedEnergyAreaAimpoint.body o).Ok ↔ DirectedEnergyAreaAimpoint.WireOk o := by
  unfold DirectedEnergyAreaAimpoint.body DirectedEnergyAreaAimpoint.WireOk
  exact ok_bind_iff ok_uint16 <|
    ok_bind_iff ok_uint16 <|
    ok_bind_iff ok_uint16 <|
    ok_bind_iff (ok_list BeamAntennaPattern.ok_iff) <|
    ok_list DirectedEnergyTargetEnergyDeposition.ok_iff

theorem DirectedEnergyAreaAimpoint.after_canon {o : DirectedEnergyAreaAimpoint}
    (h : DirectedEnergyAreaAimpoint.Canon o) :
    DirectedEnergyAreaAimpoint.after DirectedEnergyAreaAimpoint.init o = o := by
  obtain ⟨h1, h2⟩ := h
  cases o
  exact (DirectedEnergyAreaAimpoint.mk.injEq ..).mpr ⟨rfl,
    canon_list fun x hx => BeamAntennaPattern.after_canon (h1 x hx),
    canon_list fun x hx => DirectedEnergyTargetEnergyDeposition.after_canon (h2 x hx)⟩

theorem DirectedEnergyAreaAimpoint.post (bl : Int) :
    Post (DirectedEnergyAreaAimpoint.parse DirectedEnergyAreaAimpoint.init bl) (fun b o =>
      (DirectedEnergyAreaAimpoint.WireOk o ∧ DirectedEnergyAreaAimpoint.Canon o) ∧
      (DirectedEnergyAreaAimpoint.NoNaN o → (DirectedEnergyAreaAimpoint.body o).Emits b)) := by
  unfold DirectedEnergyAreaAimpoint.parse
  refine Post.skip (StandardVariableRecord.parse_silent bl) ?_
  refine Post.bind post_uint16 fun a0 b0 h0 => ?_
  refine Post.bind post_uint16 fun a1 b1 h1 => ?_
  refine Post.bind post_uint16 fun a2 b2 h2 => ?_
  refine Post.bind (Post.times (BeamAntennaPattern.post (some 40)) _) fun a3 b3 h3 => ?_
  refine Post.last (Post.times DirectedEnergyTargetEnergyDeposition.post _) fun a4 b4 h4 => ?_
  obtain ⟨hl3, hp3, he3⟩ := h3
  obtain ⟨hl4, hp4, he4⟩ := h4
  have e1 : a1 = (a3.length : Int) := count_eq h1.1.1 hl3
  have e2 : a2 = (a4.length : Int) := count_eq h2.1.1 hl4
  subst e1 e2
  refine ⟨⟨⟨h0.1, h1.1, h2.1, fun x hx => (hp3 x hx).1, fun x hx => (hp4 x hx).1⟩,
    fun x hx => (hp3 x hx).2, fun x hx => (hp4 x hx).2⟩, fun hn => ?_⟩
  exact W.Emits.bind h0.2 <| W.Emits.bind h1.2 <| W.Emits.bind h2.2 <|
    W.Emits.bind (he3 hn.1) <| he4 hn.2

/-! ## Raw bytes and placeholder records -/

theorem post_read_bytes (n : Int) : Post (read_bytes n) (fun b a => b = a) := by
  intro pre suf a s' h
  unfold read_bytes R.readRaw at h
  simp only [Prod.mk.injEq, Except.ok.injEq, List.drop_left] at h
  obtain ⟨h1, rfl⟩ := h
  split at h1
  · subst h1
    rename_i hn
    refine ⟨suf, [], by simp, by simp [hn], rfl⟩
  · subst h1
    rename_i hn
    exact ⟨suf.take n.toNat, suf.drop n.toNat, by simp, by simp [hn], rfl⟩

theorem UnknownStandardVariableRecord.post (s : UnknownStandardVariableRecord) (bl : Int) :
    Post (UnknownStandardVariableRecord.parse s bl) (fun b o => b = o.data) := by
  unfold UnknownStandardVariableRecord.parse
  refine Post.skip (StandardVariableRecord.parse_silent bl) ?_
  exact Post.last (post_read_bytes _) fun _ _ h => h

/-! ## The dispatcher -/

theorem SVClass.post (c : SVClass) (bl : Int) : Post (SVClass.parse c bl) (fun _ _ => True) := by
  cases c with
  | highFidelityHAVEQUICKRadio =>
    exact Post.last (HighFidelityHAVEQUICKRadio.post bl) fun _ _ _ => trivial
  | directedEnergyPrecisionAimpoint =>
    exact Post.last (DirectedEnergyPrecisionAimpoint.post bl) fun _ _ _ => trivial
  | directedEnergyAreaAimpoint =>
    exact Post.last (DirectedEnergyAreaAimpoint.post bl) fun _ _ _ => trivial
  | directedEnergyDamage => exact Post.last (DirectedEnergyDamage.post bl) fun _ _ _ => trivial
  | unknown t =>
    exact Post.last (UnknownStandardVariableRecord.post _ bl) fun _ _ _ => trivial

theorem Post.ofExcept {α} (x : Except PyErr α) : Post (R.ofExcept x) (fun b a => b = [] ∧ x = .ok a) := by
  intro pre suf a s' h
  unfold R.ofExcept at h
  injection h with h1 h2
  exact ⟨[], suf, rfl, h2.symm, rfl, h1⟩

theorem parseStandardVariableRecord.post (e : SVBase) :
    Post (parseStandardVariableRecord e) (fun _ _ => True) := by
  unfold parseStandardVariableRecord
  refine Post.bind post_uint32 fun _ _ _ => Post.bind post_uint16 fun _ _ _ =>
    Post.bind (Post.ofExcept _) fun _ _ _ => SVClass.post _ _

/-- Lists other than of the base class never hold a placeholder record. -/
theorem getStandardVariableClass_known {t : Int} {e : SVBase} (he : e ≠ .standardVariable) {u : Int} :
    getStandardVariableClass t e ≠ .ok (.unknown u) := by
  unfold getStandardVariableClass
  split
  · simp
  · dsimp only
    split
    · simp
    · rename_i h
      intro h2
      simp only [Except.ok.injEq] at h2
      rw [h2] at h
      cases e <;> simp [SVClass.isSubclass] at h he

theorem Local.bindP {α β} {r : R α} {k : α → R β} {P : α → Prop} (h1 : Local r)
    (hp : ∀ st a s', r st = (.ok a, s') → P a) (h2 : ∀ a, P a → Local (k a)) :
    Local (r >>= k) := by
  intro pre suf c s' h
  obtain ⟨a, s1, hr, hk⟩ := R.bind_inv h
  have ha := hp _ _ _ hr
  obtain ⟨b1, rest1, rfl, rfl, hr1⟩ := h1 _ _ _ _ hr
  have hk' : k a ⟨(pre ++ b1) ++ rest1, (pre ++ b1).length⟩ = (.ok c, s') := by
    simpa [List.append_assoc] using hk
  obtain ⟨b2, rest2, rfl, rfl, hr2⟩ := h2 a ha _ _ _ _ hk'
  refine ⟨b1 ++ b2, rest2, by simp, ?_, hr1.bind hr2⟩
  simp [Nat.add_assoc]

theorem SVClass.loc {c : SVClass} (h : ∀ u, c ≠ .unknown u) (bl : Int) : Local (SVClass.parse c bl) := by
  cases c with
  | highFidelityHAVEQUICKRadio =>
    exact Local.bind (HighFidelityHAVEQUICKRadio.loc bl _) fun _ => Local.pure _
  | directedEnergyPrecisionAimpoint =>
    exact Local.bind (DirectedEnergyPrecisionAimpoint.loc bl _) fun _ => Local.pure _
  | directedEnergyAreaAimpoint =>
    exact Local.bind (DirectedEnergyAreaAimpoint.loc bl _) fun _ => Local.pure _
  | directedEnergyDamage =>
    exact Local.bind (DirectedEnergyDamage.loc bl _) fun _ => Local.pure _
  | unknown t => exact absurd rfl (h t)

theorem parseStandardVariableRecord.loc {e : SVBase} (he : e ≠ .standardVariable) :
    Local (parseStandardVariableRecord e) := by
  unfold parseStandardVariableRecord
  refine Local.bind loc_uint32 fun t => Local.bind loc_uint16 fun bl => ?_
  refine Local.bindP (P := fun c => ∀ u, c ≠ .unknown u) (Local.ofExcept _) ?_ fun c hc =>
    SVClass.loc hc bl
  intro st a s' h u hu
  unfold R.ofExcept at h
  injection h with h1 h2
  exact getStandardVariableClass_known he (hu ▸ h1)

/-! ## The writers -/

theorem StandardVariableRecord.sized (t m : Int) : Sized (StandardVariableRecord.serialize t m) 8 :=
  Sized.bind (sized_uint32 t) (sized_uint32 m)

theorem HighFidelityHAVEQUICKRadio.serialize_eq (o : HighFidelityHAVEQUICKRadio) :
    o.serialize = (StandardVariableRecord.serialize 3000 40 >>= fun _ => o.body) := rfl

theorem DirectedEnergyDamage.serialize_eq (o : DirectedEnergyDamage) :
    o.serialize = (StandardVariableRecord.serialize 4500 40 >>= fun _ =>
      write_uint32 4500 >>= fun _ => write_uint16 40 >>= fun _ => o.body) := rfl

theorem DirectedEnergyPrecisionAimpoint.serialize_eq (o : DirectedEnergyPrecisionAimpoint) :
    o.serialize = (StandardVariableRecord.serialize 4000 96 >>= fun _ =>
      write_uint32 4000 >>= fun _ => write_uint16 96 >>= fun _ => o.body) := rfl

theorem DirectedEnergyAreaAimpoint.serialize_eq (o : DirectedEnergyAreaAimpoint) :
    o.serialize = (StandardVariableRecord.serialize 4001 o.marshalledSize >>= fun _ =>
      write_uint32 4001 >>= fun _ => write_uint16 o.marshalledSize >>= fun _ => o.body) := rfl

theorem sum_map_const {α} (l : List α) (f : α → Int) (c : Int) (h : ∀ x, f x = c) :
    (l.map f).sum = c * l.length := by
  induction l with
  | nil => simp
  | cons x xs ih => simp [ih, h, Int.mul_add]; omega

theorem DirectedEnergyAreaAimpoint.marshalledSize_eq (o : DirectedEnergyAreaAimpoint) :
    o.marshalledSize = 8 + 40 * o.beamAntennaPatterns.length
      + 12 * o.directedEnergyTargetEnergyDepositions.length := by
  unfold DirectedEnergyAreaAimpoint.marshalledSize
  rw [sum_map_const _ BeamAntennaPattern.marshalledSize 40 fun _ => rfl,
    sum_map_const _ DirectedEnergyTargetEnergyDeposition.marshalledSize 12 fun _ => rfl]

theorem SVRecord.sized (r : SVRecord) : Sized r.serialize r.wireSize := by
  cases r with
  | highFidelityHAVEQUICKRadio r =>
    exact Sized.bind (StandardVariableRecord.sized 3000 40) (HighFidelityHAVEQUICKRadio.sized r)
  | directedEnergyPrecisionAimpoint r =>
    exact Sized.bind (StandardVariableRecord.sized _ _) <| Sized.bind (sized_uint32 _) <|
      Sized.bind (sized_uint16 _) (DirectedEnergyPrecisionAimpoint.sized r)
  | directedEnergyAreaAimpoint r =>
    refine Sized.of_eq (Sized.bind (StandardVariableRecord.sized _ _) <| Sized.bind (sized_uint32 _) <|
      Sized.bind (sized_uint16 _) (DirectedEnergyAreaAimpoint.sized r)) ?_
    simp only [SVRecord.wireSize]; omega
  | directedEnergyDamage r =>
    exact Sized.bind (StandardVariableRecord.sized _ _) <| Sized.bind (sized_uint32 _) <|
      Sized.bind (sized_uint16 _) (DirectedEnergyDamage.sized r)
  | unknown r =>
    refine Sized.of_eq (Sized.bind (StandardVariableRecord.sized _ _) <| Sized.bind (sized_uint32 _) <|
      Sized.bind (sized_uint16 _) (sized_bytes r.data)) ?_
    simp only [SVRecord.wireSize]; omega

theorem StandardVariableRecord.ok_iff {t m : Int} :
    (StandardVariableRecord.serialize t m).Ok ↔ U32 t ∧ U32 m :=
  ok_bind_iff ok_uint32 ok_uint32

theorem SVRecord.ok_iff (r : SVRecord) : r.serialize.Ok ↔ r.WireOk := by
  cases r with
  | highFidelityHAVEQUICKRadio r =>
    show r.serialize.Ok ↔ r.WireOk
    rw [HighFidelityHAVEQUICKRadio.serialize_eq, W.ok_bind, StandardVariableRecord.ok_iff,
      HighFidelityHAVEQUICKRadio.ok_iff]
    simp [U32]
  | directedEnergyPrecisionAimpoint r =>
    show r.serialize.Ok ↔ r.WireOk
    rw [DirectedEnergyPrecisionAimpoint.serialize_eq, W.ok_bind, W.ok_bind, W.ok_bind,
      StandardVariableRecord.ok_iff, ok_uint32, ok_uint16, DirectedEnergyPrecisionAimpoint.ok_iff]
    simp [U32, U16]
  | directedEnergyDamage r =>
    show r.serialize.Ok ↔ r.WireOk
    rw [DirectedEnergyDamage.serialize_eq, W.ok_bind, W.ok_bind, W.ok_bind,
      StandardVariableRecord.ok_iff, ok_uint32, ok_uint16, DirectedEnergyDamage.ok_iff]
    simp [U32, U16]
  | directedEnergyAreaAimpoint r =>
    show r.serialize.Ok ↔ r.WireOk ∧ _
    rw [DirectedEnergyAreaAimpoint.serialize_eq, W.ok_bind, W.ok_bind, W.ok_bind,
      StandardVariableRecord.ok_iff, ok_uint32, ok_uint16, DirectedEnergyAreaAimpoint.ok_iff,
      DirectedEnergyAreaAimpoint.marshalledSize_eq]
    unfold U32 U16
    constructor
    · rintro ⟨-, -, h, h2⟩; exact ⟨h2, by omega⟩
    · rintro ⟨h2, h⟩; exact ⟨⟨by omega, by omega⟩, by omega, by omega, h2⟩
  | unknown r =>
    show (UnknownStandardVariableRecord.serialize r).Ok ↔ U32 r.recordType ∧ 6 + r.data.length ≤ 65535
    unfold UnknownStandardVariableRecord.serialize UnknownStandardVariableRecord.marshalledSize
    rw [W.ok_bind, W.ok_bind, W.ok_bind,
      StandardVariableRecord.ok_iff, ok_uint32, ok_uint16, ok_bytes]
    unfold U32 U16
    constructor
    · rintro ⟨h, -, h2, -⟩; exact ⟨h.1, by omega⟩
    · rintro ⟨h2, h⟩; exact ⟨⟨h2, by omega⟩, h2, by omega, trivial⟩

end Dis
