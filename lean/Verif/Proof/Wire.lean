import Verif.Proof.Stream

/-! # Proof machinery used by the generated per-class proofs -/

namespace Dis

theorem ok_bind_tl {w k : W Unit} {P Q : Prop} (h1 : w.Ok ↔ P) (h2 : k.Ok ↔ Q)
    (hp : P := by trivial) : (w >>= fun _ => k).Ok ↔ Q := by
  rw [W.ok_bind, h1, h2]; simp [hp]

theorem ok_bind_tr {w k : W Unit} {P Q : Prop} (h1 : w.Ok ↔ P) (h2 : k.Ok ↔ Q)
    (hq : Q := by trivial) : (w >>= fun _ => k).Ok ↔ P := by
  rw [W.ok_bind, h1, h2]; simp [hq]

theorem ok_bind_tt {w k : W Unit} {P Q : Prop} (h1 : w.Ok ↔ P) (h2 : k.Ok ↔ Q)
    (hp : P := by trivial) (hq : Q := by trivial) : (w >>= fun _ => k).Ok ↔ True := by
  rw [W.ok_bind, h1, h2]; simp [hp, hq]

theorem ok_unsigned_short_zero : (write_unsigned_short 0).Ok ↔ True := by
  rw [ok_unsigned_short]; simp [U16]

theorem ok_list_true {α} {l : List α} {body : α → W Unit} {P : α → Prop} (h : ∀ v, (body v).Ok ↔ P v)
    (hp : ∀ v, P v := by intro v; trivial) : (W.forEach l body).Ok ↔ True := by
  rw [ok_list h]; simp [hp]

theorem ok_attr {w : Int → W Unit} {P : Int → Prop} {o : Option Int} (h : ∀ {v}, (w v).Ok ↔ P v) :
    (W.using (attr o) w).Ok ↔ ∃ v, o = some v ∧ P v := by
  rw [ok_using_attr]; simp [h]

theorem ok_need {w : Int → W Unit} {P : Int → Prop} {o : Option Int} (h : ∀ {v}, (w v).Ok ↔ P v) :
    (W.using (needInt o) w).Ok ↔ ∃ v, o = some v ∧ P v := by
  rw [ok_using_need]; simp [h]

theorem ok_using_int {α} {w : Int → W Unit} {P : Int → Prop} {o : IntOr α}
    (h : ∀ {v}, (w v).Ok ↔ P v) : (W.using (IntOr.asInt o) w).Ok ↔ ∃ v, o = .int v ∧ P v := by
  rw [ok_using]
  cases o <;> simp [IntOr.asInt, h]

theorem rt_attr {w : Int → W Unit} {r : R Int} (h : ∀ v, RT (w v) r v) (o : Option Int) :
    RT (W.using (attr o) w) r (o.getD 0) := rt_using_attr (f := id) o 0 h

theorem rt_need {w : Int → W Unit} {r : R Int} (h : ∀ v, RT (w v) r v) (o : Option Int) :
    RT (W.using (needInt o) w) r (o.getD 0) := rt_using_need (f := id) o 0 h

theorem rt_using_int {α} {w : Int → W Unit} {r : R Int} (h : ∀ v, RT (w v) r v) (o : IntOr α) :
    RT (W.using (IntOr.asInt o) w) r (IntOr.toIntD o) := by
  cases o with
  | int v => exact h v
  | obj _ => exact RT.of_not_ok (W.not_ok_throw _)

theorem toNat_mul8 (n : Nat) : ((n : Int) * 8 / 8).toNat = n := by omega

theorem rt_list_id8 {α} {l : List α} {body : α → W Unit} {r : R α} (h : ∀ x, RT (body x) r x) :
    RT (W.forEach l body) (R.times ((l.length : Int) * 8 / 8).toNat r) l := by
  rw [toNat_mul8]; exact rt_list_id h

theorem rt_list_throw8 {α β} {l : List α} {e e'} :
    RT (W.forEach l fun _ => W.throw e)
      (R.times ((l.length : Int) * 8 / 8).toNat (R.throw e' : R β)) [] := by
  rw [toNat_mul8]; exact rt_list_throw

theorem canon_use_some {o : Option Int} (h : ∃ v, o = some v) : some (o.getD 0) = o := by
  obtain ⟨v, rfl⟩ := h; rfl

theorem canon_use_int {α} {o : IntOr α} (h : ∃ v, o = .int v) : .int (IntOr.toIntD o) = o := by
  obtain ⟨v, rfl⟩ := h; rfl

theorem canon_list {α} {l : List α} {f : α → α} (h : ∀ x ∈ l, f x = x) : [] ++ l.map f = l := by
  induction l with
  | nil => rfl
  | cons x xs ih =>
    simp only [List.nil_append] at ih
    simp only [List.nil_append, List.map_cons]
    rw [h x (by simp), ih fun y hy => h y (by simp [hy])]

theorem Post.times_all {α} {r : R α} {w : α → W Unit} {P : α → Prop}
    (h : Post r (fun b x => P x ∧ (w x).Emits b)) (n : Nat) :
    Post (R.times n r) (fun b l => l.length = n ∧ (∀ x ∈ l, P x) ∧ (W.forEach l w).Emits b) :=
  (Post.times (C := fun _ => True) (h.mono fun _ _ hq => ⟨hq.1, fun _ => hq.2⟩) n).mono
    fun _ _ hq => ⟨hq.1, hq.2.1, hq.2.2 fun _ _ => trivial⟩

theorem Post.times_live {α} {r : R α} {w : α → W Unit} {L P C : α → Prop}
    (h : Post r (fun b x => L x → P x ∧ (C x → (w x).Emits b))) (n : Nat) :
    Post (R.times n r) (fun b l => l.length = n ∧ ((∀ x ∈ l, L x) → (∀ x ∈ l, P x) ∧
      ((∀ x ∈ l, C x) → (W.forEach l w).Emits b))) := by
  refine (Post.times (P := fun x => L x → P x) (C := fun x => L x ∧ C x)
    (h.mono fun _ _ hq => ⟨fun hl => (hq hl).1, fun hc => (hq hc.1).2 hc.2⟩) n).mono ?_
  intro b l hq
  exact ⟨hq.1, fun hl => ⟨fun x hx => hq.2.1 x hx (hl x hx),
    fun hc => hq.2.2 fun x hx => ⟨hl x hx, hc x hx⟩⟩⟩

theorem Post.times_live_lossy {α} {r : R α} {L P : α → Prop}
    (h : Post r (fun _ x => L x → P x)) (n : Nat) :
    Post (R.times n r) (fun _ l => l.length = n ∧ ((∀ x ∈ l, L x) → ∀ x ∈ l, P x)) :=
  (Post.times' h n).mono fun _ _ hq => ⟨hq.1, fun hl x hx => hq.2 x hx (hl x hx)⟩

theorem count_eq {α} {v : Int} {l : List α} (h0 : 0 ≤ v) (hl : l.length = v.toNat) :
    v = (l.length : Int) := by omega

theorem zero_eq {v : Int} (h0 : 0 ≤ v) (hl : v.toNat = 0) : v = 0 := by omega

theorem count8_ok {α} {v : Int} {l : List α} (h : U16 v) (hl : l.length = (v / 8).toNat) :
    U16 ((l.length : Int) * 8) := by unfold U16 at *; omega

theorem U16_zero : U16 0 := by unfold U16; decide

end Dis

namespace Dis

theorem rt_pad {w : Int → W Unit} {r : R Int} (h : ∀ v, RT (w v) r v) (v : Int) (i n : Nat) :
    RT (W.forRange i n fun _ => w v) (R.times n r) (List.replicate n v) := by
  induction n generalizing i with
  | zero => exact RT.pure _ _
  | succ n ih => exact RT.bind (h v) (RT.last (f := fun ys => v :: ys) (ih (i + 1)))

theorem sized_pad {w : W Unit} {m} (h : Sized w m) (i n : Nat) :
    Sized (W.forRange i n fun _ => w) (n * m) := by
  induction n generalizing i with
  | zero => exact (Sized.pure ()).of_eq (by simp)
  | succ n ih => exact (Sized.bind h (ih (i + 1))).of_eq (by rw [Nat.succ_mul, Nat.add_comm])

theorem ok_pad {w : W Unit} (h : w.Ok) (i n : Nat) : (W.forRange i n fun _ => w).Ok := by
  induction n generalizing i with
  | zero => exact W.ok_pure _
  | succ n ih => exact W.ok_bind.2 ⟨h, ih (i + 1)⟩

end Dis
