import Verif.Py.InPlace
import Verif.Proof.Core

/-! # Lemmas about parse methods that change their object -/

namespace Dis

/-- The two parses end at the same position, both with the same exception or both with a result, and
then the results are related. -/
def Alike {α β : Type} (φ : α → β → Prop) (r : R α) (q : R β) : Prop :=
  ∀ s, (r s).2 = (q s).2 ∧
    match (r s).1, (q s).1 with
    | .ok a, .ok b => φ a b
    | .error e, .error f => e = f
    | _, _ => False

theorem Alike.pure {α β} {φ : α → β → Prop} {a : α} {b : β} (h : φ a b) :
    Alike φ (Pure.pure a) (Pure.pure b) := fun _ => ⟨rfl, h⟩

theorem Alike.mono {α β} {φ ψ : α → β → Prop} {r : R α} {q : R β} (h : Alike φ r q)
    (m : ∀ a b, φ a b → ψ a b) : Alike ψ r q := fun s => by
  have := h s
  revert this
  rcases r s with ⟨_ | a, s'⟩ <;> rcases q s with ⟨_ | b, s''⟩ <;> rintro ⟨h1, h2⟩
  · exact ⟨h1, h2⟩
  · exact h2.elim
  · exact h2.elim
  · exact ⟨h1, m _ _ h2⟩

theorem Alike.bind {α β γ δ} {φ : α → β → Prop} {ψ : γ → δ → Prop} {r : R α} {q : R β} {k : α → R γ}
    {l : β → R δ} (h : Alike φ r q) (hk : ∀ a b, φ a b → Alike ψ (k a) (l b)) :
    Alike ψ (r >>= k) (q >>= l) := fun s => by
  have := h s
  simp only [R.bind_def, R.bind]
  revert this
  rcases r s with ⟨e | a, s'⟩ <;> rcases q s with ⟨f | b, s''⟩ <;> rintro ⟨h1, h2⟩
  · exact ⟨h1, h2⟩
  · exact h2.elim
  · exact h2.elim
  · obtain rfl : s' = s'' := h1
    exact hk a b h2 s'

theorem Alike.read {α γ δ} {ψ : γ → δ → Prop} {r : R α} {k : α → R γ} {l : α → R δ}
    (hk : ∀ a, Alike ψ (k a) (l a)) : Alike ψ (r >>= k) (r >>= l) := fun s => by
  simp only [R.bind_def, R.bind]
  rcases r s with ⟨e | a, s'⟩
  · exact ⟨rfl, rfl⟩
  · exact hk a s'

/-- How the parse ends does not depend on the object. -/
abbrev Blind {σ : Type} (p : σ → R σ) : Prop := ∀ o x, Alike (fun _ _ => True) (p o) (p x)

/-- The laws of attributes: what was assigned is read, the last assignment counts, and assigning what is
there changes nothing. -/
structure Attr.Lawful {σ τ : Type} (a : Attr σ τ) : Prop where
  get_put : ∀ o v, a.get (a.put o v) = v
  put_put : ∀ o v w, a.put (a.put o v) w = a.put o w
  put_get : ∀ o, a.put o (a.get o) = o

namespace P

/-- What is left of a parse in place when the object is looked at only after success. -/
def run {σ : Type} (p : P σ Unit) (o : σ) : R σ := fun s =>
  match p o s with
  | (.ok _, o', s') => (.ok o', s')
  | (.error e, _, s') => (.error e, s')

theorem bind_def {σ α β} (p : P σ α) (k : α → P σ β) (o s) : (p >>= k) o s = bind p k o s := rfl

theorem run_pure {σ} (o : σ) : run (pure ()) o = pure o := rfl

theorem run_read {σ α} (r : R α) (k : α → P σ Unit) (o : σ) :
    run (read r >>= k) o = r >>= fun a => run (k a) o := by
  funext s
  simp only [run, bind_def, bind, read, R.bind_def, R.bind]
  rcases r s with ⟨_ | _, _⟩ <;> rfl

theorem run_get {σ α} (f : σ → α) (k : α → P σ Unit) (o : σ) : run (get f >>= k) o = run (k (f o)) o := rfl

theorem run_set {σ} (f : σ → σ) (k : Unit → P σ Unit) (o : σ) :
    run (set f >>= k) o = run (k ()) (f o) := rfl

theorem run_call {σ τ} (a : Attr σ τ) (p : P τ Unit) (k : Unit → P σ Unit) (o : σ) :
    run (call a p >>= k) o = run p (a.get o) >>= fun t => run (k ()) (a.put o t) := by
  funext s
  simp only [run, bind_def, bind, call, R.bind_def, R.bind]
  rcases p (a.get o) s with ⟨_ | _, _, _⟩ <;> rfl

theorem run_element {σ τ} (fresh : τ) (p : P τ Unit) (k : τ → P σ Unit) (o : σ) :
    run (element fresh p >>= k) o = run p fresh >>= fun t => run (k t) o := by
  funext s
  simp only [run, bind_def, bind, element, R.bind_def, R.bind]
  rcases p fresh s with ⟨_ | _, _, _⟩ <;> rfl

theorem bind_assoc {σ α β γ} (p : P σ α) (f : α → P σ β) (g : β → P σ γ) :
    (p >>= f) >>= g = p >>= fun a => f a >>= g := by
  funext o s
  simp only [bind_def, bind]
  rcases p o s with ⟨_ | _, _, _⟩ <;> rfl

theorem R_bind_assoc {α β γ} (p : R α) (f : α → R β) (g : β → R γ) :
    (p >>= f) >>= g = p >>= fun a => f a >>= g := by
  funext s
  simp only [R.bind_def, R.bind]
  rcases p s with ⟨_ | _, _⟩ <;> rfl

theorem times_bind {α β} (n : Nat) (r : R α) (k : List α → R β) :
    R.times (n + 1) r >>= k = r >>= fun a => R.times n r >>= fun l => k (a :: l) := by
  show (r >>= fun a => R.times n r >>= fun l => pure (a :: l)) >>= k = _
  rw [R_bind_assoc]
  congr 1
  funext a
  rw [R_bind_assoc]
  rfl

theorem run_appendObjs {σ τ} {a : Attr σ (List τ)} (ha : a.Lawful) (n : Nat) (fresh : τ) (p : P τ Unit)
    (k : Unit → P σ Unit) (o : σ) :
    run (appendObjs n fresh p a >>= k) o =
      R.times n (run p fresh) >>= fun l => run (k ()) (a.put o (a.get o ++ l)) := by
  induction n generalizing o with
  | zero =>
    show run (k ()) o = run (k ()) (a.put o (a.get o ++ []))
    rw [List.append_nil, ha.put_get]
  | succ n ih =>
    rw [appendObjs, bind_assoc, run_element, times_bind]
    congr 1
    funext t
    rw [bind_assoc, run_set, ih]
    simp only [ha.get_put, ha.put_put, List.append_assoc, List.singleton_append]

theorem run_appendReads {σ τ} {a : Attr σ (List τ)} (ha : a.Lawful) (n : Nat) (r : R τ)
    (k : Unit → P σ Unit) (o : σ) :
    run (appendReads n r a >>= k) o =
      R.times n r >>= fun l => run (k ()) (a.put o (a.get o ++ l)) := by
  induction n generalizing o with
  | zero =>
    show run (k ()) o = run (k ()) (a.put o (a.get o ++ []))
    rw [List.append_nil, ha.put_get]
  | succ n ih =>
    rw [appendReads, bind_assoc, run_read, times_bind]
    congr 1
    funext t
    rw [bind_assoc, run_set, ih]
    simp only [ha.get_put, ha.put_put, List.append_assoc, List.singleton_append]

theorem run_setReads {σ} {a : Attr σ (List Int)} (ha : a.Lawful) (i n : Nat) (r : R Int)
    (k : Unit → P σ Unit) (o : σ) (hl : (a.get o).length = i + n) :
    run (setReads i n r a >>= k) o =
      R.times n r >>= fun l => run (k ()) (a.put o ((a.get o).take i ++ l)) := by
  induction n generalizing i o with
  | zero =>
    show run (k ()) o = run (k ()) (a.put o ((a.get o).take i ++ []))
    rw [List.append_nil, List.take_of_length_le (by omega), ha.put_get]
  | succ n ih =>
    rw [setReads, bind_assoc, run_read, times_bind]
    congr 1
    funext t
    rw [bind_assoc, run_set, ih _ _ (by rw [ha.get_put, List.length_set]; omega)]
    have : ((a.get o).set i t).take (i + 1) = (a.get o).take i ++ [t] := by
      rw [List.take_succ_eq_append_getElem (by rw [List.length_set]; omega),
        List.getElem_set_self, List.take_set_of_le (Nat.le_refl i)]
    simp only [ha.get_put, ha.put_put, this, List.append_assoc, List.singleton_append]

theorem run_fillReads {σ} {a : Attr σ (List Int)} (ha : a.Lawful) (n : Nat) (r : R Int)
    (k : Unit → P σ Unit) (o : σ) :
    run (fillReads n r a >>= k) o = R.times n r >>= fun l => run (k ()) (a.put o l) := by
  have := run_setReads ha 0 n r k (a.put o (List.replicate n 0)) (by
    rw [ha.get_put, List.length_replicate, Nat.zero_add])
  simp only [ha.get_put, ha.put_put, List.take_zero, List.nil_append] at this
  exact this

/-! ## Invariants -/

/-- The program keeps the invariant, however it ends. -/
def Keeps {σ α : Type} (I : σ → Prop) (p : P σ α) : Prop := ∀ o s, I o → I (p o s).2.1

theorem Keeps.pure {σ} {I : σ → Prop} : Keeps I (Pure.pure () : P σ Unit) := fun _ _ h => h

theorem Keeps.bind {σ α β} {I : σ → Prop} {p : P σ α} {k : α → P σ β} (h1 : Keeps I p)
    (h2 : ∀ a, Keeps I (k a)) : Keeps I (p >>= k) := by
  intro o s h
  have h3 := h1 o s h
  rw [bind_def, P.bind]
  rcases hp : p o s with ⟨_ | a, o', s'⟩
  · rw [hp] at h3; exact h3
  · rw [hp] at h3; exact h2 a o' s' h3

theorem Keeps.read {σ α} {I : σ → Prop} {r : R α} {k : α → P σ Unit} (h : ∀ a, Keeps I (k a)) :
    Keeps I (P.read r >>= k) := Keeps.bind (fun _ _ h => h) h

theorem Keeps.get {σ α} {I : σ → Prop} {f : σ → α} {k : α → P σ Unit} (h : ∀ a, Keeps I (k a)) :
    Keeps I (P.get f >>= k) := Keeps.bind (fun _ _ h => h) h

theorem Keeps.set {σ} {I : σ → Prop} {f : σ → σ} {k : Unit → P σ Unit} (hf : ∀ x, I x → I (f x))
    (h : Keeps I (k ())) : Keeps I (P.set f >>= k) := Keeps.bind (fun _ _ h => hf _ h) fun _ => h

theorem Keeps.call {σ τ} {I : σ → Prop} {a : Attr σ τ} {p : P τ Unit} {k : Unit → P σ Unit}
    {J : τ → τ → Prop} (hp : ∀ t s, J t (p t s).2.1) (hf : ∀ x t, I x → J (a.get x) t → I (a.put x t))
    (h : Keeps I (k ())) : Keeps I (P.call a p >>= k) :=
  Keeps.bind (fun o s hi => hf o _ hi (hp (a.get o) s)) fun _ => h

theorem Keeps.appendObjs {σ τ} {I : σ → Prop} {a : Attr σ (List τ)} {n : Nat} {fresh : τ} {p : P τ Unit}
    {k : Unit → P σ Unit} (hf : ∀ x e, I x → I (a.put x (a.get x ++ [e]))) (h : Keeps I (k ())) :
    Keeps I (P.appendObjs n fresh p a >>= k) := by
  refine Keeps.bind ?_ fun _ => h
  induction n with
  | zero => exact Keeps.pure
  | succ n ih =>
    refine Keeps.bind (fun o s hi => ?_) fun t => Keeps.set (fun x hx => hf x t hx) ih
    rw [P.element]
    rcases p fresh s with ⟨_ | _, t, s'⟩ <;> exact hi

theorem Keeps.appendReads {σ τ} {I : σ → Prop} {a : Attr σ (List τ)} {n : Nat} {r : R τ}
    {k : Unit → P σ Unit} (hf : ∀ x e, I x → I (a.put x (a.get x ++ [e]))) (h : Keeps I (k ())) :
    Keeps I (P.appendReads n r a >>= k) := by
  refine Keeps.bind ?_ fun _ => h
  induction n with
  | zero => exact Keeps.pure
  | succ n ih => exact Keeps.read fun t => Keeps.set (fun x hx => hf x t hx) ih

theorem Keeps.fillReads {σ} {I : σ → Prop} {a : Attr σ (List Int)} {n : Nat} {r : R Int}
    {k : Unit → P σ Unit} (hf : ∀ x l, I x → I (a.put x l)) (h : Keeps I (k ())) :
    Keeps I (P.fillReads n r a >>= k) := by
  refine Keeps.bind ?_ fun _ => h
  have : ∀ i n, Keeps I (P.setReads i n r a) := by
    intro i n
    induction n generalizing i with
    | zero => exact Keeps.pure
    | succ n ih => exact Keeps.read fun t => Keeps.set (fun x hx => hf x _ hx) (ih _)
  exact Keeps.bind (fun _ _ hi => hf _ _ hi) fun _ => this 0 n

end P

end Dis
