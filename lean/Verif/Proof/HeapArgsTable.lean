import Verif.Proof.HeapSession

/-! # Lemmas about the table of constructors -/

namespace Dis

theorem attrOf_change {n m : String} {g : Tree → Tree} : ∀ {fs : List (String × Tree)},
    attrOf n (fs.map fun a => if a.1 = m then (a.1, g a.2) else a) =
      if n = m then (attrOf n fs).map g else attrOf n fs
  | [] => by simp [attrOf]
  | (k, t) :: fs => by
    have ih := attrOf_change (n := n) (m := m) (g := g) (fs := fs)
    simp only [List.map_cons]
    by_cases hk : k = m
    · by_cases hn : k = n
      · subst hk; subst hn; simp [attrOf]
      · have : ¬ n = m := fun h => hn (hk.trans h.symm)
        simp only [hk, if_true, attrOf, this, if_false] at ih ⊢
        rw [if_neg (fun h => hn (hk.trans h)), if_neg (fun h => hn (hk.trans h)), ih]
    · by_cases hn : k = n
      · subst hn; simp [attrOf, hk]
      · simp only [hk, if_false, attrOf, hn]
        exact ih

theorem Tree.change_at {f : Tree → Tree} : ∀ {path : List String} {t u : Tree}, t.at path = some u →
    (t.change f path).at path = some (f u)
  | [], t, u, h => by
    simp only [Tree.at, Option.some.injEq] at h
    simp [Tree.change, Tree.at, h]
  | n :: ns, .obj fs, u, h => by
    simp only [Tree.at, Option.bind_eq_some_iff] at h
    obtain ⟨t, ht, hu⟩ := h
    simp only [Tree.change, Tree.at]
    rw [attrOf_change, if_pos rfl, ht]
    exact Tree.change_at hu
  | n :: ns, .sc _, u, h => nomatch h
  | n :: ns, .list _, u, h => nomatch h

/-- Neither path leads to the other. -/
def Aside (a b : List String) : Prop := ¬ a <+: b ∧ ¬ b <+: a

instance (a b : List String) : Decidable (Aside a b) := inferInstanceAs (Decidable (_ ∧ _))

theorem Tree.change_at_other {f : Tree → Tree} : ∀ {path other : List String} {t : Tree}, Aside path other →
    (t.change f path).at other = t.at other
  | [], other, t, h => absurd List.nil_prefix h.1
  | n :: ns, [], t, h => absurd List.nil_prefix h.2
  | n :: ns, m :: ms, .obj fs, h => by
    simp only [Tree.change, Tree.at]
    rw [attrOf_change]
    by_cases e : m = n
    · subst e
      rw [if_pos rfl]
      have : Aside ns ms := ⟨fun k => h.1 (List.cons_prefix_cons.mpr ⟨rfl, k⟩), fun k => h.2 (List.cons_prefix_cons.mpr ⟨rfl, k⟩)⟩
      cases attrOf m fs with
      | none => rfl
      | some t => exact Tree.change_at_other this
    · rw [if_neg e]
  | n :: ns, m :: ms, .sc _, h => rfl
  | n :: ns, m :: ms, .list _, h => rfl

theorem Param.put_other {p : Param} {g : Option Tree} {t : Tree} {other : List String}
    (h : p.path = [] ∨ Aside p.path other) : (p.put g t).at other = t.at other := by
  unfold Param.put
  split
  · rfl
  · exact Tree.change_at_other (h.resolve_left ‹_›)

theorem Param.put_self {p : Param} {g : Option Tree} {t u : Tree} (hn : p.path ≠ []) (h : t.at p.path = some u) :
    (p.put g t).at p.path = some (p.how.value g u) := by
  unfold Param.put
  rw [if_neg hn]
  exact Tree.change_at h

theorem puts_other {args : List (String × Tree)} {other : List String} : ∀ {l : List Param} {t : Tree},
    (∀ p ∈ l, p.path = [] ∨ Aside p.path other) →
    (l.foldl (fun t p => p.put (attrOf p.name args) t) t).at other = t.at other
  | [], _, _ => rfl
  | p :: l, t, h => by
    rw [List.foldl_cons, puts_other fun q hq => h q (by simp [hq]), Param.put_other (h p (by simp))]

/-- What the table says of every constructor: no two parameters stand for the same thing, and each for
something that is there. -/
def Ctor.Clear (c : Ctor) : Prop :=
  c.params.Pairwise (fun p q => p.path = [] ∨ q.path = [] ∨ Aside p.path q.path) ∧
  (∀ p ∈ c.params, p.path = [] ∨ ((Tree.obj (c.cls.members c.cls.value.fresh)).at p.path).isSome) ∧
  (c.params.map (·.name)).Nodup

instance (c : Ctor) : Decidable c.Clear := inferInstanceAs (Decidable (_ ∧ _))

theorem Ctor.Clear.at {c : Ctor} (h : c.Clear) {p : Param} (hp : p ∈ c.params) (hn : p.path ≠ [])
    (args : List (String × Tree)) : ∃ u, (Tree.obj (c.cls.members c.cls.value.fresh)).at p.path = some u ∧
      (c.built args).at p.path = some (p.how.value (attrOf p.name args) u) := by
  obtain ⟨u, hu⟩ := Option.isSome_iff_exists.mp ((h.2.1 p hp).resolve_left hn)
  refine ⟨u, hu, ?_⟩
  obtain ⟨l1, l2, e⟩ := List.append_of_mem hp
  have hw := h.1
  rw [e, List.pairwise_append, List.pairwise_cons] at hw
  unfold Ctor.built
  rw [e, List.foldl_append, List.foldl_cons]
  rw [puts_other fun q hq => ?_]
  · refine Param.put_self hn ?_
    rw [puts_other fun q hq => ?_, hu]
    rcases hw.2.2 q hq p (by simp) with h | h | h
    · exact .inl h
    · exact absurd h hn
    · exact .inr h
  · rcases hw.2.1.1 q hq with h | h | h
    · exact absurd h hn
    · exact .inl h
    · exact .inr ⟨h.2, h.1⟩

set_option maxRecDepth 8000 in
theorem heapCtors_clear : ∀ c ∈ heapCtors, c.Clear := by decide +kernel

theorem mem_map_eq {α β : Type _} {f g : α → β} : ∀ {l : List α}, l.map f = l.map g → ∀ c ∈ l, f c = g c
  | [], _, _, hc => nomatch hc
  | x :: l, h, c, hc => by
    simp only [List.map_cons, List.cons.injEq] at h
    rcases List.mem_cons.mp hc with rfl | hc
    · exact h.1
    · exact mem_map_eq h.2 c hc

set_option maxRecDepth 8000 in
theorem heapCtors_default : ∀ c ∈ heapCtors, c.new [] = c.cls.new := by
  refine mem_map_eq (f := fun c : Ctor => c.new []) (g := fun c : Ctor => c.cls.new) ?_
  simp only [heapCtors, List.map_append]
  rfl

theorem Keeps.value_none (k : Keeps) : k.value none = id := by funext u; cases k <;> rfl

theorem Tree.change_id : ∀ {path : List String} {t : Tree}, t.change id path = t
  | [], _ => rfl
  | _ :: _, .sc _ => rfl
  | _ :: _, .list _ => rfl
  | n :: ns, .obj fs => by
    simp only [Tree.change, Tree.obj.injEq]
    refine (List.map_congr_left fun a _ => ?_).trans (List.map_id fs)
    rw [Tree.change_id]
    split <;> rfl

theorem built_nil (c : Ctor) : c.built [] = .obj (c.cls.members c.cls.value.fresh) := by
  unfold Ctor.built
  generalize Tree.obj (c.cls.members c.cls.value.fresh) = t
  induction c.params generalizing t with
  | nil => rfl
  | cons p l ih =>
    rw [List.foldl_cons, ih]
    unfold Param.put
    split
    · rfl
    · simp only [attrOf]
      rw [Keeps.value_none, Tree.change_id]

end Dis
