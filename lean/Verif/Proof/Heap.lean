import Verif.Spec.Heap
import Verif.Proof.InPlace

/-! # Lemmas about objects in memory -/

namespace Dis

/-! ## Attributes -/

theorem attrOf_append {α} {n : String} {t : α} : ∀ {fs ex : List (String × α)}, attrOf n fs = some t →
    attrOf n (fs ++ ex) = some t
  | [], _, h => nomatch h
  | (m, w) :: l, ex, h => by
    simp only [List.cons_append, attrOf] at h ⊢
    split <;> rename_i e
    · rwa [if_pos e] at h
    · rw [if_neg e] at h
      exact attrOf_append h

theorem putAttr_append {α} {n : String} {t u : α} : ∀ {fs ex : List (String × α)}, attrOf n fs = some t →
    putAttr n u (fs ++ ex) = putAttr n u fs ++ ex
  | [], _, h => nomatch h
  | (m, w) :: l, ex, h => by
    simp only [List.cons_append, attrOf, putAttr] at h ⊢
    split <;> rename_i e
    · rfl
    · rw [if_neg e] at h
      rw [putAttr_append h, List.cons_append]

/-- Where an attribute is, in two lists with the same names. -/
theorem attr_split {α β} {n : String} {t : β} : ∀ {d : List (String × α)} {fs : List (String × β)},
    d.map (·.1) = fs.map (·.1) → attrOf n fs = some t →
    ∃ d1 v d2 f1 f2, d = d1 ++ (n, v) :: d2 ∧ fs = f1 ++ (n, t) :: f2 ∧ d1.map (·.1) = f1.map (·.1) ∧
      d2.map (·.1) = f2.map (·.1) ∧ attrOf n d = some v ∧
      (∀ w, putAttr n w d = d1 ++ (n, w) :: d2) ∧ ∀ u, putAttr n u fs = f1 ++ (n, u) :: f2
  | [], [], _, h => nomatch h
  | [], _ :: _, h, _ => nomatch h
  | _ :: _, [], h, _ => nomatch h
  | (m, w) :: d, (m', u) :: fs, h, g => by
    simp only [List.map_cons, List.cons.injEq] at h
    obtain ⟨rfl, h⟩ := h
    by_cases e : m = n
    · subst e
      simp only [attrOf, if_true, Option.some.injEq] at g
      subst g
      exact ⟨[], w, d, [], fs, rfl, rfl, rfl, h, by simp [attrOf], fun _ => by simp [putAttr],
        fun _ => by simp [putAttr]⟩
    · simp only [attrOf, if_neg e] at g
      obtain ⟨d1, v, d2, f1, f2, h1, h2, h3, h4, h5, h6, h7⟩ := attr_split h g
      exact ⟨(m, w) :: d1, v, d2, (m, u) :: f1, f2, by rw [h1]; rfl, by rw [h2]; rfl, by simp [h3], h4,
        by simp [attrOf, e, h5], fun x => by simp [putAttr, e, h6], fun x => by simp [putAttr, e, h7]⟩

/-! ## Cells of a value -/

theorem HoldsAll.lt {h : Heap} {vs ts F} (A : HoldsAll h vs ts F) : ∀ r ∈ F, r < h.length := by
  induction A with
  | nil => exact fun _ h => nomatch h
  | sc _ _ ih => exact ih
  | obj hr _ _ _ _ _ ih1 ih2 =>
    intro x hx
    rw [List.mem_append, List.mem_cons] at hx
    rcases hx with (rfl | hx) | hx
    · exact (List.getElem?_eq_some_iff.mp hr).1
    · exact ih1 x hx
    · exact ih2 x hx
  | list hr _ _ _ _ ih1 ih2 =>
    intro x hx
    rw [List.mem_append, List.mem_cons] at hx
    rcases hx with (rfl | hx) | hx
    · exact (List.getElem?_eq_some_iff.mp hr).1
    · exact ih1 x hx
    · exact ih2 x hx

theorem HoldsAll.frame {h h' : Heap} {vs ts F} (A : HoldsAll h vs ts F)
    (e : ∀ r ∈ F, h'[r]? = h[r]?) : HoldsAll h' vs ts F := by
  induction A with
  | nil => exact .nil
  | sc v _ ih => exact .sc v (ih e)
  | obj hr hn _ hF _ hd ih1 ih2 =>
    exact .obj ((e _ (by simp)).trans hr) hn (ih1 fun x hx => e x (by simp [hx])) hF
      (ih2 fun x hx => e x (by simp [hx])) hd
  | list hr _ hF _ hd ih1 ih2 =>
    exact .list ((e _ (by simp)).trans hr) (ih1 fun x hx => e x (by simp [hx])) hF
      (ih2 fun x hx => e x (by simp [hx])) hd

theorem HoldsAll.uncons {h : Heap} {v : Val} {t : Tree} {vs ts F} (A : HoldsAll h (v :: vs) (t :: ts) F) :
    ∃ G K, F = G ++ K ∧ Holds h v t G ∧ HoldsAll h vs ts K ∧ ∀ x ∈ G, x ∉ K := by
  cases A with
  | sc v B => exact ⟨[], _, rfl, .sc v .nil, B, fun _ h => nomatch h⟩
  | @obj r d fs F _ _ G hr hn B hF C hd =>
    refine ⟨r :: F, G, rfl, ?_, C, hd⟩
    have := HoldsAll.obj hr hn B hF .nil (fun _ _ h => nomatch h)
    rwa [List.append_nil] at this
  | @list r us es F _ _ G hr B hF C hd =>
    refine ⟨r :: F, G, rfl, ?_, C, hd⟩
    have := HoldsAll.list hr B hF .nil (fun _ _ h => nomatch h)
    rwa [List.append_nil] at this

theorem HoldsAll.cons {h : Heap} {v : Val} {t : Tree} {vs ts G K} (A : Holds h v t G)
    (B : HoldsAll h vs ts K) (d : ∀ x ∈ G, x ∉ K) : HoldsAll h (v :: vs) (t :: ts) (G ++ K) := by
  unfold Holds at A
  cases A with
  | sc v C => cases C; exact .sc v B
  | obj hr hn C hF D hd =>
    cases D
    rw [List.append_nil] at d ⊢
    exact .obj hr hn C hF B d
  | list hr C hF D hd =>
    cases D
    rw [List.append_nil] at d ⊢
    exact .list hr C hF B d

theorem HoldsAll.split {h : Heap} {vs' : List Val} {ts' : List Tree} : ∀ {vs : List Val} {ts : List Tree} {F},
    vs.length = ts.length → HoldsAll h (vs ++ vs') (ts ++ ts') F →
    ∃ G K, F = G ++ K ∧ HoldsAll h vs ts G ∧ HoldsAll h vs' ts' K ∧ ∀ x ∈ G, x ∉ K
  | [], [], F, _, A => ⟨[], F, rfl, .nil, A, fun _ h => nomatch h⟩
  | [], _ :: _, _, e, _ => nomatch e
  | _ :: _, [], _, e, _ => nomatch e
  | v :: vs, t :: ts, F, e, A => by
    obtain ⟨G, K, rfl, A1, B, d⟩ := HoldsAll.uncons A
    obtain ⟨L, M, rfl, B, C, d'⟩ := HoldsAll.split (Nat.succ.inj e) B
    refine ⟨G ++ L, M, (List.append_assoc ..).symm, .cons A1 B fun x hx hl => d x hx (by simp [hl]), C, ?_⟩
    intro x hx hm
    rcases List.mem_append.mp hx with hx | hx
    · exact d x hx (by simp [hm])
    · exact d' x hx hm

theorem HoldsAll.join {h : Heap} {vs' : List Val} {ts' : List Tree} {K} : ∀ {vs : List Val} {ts : List Tree} {G},
    HoldsAll h vs ts G → HoldsAll h vs' ts' K → (∀ x ∈ G, x ∉ K) → HoldsAll h (vs ++ vs') (ts ++ ts') (G ++ K)
  | [], [], _, A, B, _ => by cases A; exact B
  | [], _ :: _, _, A, _, _ => nomatch A
  | _ :: _, [], _, A, _, _ => nomatch A
  | v :: vs, t :: ts, _, A, B, d => by
    obtain ⟨G, L, rfl, A, C, d'⟩ := HoldsAll.uncons A
    rw [List.append_assoc]
    refine .cons A (HoldsAll.join C B fun x hx => d x (by simp [hx])) ?_
    intro x hx hm
    rcases List.mem_append.mp hm with hm | hm
    · exact d' x hx hm
    · exact d x (by simp [hx]) hm

theorem HoldsAll.length {h : Heap} {vs ts F} (A : HoldsAll h vs ts F) : vs.length = ts.length := by
  induction A with
  | nil => rfl
  | sc _ _ ih => simp [ih]
  | obj _ _ _ _ _ _ _ ih => simp [ih]
  | list _ _ _ _ _ _ ih => simp [ih]

/-- One of several values is replaced. -/
theorem HoldsAll.slot {h : Heap} {vs1 vs2 : List Val} {v : Val} {ts1 ts2 : List Tree} {t : Tree} {F}
    (e : vs1.length = ts1.length) (A : HoldsAll h (vs1 ++ v :: vs2) (ts1 ++ t :: ts2) F) :
    ∃ G, Holds h v t G ∧ (∀ x ∈ G, x ∈ F) ∧ ∀ (h' : Heap) (v' : Val) (t' : Tree) (G' : List Ref),
      Holds h' v' t' G' → (∀ r ∈ F, r ∉ G → h'[r]? = h[r]?) → (∀ x ∈ G', x ∈ G ∨ x ∉ F) →
      ∃ F', HoldsAll h' (vs1 ++ v' :: vs2) (ts1 ++ t' :: ts2) F' ∧ ∀ x ∈ F', x ∈ F ∨ x ∈ G' := by
  obtain ⟨L, K, rfl, A1, B, d⟩ := HoldsAll.split e A
  obtain ⟨G, M, rfl, B, C, d'⟩ := HoldsAll.uncons B
  refine ⟨G, B, fun x hx => by simp [hx], ?_⟩
  intro h' v' t' G' B' fr w
  refine ⟨L ++ (G' ++ M), .join (A1.frame fun x hx => fr x (by simp [hx]) fun hg => d x hx (by simp [hg]))
    (.cons B' (C.frame fun x hx => fr x (by simp [hx]) fun hg => d' x hg hx) ?_) ?_, ?_⟩
  · intro x hx hm
    rcases w x hx with hg | hg
    · exact d' x hg hm
    · exact hg (by simp [hm])
  · intro x hx hm
    rcases List.mem_append.mp hm with hm | hm
    · rcases w x hm with hg | hg
      · exact d x hx (by simp [hg])
      · exact hg (by simp [hx])
    · exact d x hx (by simp [hm])
  · intro x hx
    simp only [List.mem_append] at hx ⊢
    rcases hx with hx | hx | hx
    · exact .inl (.inl hx)
    · exact .inr hx
    · exact .inl (.inr (.inr hx))

/-! ## Growth -/

theorem Grows.refl (h : Heap) (F : List Ref) : Grows h F h F :=
  ⟨Nat.le_refl _, fun _ h => .inl h, fun _ _ _ => rfl⟩

theorem Grows.trans {h h1 h2 F F1 F2} (a : Grows h F h1 F1) (b : Grows h1 F1 h2 F2) : Grows h F h2 F2 where
  longer := Nat.le_trans a.longer b.longer
  within r hr := by
    rcases b.within r hr with hr | hr
    · exact a.within r hr
    · exact .inr (Nat.le_trans a.longer hr)
  frame r hr hF := by
    rw [b.frame r (Nat.lt_of_lt_of_le hr a.longer), a.frame r hr hF]
    intro h1
    rcases a.within r h1 with h | h
    · exact hF h
    · exact absurd hr (Nat.not_lt.mpr h)

/-- What is elsewhere stays. -/
theorem HoldsAll.grow {h h' : Heap} {F F'} (g : Grows h F h' F') {vs ts G} (A : HoldsAll h vs ts G)
    (d : ∀ x ∈ G, x ∉ F) : HoldsAll h' vs ts G :=
  A.frame fun r hr => g.frame r (A.lt r hr) (d r hr)

/-! ## Objects -/

theorem Holds.obj_iff {h : Heap} {r : Ref} {fs : List (String × Tree)} {F : List Ref} :
    Holds h (.ref r) (.obj fs) F ↔ ∃ d G, F = r :: G ∧ h[r]? = some (.obj d) ∧
      d.map (·.1) = fs.map (·.1) ∧ HoldsAll h (d.map (·.2)) (fs.map (·.2)) G ∧ r ∉ G := by
  constructor
  · intro A
    unfold Holds at A
    cases A with
    | obj hr hn B hF C hd =>
      cases C
      exact ⟨_, _, by simp, hr, hn, B, hF⟩
  · rintro ⟨d, G, rfl, hr, hn, B, hF⟩
    have := HoldsAll.obj hr hn B hF .nil (fun _ _ h => nomatch h)
    rwa [List.append_nil] at this

theorem Holds.list_iff {h : Heap} {r : Ref} {es : List Tree} {F : List Ref} :
    Holds h (.ref r) (.list es) F ↔ ∃ us G, F = r :: G ∧ h[r]? = some (.list us) ∧
      HoldsAll h us es G ∧ r ∉ G := by
  constructor
  · intro A
    unfold Holds at A
    cases A with
    | list hr B hF C hd =>
      cases C
      exact ⟨_, _, by simp, hr, B, hF⟩
  · rintro ⟨us, G, rfl, hr, B, hF⟩
    have := HoldsAll.list hr B hF .nil (fun _ _ h => nomatch h)
    rwa [List.append_nil] at this

theorem set_self {h : Heap} {r : Ref} {c : Cell} (e : h[r]? = some c) : h.set r c = h := by
  obtain ⟨hl, rfl⟩ := List.getElem?_eq_some_iff.mp e
  exact List.set_getElem_self hl

/-- An attribute is replaced, or what it holds is changed. -/
theorem Holds.focus {h : Heap} {r : Ref} {fs : List (String × Tree)} {F : List Ref} {n : String} {t : Tree}
    (A : Holds h (.ref r) (.obj fs) F) (e : attrOf n fs = some t) :
    ∃ d v G, h[r]? = some (.obj d) ∧ attrOf n d = some v ∧ Holds h v t G ∧ (∀ x ∈ G, x ∈ F ∧ x ≠ r) ∧
      r ∈ F ∧
      (∀ h' v' t' G', Grows h G h' G' → Holds h' v' t' G' →
        ∃ F', Holds (h'.set r (.obj (putAttr n v' d))) (.ref r) (.obj (putAttr n t' fs)) F' ∧
          Grows h F (h'.set r (.obj (putAttr n v' d))) F') ∧
      ∀ h' t' G', Grows h G h' G' → Holds h' v t' G' →
        ∃ F', Holds h' (.ref r) (.obj (putAttr n t' fs)) F' ∧ Grows h F h' F' := by
  obtain ⟨d, K, rfl, hr, hn, B, hF⟩ := Holds.obj_iff.mp A
  obtain ⟨d1, v, d2, f1, f2, rfl, rfl, h3, h4, h5, h6, h7⟩ := attr_split hn e
  simp only [List.map_append, List.map_cons] at B
  obtain ⟨G, C, hG, D⟩ := HoldsAll.slot (by simpa using congrArg List.length h3) B
  have hlt : r < h.length := (List.getElem?_eq_some_iff.mp hr).1
  have hrG : r ∉ G := fun hx => hF (hG r hx)
  have key : ∀ h' v' t' G', Grows h G h' G' → Holds h' v' t' G' →
      ∃ F', Holds (h'.set r (.obj (putAttr n v' (d1 ++ (n, v) :: d2)))) (.ref r)
        (.obj (putAttr n t' (f1 ++ (n, t) :: f2))) F' ∧
        Grows h (r :: K) (h'.set r (.obj (putAttr n v' (d1 ++ (n, v) :: d2)))) F' := by
    intro h' v' t' G' g E
    have hlt' : r < h'.length := Nat.lt_of_lt_of_le hlt g.longer
    rw [h6, h7]
    generalize hc : Cell.obj (d1 ++ (n, v') :: d2) = c
    have hrG' : r ∉ G' := by
      intro hx
      rcases g.within r hx with hx | hx
      · exact hrG hx
      · exact absurd hlt (Nat.not_lt.mpr hx)
    have E' : Holds (h'.set r c) v' t' G' := by
      refine HoldsAll.frame E fun x hx => ?_
      rw [List.getElem?_set_ne]
      intro hh
      exact hrG' (hh ▸ hx)
    obtain ⟨F', hF', w⟩ := D (h'.set r c) v' t' G' E' (by
      intro x hx hg
      rw [List.getElem?_set_ne (by rintro rfl; exact hF hx)]
      exact g.frame x (B.lt x hx) hg) (by
      intro x hx
      rcases g.within x hx with hx | hx
      · exact .inl hx
      · exact .inr fun hk => absurd (B.lt x hk) (Nat.not_lt.mpr hx))
    refine ⟨r :: F', Holds.obj_iff.mpr ⟨d1 ++ (n, v') :: d2, F', rfl, ?_, ?_, by simpa using hF', ?_⟩, ?_⟩
    · rw [List.getElem?_set_self hlt', hc]
    · simp [h3, h4]
    · intro hx
      rcases w r hx with hx | hx
      · exact hF hx
      · exact hrG' hx
    · refine ⟨by simpa using g.longer, ?_, ?_⟩
      · intro x hx
        rcases List.mem_cons.mp hx with rfl | hx
        · exact .inl (by simp)
        · rcases w x hx with hx | hx
          · exact .inl (by simp [hx])
          · rcases g.within x hx with hx | hx
            · exact .inl (by simp [hG x hx])
            · exact .inr hx
      · intro x hx hm
        rw [List.mem_cons, not_or] at hm
        rw [List.getElem?_set_ne (fun hh => hm.1 hh.symm)]
        exact g.frame x hx fun hg => hm.2 (hG x hg)
  refine ⟨_, v, G, hr, h5, C, fun x hx => ⟨by simp [hG x hx], fun hh => hrG (hh ▸ hx)⟩, by simp, key, ?_⟩
  intro h' t' G' g E
  have := key h' v t' G' g E
  rw [h6] at this
  rwa [set_self ((g.frame r hlt hrG).trans hr)] at this

/-! ## Statements -/

/-- The program on the memory does to an object in it what the program on values does to its value, and
nothing to what is elsewhere. `extra` are attributes of a subclass. -/
def Refines {σ α : Type} (fs : σ → List (String × Tree)) (p : P σ α) (c : Ref → H α) : Prop :=
  ∀ extra self o h F s, Holds h (.ref self) (.obj (fs o ++ extra)) F →
    (c self h s).1 = (p o s).1 ∧ (c self h s).2.2 = (p o s).2.2 ∧
    ∃ F', Holds (c self h s).2.1 (.ref self) (.obj (fs (p o s).2.1 ++ extra)) F' ∧
      Grows h F (c self h s).2.1 F'

/-- The program makes a new object that amounts to `t` and leaves everything else as it is. -/
def MakesNew (c : H Ref) (t : Tree) : Prop :=
  ∀ h s, ∃ r h' F, c h s = (.ok r, h', s) ∧ Holds h' (.ref r) t F ∧ Grows h [] h' F

theorem H.bind_def {α β} (p : H α) (k : α → H β) : p >>= k = H.bind p k := rfl

namespace Refines

variable {σ τ α β : Type} {fs : σ → List (String × Tree)}

theorem pure {a : α} : Refines fs (Pure.pure a) (fun _ => Pure.pure a) :=
  fun _ _ _ h F _ A => ⟨rfl, rfl, F, A, .refl h F⟩

theorem bind {p : P σ α} {c : Ref → H α} {k : α → P σ β} {l : Ref → α → H β} (hp : Refines fs p c)
    (hk : ∀ a, Refines fs (k a) (fun self => l self a)) :
    Refines fs (p >>= k) (fun self => c self >>= l self) := by
  intro ex self o h F s A
  have := hp ex self o h F s A
  simp only [H.bind_def, H.bind, P.bind_def, P.bind]
  revert this
  rcases c self h s with ⟨x, h1, s1⟩
  rcases p o s with ⟨y, o1, s1'⟩
  rintro ⟨e1, e2, F1, A1, g1⟩
  simp only at e1 e2
  subst e1 e2
  cases x with
  | error e => exact ⟨rfl, rfl, F1, A1, g1⟩
  | ok a =>
    obtain ⟨e1, e2, F2, A2, g2⟩ := hk a ex self o1 h1 F1 s1 A1
    exact ⟨e1, e2, F2, A2, g1.trans g2⟩

theorem read {r : R α} : Refines fs (P.read r) (fun _ => H.read r) :=
  fun _ _ _ h F _ A => ⟨rfl, rfl, F, A, .refl h F⟩

/-- Assignment of a number. -/
theorem set {f : σ → σ} {n : String} {v : Scalar} {t : σ → Tree} (h1 : ∀ o, attrOf n (fs o) = some (t o))
    (h2 : ∀ o, fs (f o) = putAttr n (.sc v) (fs o)) :
    Refines fs (P.set f) (fun self => H.setAttr self n (.sc v)) := by
  intro ex self o h F s A
  obtain ⟨d, w, G, hr, hd, B, _, _, key, _⟩ := A.focus (attrOf_append (h1 o))
  obtain ⟨F', A', g⟩ := key h (.sc v) (.sc v) [] ⟨Nat.le_refl _, (fun _ h => nomatch h), fun _ _ _ => rfl⟩
    (.sc v .nil)
  simp only [H.setAttr, hr, P.set, h2]
  rw [putAttr_append (h1 o)] at A'
  exact ⟨trivial, trivial, F', A', g⟩

/-- Assignment of a new object. -/
theorem setNew {f : σ → σ} {n : String} {m : H Ref} {u : Tree} {t : σ → Tree} (hm : MakesNew m u)
    (h1 : ∀ o, attrOf n (fs o) = some (t o)) (h2 : ∀ o, fs (f o) = putAttr n u (fs o)) :
    Refines fs (P.set f) (fun self => m >>= fun r => H.setAttr self n (.ref r)) := by
  intro ex self o h F s A
  obtain ⟨d, w, G, hr, hd, B, hG, hs, key, _⟩ := A.focus (attrOf_append (h1 o))
  obtain ⟨r, h', K, e, C, g⟩ := hm h s
  obtain ⟨F', A', g'⟩ := key h' (.ref r) u K
    ⟨g.longer, fun x hx => .inr ((g.within x hx).resolve_left (fun h => nomatch h)), fun x hx _ =>
      g.frame x hx (fun h => nomatch h)⟩ C
  have hr' : h'[self]? = some (.obj d) := by
    rw [g.frame self (List.getElem?_eq_some_iff.mp hr).1 (fun h => nomatch h), hr]
  simp only [H.bind_def, H.bind, e, H.setAttr, hr', P.set, h2]
  rw [putAttr_append (h1 o)] at A'
  exact ⟨trivial, trivial, F', A', g'⟩

/-- A method of the object in an attribute is called. -/
theorem call {a : Attr σ τ} {n : String} {ts : τ → List (String × Tree)} {p : P τ Unit} {c : Ref → H Unit}
    (hp : Refines ts p c) (h1 : ∀ o, attrOf n (fs o) = some (.obj (ts (a.get o))))
    (h2 : ∀ o v, fs (a.put o v) = putAttr n (.obj (ts v)) (fs o)) :
    Refines fs (P.call a p) (fun self => H.objAttr self n >>= fun r => c r) := by
  intro ex self o h F s A
  obtain ⟨d, w, G, hr, hd, B, hG, _, _, key⟩ := A.focus (attrOf_append (h1 o))
  cases w with
  | sc v => unfold Holds at B; cases B
  | ref r =>
    have := hp [] r (a.get o) h G s (by rwa [List.append_nil])
    have ea : H.objAttr self n h s = (.ok r, h, s) := by
      simp only [H.objAttr, H.bind_def, H.bind, H.attr, hr, hd]
      rfl
    simp only [H.bind_def, H.bind, ea, P.call]
    revert this
    rcases c r h s with ⟨x, h', s'⟩
    rcases p (a.get o) s with ⟨y, o', s''⟩
    rintro ⟨e1, e2, G', C, g⟩
    rw [List.append_nil] at C
    obtain ⟨F', A', g'⟩ := key h' _ G' g C
    rw [putAttr_append (h1 o)] at A'
    refine ⟨e1, e2, F', ?_, g'⟩
    rwa [h2]

/-- `super().parse(inputStream)`: the method of the superclass on the same object. -/
theorem super {a : Attr σ τ} {ts : τ → List (String × Tree)} {own : σ → List (String × Tree)}
    {p : P τ Unit} {c : Ref → H Unit} (hp : Refines ts p c) (h1 : ∀ o, fs o = ts (a.get o) ++ own o)
    (h2 : ∀ o v, fs (a.put o v) = ts v ++ own o) : Refines fs (P.call a p) c := by
  intro ex self o h F s A
  have := hp (own o ++ ex) self (a.get o) h F s (by rwa [← List.append_assoc, ← h1])
  simp only [P.call]
  revert this
  rcases c self h s with ⟨x, h', s'⟩
  rcases p (a.get o) s with ⟨y, o', s''⟩
  rintro ⟨e1, e2, F', C, g⟩
  refine ⟨e1, e2, F', ?_, g⟩
  rwa [h2, List.append_assoc]

end Refines

/-! ## Lists -/

theorem Holds.pushed {h : Heap} {l : Ref} {es : List Tree} {G : List Ref} {h' : Heap} {v : Val} {t : Tree}
    {K : List Ref} {us : List Val} (A : Holds h (.ref l) (.list es) G) (hl : h[l]? = some (.list us))
    (g : Grows h [] h' K) (B : Holds h' v t K) :
    Holds (h'.set l (.list (us ++ [v]))) (.ref l) (.list (es ++ [t])) (G ++ K) ∧
      Grows h G (h'.set l (.list (us ++ [v]))) (G ++ K) := by
  obtain ⟨us', G, rfl, hr, C, hG⟩ := Holds.list_iff.mp A
  obtain rfl : us = us' := by simpa [hl] using hr
  have hlt : l < h.length := (List.getElem?_eq_some_iff.mp hr).1
  have hfresh : ∀ x ∈ K, h.length ≤ x := fun x hx => (g.within x hx).resolve_left (fun h => nomatch h)
  constructor
  · refine Holds.list_iff.mpr ⟨us ++ [v], G ++ K, rfl, ?_, ?_, ?_⟩
    · rw [List.getElem?_set_self (Nat.lt_of_lt_of_le hlt g.longer)]
    · refine .join (C.frame fun x hx => ?_) (HoldsAll.frame B fun x hx => ?_) ?_
      · rw [List.getElem?_set_ne (by rintro rfl; exact hG hx)]
        exact g.frame x (C.lt x hx) (fun h => nomatch h)
      · rw [List.getElem?_set_ne]
        rintro rfl
        exact absurd hlt (Nat.not_lt.mpr (hfresh _ hx))
      · exact fun x hx hk => absurd (C.lt x hx) (Nat.not_lt.mpr (hfresh _ hk))
    · intro hm
      rcases List.mem_append.mp hm with hm | hm
      · exact hG hm
      · exact absurd hlt (Nat.not_lt.mpr (hfresh _ hm))
  · refine ⟨by simpa using g.longer, ?_, ?_⟩
    · intro x hx
      rcases List.mem_append.mp hx with hx | hx
      · exact .inl hx
      · exact .inr (hfresh x hx)
    · intro x hx hm
      rw [List.getElem?_set_ne (fun hh => hm (by simp [hh]))]
      exact g.frame x hx (fun h => nomatch h)

theorem objAttr_eq {h : Heap} {self r : Ref} {d : List (String × Val)} {n : String} (hr : h[self]? = some (.obj d))
    (hd : attrOf n d = some (.ref r)) (s : InStream) : H.objAttr self n h s = (.ok r, h, s) := by
  simp only [H.objAttr, H.bind_def, H.bind, H.attr, hr, hd]
  rfl

namespace Refines

variable {σ τ α : Type} {fs : σ → List (String × Tree)}

/-- `self.l.append(v)` with a number. -/
theorem pushScalar {a : Attr σ (List α)} {n : String} {enc : α → Scalar} {x : α}
    (h1 : ∀ o, attrOf n (fs o) = some (.list ((a.get o).map fun v => .sc (enc v))))
    (h2 : ∀ o l, fs (a.put o l) = putAttr n (.list (l.map fun v => .sc (enc v))) (fs o)) :
    Refines fs (P.set fun o => a.put o (a.get o ++ [x]))
      (fun self => H.objAttr self n >>= fun l => H.append l (.sc (enc x))) := by
  intro ex self o h F s A
  obtain ⟨d, w, G, hr, hd, B, hG, _, _, key⟩ := A.focus (attrOf_append (h1 o))
  cases w with
  | sc v => unfold Holds at B; cases B
  | ref l =>
    obtain ⟨us, G, rfl, hl, C, hGl⟩ := Holds.list_iff.mp B
    obtain ⟨D, g⟩ := Holds.pushed (v := .sc (enc x)) (t := .sc (enc x)) (K := []) B hl (.refl h [])
      (.sc (enc x) .nil)
    obtain ⟨F', A', g'⟩ := key _ _ _ g D
    simp only [H.bind_def, H.bind, objAttr_eq hr hd, H.append, hl, P.set, h2]
    refine ⟨trivial, trivial, F', ?_, g'⟩
    rw [putAttr_append (h1 o)] at A'
    simpa using A'

theorem appendReads {r : R α} {a : Attr σ (List α)} {f : String} {enc : α → Scalar}
    (h1 : ∀ o, attrOf f (fs o) = some (.list ((a.get o).map fun v => .sc (enc v))))
    (h2 : ∀ o l, fs (a.put o l) = putAttr f (.list (l.map fun v => .sc (enc v))) (fs o)) :
    ∀ n, Refines fs (P.appendReads n r a) (fun self => H.appendReads n r enc self f)
  | 0 => .pure
  | n + 1 => by
    unfold P.appendReads H.appendReads
    refine .bind .read fun x => ?_
    have := (pushScalar (x := x) h1 h2).bind fun _ => appendReads (r := r) h1 h2 n
    refine Eq.mp ?_ this
    congr 1
    funext self
    simp only [H.bind_def]
    funext h s
    simp only [H.bind]
    rcases H.objAttr self f h s with ⟨_ | _, _, _⟩ <;> rfl

theorem appendObjs {a : Attr σ (List τ)} {f : String} {ts : τ → List (String × Tree)} {fresh : τ}
    {p : P τ Unit} {new : H Ref} {c : Ref → H Unit} (hn : MakesNew new (.obj (ts fresh))) (hp : Refines ts p c)
    (h1 : ∀ o, attrOf f (fs o) = some (.list ((a.get o).map fun v => .obj (ts v))))
    (h2 : ∀ o l, fs (a.put o l) = putAttr f (.list (l.map fun v => .obj (ts v))) (fs o)) :
    ∀ n, Refines fs (P.appendObjs n fresh p a) (fun self => H.appendObjs n new c self f)
  | 0 => .pure
  | n + 1 => by
    intro ex self o h F s A
    obtain ⟨r, h', K, e, C, g⟩ := hn h s
    have hq := hp [] r fresh h' K s (by rwa [List.append_nil])
    have ih := appendObjs hn hp h1 h2 n
    simp only [P.appendObjs, H.appendObjs, H.bind_def, H.bind, e, P.bind_def, P.bind, P.element]
    revert hq
    rcases c r h' s with ⟨x, h'', s'⟩
    rcases p fresh s with ⟨y, o', s''⟩
    rintro ⟨e1, e2, K', D, g'⟩
    simp only at e1 e2 g' D
    subst e1 e2
    have g2 : Grows h [] h'' K' := g.trans g'
    have gF : Grows h F h'' F :=
      ⟨g2.longer, fun _ h => .inl h, fun r hr _ => g2.frame r hr (fun h => nomatch h)⟩
    cases x with
    | error err => exact ⟨rfl, rfl, F, HoldsAll.grow g2 A (fun _ _ h => nomatch h), gF⟩
    | ok _ =>
      rw [List.append_nil] at D
      obtain ⟨d, w, G, hr, hd, B, hG, _, _, key⟩ := A.focus (attrOf_append (h1 o))
      cases w with
      | sc v => unfold Holds at B; cases B
      | ref l =>
        obtain ⟨us, G, rfl, hl, _, _⟩ := Holds.list_iff.mp B
        have hr' : h''[self]? = some (.obj d) := by
          rw [g2.frame self (List.getElem?_eq_some_iff.mp hr).1 (fun h => nomatch h), hr]
        have hl' : h''[l]? = some (.list us) := by
          rw [g2.frame l (List.getElem?_eq_some_iff.mp hl).1 (fun h => nomatch h), hl]
        obtain ⟨E, g3⟩ := Holds.pushed B hl g2 D
        obtain ⟨F', A', g4⟩ := key _ _ _ g3 E
        simp only [objAttr_eq hr' hd, H.append, hl', P.set]
        rw [putAttr_append (h1 o)] at A'
        obtain ⟨e1, e2, F2, A2, g5⟩ := ih ex self (a.put o (a.get o ++ [o'])) _ F' s' (by
          rw [h2]
          simpa using A')
        exact ⟨e1, e2, F2, A2, g4.trans g5⟩

end Refines

end Dis
