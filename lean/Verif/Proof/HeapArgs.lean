import Verif.Proof.HeapCatalog
import Verif.Spec.HeapArgs

/-! # Lemmas about constructors with arguments -/

namespace Dis

theorem Holds.focusAttr {h : Heap} {r : Ref} {fs : List (String × Tree)} {F : List Ref} {n : String} {t : Tree}
    (A : Holds h (.ref r) (.obj fs) F) (e : attrOf n fs = some t) :
    ∃ d v G, h[r]? = some (.obj d) ∧ attrOf n d = some v ∧ putAttr n v d = d ∧ Holds h v t G ∧
      (∀ x ∈ G, x ∈ F ∧ x ≠ r) ∧ r ∈ F ∧
      ∀ h' v' t' G', Holds h' v' t' G' → (∀ x ∈ F, x ∉ G → x ≠ r → h'[x]? = h[x]?) →
        h'[r]? = some (.obj (putAttr n v' d)) → (∀ x ∈ G', x ∈ G ∨ x ∉ F) →
        ∃ F', Holds h' (.ref r) (.obj (putAttr n t' fs)) F' ∧ ∀ x ∈ F', x ∈ F ∨ x ∈ G' := by
  obtain ⟨d, K, rfl, hr, hn, B, hF⟩ := Holds.obj_iff.mp A
  obtain ⟨d1, v, d2, f1, f2, rfl, rfl, h3, h4, h5, h6, h7⟩ := attr_split hn e
  simp only [List.map_append, List.map_cons] at B
  obtain ⟨G, C, hG, D⟩ := HoldsAll.slot (by simpa using congrArg List.length h3) B
  have hrG : r ∉ G := fun hx => hF (hG r hx)
  refine ⟨_, v, G, hr, h5, h6 v, C, fun x hx => ⟨by simp [hG x hx], fun hh => hrG (hh ▸ hx)⟩, by simp, ?_⟩
  intro h' v' t' G' E fr hr' w
  obtain ⟨F', E', w'⟩ := D h' v' t' G' E (fun x hx hg => fr x (by simp [hx]) hg (by rintro rfl; exact hF hx))
    (fun x hx => (w x hx).imp id fun hk hm => hk (by simp [hm]))
  refine ⟨r :: F', Holds.obj_iff.mpr ⟨_, F', rfl, hr', ?_, ?_, ?_⟩, ?_⟩
  · rw [h6, h7]; simp [h3, h4]
  · rw [h6, h7]; simpa using E'
  · intro hx
    rcases w' r hx with hx | hx
    · exact hF hx
    · rcases w r hx with hx | hx
      · exact hrG hx
      · exact hx (by simp)
  · intro x hx
    rcases List.mem_cons.mp hx with rfl | hx
    · exact .inl (by simp)
    · rcases w' x hx with hx | hx
      · exact .inl (by simp [hx])
      · exact .inr hx

/-- `x or u`, for values. -/
def Tree.or (t u : Tree) : Tree := if t.truth then t else u

theorem Tree.or_list (t : Tree) : (t.or (.list [])).or (.list []) = t.or (.list []) := by
  unfold Tree.or
  cases e : t.truth
  · rfl
  · simp [e]

theorem Holds.truth {h : Heap} {v : Val} {t : Tree} {F : List Ref} (A : Holds h v t F) (s : InStream) :
    H.truth v h s = (.ok t.truth, h, s) := by
  unfold Holds at A
  cases A with
  | sc v _ => cases v <;> rfl
  | obj hr _ _ _ _ _ => simp [H.truth, hr, Tree.truth]
  | list hr B _ _ _ =>
    have := B.length
    simp only [H.truth, hr, Tree.truth]
    rename_i us es _ _ _ _ _
    cases us <;> cases es <;> simp_all

/-- Values, each with what it amounts to, nothing shared. -/
def HoldsEach (h : Heap) (P : List (Val × Tree)) (F : List Ref) : Prop :=
  HoldsAll h (P.map (·.1)) (P.map (·.2)) F

theorem HoldsEach.perm {h : Heap} {l l' : List (Val × Tree)} (p : l.Perm l') :
    ∀ {F}, HoldsEach h l F → ∃ F', HoldsEach h l' F' ∧ ∀ x, x ∈ F' ↔ x ∈ F := by
  induction p with
  | nil => exact fun A => ⟨_, A, fun _ => Iff.rfl⟩
  | cons x _ ih =>
    intro F A
    obtain ⟨G, K, rfl, B, C, d⟩ := HoldsAll.uncons A
    obtain ⟨K', C', hK⟩ := ih C
    exact ⟨G ++ K', .cons B C' fun x hx hk => d x hx ((hK x).mp hk), fun x => by simp [hK]⟩
  | swap x y l =>
    intro F A
    obtain ⟨G, K, rfl, B, C, d⟩ := HoldsAll.uncons A
    obtain ⟨L, M, rfl, C, D, d'⟩ := HoldsAll.uncons C
    refine ⟨L ++ (G ++ M), .cons C (.cons B D fun x hx hm => d x hx (by simp [hm])) ?_, fun x => by
      simp only [List.mem_append]; exact or_left_comm⟩
    intro x hx hm
    rcases List.mem_append.mp hm with hm | hm
    · exact d x hm (by simp [hx])
    · exact d' x hx hm
  | trans _ _ ih1 ih2 =>
    intro F A
    obtain ⟨F1, A1, h1⟩ := ih1 A
    obtain ⟨F2, A2, h2⟩ := ih2 A1
    exact ⟨F2, A2, fun x => (h2 x).trans (h1 x)⟩

/-- Cells put aside stay as they are and stay apart. -/
theorem Grows.aside {h h' : Heap} {F F' G : List Ref} (g : Grows h F h' F') (d : ∀ x ∈ F, x ∉ G)
    (lt : ∀ x ∈ G, x < h.length) : ∀ x ∈ F', x ∉ G := by
  intro x hx hG
  rcases g.within x hx with hx | hx
  · exact d x hx hG
  · exact absurd (lt x hG) (Nat.not_lt.mpr hx)

theorem Grows.with {h h' : Heap} {F F' : List Ref} (g : Grows h F h' F') (L R : List Ref) :
    Grows h (L ++ F ++ R) h' (L ++ F' ++ R) where
  longer := g.longer
  within r hr := by
    simp only [List.mem_append] at hr ⊢
    rcases hr with (hr | hr) | hr
    · exact .inl (.inl (.inl hr))
    · exact (g.within r hr).imp (fun h => .inl (.inr h)) id
    · exact .inl (.inr hr)
  frame r hr hF := g.frame r hr fun h => hF (by simp [h])

theorem Grows.fewer {h h' : Heap} {F F' G G' : List Ref} (g : Grows h F h' F') (e : ∀ x ∈ F, x ∈ G)
    (e' : ∀ x ∈ G', x ∈ F') : Grows h G h' G' where
  longer := g.longer
  within r hr := (g.within r (e' r hr)).imp (e r) id
  frame r hr hG := g.frame r hr fun h => hG (e r h)

/-- The program makes an object of the arguments `P`, or of some of them. -/
def Builds (m : H Ref) (P : List (Val × Tree)) (t : Tree) : Prop :=
  ∀ h F s, HoldsEach h P F →
    ∃ r h' F', m h s = (.ok r, h', s) ∧ Holds h' (.ref r) t F' ∧ Grows h F h' F'

/-- The program uses some of the arguments `P` for a value; `P'` are the others. -/
def Yields (m : H Val) (P : List (Val × Tree)) (t : Tree) (P' : List (Val × Tree)) : Prop :=
  ∀ h F s, HoldsEach h P F →
    ∃ v h' F', m h s = (.ok v, h', s) ∧ HoldsEach h' ((v, t) :: P') F' ∧ Grows h F h' F'

/-- The statements of `__init__` take an object with the attributes `fs` to one with the attributes `fs'`,
using some of the arguments `P`; `P'` are the others. -/
def Fills (c : Ref → H Unit) (P : List (Val × Tree)) (fs : List (String × Tree)) (P' : List (Val × Tree))
    (fs' : List (String × Tree)) : Prop :=
  ∀ self h F s, HoldsEach h ((.ref self, .obj fs) :: P) F →
    ∃ h' F', c self h s = (.ok (), h', s) ∧ HoldsEach h' ((.ref self, .obj fs') :: P') F' ∧ Grows h F h' F'

theorem MakesNew.aside {m : H Ref} {t : Tree} (hm : MakesNew m t) {h : Heap} {s : InStream}
    {P : List (Val × Tree)} {F : List Ref} (A : HoldsEach h P F) :
    ∃ r h' F', m h s = (.ok r, h', s) ∧ HoldsEach h' ((.ref r, t) :: P) F' ∧ Grows h F h' F' := by
  obtain ⟨r, h', K, e, B, g⟩ := hm h s
  refine ⟨r, h', K ++ F, e, .cons B (HoldsAll.grow g A fun _ _ h => nomatch h)
    (g.aside (fun _ h => nomatch h) (HoldsAll.lt A)), ?_⟩
  have := g.with [] F
  simpa using this

theorem HoldsEach.drop {h : Heap} {p : Val × Tree} {P : List (Val × Tree)} {F : List Ref} (A : HoldsEach h (p :: P) F) :
    ∃ F', HoldsEach h P F' ∧ ∀ x ∈ F', x ∈ F := by
  obtain ⟨G, K, rfl, _, B, _⟩ := HoldsAll.uncons A
  exact ⟨K, B, fun x hx => by simp [hx]⟩

theorem H.listOrNew_false {v : Val} {h : Heap} {s : InStream} (e : H.truth v h s = (.ok false, h, s)) :
    H.listOrNew v h s = H.alloc (.list []) h s := by
  simp only [H.listOrNew, H.bind_def, H.bind, e]
  rfl

theorem H.listOrNew_true {l : Ref} {us : List Val} {h : Heap} {s : InStream}
    (e : H.truth (.ref l) h s = (.ok true, h, s)) (hl : h[l]? = some (.list us)) :
    H.listOrNew (.ref l) h s = H.alloc (.list us) h s := by
  simp only [H.listOrNew, H.bind_def, H.bind, e]
  show (match h[l]? with
    | some (Cell.list vs) => H.alloc (Cell.list vs) h s
    | _ => (Except.error PyErr.typeError, h, s)) = _
  rw [hl]

namespace Yields

theorem orNew {m : H Ref} {u : Tree} {p : Val × Tree} {P : List (Val × Tree)} (hm : MakesNew m u) :
    Yields (H.orNew p.1 m) (p :: P) (p.2.or u) P := by
  intro h F s A
  obtain ⟨G, K, rfl, B, C, d⟩ := HoldsAll.uncons A
  have e := B.truth s
  unfold Tree.or
  cases q : p.2.truth
  · rw [q] at e
    obtain ⟨r, h', F', e', A', g⟩ := hm.aside (s := s) (P := P) C
    refine ⟨.ref r, h', F', ?_, A', g.fewer (fun x hx => by simp [hx]) fun _ h => h⟩
    simp only [H.orNew, H.bind_def, H.bind, e, e', Bool.false_eq_true, if_false]
    rfl
  · rw [q] at e
    refine ⟨p.1, h, G ++ K, ?_, A, .refl _ _⟩
    simp only [H.orNew, H.bind_def, H.bind, e, if_true]
    rfl

theorem copy {p : Val × Tree} {P : List (Val × Tree)} (ok : Keeps.Accepts .copy p.2) :
    Yields (H.listOrNew p.1 >>= fun r => Pure.pure (.ref r)) (p :: P) (p.2.or (.list [])) P := by
  intro h F s A
  obtain ⟨G, K, rfl, B, C, d⟩ := HoldsAll.uncons A
  have e := B.truth s
  unfold Tree.or
  cases q : p.2.truth
  · rw [q] at e
    obtain ⟨r, h', F', e', A', g⟩ := MakesNew.empty.aside (s := s) (P := P) C
    refine ⟨.ref r, h', F', ?_, A', g.fewer (fun x hx => by simp [hx]) fun _ h => h⟩
    rw [H.bind_def, H.bind, H.listOrNew_false e, e']
    rfl
  · rw [q] at e
    rcases ok with ok | ⟨ts, ok⟩
    · rw [q] at ok; cases ok
    · obtain ⟨v, t⟩ := p
      subst ok
      cases v with
      | sc v => unfold Holds at B; cases B
      | ref l =>
        obtain ⟨us, L, rfl, hl, D, hL⟩ := Holds.list_iff.mp B
        simp only [if_true]
        refine ⟨.ref h.length, h ++ [.list us], (h.length :: L) ++ K, ?_, ?_, ?_⟩
        · rw [H.bind_def, H.bind, H.listOrNew_true e hl]
          rfl
        · have fr : ∀ r, r < h.length → (h ++ [Cell.list us])[r]? = h[r]? := fun r hr =>
            List.getElem?_append_left hr
          refine .cons (Holds.list_iff.mpr ⟨us, L, rfl, by simp, D.frame fun r hr => fr r (D.lt r hr), fun hx =>
            absurd (D.lt _ hx) (Nat.lt_irrefl _)⟩) (C.frame fun r hr => fr r (C.lt r hr)) ?_
          intro x hx hk
          rcases List.mem_cons.mp hx with rfl | hx
          · exact absurd (C.lt _ hk) (Nat.lt_irrefl _)
          · exact d x (by simp [hx]) hk
        · refine ⟨by simp, fun r hr => ?_, fun r hr _ => List.getElem?_append_left hr⟩
          simp only [List.cons_append, List.mem_cons, List.mem_append] at hr ⊢
          rcases hr with rfl | hr | hr
          · exact .inr (Nat.le_refl _)
          · exact .inl (.inr (.inl hr))
          · exact .inl (.inr (.inr hr))

/-- Two lists handed to a constructor, new ones in place of empty ones. -/
theorem lists {k : Val → Val → H Ref} {t : Tree → Tree → Tree} {p q : Val × Tree} {P : List (Val × Tree)}
    (hk : ∀ a b : Val × Tree, Builds (k a.1 b.1) [a, b] (t a.2 b.2)) :
    Yields ((H.orNew p.1 (H.alloc (.list [])) >>= fun a => H.orNew q.1 (H.alloc (.list [])) >>= fun b => k a b) >>=
        fun r => Pure.pure (.ref r))
      (p :: q :: P) (t (p.2.or (.list [])) (q.2.or (.list []))) P := by
  intro h F s A
  obtain ⟨a, h1, F1, e1, A1, g1⟩ := orNew (p := p) (P := q :: P) .empty h F s A
  obtain ⟨F1', A1', w1⟩ := A1.perm (.swap _ _ _)
  obtain ⟨b, h2, F2, e2, A2, g2⟩ := orNew (p := q) (P := (a, p.2.or (.list [])) :: P) .empty h1 F1' s A1'
  obtain ⟨F2', A2', w2⟩ := A2.perm (.swap _ _ _)
  obtain ⟨G, K, rfl, B, C, d⟩ := HoldsAll.split (vs := [a, b]) (ts := [p.2.or (.list []), q.2.or (.list [])]) rfl A2'
  obtain ⟨r, h3, F3, e3, B3, g3⟩ := hk (a, p.2.or (.list [])) (b, q.2.or (.list [])) h2 G s B
  refine ⟨.ref r, h3, F3 ++ K, ?_, .cons B3 (C.grow g3 fun x hx hg => d x hg hx) (g3.aside d C.lt), ?_⟩
  · dsimp only at e3
    simp only [H.bind_def, H.bind, e1, e2, e3]
    rfl
  · have g3' := g3.with [] K
    rw [List.nil_append, List.nil_append] at g3'
    exact (g1.fewer (fun _ h => h) fun x hx => (w1 x).mp hx).trans
      ((g2.fewer (fun _ h => h) fun x hx => (w2 x).mp hx).trans g3')

end Yields

namespace Fills

variable {P P' P'' : List (Val × Tree)} {fs fs' fs'' : List (String × Tree)}

theorem bind {c d : Ref → H Unit} (a : Fills c P fs P' fs') (b : Fills d P' fs' P'' fs'') :
    Fills (fun self => c self >>= fun _ => d self) P fs P'' fs'' := by
  intro self h F s A
  obtain ⟨h1, F1, e1, A1, g1⟩ := a self h F s A
  obtain ⟨h2, F2, e2, A2, g2⟩ := b self h1 F1 s A1
  refine ⟨h2, F2, ?_, A2, g1.trans g2⟩
  simp only [H.bind_def, H.bind, e1, e2]

/-- Statements that use no arguments. -/
theorem inits {c : Ref → H Unit} (a : Inits c fs fs') : Fills c P fs P fs' := by
  intro self h F s A
  obtain ⟨G, K, rfl, B, C, d⟩ := HoldsAll.uncons A
  obtain ⟨h', G', e, B', g⟩ := a self h G s B
  refine ⟨h', G' ++ K, e, .cons B' (C.grow g fun x hx hg => d x hg hx) (g.aside d C.lt), ?_⟩
  have := g.with [] K
  simpa using this

theorem put {m : H Val} {n : String} {t : Tree} (hm : Yields m P t P') (h1 : (attrOf n fs).isSome) :
    Fills (fun self => m >>= fun v => H.setAttr self n v) P fs P' (putAttr n t fs) := by
  intro self h F s A
  obtain ⟨G, K, rfl, B, C, d⟩ := HoldsAll.uncons A
  obtain ⟨v, h', K', e, C', g⟩ := hm h K s C
  obtain ⟨L, M, rfl, D, E, d'⟩ := HoldsAll.uncons C'
  have B' : Holds h' (.ref self) (.obj fs) G := HoldsAll.grow g B d
  have dG : ∀ x ∈ L ++ M, x ∉ G := g.aside (fun x hx hg => d x hg hx) B.lt
  obtain ⟨o, w, Q, hr, hd, _, _, hQ, hself, key⟩ := B'.focusAttr (Option.some_get h1).symm
  have hlt : self < h'.length := (List.getElem?_eq_some_iff.mp hr).1
  have fr : ∀ x, x ≠ self → (h'.set self (.obj (putAttr n v o)))[x]? = h'[x]? := fun x hx =>
    List.getElem?_set_ne fun hh => hx hh.symm
  obtain ⟨F', Z, hF'⟩ := key (h'.set self (.obj (putAttr n v o))) v t L
    (D.frame fun x hx => fr x (by rintro rfl; exact dG x (by simp [hx]) hself)) (fun x _ _ hx => fr x hx)
    (List.getElem?_set_self hlt) (fun x hx => .inr (dG x (by simp [hx])))
  refine ⟨h'.set self (.obj (putAttr n v o)), F' ++ M, ?_, .cons Z (E.frame fun x hx => fr x (by
    rintro rfl; exact dG x (by simp [hx]) hself)) ?_, ?_⟩
  · simp only [H.bind_def, H.bind, e, H.setAttr, hr]
  · intro x hx hm
    rcases hF' x hx with hx | hx
    · exact dG x (by simp [hm]) hx
    · exact d' x hx hm
  · refine ⟨by simpa using g.longer, fun x hx => ?_, fun x hx hF => ?_⟩
    · rcases List.mem_append.mp hx with hx | hx
      · rcases hF' x hx with hx | hx
        · exact .inl (by simp [hx])
        · exact (g.within x (by simp [hx])).imp (fun h => by simp [h]) id
      · exact (g.within x (by simp [hx])).imp (fun h => by simp [h]) id
    · rw [fr x (by rintro rfl; exact hF (by simp [hself])), g.frame x hx (fun h => hF (by simp [h]))]

/-- `self.f = x`. -/
theorem arg {n : String} {p : Val × Tree} (h1 : (attrOf n fs).isSome) :
    Fills (fun self => H.setAttr self n p.1) (p :: P) fs P (putAttr n p.2 fs) :=
  put (m := Pure.pure p.1) (fun h F _ A => ⟨p.1, h, F, rfl, A, .refl _ _⟩) h1

/-- `self.f = x or T()`. -/
theorem or {n : String} {p : Val × Tree} {m : H Ref} {u : Tree} (hm : MakesNew m u) (h1 : (attrOf n fs).isSome) :
    Fills (fun self => H.setOr self n p.1 m) (p :: P) fs P (putAttr n (p.2.or u) fs) := put (.orNew hm) h1

theorem ofNew {n : String} {m : H Ref} {t : Tree} (hm : Yields (m >>= fun r => Pure.pure (.ref r)) P t P')
    (h1 : (attrOf n fs).isSome) : Fills (fun self => H.setNew self n m) P fs P' (putAttr n t fs) := by
  have := put hm h1
  simp only [H.bind_assoc] at this
  exact this

/-- `self.f = list(x) if x else []`. -/
theorem copy {n : String} {p : Val × Tree} (ok : Keeps.Accepts .copy p.2) (h1 : (attrOf n fs).isSome) :
    Fills (fun self => H.setNew self n (H.listOrNew p.1)) (p :: P) fs P (putAttr n (p.2.or (.list [])) fs) :=
  ofNew (.copy ok) h1

/-- `self.f = T(x or [], y or [])`. -/
theorem lists {n : String} {k : Val → Val → H Ref} {t : Tree → Tree → Tree} {p q : Val × Tree}
    (hk : ∀ a b : Val × Tree, Builds (k a.1 b.1) [a, b] (t a.2 b.2)) (h1 : (attrOf n fs).isSome) :
    Fills (fun self => H.setNew self n (H.orNew p.1 (H.alloc (.list [])) >>= fun a =>
        H.orNew q.1 (H.alloc (.list [])) >>= fun b => k a b))
      (p :: q :: P) fs P (putAttr n (t (p.2.or (.list [])) (q.2.or (.list []))) fs) := ofNew (.lists hk) h1

/-- Arguments that are not used. -/
theorem done : Fills (fun _ => Pure.pure ()) P fs [] fs := by
  intro self h F s A
  obtain ⟨G, K, rfl, B, C, d⟩ := HoldsAll.uncons A
  refine ⟨h, G, rfl, B, Nat.le_refl _, fun r hr => .inl (by simp [hr]), fun _ _ _ => rfl⟩

theorem cast {c : Ref → H Unit} (a : Fills c P fs P' fs') (e : fs' = fs'') : Fills c P fs P' fs'' := e ▸ a

end Fills

theorem Builds.new {attrs : List (String × Scalar)} {c : Ref → H Unit} {fs : List (String × Tree)}
    {P P' : List (Val × Tree)} (a : Fills c P (attrs.map fun a => (a.1, .sc a.2)) P' fs) :
    Builds (H.new attrs c) P (.obj fs) := by
  intro h F s A
  have lt := HoldsAll.lt A
  have hn : ∀ x ∈ [h.length], x ∉ F := fun x hx hF => by
    rw [List.mem_singleton.mp hx] at hF
    exact absurd (lt _ hF) (Nat.lt_irrefl _)
  obtain ⟨h', F', e, A', g⟩ := a h.length (h ++ [.obj (attrs.map fun a => (a.1, .sc a.2))]) ([h.length] ++ F) s
    (.cons (Holds.obj_iff.mpr ⟨_, [], rfl, by simp, by simp, HoldsAll.scalars attrs, fun h => nomatch h⟩)
      (A.frame fun x hx => List.getElem?_append_left (lt x hx)) hn)
  obtain ⟨G, K, rfl, B, _, _⟩ := HoldsAll.uncons A'
  refine ⟨h.length, h', G, ?_, B, ?_⟩
  · simp only [H.new, H.bind_def, H.bind, H.alloc, e]
    rfl
  · refine ⟨Nat.le_trans (by simp) g.longer, fun r hr => ?_, fun r hr hF => ?_⟩
    · rcases g.within r (by simp [hr]) with hr | hr
      · rcases List.mem_append.mp hr with hr | hr
        · exact .inr (by simp at hr; exact Nat.le_of_eq hr.symm)
        · exact .inl hr
      · exact .inr (Nat.le_trans (by simp) hr)
    · rw [g.frame r (Nat.lt_of_lt_of_le hr (by simp)) (by
        intro hm
        rcases List.mem_append.mp hm with hm | hm
        · simp at hm; exact absurd hr (Nat.not_lt.mpr (Nat.le_of_eq hm.symm))
        · exact hF hm), List.getElem?_append_left hr]

/-! ## Arguments by name -/

theorem attrOf_isSome {α β} {n : String} : ∀ {d : List (String × α)} {fs : List (String × β)},
    d.map (·.1) = fs.map (·.1) → (attrOf n d).isSome = (attrOf n fs).isSome
  | [], [], _ => rfl
  | [], _ :: _, h => nomatch h
  | _ :: _, [], h => nomatch h
  | (m, w) :: d, (m', u) :: fs, h => by
    simp only [List.map_cons, List.cons.injEq] at h
    obtain ⟨rfl, h⟩ := h
    simp only [attrOf]
    split
    · rfl
    · exact attrOf_isSome h

theorem attrOf_without {α} {n m : String} {v : α} (hne : n ≠ m) : ∀ {d1 d2 : List (String × α)},
    attrOf n (d1 ++ (m, v) :: d2) = attrOf n (d1 ++ d2)
  | [], d2 => by simp [attrOf, hne.symm]
  | (k, w) :: d1, d2 => by
    simp only [List.cons_append, attrOf]
    split
    · rfl
    · exact attrOf_without hne

/-- Arguments by name, in the order of the statements that use them, with the default values of the others. -/
theorem HoldsAll.select {h : Heap} : ∀ (ns : List (String × Scalar)) {kv : List (String × Val)}
    {kt : List (String × Tree)} {F : List Ref}, (ns.map (·.1)).Nodup → kv.map (·.1) = kt.map (·.1) →
    HoldsAll h (kv.map (·.2)) (kt.map (·.2)) F →
    ∃ F', HoldsEach h (ns.map fun n => ((attrOf n.1 kv).getD (.sc n.2), (attrOf n.1 kt).getD (.sc n.2))) F' ∧
      ∀ x ∈ F', x ∈ F
  | [], _, _, _, _, _, _ => ⟨[], .nil, fun _ h => nomatch h⟩
  | (n, d) :: ns, kv, kt, F, hn, e, A => by
    simp only [List.map_cons, List.nodup_cons] at hn
    have hne : ∀ a ∈ ns, a.1 ≠ n := fun a ha hh => hn.1 (hh ▸ List.mem_map_of_mem ha)
    cases q : attrOf n kt with
    | none =>
      have q' : attrOf n kv = none := by
        have := attrOf_isSome (n := n) e
        rw [q] at this
        exact Option.not_isSome_iff_eq_none.mp (by simp [this])
      obtain ⟨F', B, w⟩ := HoldsAll.select ns hn.2 e A
      refine ⟨F', ?_, w⟩
      simp only [List.map_cons, q, q', Option.getD_none]
      exact .sc d B
    | some t =>
      obtain ⟨d1, v, d2, f1, f2, rfl, rfl, h3, h4, h5, _, _⟩ := attr_split e q
      simp only [List.map_append, List.map_cons] at A
      obtain ⟨G, K, rfl, A1, B, dj⟩ := HoldsAll.split (by simpa using congrArg List.length h3) A
      obtain ⟨L, M, rfl, B, C, dj'⟩ := HoldsAll.uncons B
      obtain ⟨F', D, w⟩ := HoldsAll.select ns (kv := d1 ++ d2) (kt := f1 ++ f2) (F := G ++ M) hn.2 (by simp [h3, h4])
        (by simpa using A1.join C fun x hx hm => dj x hx (by simp [hm]))
      have eqs : (ns.map fun a => ((attrOf a.1 (d1 ++ (n, v) :: d2)).getD (.sc a.2),
          (attrOf a.1 (f1 ++ (n, t) :: f2)).getD (.sc a.2))) =
          ns.map fun a => ((attrOf a.1 (d1 ++ d2)).getD (.sc a.2), (attrOf a.1 (f1 ++ f2)).getD (.sc a.2)) :=
        List.map_congr_left fun a ha => by rw [attrOf_without (hne a ha), attrOf_without (hne a ha)]
      refine ⟨L ++ F', ?_, ?_⟩
      · simp only [List.map_cons, q, h5, Option.getD_some]
        rw [eqs]
        refine .cons B D fun x hx hx' => ?_
        have := w x hx'
        rcases List.mem_append.mp this with hg | hm
        · exact dj x hg (by simp [hx])
        · exact dj' x hx hm
      · intro x hx
        rcases List.mem_append.mp hx with hx | hx
        · simp [hx]
        · have := w x hx
          simp only [List.mem_append] at this ⊢
          exact this.imp id .inr

theorem Builds.select {m : H Ref} {t : Tree} (ns : List (String × Scalar)) (hn : (ns.map (·.1)).Nodup)
    {kv : List (String × Val)} {kt : List (String × Tree)} (e : kv.map (·.1) = kt.map (·.1))
    (hb : Builds m (ns.map fun n => ((attrOf n.1 kv).getD (.sc n.2), (attrOf n.1 kt).getD (.sc n.2))) t) :
    Builds m ((kv.map (·.2)).zip (kt.map (·.2))) t := by
  intro h F s A
  have l : (kv.map (·.2)).length = (kt.map (·.2)).length := by simpa using congrArg List.length e
  unfold HoldsEach at A
  rw [List.map_fst_zip (Nat.le_of_eq l), List.map_snd_zip (Nat.le_of_eq l.symm)] at A
  obtain ⟨F', B, w⟩ := HoldsAll.select ns hn e A
  obtain ⟨r, h', G, e, C, g⟩ := hb h F' s B
  exact ⟨r, h', G, e, C, g.fewer w fun _ h => h⟩

/-- What is proved of every constructor. -/
def Ctor.Lawful (c : Ctor) : Prop :=
  ∀ (kv : List (String × Val)) (kt : List (String × Tree)), kv.map (·.1) = kt.map (·.1) → c.Takes kt →
    Builds (c.new kv) ((kv.map (·.2)).zip (kt.map (·.2))) (c.built kt)

theorem Builds.cast {m : H Ref} {P : List (Val × Tree)} {t t' : Tree} (a : Builds m P t) (e : t = t') : Builds m P t' :=
  e ▸ a

theorem value_asIs (o : Option Tree) (u : Tree) : Keeps.asIs.value o u = o.getD u := by cases o <;> rfl

theorem value_orFresh (o : Option Tree) (u : Tree) : Keeps.orFresh.value o u = (o.getD (.sc .none)).or u := by
  cases o <;> rfl

theorem value_copy (o : Option Tree) (u : Tree) : Keeps.copy.value o u = (o.getD (.sc .none)).or u := by
  cases o <;> rfl

theorem Ctor.copy_suits {c : Ctor} {kt : List (String × Tree)} (ok : c.Takes kt) (p : Param) (hp : p ∈ c.params)
    (hc : p.how = .copy) : Keeps.Accepts .copy ((attrOf p.name kt).getD (.sc .none)) := by
  cases e : attrOf p.name kt with
  | none => exact .inl rfl
  | some t => exact hc ▸ ok.suits p hp t e

end Dis
