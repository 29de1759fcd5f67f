import Verif.Proof.Heap
import Verif.Proof.HeapAmounts

/-! # Lemmas about objects in memory: filled lists, constructors, `serialize` -/

namespace Dis

theorem H.bind_assoc {α β γ} (p : H α) (k : α → H β) (l : β → H γ) :
    (p >>= k) >>= l = p >>= fun a => k a >>= l := by
  funext h s
  simp only [H.bind_def, H.bind]
  rcases p h s with ⟨_ | _, _, _⟩ <;> rfl

theorem H.pure_bind {α β} (a : α) (k : α → H β) : (Pure.pure a : H α) >>= k = k a := rfl

/-! ## Lists of numbers -/

theorem HoldsAll.ints {h : Heap} : ∀ {l : List Int} {us : List Val} {G : List Ref},
    HoldsAll h us (l.map fun v => .sc (.int v)) G ↔ us = l.map (fun v => .sc (.int v)) ∧ G = []
  | [], us, G => by
    constructor
    · intro A; cases A; exact ⟨rfl, rfl⟩
    · rintro ⟨rfl, rfl⟩; exact .nil
  | x :: l, us, G => by
    constructor
    · intro A
      cases A with
      | sc _ B =>
        obtain ⟨rfl, rfl⟩ := HoldsAll.ints.mp B
        exact ⟨rfl, rfl⟩
    · rintro ⟨rfl, rfl⟩
      exact .sc _ (HoldsAll.ints.mpr ⟨rfl, rfl⟩)

theorem Holds.ints {h : Heap} {r : Ref} {l : List Int} {F : List Ref} :
    Holds h (.ref r) (.list (l.map fun v => .sc (.int v))) F ↔
      F = [r] ∧ h[r]? = some (.list (l.map fun v => .sc (.int v))) := by
  rw [Holds.list_iff]
  constructor
  · rintro ⟨us, G, rfl, hr, A, _⟩
    obtain ⟨rfl, rfl⟩ := HoldsAll.ints.mp A
    exact ⟨rfl, hr⟩
  · rintro ⟨rfl, hr⟩
    exact ⟨_, [], rfl, hr, HoldsAll.ints.mpr ⟨rfl, rfl⟩, fun h => nomatch h⟩

theorem MakesNew.list (l : List Int) :
    MakesNew (H.alloc (.list (l.map fun v => .sc (.int v)))) (.list (l.map fun v => .sc (.int v))) := by
  intro h s
  refine ⟨h.length, h ++ [_], [h.length], rfl, Holds.ints.mpr ⟨rfl, by simp⟩, ?_⟩
  refine ⟨by simp, fun r hr => .inr (by simp at hr; exact Nat.le_of_eq hr.symm), fun r hr _ => ?_⟩
  rw [List.getElem?_append_left hr]

theorem MakesNew.empty : MakesNew (H.alloc (.list [])) (.list []) := MakesNew.list []

theorem MakesNew.zeros (n : Nat) : MakesNew (H.zeros n) (.list ((List.replicate n (0 : Int)).map fun v => .sc (.int v))) := by
  have := MakesNew.list (List.replicate n 0)
  unfold H.zeros
  simpa using this

namespace Refines

variable {σ : Type} {fs : σ → List (String × Tree)}

theorem setReads {a : Attr σ (List Int)} {f : String} {r : R Int} (law : Attr.Lawful a)
    (h1 : ∀ o, attrOf f (fs o) = some (.list ((a.get o).map fun v => .sc (.int v))))
    (h2 : ∀ o l, fs (a.put o l) = putAttr f (.list (l.map fun v => .sc (.int v))) (fs o)) :
    ∀ n i ex self o h F s, i + n ≤ (a.get o).length → Holds h (.ref self) (.obj (fs o ++ ex)) F →
      (H.setReads i n r self f h s).1 = (P.setReads i n r a o s).1 ∧
      (H.setReads i n r self f h s).2.2 = (P.setReads i n r a o s).2.2 ∧
      ∃ F', Holds (H.setReads i n r self f h s).2.1 (.ref self)
          (.obj (fs (P.setReads i n r a o s).2.1 ++ ex)) F' ∧ Grows h F (H.setReads i n r self f h s).2.1 F'
  | 0, _, _, _, _, h, F, _, _, A => ⟨rfl, rfl, F, A, .refl h F⟩
  | n + 1, i, ex, self, o, h, F, s, hle, A => by
    simp only [H.setReads, P.setReads, H.bind_def, H.bind, P.bind_def, P.bind, H.read, P.read]
    rcases r s with ⟨err | x, s'⟩
    · exact ⟨rfl, rfl, F, A, .refl h F⟩
    · obtain ⟨d, w, G, hr, hd, B, hG, _, _, key⟩ := A.focus (attrOf_append (h1 o))
      cases w with
      | sc v => unfold Holds at B; cases B
      | ref l =>
        obtain ⟨rfl, hl⟩ := Holds.ints.mp B
        have hlt : l < h.length := (List.getElem?_eq_some_iff.mp hl).1
        have hi : i < (a.get o).length := by omega
        simp only [objAttr_eq hr hd, H.setItem, hl, P.set, List.length_map, hi, if_true]
        have e : ((a.get o).map fun v => Val.sc (.int v)).set i (.sc (.int x)) =
            ((a.get o).set i x).map fun v => .sc (.int v) := by rw [List.map_set]
        rw [e]
        obtain ⟨F', A', g'⟩ := key (h.set l (.list (((a.get o).set i x).map fun v => .sc (.int v))))
          (.list (((a.get o).set i x).map fun v => .sc (.int v))) [l]
          ⟨by simp, fun _ h => .inl h, fun y hy hm => by
            rw [List.getElem?_set_ne (by rintro rfl; exact hm (by simp))]⟩
          (Holds.ints.mpr ⟨rfl, by rw [List.getElem?_set_self hlt]⟩)
        rw [putAttr_append (h1 o), ← h2] at A'
        obtain ⟨e1, e2, F2, A2, g2⟩ := setReads law h1 h2 n (i + 1) ex self (a.put o ((a.get o).set i x)) _ F' s'
          (by rw [law.get_put, List.length_set]; omega) A'
        exact ⟨e1, e2, F2, A2, g'.trans g2⟩

theorem fillReads {a : Attr σ (List Int)} {f : String} {r : R Int} {n : Nat} (law : Attr.Lawful a)
    (h1 : ∀ o, attrOf f (fs o) = some (.list ((a.get o).map fun v => .sc (.int v))))
    (h2 : ∀ o l, fs (a.put o l) = putAttr f (.list (l.map fun v => .sc (.int v))) (fs o)) :
    Refines fs (P.fillReads n r a) (fun self => H.fillReads n r self f) := by
  intro ex self o h F s A
  have hs := setNew (f := fun o => a.put o (List.replicate n 0)) (MakesNew.zeros n) h1 (fun o => h2 o _) ex self o h F s A
  have e : H.fillReads n r self f = (H.zeros n >>= fun l => H.setAttr self f (.ref l)) >>=
      fun _ => H.setReads 0 n r self f := (H.bind_assoc ..).symm
  unfold P.fillReads
  dsimp only
  rw [e]
  simp only [H.bind_def] at hs ⊢
  rw [H.bind]
  simp only [P.bind_def, P.bind, P.set] at hs ⊢
  revert hs
  rcases H.bind (H.zeros n) (fun l => H.setAttr self f (.ref l)) h s with ⟨x, h', s'⟩
  rintro ⟨rfl, rfl, F', A', g'⟩
  obtain ⟨e1, e2, F2, A2, g2⟩ := setReads (r := r) law h1 h2 n 0 ex self _ _ F' s'
    (by rw [law.get_put, List.length_replicate]; omega) A'
  exact ⟨e1, e2, F2, A2, g'.trans g2⟩

end Refines

/-! ## Constructors -/

/-- The statements of `__init__` take an object with the attributes `fs` to one with the attributes
`fs'`. -/
def Inits (c : Ref → H Unit) (fs fs' : List (String × Tree)) : Prop :=
  ∀ self h F s, Holds h (.ref self) (.obj fs) F →
    ∃ h' F', c self h s = (.ok (), h', s) ∧ Holds h' (.ref self) (.obj fs') F' ∧ Grows h F h' F'

namespace Inits

variable {fs fs' fs'' : List (String × Tree)}

theorem done : Inits (fun _ => Pure.pure ()) fs fs := fun _ h F _ A => ⟨h, F, rfl, A, .refl h F⟩

theorem bind {c d : Ref → H Unit} (a : Inits c fs fs') (b : Inits d fs' fs'') :
    Inits (fun self => c self >>= fun _ => d self) fs fs'' := by
  intro self h F s A
  obtain ⟨h1, F1, e1, A1, g1⟩ := a self h F s A
  obtain ⟨h2, F2, e2, A2, g2⟩ := b self h1 F1 s A1
  refine ⟨h2, F2, ?_, A2, g1.trans g2⟩
  simp only [H.bind_def, H.bind, e1, e2]

theorem set {n : String} {v : Scalar} {t : Tree} (h1 : attrOf n fs = some t) :
    Inits (fun self => H.setAttr self n (.sc v)) fs (putAttr n (.sc v) fs) := by
  intro self h F s A
  obtain ⟨d, w, G, hr, hd, B, _, _, key, _⟩ := A.focus h1
  obtain ⟨F', A', g⟩ := key h (.sc v) (.sc v) [] ⟨Nat.le_refl _, (fun _ h => nomatch h), fun _ _ _ => rfl⟩
    (.sc v .nil)
  exact ⟨_, F', by simp only [H.setAttr, hr], A', g⟩

theorem setNew {n : String} {m : H Ref} {u t : Tree} (hm : MakesNew m u) (h1 : attrOf n fs = some t) :
    Inits (fun self => m >>= fun r => H.setAttr self n (.ref r)) fs (putAttr n u fs) := by
  intro self h F s A
  obtain ⟨d, w, G, hr, hd, B, hG, hs, key, _⟩ := A.focus h1
  obtain ⟨r, h', K, e, C, g⟩ := hm h s
  obtain ⟨F', A', g'⟩ := key h' (.ref r) u K
    ⟨g.longer, fun x hx => .inr ((g.within x hx).resolve_left (fun h => nomatch h)), fun x hx _ =>
      g.frame x hx (fun h => nomatch h)⟩ C
  have hr' : h'[self]? = some (.obj d) := by
    rw [g.frame self (List.getElem?_eq_some_iff.mp hr).1 (fun h => nomatch h), hr]
  exact ⟨_, F', by simp only [H.bind_def, H.bind, e, H.setAttr, hr'], A', g'⟩

/-- `self.f = f or T()` where `f` is `None`. -/
theorem setOr {n : String} {m : H Ref} {u t : Tree} (hm : MakesNew m u) (h1 : attrOf n fs = some t) :
    Inits (fun self => H.orNew (.sc .none) m >>= fun v => H.setAttr self n v) fs (putAttr n u fs) := by
  have := setNew hm h1
  refine Eq.mp ?_ this
  congr 1
  funext self h s
  have e : H.orNew (.sc .none) m = m >>= fun r => Pure.pure (.ref r) := by
    funext h s
    simp [H.orNew, H.bind_def, H.bind, H.truth]
  rw [e, H.bind_assoc]
  rfl

theorem cast (a : Inits c fs fs') (e : fs' = fs'') : Inits c fs fs'' := e ▸ a

end Inits

theorem HoldsAll.scalars {h : Heap} : ∀ (d : List (String × Scalar)),
    HoldsAll h ((d.map fun a => (a.1, Val.sc a.2)).map (·.2)) ((d.map fun a => (a.1, Tree.sc a.2)).map (·.2)) []
  | [] => .nil
  | _ :: d => .sc _ (HoldsAll.scalars d)

theorem MakesNew.new {attrs : List (String × Scalar)} {c : Ref → H Unit} {fs : List (String × Tree)}
    (a : Inits c (attrs.map fun a => (a.1, .sc a.2)) fs) : MakesNew (H.new attrs c) (.obj fs) := by
  intro h s
  obtain ⟨h', F', e, A, g⟩ := a h.length (h ++ [.obj (attrs.map fun a => (a.1, .sc a.2))]) [h.length] s
    (Holds.obj_iff.mpr ⟨_, [], rfl, by simp, by simp, HoldsAll.scalars attrs, fun h => nomatch h⟩)
  refine ⟨h.length, h', F', ?_, A, ?_⟩
  · simp only [H.new, H.bind_def, H.bind, H.alloc, e]
    rfl
  · refine ⟨Nat.le_trans (by simp) g.longer, fun r hr => .inr ?_, fun r hr _ => ?_⟩
    · rcases g.within r hr with hr | hr
      · simp at hr; exact Nat.le_of_eq hr.symm
      · exact Nat.le_trans (by simp) hr
    · rw [g.frame r (Nat.lt_of_lt_of_le hr (by simp)) (by
        intro hm; simp at hm; exact absurd hr (Nat.not_lt.mpr (Nat.le_of_eq hm.symm))), List.getElem?_append_left hr]

/-! ## `serialize` -/

/-- The method on the memory writes what the method on values writes, whatever the types of numbers. -/
def Shows {σ : Type} (fs : σ → List (String × Tree)) (w : σ → W Unit) (c : Ref → S Unit) : Prop :=
  ∀ extra self o h F, Amounts h (.ref self) (.obj (fs o ++ extra)) F → c self h = w o

theorem S.bind_def {α β} (p : S α) (k : α → S β) : p >>= k = S.bind p k := rfl

theorem W.pure_bind' {α β} (a : α) (k : α → W β) : (Pure.pure a : W α) >>= k = k a := by
  show W.bind _ _ = _
  simp [W.bind, Pure.pure]

theorem W.throw_bind {α β} (e : PyErr) (k : α → W β) : (W.throw e : W α) >>= k = W.throw e := rfl

theorem S.attr_eq {h : Heap} {self : Ref} {fs : List (String × Tree)} {F : List Ref} {n : String} {t : Tree}
    (A : Amounts h (.ref self) (.obj fs) F) (e : attrOf n fs = some t) (ht : t ≠ .sc .absent) :
    ∃ v G, S.attr self n h = Pure.pure v ∧ Amounts h v t G := by
  obtain ⟨_, a, A⟩ := A
  cases a with
  | obj en ea _ =>
    obtain ⟨u, eu, au⟩ := ea.attr en e
    obtain ⟨d, v, G, hr, hd, B, _⟩ := A.focus eu
    refine ⟨v, G, ?_, u, au, B⟩
    simp only [S.attr, hr, hd]
    split
    · rename_i e'
      cases e'
      unfold Holds at B
      cases B
      cases au with
      | sc c _ => cases c; exact absurd rfl ht
    · rename_i e'
      cases e'
      rfl
    · rename_i e'; cases e'

theorem S.attr_absent {h : Heap} {self : Ref} {fs : List (String × Tree)} {F : List Ref} {n : String}
    (A : Amounts h (.ref self) (.obj fs) F) (e : attrOf n fs = some (.sc .absent)) :
    S.attr self n h = W.throw .attributeError := by
  obtain ⟨_, a, A⟩ := A
  cases a with
  | obj en ea _ =>
    obtain ⟨u, eu, au⟩ := ea.attr en e
    obtain ⟨d, v, G, hr, hd, B, _⟩ := A.focus eu
    obtain rfl := Amounts.absent ⟨u, au, B⟩
    simp only [S.attr, hr, hd]

namespace Shows

variable {σ τ : Type} {fs : σ → List (String × Tree)}

theorem bind {w w' : σ → W Unit} {c c' : Ref → S Unit} (a : Shows fs w c) (b : Shows fs w' c') :
    Shows fs (fun o => w o >>= fun _ => w' o) (fun self => c self >>= fun _ => c' self) := by
  intro ex self o h F A
  show S.bind _ _ h = _
  rw [S.bind, a ex self o h F A, b ex self o h F A]

theorem write {w : W Unit} : Shows fs (fun _ => w) (fun _ => S.write w) := fun _ _ _ _ _ _ => rfl

theorem pure : Shows fs (fun _ => Pure.pure ()) (fun _ => Pure.pure ()) := fun _ _ _ _ _ _ => rfl

/-- A number. -/
theorem int {n : String} {k : Int → W Unit} {g : σ → Int} (h1 : ∀ o, attrOf n (fs o) = some (.sc (.int (g o)))) :
    Shows fs (fun o => k (g o)) (fun self => S.int self n >>= fun v => S.write (k v)) := by
  intro ex self o h F A
  obtain ⟨v, G, e, B⟩ := S.attr_eq A (attrOf_append (h1 o)) nofun
  simp only [S.bind_def, S.bind, S.int, e, W.pure_bind', B.asInt, S.write]

theorem float {n : String} {k : F64 → W Unit} {g : σ → F64}
    (h1 : ∀ o, attrOf n (fs o) = some (.sc (.float (g o)))) :
    Shows fs (fun o => k (g o)) (fun self => S.float self n >>= fun v => S.write (k v)) := by
  intro ex self o h F A
  obtain ⟨v, G, e, B⟩ := S.attr_eq A (attrOf_append (h1 o)) nofun
  simp only [S.bind_def, S.bind, S.float, e, W.pure_bind', B.asFloat, S.write]

/-- A nested object. -/
theorem obj {n : String} {ts : τ → List (String × Tree)} {w : τ → W Unit} {c : Ref → S Unit} {g : σ → τ}
    (hw : Shows ts w c) (h1 : ∀ o, attrOf n (fs o) = some (.obj (ts (g o)))) :
    Shows fs (fun o => w (g o)) (fun self => S.obj self n >>= fun r => c r) := by
  intro ex self o h F A
  obtain ⟨v, G, e, B⟩ := S.attr_eq A (attrOf_append (h1 o)) nofun
  cases v with
  | sc x => exact B.not_sc.elim
  | ref r =>
    have := hw [] r (g o) h G (by rwa [List.append_nil])
    simp only [S.bind_def, S.bind, S.obj, e, W.pure_bind', S.asObj]
    exact this

/-- `super().serialize(outputStream)`. -/
theorem super {ts : τ → List (String × Tree)} {own : σ → List (String × Tree)} {w : τ → W Unit} {c : Ref → S Unit}
    {g : σ → τ} (hw : Shows ts w c) (h1 : ∀ o, fs o = ts (g o) ++ own o) : Shows fs (fun o => w (g o)) c := by
  intro ex self o h F A
  exact hw (own o ++ ex) self (g o) h F (by rwa [← List.append_assoc, ← h1])

theorem list_eq {n : String} {g : σ → List τ} {enc : τ → Tree}
    (h1 : ∀ o, attrOf n (fs o) = some (.list ((g o).map enc))) {ex : List (String × Tree)} {self : Ref} {o : σ}
    {h : Heap} {F : List Ref} (A : Amounts h (.ref self) (.obj (fs o ++ ex)) F) :
    ∃ us G, S.list self n h = Pure.pure us ∧ AmountsAll h us ((g o).map enc) G := by
  obtain ⟨v, G, e, B⟩ := S.attr_eq A (attrOf_append (h1 o)) nofun
  cases v with
  | sc x => exact B.not_sc'.elim
  | ref r =>
    obtain ⟨us, G, hr, C⟩ := B.list
    refine ⟨us, G, ?_, C⟩
    simp only [S.bind_def, S.bind, S.list, e, W.pure_bind', S.items, hr]

/-- The length of a list. -/
theorem len {n : String} {k : Int → W Unit} {g : σ → List τ} {enc : τ → Tree}
    (h1 : ∀ o, attrOf n (fs o) = some (.list ((g o).map enc))) :
    Shows fs (fun o => k ((g o).length : Int)) (fun self => S.list self n >>= fun l => S.write (k (l.length : Int))) := by
  intro ex self o h F A
  obtain ⟨us, G, e, B⟩ := list_eq h1 A
  simp only [S.bind_def, S.bind, e, W.pure_bind', S.write]
  rw [B.length, List.length_map]

theorem forEach_eq {h : Heap} {enc : τ → Tree} {w : τ → W Unit} {c : Val → S Unit}
    (hc : ∀ v x G, Amounts h v (enc x) G → c v h = w x) : ∀ {l : List τ} {us : List Val} {G : List Ref},
    AmountsAll h us (l.map enc) G → S.forEach us c h = W.forEach l w
  | [], _, _, A => by rw [A.nil]; rfl
  | x :: l, [], _, A => nomatch A.length
  | x :: l, u :: us, _, A => by
    obtain ⟨G, K, A, B⟩ := AmountsAll.uncons A
    simp only [S.forEach, W.forEach, S.bind_def, S.bind, hc u x G A, forEach_eq hc B]

/-- The elements of a list of objects. -/
theorem each {n : String} {ts : τ → List (String × Tree)} {w : τ → W Unit} {c : Ref → S Unit} {g : σ → List τ}
    (hw : Shows ts w c) (h1 : ∀ o, attrOf n (fs o) = some (.list ((g o).map fun v => .obj (ts v)))) :
    Shows fs (fun o => W.forEach (g o) w)
      (fun self => S.list self n >>= fun l => S.forEach l fun v => S.asObj v >>= fun r => c r) := by
  intro ex self o h F A
  obtain ⟨us, G, e, B⟩ := list_eq h1 A
  simp only [S.bind_def, S.bind, e, W.pure_bind']
  refine forEach_eq (fun v x G A => ?_) B
  cases v with
  | sc x => exact A.not_sc.elim
  | ref r =>
    have := hw [] r x h G (by rwa [List.append_nil])
    simp only [S.asObj]
    exact (W.pure_bind' _ _).trans this

/-- The elements of a list of numbers. -/
theorem eachInt {n : String} {k : Int → W Unit} {g : σ → List Int}
    (h1 : ∀ o, attrOf n (fs o) = some (.list ((g o).map fun v => .sc (.int v)))) :
    Shows fs (fun o => W.forEach (g o) k)
      (fun self => S.list self n >>= fun l => S.forEach l fun v => S.asInt v >>= fun x => S.write (k x)) := by
  intro ex self o h F A
  obtain ⟨us, G, e, B⟩ := list_eq h1 A
  simp only [S.bind_def, S.bind, e, W.pure_bind']
  refine forEach_eq (fun v x G A => ?_) B
  simp only [S.bind, A.asInt]
  exact W.pure_bind' _ _

/-- `x.serialize` of numbers. -/
theorem eachRaise {n : String} {c : Ref → S Unit} {g : σ → List Int}
    (h1 : ∀ o, attrOf n (fs o) = some (.list ((g o).map fun v => .sc (.int v)))) :
    Shows fs (fun o => W.forEach (g o) fun _ => W.throw .attributeError)
      (fun self => S.list self n >>= fun l => S.forEach l fun v => S.asObj v >>= fun r => c r) := by
  intro ex self o h F A
  obtain ⟨us, G, e, B⟩ := list_eq h1 A
  simp only [S.bind_def, S.bind, e, W.pure_bind']
  refine forEach_eq (fun v x G A => ?_) B
  obtain ⟨y, rfl, _⟩ := A.scalar
  rfl

/-- `self.l[idx]`. -/
theorem item {n : String} {k : Int → W Unit} {g : σ → List Int} {i : Nat}
    (h1 : ∀ o, attrOf n (fs o) = some (.list ((g o).map fun v => .sc (.int v)))) :
    Shows fs (fun o => W.using (index (g o) i) k) (fun self => S.item self n i >>= fun v => S.write (k v)) := by
  intro ex self o h F A
  obtain ⟨us, G, e, B⟩ := list_eq h1 A
  simp only [S.bind_def, S.bind, S.item, e, W.pure_bind', index]
  cases q : (g o)[i]? with
  | none =>
    have : us[i]? = none := by
      rw [List.getElem?_eq_none_iff, B.length, List.length_map]
      exact List.getElem?_eq_none_iff.mp q
    rw [this]
    rfl
  | some x =>
    obtain ⟨v, G, ev, C⟩ := B.item (i := i) (t := .sc (.int x)) (by rw [List.getElem?_map, q]; rfl)
    rw [ev]
    simp only [C.asInt]
    exact W.pure_bind' _ _

theorem range {w : Nat → σ → W Unit} {c : Nat → Ref → S Unit} (hw : ∀ i, Shows fs (w i) (c i)) (n : Nat) :
    ∀ i, Shows fs (fun o => W.forRange i n fun x => w x o) (fun self => S.forRange i n fun x => c x self) := by
  induction n with
  | zero => exact fun _ => .pure
  | succ n ih =>
    intro i ex self o h F A
    simp only [S.forRange, W.forRange, S.bind_def, S.bind, hw i ex self o h F A, ih (i + 1) ex self o h F A]

end Shows

end Dis
