import Verif.Proof.HeapRules
import Verif.Spec.HeapFieldsSpecial
import Verif.Model.HeapSpecial

/-! # Rules for the methods of records: sizes, bit fields, and records found by their type -/

namespace Dis

theorem attrOf_putAttr_self {α} {n : String} {v : α} : ∀ {fs : List (String × α)}, attrOf n (putAttr n v fs) = some v
  | [] => by simp [putAttr, attrOf]
  | (m, w) :: fs => by
    unfold putAttr
    split
    · rename_i e; simp [attrOf, e]
    · rename_i e; simp [attrOf, e, attrOf_putAttr_self]

theorem putAttr_putAttr {α} {n : String} {v w : α} : ∀ {fs : List (String × α)},
    putAttr n w (putAttr n v fs) = putAttr n w fs
  | [] => by simp [putAttr]
  | (m, x) :: fs => by
    by_cases e : m = n
    · simp [putAttr, e]
    · simp [putAttr, e, putAttr_putAttr]

/-- A program that reads a new object from the stream, or raises. -/
def Loads {τ : Type} (m : H Ref) (r : R τ) (ts : τ → List (String × Tree)) : Prop :=
  ∀ (h : Heap) (s : InStream), ∃ h',
    match r s with
    | (.ok v, s') => ∃ x K, m h s = (.ok x, h', s') ∧ Holds h' (.ref x) (.obj (ts v)) K ∧ Grows h [] h' K
    | (.error e, s') => m h s = (.error e, h', s') ∧ Grows h [] h' []

namespace Loads

variable {α σ τ : Type} {ts : τ → List (String × Tree)}

theorem read {r : R α} {m : α → H Ref} {k : α → R τ} (hk : ∀ a, Loads (m a) (k a) ts) :
    Loads (H.read r >>= m) (r >>= k) ts := by
  intro h s
  simp only [H.bind_def, H.bind, H.read, R.bind_def, R.bind]
  rcases r s with ⟨_ | a, s'⟩
  · exact ⟨h, rfl, ⟨Nat.le_refl _, (fun _ h => nomatch h), fun _ _ _ => rfl⟩⟩
  · exact hk a h s'

theorem load {us : σ → List (String × Tree)} {fresh : σ} {p : P σ Unit} {new : H Ref} {c : Ref → H Unit} {r : R σ}
    {g : σ → τ} (hn : MakesNew new (.obj (us fresh))) (hp : Refines us p c) (hr : P.run p fresh = r)
    (hg : ∀ v, ts (g v) = us v) : Loads (H.load new c) (r >>= fun v => pure (g v)) ts := by
  intro h s
  obtain ⟨x, h', K, e, C, g1⟩ := hn h s
  have hq := hp [] x fresh h' K s (by rwa [List.append_nil])
  subst hr
  simp only [H.load, H.bind_def, H.bind, e, R.bind_def, R.bind, P.run]
  revert hq
  rcases c x h' s with ⟨a, h'', s'⟩
  rcases p fresh s with ⟨b, o', s''⟩
  rintro ⟨e1, e2, K', D, g2⟩
  simp only at e1 e2 g2 D
  subst e1 e2
  have g3 : Grows h [] h'' K' := g1.trans g2
  refine ⟨h'', ?_⟩
  cases a with
  | error err => exact ⟨rfl, ⟨g3.longer, (fun _ h => nomatch h), g3.frame⟩⟩
  | ok _ =>
    refine ⟨x, K', rfl, ?_, g3⟩
    rw [hg]
    rwa [List.append_nil] at D

theorem plain {us : σ → List (String × Tree)} {fresh : σ} {p : P σ Unit} {new : H Ref} {c : Ref → H Unit} {r : R σ}
    (hn : MakesNew new (.obj (us fresh))) (hp : Refines us p c) (hr : P.run p fresh = r) :
    Loads (H.load new c) r us := by
  have := load (g := id) hn hp hr (fun _ => rfl)
  have e : (r >>= fun v => (Pure.pure (id v) : R σ)) = r := by
    funext s
    simp only [R.bind_def, R.bind]
    rcases r s with ⟨_ | _, _⟩ <;> rfl
  rwa [e] at this

end Loads

namespace Refines

variable {σ τ : Type} {fs : σ → List (String × Tree)}

theorem appendLoads {r : R τ} {m : H Ref} {a : Attr σ (List τ)} {f : String} {ts : τ → List (String × Tree)}
    (hm : Loads m r ts)
    (h1 : ∀ o, attrOf f (fs o) = some (.list ((a.get o).map fun v => .obj (ts v))))
    (h2 : ∀ o l, fs (a.put o l) = putAttr f (.list (l.map fun v => .obj (ts v))) (fs o)) :
    ∀ n, Refines fs (P.appendReads n r a) (fun self => H.appendLoads n m self f)
  | 0 => .pure
  | n + 1 => by
    intro ex self o h F s A
    obtain ⟨h'', hq⟩ := hm h s
    have ih := appendLoads hm h1 h2 n
    simp only [P.appendReads, H.appendLoads, H.bind_def, H.bind, P.bind_def, P.bind, P.read]
    revert hq
    rcases r s with ⟨y, s''⟩
    cases y with
    | error err =>
      rintro ⟨e, g2⟩
      rw [e]
      exact ⟨rfl, rfl, F, HoldsAll.grow g2 A (fun _ _ h => nomatch h),
        ⟨g2.longer, fun _ h => .inl h, fun r hr _ => g2.frame r hr (fun h => nomatch h)⟩⟩
    | ok v =>
      rintro ⟨x, K', e, D, g2⟩
      rw [e]
      obtain ⟨d, w, G, hr, hd, B, hG, _, _, key⟩ := A.focus (attrOf_append (h1 o))
      cases w with
      | sc v => unfold Holds at B; cases B
      | ref l =>
        obtain ⟨us, G, rfl, hl, _, _⟩ := Holds.list_iff.mp B
        have hr' : h''[self]? = some (.obj d) := by
          rw [g2.frame self (List.getElem?_eq_some_iff.mp hr).1 (fun h => nomatch h), hr]
        have hl' : h''[l]? = some (.list us) := by
          rw [g2.frame l (List.getElem?_eq_some_iff.mp hl).1 (fun h => nomatch h), hl]
        obtain ⟨E, g3⟩ := Holds.pushed B hl g2 D
        obtain ⟨F', A', g4⟩ := key _ _ _ g3 E
        simp only [objAttr_eq hr' hd, H.append, hl', P.set]
        rw [putAttr_append (h1 o)] at A'
        obtain ⟨e1, e2, F2, A2, g5⟩ := ih ex self (a.put o (a.get o ++ [v])) _ F' s'' (by
          rw [h2]
          simpa using A')
        exact ⟨e1, e2, F2, A2, g4.trans g5⟩

theorem loads {r : R τ} {m : H Ref} {a : Attr σ (List τ)} {f : String} {ts : τ → List (String × Tree)} {n : Nat}
    (hm : Loads m r ts) (h1 : ∀ o, attrOf f (fs o) = some (.objs ts (a.get o)))
    (h2 : ∀ o l, fs (a.put o l) = putAttr f (.objs ts l) (fs o)) :
    Refines fs (P.appendReads n r a) (fun self => H.appendLoads n m self f) := appendLoads hm h1 h2 n

/-- Assignment of an object that was made and parsed. -/
theorem setLoad {α : Type} {r : R τ} {g : τ → α} {f : α → σ → σ} {m : H Ref} {n : String} {ts : τ → List (String × Tree)}
    (hm : Loads m r ts) (h1 : ∀ o, (attrOf n (fs o)).isSome)
    (h2 : ∀ o v, fs (f (g v) o) = putAttr n (.obj (ts v)) (fs o)) :
    Refines fs (P.read (r >>= fun v => Pure.pure (g v)) >>= fun v => P.set (f v))
      (fun self => m >>= fun x => H.setAttr self n (.ref x)) := by
  intro ex self o h F s A
  obtain ⟨h', hq⟩ := hm h s
  have h3 : attrOf n (fs o) = some ((attrOf n (fs o)).get (h1 o)) := (Option.some_get _).symm
  obtain ⟨d, w, G, hr, hd, B, hG, hs, key, _⟩ := A.focus (attrOf_append (ex := ex) h3)
  simp only [P.read, P.bind_def, P.bind, R.bind_def, R.bind, H.bind_def, H.bind]
  revert hq
  rcases r s with ⟨y, s'⟩
  cases y with
  | error err =>
    rintro ⟨e, g2⟩
    rw [e]
    exact ⟨rfl, rfl, F, HoldsAll.grow g2 A (fun _ _ h => nomatch h),
      ⟨g2.longer, fun _ h => .inl h, fun r hr _ => g2.frame r hr (fun h => nomatch h)⟩⟩
  | ok v =>
    rintro ⟨x, K, e, D, g2⟩
    rw [e]
    obtain ⟨F', A', g'⟩ := key h' (.ref x) _ K
      ⟨g2.longer, fun x hx => .inr ((g2.within x hx).resolve_left (fun h => nomatch h)), fun x hx _ =>
        g2.frame x hx (fun h => nomatch h)⟩ D
    have hr' : h'[self]? = some (.obj d) := by
      rw [g2.frame self (List.getElem?_eq_some_iff.mp hr).1 (fun h => nomatch h), hr]
    rw [putAttr_append h3, ← h2] at A'
    simp only [H.setAttr, hr']
    exact ⟨rfl, rfl, F', A', g'⟩

/-- A method of the object in an attribute is called, where the attribute holds such an object. -/
theorem callAt {a : Attr σ τ} {n : String} {ts : τ → List (String × Tree)} {p : P τ Unit} {c : Ref → H Unit}
    (hp : Refines ts p c) {ex : List (String × Tree)} {self : Ref} {o : σ} {h : Heap} {F : List Ref} (s : InStream)
    (A : Holds h (.ref self) (.obj (fs o ++ ex)) F) (h1 : attrOf n (fs o) = some (.obj (ts (a.get o))))
    (h2 : ∀ v, fs (a.put o v) = putAttr n (.obj (ts v)) (fs o)) :
    (H.call self n c h s).1 = (P.call a p o s).1 ∧ (H.call self n c h s).2.2 = (P.call a p o s).2.2 ∧
    ∃ F', Holds (H.call self n c h s).2.1 (.ref self) (.obj (fs (P.call a p o s).2.1 ++ ex)) F' ∧
      Grows h F (H.call self n c h s).2.1 F' := by
  obtain ⟨d, w, G, hr, hd, B, hG, _, _, key⟩ := A.focus (attrOf_append h1)
  cases w with
  | sc v => unfold Holds at B; cases B
  | ref r =>
    have := hp [] r (a.get o) h G s (by rwa [List.append_nil])
    simp only [H.call, H.bind_def, H.bind, objAttr_eq hr hd, P.call]
    revert this
    rcases c r h s with ⟨x, h', s'⟩
    rcases p (a.get o) s with ⟨y, o', s''⟩
    rintro ⟨e1, e2, G', C, g⟩
    rw [List.append_nil] at C
    obtain ⟨F', A', g'⟩ := key h' _ G' g C
    rw [putAttr_append h1] at A'
    refine ⟨e1, e2, F', ?_, g'⟩
    rwa [h2]

/-- `self.f = T(); self.f.parse(inputStream)`. -/
theorem setCall {f : σ → τ → σ} {fresh : τ} {n : String} {ts : τ → List (String × Tree)} {p : P τ Unit}
    {new : H Ref} {c : Ref → H Unit} (hn : MakesNew new (.obj (ts fresh))) (hp : Refines ts p c)
    (h1 : ∀ o, (attrOf n (fs o)).isSome) (h2 : ∀ o v, fs (f o v) = putAttr n (.obj (ts v)) (fs o))
    (h3 : ∀ o v w, f (f o v) w = f o w) :
    Refines fs (P.set (fun o => f o fresh) >>= fun _ => P.call ⟨fun _ => fresh, f⟩ p)
      (fun self => H.setNew self n new >>= fun _ => H.call self n c) := by
  intro ex self o h F s A
  have hs := setNew (f := fun o => f o fresh) hn (fun o => (Option.some_get (h1 o)).symm) (fun o => h2 o fresh) ex self o h F s A
  change ((H.setNew self n new h s).1 = _ ∧ (H.setNew self n new h s).2.2 = _ ∧ ∃ F', Holds (H.setNew self n new h s).2.1 _ _ F' ∧
    Grows h F (H.setNew self n new h s).2.1 F') at hs
  simp only [P.bind_def, P.bind, P.set, H.bind_def, H.bind] at hs ⊢
  revert hs
  rcases H.setNew self n new h s with ⟨x, h', s'⟩
  rintro ⟨rfl, rfl, F', A', g'⟩
  obtain ⟨e1, e2, F2, A2, g2⟩ := callAt (a := ⟨fun _ => fresh, f⟩) hp s' A'
    (by rw [h2, attrOf_putAttr_self]) (fun v => by show fs (f (f o fresh) v) = _; rw [h3, h2, h2, putAttr_putAttr])
  exact ⟨e1, e2, F2, A2, g'.trans g2⟩

/-- A number of the object. -/
theorem intGet {n : String} {g : σ → Int} (h1 : ∀ o, attrOf n (fs o) = some (.sc (.int (g o)))) :
    Refines fs (P.get g) (fun self => H.intAttr self n) := by
  intro ex self o h F s A
  obtain ⟨d, w, G, hr, hd, B, _⟩ := A.focus (attrOf_append (h1 o))
  obtain rfl := B.sc_iff
  simp only [H.intAttr, H.bind_def, H.bind, H.attr, hr, hd]
  exact ⟨rfl, rfl, F, A, .refl h F⟩

/-- An object found in an attribute. -/
theorem _root_.Dis.Holds.objAttr {n : String} {us fs : List (String × Tree)} {h : Heap} {self : Ref} {F : List Ref}
    (s : InStream) (A : Holds h (.ref self) (.obj fs) F) (h1 : attrOf n fs = some (.obj us)) :
    ∃ r G, H.objAttr self n h s = (.ok r, h, s) ∧ Holds h (.ref r) (.obj us) G := by
  obtain ⟨d, w, G, hr, hd, B, _⟩ := A.focus h1
  cases w with
  | sc v => unfold Holds at B; cases B
  | ref r => exact ⟨r, G, objAttr_eq hr hd s, B⟩

theorem _root_.Dis.Holds.intAttr {n : String} {v : Int} {fs : List (String × Tree)} {h : Heap} {self : Ref}
    {F : List Ref} (s : InStream) (A : Holds h (.ref self) (.obj fs) F) (h1 : attrOf n fs = some (.sc (.int v))) :
    H.intAttr self n h s = (.ok v, h, s) := by
  obtain ⟨d, w, G, hr, hd, B, _⟩ := A.focus h1
  obtain rfl := B.sc_iff
  simp only [H.intAttr, H.bind_def, H.bind, H.attr, hr, hd]
  rfl

/-- A statement that always raises. -/
theorem raise {α β : Type} {e : PyErr} {k : α → P σ β} :
    Refines fs (P.read (R.throw e) >>= k) (fun _ => H.throw e) :=
  fun _ _ _ h F _ A => ⟨rfl, rfl, F, A, .refl h F⟩

end Refines

theorem MakesNew.listOrNew : MakesNew (H.listOrNew (.sc .none)) (.list []) := MakesNew.empty

/-- A method that computes a number from an object. -/
def Sizes {σ : Type} (fs : σ → List (String × Tree)) (g : σ → Int) (c : Ref → S Int) : Prop :=
  ∀ (ex : List (String × Tree)) (self : Ref) (o : σ) (h : Heap) (F : List Ref),
    Amounts h (.ref self) (.obj (fs o ++ ex)) F → c self h = pure (g o)

namespace Sizes

variable {σ τ υ : Type} {fs : σ → List (String × Tree)}

theorem objAdd {n : String} {ts : τ → List (String × Tree)} {k : τ → Int} {c : Ref → S Int} {g : σ → τ}
    (hw : Sizes ts k c) (h1 : ∀ o, attrOf n (fs o) = some (.obj (ts (g o)))) (x : Int) :
    Sizes fs (fun o => k (g o) + x) (fun self => S.obj self n >>= fun r => c r >>= fun y => pure (y + x)) := by
  intro ex self o h F A
  obtain ⟨v, G, e, B⟩ := S.attr_eq A (attrOf_append (h1 o)) nofun
  cases v with
  | sc x => exact B.not_sc.elim
  | ref r =>
    have e1 := hw [] r (g o) h G (by rwa [List.append_nil])
    have e2 : S.asObj (.ref r) h = Pure.pure r := rfl
    simp only [S.bind_def, S.bind, S.obj, e, e1, e2, W.pure_bind']
    rfl

theorem sum {h : Heap} {ts : τ → List (String × Tree)} {k : τ → Int} {c : Ref → S Int} (hc : Sizes ts k c) :
    ∀ {l : List τ} {us : List Val} {G : List Ref} (n : Int), AmountsAll h us (l.map fun v => .obj (ts v)) G →
      S.sizes n us c h = pure (n + (l.map k).sum)
  | [], _, _, n, A => by rw [A.nil]; simp [S.sizes]; rfl
  | x :: l, [], _, _, A => nomatch A.length
  | x :: l, u :: us, _, n, A => by
    obtain ⟨G, K, A, B⟩ := AmountsAll.uncons A
    cases u with
    | sc x => exact A.not_sc.elim
    | ref r =>
      have e := hc [] r x h G (by rwa [List.append_nil])
      have e' : S.asObj (.ref r) h = Pure.pure r := rfl
      simp only [S.sizes, S.bind_def, S.bind, e', e, W.pure_bind']
      rw [sum hc (n + k x) B, List.map_cons, List.sum_cons, Int.add_assoc]

theorem list_eq {n : String} {ts : τ → List (String × Tree)} {g : σ → List τ}
    (h1 : ∀ o, attrOf n (fs o) = some (.objs ts (g o))) {ex : List (String × Tree)} {self : Ref} {o : σ}
    {h : Heap} {F : List Ref} (A : Amounts h (.ref self) (.obj (fs o ++ ex)) F) :
    ∃ us G, S.list self n h = Pure.pure us ∧ AmountsAll h us ((g o).map fun v => .obj (ts v)) G :=
  Shows.list_eq h1 A

theorem twoLists {n n' : String} {ts : τ → List (String × Tree)} {ts' : υ → List (String × Tree)} {k : τ → Int}
    {k' : υ → Int} {c c' : Ref → S Int} {g : σ → List τ} {g' : σ → List υ} (hc : Sizes ts k c) (hc' : Sizes ts' k' c')
    (x : Int) (h1 : ∀ o, attrOf n (fs o) = some (.objs ts (g o)))
    (h2 : ∀ o, attrOf n' (fs o) = some (.objs ts' (g' o))) :
    Sizes fs (fun o => x + ((g o).map k).sum + ((g' o).map k').sum)
      (fun self => S.list self n >>= fun l => S.sizes x l c >>= fun y => S.list self n' >>= fun l => S.sizes y l c') := by
  intro ex self o h F A
  obtain ⟨us, G, e, B⟩ := list_eq h1 A
  obtain ⟨us', G', e', B'⟩ := list_eq h2 A
  simp only [S.bind_def, S.bind, e, e', W.pure_bind', sum hc x B, sum hc' _ B']

theorem bytes {n : String} {g : σ → Bytes} (h1 : ∀ o, attrOf n (fs o) = some (.sc (.bytes (g o)))) (x : Int) :
    Sizes fs (fun o => x + ((g o).length : Int))
      (fun self => S.bytes self n >>= fun b => pure (x + (b.length : Int))) := by
  intro ex self o h F A
  obtain ⟨v, G, e, B⟩ := S.attr_eq A (attrOf_append (h1 o)) nofun
  obtain rfl := B.bytes
  simp only [S.bind_def, S.bind, S.bytes, e, W.pure_bind']
  rfl

theorem bytes0 {n : String} {g : σ → Bytes} (h1 : ∀ o, attrOf n (fs o) = some (.sc (.bytes (g o)))) :
    Sizes fs (fun o => ((g o).length : Int)) (fun self => S.bytes self n >>= fun b => pure (b.length : Int)) := by
  intro ex self o h F A
  obtain ⟨v, G, e, B⟩ := S.attr_eq A (attrOf_append (h1 o)) nofun
  obtain rfl := B.bytes
  simp only [S.bind_def, S.bind, S.bytes, e, W.pure_bind']
  rfl

theorem noneOr {n : String} {ts : τ → List (String × Tree)} {k : τ → Int} {c : Ref → S Int} {g : σ → Option τ}
    {q : σ → Int} (hc : Sizes ts k c) (h1 : ∀ o, attrOf n (fs o) = some (.noneOr ts (g o)))
    (hq : ∀ o, q o = ((g o).map k).getD 0) : Sizes fs q (fun self => S.sizeOrZero self n c) := by
  intro ex self o h F A
  rw [hq]
  have h2 := attrOf_append (ex := ex) (h1 o)
  rcases e : g o with _ | v
  · rw [e] at h2
    obtain ⟨w, G, e', B⟩ := S.attr_eq A h2 nofun
    obtain rfl := B.none
    simp only [S.sizeOrZero, S.bind_def, S.bind, e', W.pure_bind']
    rfl
  · rw [e] at h2
    obtain ⟨w, G, e', B⟩ := S.attr_eq A h2 nofun
    cases w with
    | sc x => exact B.not_sc.elim
    | ref r =>
      obtain ⟨d, hr⟩ := B.isObj
      have e1 := hc [] r v h G (by rwa [List.append_nil])
      have e2 : S.asObj (.ref r) h = Pure.pure r := rfl
      have e3 : S.truth (.ref r) h = Pure.pure true := by simp only [S.truth, H.truth, hr]
      simp only [S.sizeOrZero, S.bind_def, S.bind, e', W.pure_bind', e1, e2, e3, if_true]
      rfl

end Sizes

/-- Attributes with numbers or truth values, by name. -/
def IntAttrs (fs : List (String × Tree)) : List String → List Int → Prop
  | [], [] => True
  | n :: ns, v :: vs => (attrOf n fs = some (.sc (.int v)) ∨ ∃ b : Bool, attrOf n fs = some (.sc (.bool b)) ∧ b.toInt = v) ∧
      IntAttrs fs ns vs
  | _, _ => False

namespace Shows

variable {σ τ : Type} {fs : σ → List (String × Tree)}

theorem size {k : Int → W Unit} {g : σ → Int} {c : Ref → S Int} (hc : Sizes fs g c) :
    Shows fs (fun o => k (g o)) (fun self => S.putSize self c k) := by
  intro ex self o h F A
  simp only [S.putSize, S.bind_def, S.bind, hc ex self o h F A, W.pure_bind']
  rfl

theorem putBytes {n : String} {k : Bytes → W Unit} {g : σ → Bytes}
    (h1 : ∀ o, attrOf n (fs o) = some (.sc (.bytes (g o)))) :
    Shows fs (fun o => k (g o)) (fun self => S.putBytes self n k) := by
  intro ex self o h F A
  obtain ⟨v, G, e, B⟩ := S.attr_eq A (attrOf_append (h1 o)) nofun
  obtain rfl := B.bytes
  simp only [S.putBytes, S.bind_def, S.bind, S.bytes, e, W.pure_bind']
  rfl

theorem optFloat {n : String} {k : F64 → W Unit} {g : σ → Option F64}
    (h1 : ∀ o, attrOf n (fs o) = some (.optFloat (g o))) :
    Shows fs (fun o => W.using (attr (g o)) k) (fun self => S.putFloat self n k) := by
  intro ex self o h F A
  have h2 := attrOf_append (ex := ex) (h1 o)
  rcases e : g o with _ | v
  · rw [e] at h2
    dsimp only
    rw [e]
    simp only [S.putFloat, S.float, S.bind_def, S.bind, S.attr_absent A h2]
    rfl
  · rw [e] at h2
    dsimp only
    rw [e]
    obtain ⟨w, G, e', B⟩ := S.attr_eq A h2 nofun
    simp only [S.putFloat, S.bind_def, S.bind, S.float, e', W.pure_bind', B.asFloat, S.write]
    rfl

theorem ints_eq {h : Heap} {self : Ref} {ts : List (String × Tree)} {F : List Ref} (A : Amounts h (.ref self) (.obj ts) F) :
    ∀ {ns : List String} {vs : List Int}, IntAttrs ts ns vs → S.ints self ns h = Pure.pure vs
  | [], [], _ => rfl
  | [], _ :: _, a => a.elim
  | _ :: _, [], a => a.elim
  | n :: ns, v :: vs, ⟨a, b⟩ => by
    have e : ∃ w, S.attr self n h = Pure.pure w ∧ S.asField w h = Pure.pure v := by
      rcases a with a | ⟨x, a, rfl⟩
      · obtain ⟨w, G, e, B⟩ := S.attr_eq A a nofun
        exact ⟨w, e, B.asField h⟩
      · obtain ⟨w, G, e, B⟩ := S.attr_eq A a nofun
        exact ⟨w, e, B.asField' h⟩
    obtain ⟨w, e1, e2⟩ := e
    simp only [S.ints, S.bind_def, S.bind, e1, e2, W.pure_bind', ints_eq A b]
    rfl

theorem _root_.Dis.IntAttrs.append {ts ex : List (String × Tree)} :
    ∀ {ns : List String} {vs : List Int}, IntAttrs ts ns vs → IntAttrs (ts ++ ex) ns vs
  | [], [], _ => trivial
  | [], _ :: _, a => a.elim
  | _ :: _, [], a => a.elim
  | _ :: _, _ :: _, ⟨a, b⟩ =>
    ⟨a.elim (fun a => .inl (attrOf_append a)) (fun ⟨x, a, e⟩ => .inr ⟨x, attrOf_append a, e⟩), IntAttrs.append b⟩

theorem putInts {ns : List String} {k : List Int → W Unit} {g : σ → List Int} (h1 : ∀ o, IntAttrs (fs o) ns (g o)) :
    Shows fs (fun o => k (g o)) (fun self => S.putInts self ns k) := by
  intro ex self o h F A
  simp only [S.putInts, S.bind_def, S.bind, ints_eq A (h1 o).append, W.pure_bind']
  rfl

theorem _root_.Dis.Sizes.dispatched {k : σ → Int} {m : Ref → S Int} (hm : Sizes fs k m) {c : String}
    {ex : List (String × Tree)} {self : Ref} {o : σ} {h : Heap} {F : List Ref}
    (A : Amounts h (.ref self) (.obj (fs o ++ ex)) F)
    (h1 : attrOf "__class__" (fs o) = some (.sc (.cls c))) {ms : List (String × S Int)}
    (h2 : attrOf c ms = some (m self)) :
    (S.attr self "__class__" >>= fun v => S.dispatch v ms) h = Pure.pure (k o) := by
  obtain ⟨v, G, e, B⟩ := S.attr_eq A (attrOf_append h1) nofun
  obtain rfl := B.cls
  simp only [S.bind_def, S.bind, e, W.pure_bind', S.dispatch, h2]
  exact hm ex self o h F A

theorem dispatched {w : σ → W Unit} {m : Ref → S Unit} (hm : Shows fs w m) {c : String} {ex : List (String × Tree)}
    {self : Ref} {o : σ} {h : Heap} {F : List Ref} (A : Amounts h (.ref self) (.obj (fs o ++ ex)) F)
    (h1 : attrOf "__class__" (fs o) = some (.sc (.cls c))) {ms : List (String × S Unit)}
    (h2 : attrOf c ms = some (m self)) :
    (S.attr self "__class__" >>= fun v => S.dispatch v ms) h = w o := by
  obtain ⟨v, G, e, B⟩ := S.attr_eq A (attrOf_append h1) nofun
  obtain rfl := B.cls
  simp only [S.bind_def, S.bind, e, W.pure_bind', S.dispatch, h2]
  exact hm ex self o h F A

theorem noneOr {n : String} {ts : τ → List (String × Tree)} {k : τ → W Unit} {c : Ref → S Unit} {g : σ → Option τ}
    (hc : Shows ts k c) (h1 : ∀ o, attrOf n (fs o) = some (.noneOr ts (g o))) :
    Shows fs (fun o => W.whenSome (g o) k) (fun self => S.whenTrue self n c) := by
  intro ex self o h F A
  have h2 := attrOf_append (ex := ex) (h1 o)
  rcases e : g o with _ | v
  · rw [e] at h2
    obtain ⟨w, G, e', B⟩ := S.attr_eq A h2 nofun
    obtain rfl := B.none
    simp only [S.whenTrue, S.bind_def, S.bind, e', W.pure_bind', e]
    rfl
  · rw [e] at h2
    obtain ⟨w, G, e', B⟩ := S.attr_eq A h2 nofun
    cases w with
    | sc x => exact B.not_sc.elim
    | ref r =>
      obtain ⟨d, hr⟩ := B.isObj
      have e1 := hc [] r v h G (by rwa [List.append_nil])
      have e2 : S.asObj (.ref r) h = Pure.pure r := rfl
      have e3 : S.truth (.ref r) h = Pure.pure true := by simp only [S.truth, H.truth, hr]
      simp only [S.whenTrue, S.bind_def, S.bind, e', W.pure_bind', e, e1, e2, e3, if_true]
      rfl

end Shows

end Dis
