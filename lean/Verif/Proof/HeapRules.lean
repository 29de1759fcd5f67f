import Verif.Proof.HeapMake

/-! # Rules for the statements of the generated methods -/

namespace Dis

theorem W.using_ok {α} {x : α} {k : α → W Unit} : W.using (.ok x) k = k x := rfl

namespace Refines

variable {σ τ : Type} {fs : σ → List (String × Tree)}

theorem set' {f : σ → σ} {n : String} {v : Scalar} (h1 : ∀ o, (attrOf n (fs o)).isSome)
    (h2 : ∀ o, fs (f o) = putAttr n (.sc v) (fs o)) :
    Refines fs (P.set f) (fun self => H.setAttr self n (.sc v)) :=
  set (t := fun o => (attrOf n (fs o)).get (h1 o)) (fun _ => (Option.some_get _).symm) h2

theorem call' {a : Attr σ τ} {n : String} {ts : τ → List (String × Tree)} {p : P τ Unit} {c : Ref → H Unit}
    (hp : Refines ts p c) (h1 : ∀ o, attrOf n (fs o) = some (.obj (ts (a.get o))))
    (h2 : ∀ o v, fs (a.put o v) = putAttr n (.obj (ts v)) (fs o)) :
    Refines fs (P.call a p) (fun self => H.call self n c) := call hp h1 h2

theorem reads {r : R Int} {a : Attr σ (List Int)} {f : String} {n : Nat}
    (h1 : ∀ o, attrOf f (fs o) = some (.ints (a.get o)))
    (h2 : ∀ o l, fs (a.put o l) = putAttr f (.ints l) (fs o)) :
    Refines fs (P.appendReads n r a) (fun self => H.appendReads n r .int self f) := appendReads h1 h2 n

theorem objs {a : Attr σ (List τ)} {f : String} {ts : τ → List (String × Tree)} {fresh : τ}
    {p : P τ Unit} {new : H Ref} {c : Ref → H Unit} {n : Nat} (hn : MakesNew new (.obj (ts fresh)))
    (hp : Refines ts p c) (h1 : ∀ o, attrOf f (fs o) = some (.objs ts (a.get o)))
    (h2 : ∀ o l, fs (a.put o l) = putAttr f (.objs ts l) (fs o)) :
    Refines fs (P.appendObjs n fresh p a) (fun self => H.appendObjs n new c self f) := appendObjs hn hp h1 h2 n

/-- A loop that raises at once, whatever the list. -/
theorem raises {α : Type} {e : PyErr} {a : Attr σ (List α)} {f : String} {n : Nat} :
    Refines fs (P.appendReads n (R.throw e) a) (fun self => H.appendReads n (R.throw e : R Int) .int self f) := by
  intro ex self o h F s A
  cases n with
  | zero => exact ⟨rfl, rfl, F, A, .refl h F⟩
  | succ n => exact ⟨rfl, rfl, F, A, .refl h F⟩

theorem fill {a : Attr σ (List Int)} {f : String} {r : R Int} {n : Nat} (law : Attr.Lawful a)
    (h1 : ∀ o, attrOf f (fs o) = some (.ints (a.get o)))
    (h2 : ∀ o l, fs (a.put o l) = putAttr f (.ints l) (fs o)) :
    Refines fs (P.fillReads n r a) (fun self => H.fillReads n r self f) := fillReads law h1 h2

end Refines

namespace Inits

variable {fs fs' : List (String × Tree)}

theorem set' {n : String} {v : Scalar} (h1 : (attrOf n fs).isSome) :
    Inits (fun self => H.setAttr self n (.sc v)) fs (putAttr n (.sc v) fs) :=
  set (Option.some_get h1).symm

theorem setNew' {n : String} {m : H Ref} {u : Tree} (hm : MakesNew m u) (h1 : (attrOf n fs).isSome) :
    Inits (fun self => H.setNew self n m) fs (putAttr n u fs) := setNew hm (Option.some_get h1).symm

theorem setOr' {n : String} {m : H Ref} {u : Tree} (hm : MakesNew m u) (h1 : (attrOf n fs).isSome) :
    Inits (fun self => H.setOr self n (.sc .none) m) fs (putAttr n u fs) := setOr hm (Option.some_get h1).symm

/-- `hasattr`, for an attribute that has a value. -/
theorem hasAttr {n : String} {x : Int} {k : Bool → Ref → H Unit} (h1 : attrOf n fs = some (.sc (.int x)))
    (a : Inits (k true) fs fs') : Inits (fun self => H.hasAttr self n >>= fun b => k b self) fs fs' := by
  intro self h F s A
  obtain ⟨d, w, G, hr, hd, B, _⟩ := A.focus h1
  obtain rfl := B.sc_iff
  obtain ⟨h', F', e, A', g⟩ := a self h F s A
  refine ⟨h', F', ?_, A', g⟩
  simp only [H.bind_def, H.bind, H.hasAttr, hr, hd, e]

end Inits

theorem attrOf_putAttr_isSome {α} {n m : String} {v : α} : ∀ {l : List (String × α)},
    (attrOf n (putAttr m v l)).isSome = (decide (m = n) || (attrOf n l).isSome)
  | [] => by by_cases e : m = n <;> simp [attrOf, putAttr, e]
  | (k, w) :: l => by
    by_cases e : k = m
    · by_cases e' : k = n
      · subst e; subst e'; simp [attrOf, putAttr]
      · subst e; simp [attrOf, putAttr, e']
    · by_cases e' : k = n
      · subst e'; simp [attrOf, putAttr, e]
      · simp [attrOf, putAttr, e, e', attrOf_putAttr_isSome (l := l)]

namespace Shows

variable {σ τ : Type} {fs : σ → List (String × Tree)}

theorem putInt {n : String} {k : Int → W Unit} {g : σ → Int} (h1 : ∀ o, attrOf n (fs o) = some (.sc (.int (g o)))) :
    Shows fs (fun o => k (g o)) (fun self => S.putInt self n k) := int h1

theorem putFloat {n : String} {k : F64 → W Unit} {g : σ → F64}
    (h1 : ∀ o, attrOf n (fs o) = some (.sc (.float (g o)))) :
    Shows fs (fun o => k (g o)) (fun self => S.putFloat self n k) := float h1

theorem call {n : String} {ts : τ → List (String × Tree)} {w : τ → W Unit} {c : Ref → S Unit} {g : σ → τ}
    (hw : Shows ts w c) (h1 : ∀ o, attrOf n (fs o) = some (.obj (ts (g o)))) :
    Shows fs (fun o => w (g o)) (fun self => S.call self n c) := obj hw h1

theorem lenInts {n : String} {k : Int → W Unit} {g : σ → List Int} (h1 : ∀ o, attrOf n (fs o) = some (.ints (g o))) :
    Shows fs (fun o => k ((g o).length : Int)) (fun self => S.putLen self n k) := len h1

theorem lenObjs {n : String} {k : Int → W Unit} {ts : τ → List (String × Tree)} {g : σ → List τ}
    (h1 : ∀ o, attrOf n (fs o) = some (.objs ts (g o))) :
    Shows fs (fun o => k ((g o).length : Int)) (fun self => S.putLen self n k) := len h1

theorem eachObj {n : String} {ts : τ → List (String × Tree)} {w : τ → W Unit} {c : Ref → S Unit} {g : σ → List τ}
    (hw : Shows ts w c) (h1 : ∀ o, attrOf n (fs o) = some (.objs ts (g o))) :
    Shows fs (fun o => W.forEach (g o) w) (fun self => S.each self n c) := each hw h1

theorem eachInts {n : String} {k : Int → W Unit} {g : σ → List Int}
    (h1 : ∀ o, attrOf n (fs o) = some (.ints (g o))) :
    Shows fs (fun o => W.forEach (g o) k) (fun self => S.eachInt self n k) := eachInt h1

theorem eachRaises {n : String} {c : Ref → S Unit} {g : σ → List Int}
    (h1 : ∀ o, attrOf n (fs o) = some (.ints (g o))) :
    Shows fs (fun o => W.forEach (g o) fun _ => W.throw .attributeError) (fun self => S.each self n c) :=
  eachRaise h1

theorem items {n : String} {k : Int → W Unit} {g : σ → List Int} {m : Nat}
    (h1 : ∀ o, attrOf n (fs o) = some (.ints (g o))) :
    Shows fs (fun o => W.forRange 0 m fun i => W.using (index (g o) i) k)
      (fun self => S.forRange 0 m fun i => S.putItem self n i k) :=
  range (fun _ => item h1) m 0

theorem optAbsent {n : String} {k : Int → W Unit} {g : σ → Option Int}
    (h1 : ∀ o, attrOf n (fs o) = some (.optInt .absent (g o))) :
    Shows fs (fun o => W.using (attr (g o)) k) (fun self => S.putInt self n k) := by
  intro ex self o h F A
  have h2 := attrOf_append (ex := ex) (h1 o)
  rcases e : g o with _ | v
  · rw [e] at h2
    dsimp only
    rw [e]
    simp only [S.putInt, S.int, S.bind_def, S.bind, S.attr_absent A h2]
    rfl
  · rw [e] at h2
    dsimp only
    rw [e]
    obtain ⟨w, G, e', B⟩ := S.attr_eq A h2 nofun
    simp only [S.putInt, S.bind_def, S.bind, S.int, e', W.pure_bind', B.asInt, S.write]
    rfl

theorem optNone {n : String} {k : Int → W Unit} {g : σ → Option Int}
    (h1 : ∀ o, attrOf n (fs o) = some (.optInt .none (g o))) :
    Shows fs (fun o => W.using (needInt (g o)) k) (fun self => S.putInt self n k) := by
  intro ex self o h F A
  have h2 := attrOf_append (ex := ex) (h1 o)
  rcases e : g o with _ | v
  · rw [e] at h2
    dsimp only
    rw [e]
    obtain ⟨w, G, e', B⟩ := S.attr_eq A h2 nofun
    obtain rfl := B.none
    simp only [S.putInt, S.bind_def, S.bind, S.int, e', W.pure_bind', S.asInt]
    rfl
  · rw [e] at h2
    dsimp only
    rw [e]
    obtain ⟨w, G, e', B⟩ := S.attr_eq A h2 nofun
    simp only [S.putInt, S.bind_def, S.bind, S.int, e', W.pure_bind', B.asInt, S.write]
    rfl

theorem intOr {n : String} {k : Int → W Unit} {ts : τ → List (String × Tree)} {g : σ → IntOr τ}
    (h1 : ∀ o, attrOf n (fs o) = some (.intOr ts (g o))) :
    Shows fs (fun o => W.using (IntOr.asInt (g o)) k) (fun self => S.putInt self n k) := by
  intro ex self o h F A
  have h2 := attrOf_append (ex := ex) (h1 o)
  rcases e : g o with v | v
  · rw [e] at h2
    dsimp only
    rw [e]
    obtain ⟨w, G, e', B⟩ := S.attr_eq A h2 nofun
    simp only [S.putInt, S.bind_def, S.bind, S.int, e', W.pure_bind', B.asInt, S.write]
    rfl
  · rw [e] at h2
    dsimp only
    rw [e]
    obtain ⟨w, G, e', B⟩ := S.attr_eq A h2 nofun
    cases w with
    | sc x => exact B.not_sc.elim
    | ref r =>
      simp only [S.putInt, S.bind_def, S.bind, S.int, e', W.pure_bind', S.asInt]
      rfl

theorem optObj {n : String} {ts : τ → List (String × Tree)} {w : τ → W Unit} {c : Ref → S Unit} {g : σ → Option τ}
    (hw : Shows ts w c) (h1 : ∀ o, attrOf n (fs o) = some (.optObj ts (g o))) :
    Shows fs (fun o => W.using (attr (g o)) w) (fun self => S.call self n c) := by
  intro ex self o h F A
  have h2 := attrOf_append (ex := ex) (h1 o)
  rcases e : g o with _ | v
  · rw [e] at h2
    dsimp only
    rw [e]
    simp only [S.call, S.obj, S.bind_def, S.bind, S.attr_absent A h2]
    rfl
  · rw [e] at h2
    dsimp only
    rw [e]
    obtain ⟨x, G, e', B⟩ := S.attr_eq A h2 nofun
    cases x with
    | sc x => exact B.not_sc.elim
    | ref r =>
      have := hw [] r v h G (by rwa [List.append_nil])
      simp only [S.call, S.obj, S.bind_def, S.bind, e', W.pure_bind', S.asObj]
      exact this

/-- A number that decides how to go on. -/
theorem withInt {n : String} {g : σ → Int} {w : Int → σ → W Unit} {c : Int → Ref → S Unit}
    (h1 : ∀ o, attrOf n (fs o) = some (.sc (.int (g o)))) (hk : ∀ v, Shows fs (w v) (c v)) :
    Shows fs (fun o => w (g o) o) (fun self => S.int self n >>= fun v => c v self) := by
  intro ex self o h F A
  obtain ⟨v, G, e, B⟩ := S.attr_eq A (attrOf_append (h1 o)) nofun
  have : S.int self n h = Pure.pure (g o) := by
    simp only [S.int, S.bind_def, S.bind, e, W.pure_bind', B.asInt]
  simp only [S.bind_def, S.bind, this, W.pure_bind']
  exact hk _ ex self o h F A

end Shows


theorem H.orNew_none (c : Cell) (h : Heap) (s : InStream) :
    H.orNew (.sc .none) (H.alloc c) h s = (.ok (.ref h.length), h ++ [c], s) := rfl

theorem H.orNew_empty (c : Cell) (h : Heap) (a : Ref) (s : InStream) (e : h[a]? = some (.list [])) :
    H.orNew (.ref a) (H.alloc c) h s = (.ok (.ref h.length), h ++ [c], s) := by
  simp only [H.orNew, H.bind_def, H.bind, H.truth, e]
  rfl

/-- Two lists handed to a constructor that replaces empty lists by new ones. -/
theorem MakesNew.twoLists {n1 n2 : String} (hne : n1 ≠ n2) :
    MakesNew (H.orNew (.sc .none) (H.alloc (.list [])) >>= fun a => H.orNew (.sc .none) (H.alloc (.list [])) >>= fun b =>
      H.new [(n1, .absent), (n2, .absent)] fun self => do
        H.setOr self n1 a (H.alloc (.list []))
        H.setOr self n2 b (H.alloc (.list []))) (.obj [(n1, .list []), (n2, .list [])]) := by
  intro h s
  let h' : Heap := h ++ [.list [], .list [], .obj [(n1, .ref (h.length + 3)), (n2, .ref (h.length + 4))], .list [], .list []]
  refine ⟨h.length + 2, h', [h.length + 2, h.length + 3, h.length + 4], ?_, ?_, ?_⟩
  · have e' : ∀ (l : Heap) (i : Nat) (c : Cell), (h ++ l).set (h.length + i) c = h ++ l.set i c := fun l i c => by
      rw [List.set_append_right _ _ (by omega)]; congr 2; omega
    simp only [H.bind_def, H.bind, H.orNew_none, H.new, H.alloc, H.setOr, List.append_assoc, List.cons_append,
      List.nil_append]
    rw [H.orNew_empty _ _ _ _ (by simp)]
    simp [H.setAttr, e', putAttr]
    rw [H.orNew_empty _ _ _ _ (by simp)]
    simp [e', putAttr, hne, h']
    rfl
  · refine Holds.obj_iff.mpr ⟨[(n1, .ref (h.length + 3)), (n2, .ref (h.length + 4))], [h.length + 3, h.length + 4], rfl,
      ?_, rfl, ?_, by simp⟩
    · simp only [h']; rw [List.getElem?_append_right (by omega)]; simp
    · refine .list (us := []) (F := []) (G := [h.length + 4]) ?_ .nil (by simp)
        (.list (us := []) (F := []) (G := []) ?_ .nil (by simp) .nil (by simp)) (by simp)
      · simp only [h']; rw [List.getElem?_append_right (by omega)]; simp
      · simp only [h']; rw [List.getElem?_append_right (by omega)]; simp
  · refine ⟨by simp [h'], fun r hr => .inr ?_, fun r hr _ => ?_⟩
    · simp only [List.mem_cons, List.not_mem_nil, or_false] at hr
      rcases hr with hr | hr | hr <;> rw [hr] <;> exact Nat.le_add_right _ _
    · simp only [h']; rw [List.getElem?_append_left hr]

end Dis
