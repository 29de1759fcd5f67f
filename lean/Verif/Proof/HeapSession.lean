import Verif.Proof.HeapCtors
import Verif.Proof.HeapFactory
import Verif.Spec.HeapSession

/-! # Lemmas about programs that use the library -/

namespace Dis

open H (Step Place)

/-! ## Replacing something in an object or a list -/

theorem Holds.focusItem {h : Heap} {r : Ref} {es : List Tree} {F : List Ref} {i : Nat} {t : Tree}
    (A : Holds h (.ref r) (.list es) F) (e : es[i]? = some t) :
    ∃ us v G, h[r]? = some (.list us) ∧ us[i]? = some v ∧ us.length = es.length ∧ Holds h v t G ∧
      (∀ x ∈ G, x ∈ F ∧ x ≠ r) ∧ r ∈ F ∧
      ∀ h' v' t' G', Holds h' v' t' G' → (∀ x ∈ F, x ∉ G → x ≠ r → h'[x]? = h[x]?) →
        h'[r]? = some (.list (us.set i v')) → (∀ x ∈ G', x ∈ G ∨ x ∉ F) →
        ∃ F', Holds h' (.ref r) (.list (es.set i t')) F' ∧ ∀ x ∈ F', x ∈ F ∨ x ∈ G' := by
  obtain ⟨us, K, rfl, hr, B, hF⟩ := Holds.list_iff.mp A
  have hl := B.length
  obtain ⟨hi, rfl⟩ := List.getElem?_eq_some_iff.mp e
  have hi' : i < us.length := hl ▸ hi
  have split : ∀ {α : Type} (l : List α) (hi : i < l.length), l = l.take i ++ l[i] :: l.drop (i + 1) :=
    fun l hi => by simp
  have B' := B
  rw [split us hi', split es hi] at B'
  obtain ⟨G, C, hG, D⟩ := HoldsAll.slot (by simp [hl]) B'
  have hrG : r ∉ G := fun hx => hF (hG r hx)
  refine ⟨us, us[i], G, hr, by simp [hi'], hl, C, fun x hx => ⟨by simp [hG x hx], fun hh => hrG (hh ▸ hx)⟩,
    by simp, ?_⟩
  intro h' v' t' G' E fr hr' w
  obtain ⟨F', E', w'⟩ := D h' v' t' G' E (fun x hx hg => fr x (by simp [hx]) hg (by rintro rfl; exact hF hx))
    (fun x hx => (w x hx).imp id fun hk hm => hk (by simp [hm]))
  have join : ∀ {α : Type} (l : List α) (a : α) (hi : i < l.length), l.take i ++ a :: l.drop (i + 1) = l.set i a :=
    fun l a hi => by rw [List.set_eq_take_append_cons_drop, if_pos hi]
  rw [join us v' hi', join es t' hi] at E'
  refine ⟨r :: F', Holds.list_iff.mpr ⟨_, F', rfl, hr', E', ?_⟩, ?_⟩
  · intro hx
    rcases w' r hx with hx | hx
    · exact hF hx
    · rcases w r hx with hx | hx
      · exact hrG hx
      · exact hx (by simp)
  · intro x hx
    rcases List.mem_cons.mp hx with rfl | hx
    · exact .inl (by simp)
    · rcases w' x hx with hx | hx
      · exact .inl (by simp [hx])
      · exact .inr hx

theorem step_holds {h : Heap} {v : Val} {t u : Tree} {F : List Ref} {p : Step} (A : Holds h v t F)
    (e : t.step p = some u) : ∃ w G, (∀ s, H.step v p h s = (.ok w, h, s)) ∧ Holds h w u G ∧ ∀ x ∈ G, x ∈ F := by
  cases t with
  | sc x => cases p <;> cases e
  | obj fs =>
    cases p with
    | item i => cases e
    | attr n =>
      have e' : attrOf n fs = some u ∧ u ≠ .sc .absent := by
        simp only [Tree.step] at e
        split at e
        · cases e
        · rename_i hne
          exact ⟨e, fun hu => hne (hu ▸ e)⟩
      unfold Holds at A
      cases v with
      | sc x => cases A
      | ref r =>
        obtain ⟨d, v, G, hr, hd, _, B, hG, _, _⟩ := Holds.focusAttr A e'.1
        refine ⟨v, G, fun s => ?_, B, fun x hx => (hG x hx).1⟩
        simp only [H.step, H.attr, hr, hd]
        split
        · rename_i hv
          simp only [Prod.mk.injEq, Except.ok.injEq] at hv
          obtain ⟨rfl, _⟩ := hv
          unfold Holds at B
          cases B
          exact absurd rfl e'.2
        · rfl
  | list es =>
    cases p with
    | attr n => cases e
    | item i =>
      unfold Holds at A
      cases v with
      | sc x => cases A
      | ref r =>
        obtain ⟨us, v, G, hr, hi, _, B, hG, _, _⟩ := Holds.focusItem A e
        exact ⟨v, G, fun s => by simp only [H.step, hr, hi], B, fun x hx => (hG x hx).1⟩

theorem walk_holds : ∀ (path : List Step) {h : Heap} {v : Val} {t u : Tree} {F : List Ref} (s : InStream),
    Holds h v t F → t.get path = some u → ∃ w G, H.walk v path h s = (.ok w, h, s) ∧ Holds h w u G ∧ ∀ x ∈ G, x ∈ F
  | [], h, v, t, u, F, s, A, e => by
    simp only [Tree.get, Option.some.injEq] at e
    subst e
    exact ⟨v, F, rfl, A, fun _ h => h⟩
  | p :: ps, h, v, t, u, F, s, A, e => by
    simp only [Tree.get, Option.bind_eq_some_iff] at e
    obtain ⟨c, e1, e2⟩ := e
    obtain ⟨w, G, ew, B, hG⟩ := step_holds A e1
    obtain ⟨w', G', ew', B', hG'⟩ := walk_holds ps s B e2
    refine ⟨w', G', ?_, B', fun x hx => hG x (hG' x hx)⟩
    simp only [H.walk, H.bind_def, H.bind, ew, ew']

/-- Something is put in an object or a list. -/
theorem put_holds {h : Heap} {v w : Val} {t u t' : Tree} {F K : List Ref} {pl : Place} (s : InStream)
    (A : Holds h v t F) (B : Holds h w u K) (d : ∀ x ∈ K, x ∉ F) (e : t.put pl u = some t') :
    ∃ h' F', H.put v [] pl w h s = (.ok (), h', s) ∧ Holds h' v t' F' ∧ h'.length = h.length ∧
      (∀ x ∈ F', x ∈ F ∨ x ∈ K) ∧ ∀ x, x ∉ F → h'[x]? = h[x]? := by
  unfold Holds at A
  cases v with
  | sc x =>
    cases t with
    | sc y => cases e
    | obj fs => cases A
    | list es => cases A
  | ref r =>
    cases t with
    | sc y => cases e
    | obj fs =>
      cases pl with
      | item i => cases e
      | last => cases e
      | attr n =>
        simp only [Tree.put] at e
        split at e
        · rename_i hs
          obtain ⟨c, hc⟩ := Option.isSome_iff_exists.mp hs
          cases e
          obtain ⟨dd, v, G, hr, hd, _, C, hG, hrF, D⟩ := Holds.focusAttr A hc
          have hlt : r < h.length := (List.getElem?_eq_some_iff.mp hr).1
          obtain ⟨F', E, hF'⟩ := D (h.set r (.obj (putAttr n w dd))) w u K
            (HoldsAll.frame B fun x hx => List.getElem?_set_ne (by rintro rfl; exact d _ hx hrF))
            (fun x _ _ hx => List.getElem?_set_ne (fun hh => hx hh.symm)) (List.getElem?_set_self hlt)
            (fun x hx => .inr (d x hx))
          refine ⟨_, F', ?_, E, by simp, hF', fun x hx => List.getElem?_set_ne (by rintro rfl; exact hx hrF)⟩
          simp only [H.put, H.walk, H.bind_def, H.bind]
          show H.setAttr r n w h s = _
          simp only [H.setAttr, hr]
        · cases e
    | list es =>
      cases pl with
      | attr n => cases e
      | item i =>
        simp only [Tree.put] at e
        split at e
        · rename_i hi
          cases e
          obtain ⟨us, v, G, hr, hd, hl, C, hG, hrF, D⟩ := Holds.focusItem A (List.getElem?_eq_getElem hi)
          have hlt : r < h.length := (List.getElem?_eq_some_iff.mp hr).1
          obtain ⟨F', E, hF'⟩ := D (h.set r (.list (us.set i w))) w u K
            (HoldsAll.frame B fun x hx => List.getElem?_set_ne (by rintro rfl; exact d _ hx hrF))
            (fun x _ _ hx => List.getElem?_set_ne (fun hh => hx hh.symm)) (List.getElem?_set_self hlt)
            (fun x hx => .inr (d x hx))
          refine ⟨_, F', ?_, E, by simp, hF', fun x hx => List.getElem?_set_ne (by rintro rfl; exact hx hrF)⟩
          simp only [H.put, H.walk, H.bind_def, H.bind]
          show H.setItem r i w h s = _
          simp only [H.setItem, hr, hl, hi, if_true]
        · cases e
      | last =>
        cases e
        obtain ⟨us, G, rfl, hr, C, hG⟩ := Holds.list_iff.mp A
        have hlt : r < h.length := (List.getElem?_eq_some_iff.mp hr).1
        refine ⟨h.set r (.list (us ++ [w])), r :: (G ++ K), ?_, Holds.list_iff.mpr ⟨us ++ [w], G ++ K, rfl,
          List.getElem?_set_self hlt, .join (C.frame fun x hx => List.getElem?_set_ne (by rintro rfl; exact hG hx))
            (HoldsAll.frame B fun x hx => List.getElem?_set_ne (by rintro rfl; exact d _ hx (by simp)))
            (fun x hx hk => d x hk (by simp [hx])), ?_⟩, by simp, ?_,
          fun x hx => List.getElem?_set_ne (by rintro rfl; exact hx (by simp))⟩
        · simp only [H.put, H.walk, H.bind_def, H.bind]
          show H.append r w h s = _
          simp only [H.append, hr]
        · intro hm
          rcases List.mem_append.mp hm with hm | hm
          · exact hG hm
          · exact d _ hm (by simp)
        · intro x hx
          simp only [List.mem_cons, List.mem_append] at hx ⊢
          rcases hx with hx | hx | hx
          · exact .inl (.inl hx)
          · exact .inl (.inr hx)
          · exact .inr hx

/-- Something is put somewhere below an object or a list. -/
theorem putAt_holds : ∀ (path : List Step) {h : Heap} {v w : Val} {t u t' : Tree} {F K : List Ref} {pl : Place}
    (s : InStream), Holds h v t F → Holds h w u K → (∀ x ∈ K, x ∉ F) → t.putAt path pl u = some t' →
    ∃ h' F', H.put v path pl w h s = (.ok (), h', s) ∧ Holds h' v t' F' ∧ h'.length = h.length ∧
      (∀ x ∈ F', x ∈ F ∨ x ∈ K) ∧ ∀ x, x ∉ F → h'[x]? = h[x]?
  | [], _, _, _, _, _, _, _, _, _, s, A, B, d, e => put_holds s A B d e
  | .attr n :: ps, h, v, w, t, u, t', F, K, pl, s, A, B, d, e => by
    simp only [Tree.putAt, Option.bind_eq_some_iff] at e
    obtain ⟨c, e1, c', e2, e3⟩ := e
    cases t with
    | sc x => cases e1
    | list es => cases e1
    | obj fs =>
      obtain ⟨w1, _, ew, _, _⟩ := step_holds A e1
      have e1' : attrOf n fs = some c := by
        simp only [Tree.step] at e1
        split at e1
        · cases e1
        · exact e1
      cases v with
      | sc x => unfold Holds at A; cases A
      | ref r =>
        obtain ⟨dd, v, G, hr, hd, hp, C, hG, hrF, D⟩ := Holds.focusAttr A e1'
        obtain rfl : w1 = v := by
          have := ew s
          simp only [H.step, H.attr, hr, hd] at this
          split at this
          · cases this
          · simp only [Prod.mk.injEq, Except.ok.injEq] at this
            exact this.1.symm
        obtain ⟨h', G', ep, E, hl, hG', fr⟩ := putAt_holds ps s C B (fun x hx hg => d x hx (hG x hg).1) e2
        obtain ⟨F', E', hF'⟩ := D h' w1 c' G' E (fun x _ hx _ => fr x hx)
          (by rw [hp, fr r (fun hx => (hG r hx).2 rfl), hr])
          (fun x hx => (hG' x hx).imp id (d x))
        simp only [Tree.put, e1', Option.isSome_some, if_true, Option.some.injEq] at e3
        subst e3
        refine ⟨h', F', ?_, E', hl, ?_, fun x hx => fr x fun hg => hx (hG x hg).1⟩
        · rw [← ep]
          simp only [H.put, H.walk, H.bind_def, H.bind, ew]
        · intro x hx
          rcases hF' x hx with hx | hx
          · exact .inl hx
          · exact (hG' x hx).imp (fun hg => (hG x hg).1) id
  | .item i :: ps, h, v, w, t, u, t', F, K, pl, s, A, B, d, e => by
    simp only [Tree.putAt, Option.bind_eq_some_iff] at e
    obtain ⟨c, e1, c', e2, e3⟩ := e
    cases t with
    | sc x => cases e1
    | obj fs => cases e1
    | list es =>
      obtain ⟨w1, _, ew, _, _⟩ := step_holds A e1
      simp only [Tree.step] at e1
      cases v with
      | sc x => unfold Holds at A; cases A
      | ref r =>
        obtain ⟨us, v, G, hr, hd, hl', C, hG, hrF, D⟩ := Holds.focusItem A e1
        obtain rfl : w1 = v := by
          have := ew s
          simp only [H.step, hr, hd, Prod.mk.injEq, Except.ok.injEq] at this
          exact this.1.symm
        obtain ⟨h', G', ep, E, hl, hG', fr⟩ := putAt_holds ps s C B (fun x hx hg => d x hx (hG x hg).1) e2
        have hset : us.set i w1 = us := by
          obtain ⟨hi, rfl⟩ := List.getElem?_eq_some_iff.mp hd
          exact List.set_getElem_self hi
        obtain ⟨F', E', hF'⟩ := D h' w1 c' G' E (fun x _ hx _ => fr x hx)
          (by rw [hset, fr r (fun hx => (hG r hx).2 rfl), hr])
          (fun x hx => (hG' x hx).imp id (d x))
        have hi : i < es.length := (List.getElem?_eq_some_iff.mp e1).1
        simp only [Tree.put, hi, if_true, Option.some.injEq] at e3
        subst e3
        refine ⟨h', F', ?_, E', hl, ?_, fun x hx => fr x fun hg => hx (hG x hg).1⟩
        · rw [← ep]
          simp only [H.put, H.walk, H.bind_def, H.bind, ew]
        · intro x hx
          rcases hF' x hx with hx | hx
          · exact .inl hx
          · exact (hG' x hx).imp (fun hg => (hG x hg).1) id

/-! ## What can be reached -/

theorem HoldsAll.mem {h : Heap} {vs ts F} (A : HoldsAll h vs ts F) : ∀ r, .ref r ∈ vs → r ∈ F := by
  induction A with
  | nil => exact fun _ h => nomatch h
  | sc _ _ ih =>
    intro r hr
    rcases List.mem_cons.mp hr with e | hr
    · cases e
    · exact ih r hr
  | obj _ _ _ _ _ _ _ ih =>
    intro r hr
    rcases List.mem_cons.mp hr with e | hr
    · cases e; simp
    · simp [ih r hr]
  | list _ _ _ _ _ _ ih =>
    intro r hr
    rcases List.mem_cons.mp hr with e | hr
    · cases e; simp
    · simp [ih r hr]

theorem HoldsAll.closed {h : Heap} {vs ts F} (A : HoldsAll h vs ts F) : ∀ r ∈ F,
    (∀ d n q, h[r]? = some (.obj d) → (n, Val.ref q) ∈ d → q ∈ F) ∧
    ∀ us q, h[r]? = some (.list us) → Val.ref q ∈ us → q ∈ F := by
  induction A with
  | nil => exact fun _ h => nomatch h
  | sc _ _ ih => exact ih
  | @obj r d fs F vs ts G hr _ B _ C _ ih1 ih2 =>
    intro x hx
    simp only [List.cons_append, List.mem_cons, List.mem_append] at hx
    rcases hx with rfl | hx | hx
    · refine ⟨fun d' n q e hq => ?_, (fun us q e _ => by rw [hr] at e; cases e)⟩
      rw [hr] at e
      cases e
      have := B.mem q (List.mem_map.mpr ⟨_, hq, rfl⟩)
      simp [this]
    · refine ⟨fun d' n q e hq => ?_, fun us q e hq => ?_⟩
      · simp [(ih1 x hx).1 d' n q e hq]
      · simp [(ih1 x hx).2 us q e hq]
    · refine ⟨fun d' n q e hq => ?_, fun us q e hq => ?_⟩
      · simp [(ih2 x hx).1 d' n q e hq]
      · simp [(ih2 x hx).2 us q e hq]
  | @list r us es F vs ts G hr B _ C _ ih1 ih2 =>
    intro x hx
    simp only [List.cons_append, List.mem_cons, List.mem_append] at hx
    rcases hx with rfl | hx | hx
    · refine ⟨(fun _ _ _ e _ => by rw [hr] at e; cases e), fun us q e hq => ?_⟩
      rw [hr] at e
      cases e
      simp [B.mem q hq]
    · refine ⟨fun d' n q e hq => ?_, fun us q e hq => ?_⟩
      · simp [(ih1 x hx).1 d' n q e hq]
      · simp [(ih1 x hx).2 us q e hq]
    · refine ⟨fun d' n q e hq => ?_, fun us q e hq => ?_⟩
      · simp [(ih2 x hx).1 d' n q e hq]
      · simp [(ih2 x hx).2 us q e hq]

theorem Reach.inside {h : Heap} {vs ts F} (A : HoldsAll h vs ts F) {r x : Ref} (p : Reach h r x) :
    r ∈ F → x ∈ F := by
  induction p with
  | here r => exact id
  | attr e m _ ih => exact fun hr => ih ((A.closed _ hr).1 _ _ _ e m)
  | item e m _ ih => exact fun hr => ih ((A.closed _ hr).2 _ _ e m)

/-! ## Sessions -/

/-- The objects and lists of a program, each with its value, nothing shared. -/
def Apart (h : Heap) (l : List (Ref × Tree)) (F : List Ref) : Prop :=
  HoldsAll h (l.map fun x => .ref x.1) (l.map (·.2)) F

theorem Apart.perm {h : Heap} {l l' : List (Ref × Tree)} (p : l.Perm l') :
    ∀ {F}, Apart h l F → ∃ F', Apart h l' F' ∧ ∀ x, x ∈ F' ↔ x ∈ F := by
  induction p with
  | nil => exact fun A => ⟨_, A, fun _ => Iff.rfl⟩
  | cons x _ ih =>
    intro F A
    obtain ⟨G, K, rfl, B, C, d⟩ := HoldsAll.uncons A
    obtain ⟨K', C', hK⟩ := ih C
    exact ⟨G ++ K', .cons B C' fun x hx hk => d x hx ((hK x).mp hk), fun x => by simp [hK]⟩
  | swap x y l =>
    intro F A
    obtain ⟨G, K, rfl, B, C, d⟩ := HoldsAll.uncons A
    obtain ⟨L, M, rfl, C, D, d'⟩ := HoldsAll.uncons C
    refine ⟨L ++ (G ++ M), .cons C (.cons B D fun x hx hm => d x hx (by simp [hm])) ?_, fun x => by
      simp only [List.mem_append]; exact or_left_comm⟩
    intro x hx hm
    rcases List.mem_append.mp hm with hm | hm
    · exact d x hm (by simp [hx])
    · exact d' x hx hm
  | trans _ _ ih1 ih2 =>
    intro F A
    obtain ⟨F1, A1, h1⟩ := ih1 A
    obtain ⟨F2, A2, h2⟩ := ih2 A1
    exact ⟨F2, A2, fun x => (h2 x).trans (h1 x)⟩

theorem pick {α : Type} : ∀ (l : List α) (i j : Nat) (a b : α), i ≠ j → l[i]? = some a → l[j]? = some b →
    ∃ m, l.Perm (a :: b :: m)
  | [], _, _, _, _, _, h, _ => by simp at h
  | x :: l, 0, 0, _, _, h, _, _ => absurd rfl h
  | x :: l, 0, j + 1, a, b, _, hi, hj => by
    simp only [List.getElem?_cons_zero, Option.some.injEq, List.getElem?_cons_succ] at hi hj
    subst hi
    obtain ⟨l1, l2, rfl⟩ := List.append_of_mem (List.mem_of_getElem? hj)
    exact ⟨l1 ++ l2, .cons _ List.perm_middle⟩
  | x :: l, i + 1, 0, a, b, _, hi, hj => by
    simp only [List.getElem?_cons_zero, Option.some.injEq, List.getElem?_cons_succ] at hi hj
    subst hj
    obtain ⟨l1, l2, rfl⟩ := List.append_of_mem (List.mem_of_getElem? hi)
    exact ⟨l1 ++ l2, (List.Perm.cons _ List.perm_middle).trans (.swap _ _ _)⟩
  | x :: l, i + 1, j + 1, a, b, h, hi, hj => by
    simp only [List.getElem?_cons_succ] at hi hj
    obtain ⟨m, p⟩ := pick l i j a b (by omega) hi hj
    exact ⟨x :: m, (p.cons x).trans ((List.Perm.swap ..).trans (.cons _ (.swap ..)))⟩

theorem Gives.names {args given trees} (g : Gives args given trees) : args.map (·.1) = trees.map (·.1) := by
  induction g with
  | nil => rfl
  | sc _ _ _ ih => simp [ih]
  | ref _ _ _ _ ih => simp [ih]

theorem Gives.holds {args given trees} (g : Gives args given trees) {h : Heap} :
    ∀ {F}, Apart h given F → HoldsAll h (args.map (·.2)) (trees.map (·.2)) F := by
  induction g with
  | nil => exact fun A => A
  | sc _ v _ ih => exact fun A => .sc v (ih A)
  | ref _ y t _ ih =>
    intro F A
    obtain ⟨G, K, rfl, B, C, d⟩ := HoldsAll.uncons A
    exact .cons B (ih C) d

/-- What a call of a constructor does. -/
theorem Ctor.call_builds {c : Ctor} (hc : c ∈ heapCtors) {args given trees} (g : Gives args given trees)
    (ok : c.Takes trees) {h : Heap} {F : List Ref} (A : Apart h given F) (s : InStream) :
    ∃ r h' F', c.call args h s = (.ok r, h', s) ∧ Holds h' (.ref r) (c.built trees) F' ∧ Grows h F h' F' := by
  have e := g.names
  have l : (args.map (·.2)).length = (trees.map (·.2)).length := by simpa using congrArg List.length e
  obtain ⟨r, h', F', q, B, gr⟩ := heapCtors_lawful c hc args trees e ok h F s (by
    unfold HoldsEach
    rw [List.map_fst_zip (Nat.le_of_eq l), List.map_snd_zip (Nat.le_of_eq l.symm)]
    exact g.holds A)
  refine ⟨r, h', F', ?_, B, gr⟩
  unfold Ctor.call
  rw [if_pos, q]
  refine ⟨e ▸ ok.once, fun a ha => ?_⟩
  have : a.1 ∈ trees.map (·.1) := e ▸ List.mem_map_of_mem ha
  obtain ⟨b, hb, eb⟩ := List.mem_map.mp this
  exact eb ▸ ok.named b hb

theorem Session.apart {h : Heap} {l : List (Ref × Tree)} (S : Session h l) : ∃ F, Apart h l F := by
  induction S with
  | start h => exact ⟨[], .nil⟩
  | perm _ p ih =>
    obtain ⟨F, A⟩ := ih
    obtain ⟨F', A', _⟩ := A.perm p
    exact ⟨F', A'⟩
  | forget _ ih =>
    obtain ⟨F, A⟩ := ih
    obtain ⟨G, K, rfl, _, C, _⟩ := HoldsAll.uncons A
    exact ⟨K, C⟩
  | @new h l c s r h' s' _ hc e ih =>
    obtain ⟨F, A⟩ := ih
    obtain ⟨r', h'', G, e', B, g⟩ := (heapClasses_lawful c hc).makes h s
    rw [e] at e'
    simp only [Prod.mk.injEq, Except.ok.injEq] at e'
    obtain ⟨rfl, rfl, rfl⟩ := e'
    refine ⟨G ++ F, .cons B (HoldsAll.grow g A fun _ _ h => nomatch h) ?_⟩
    intro x hx hF
    rcases g.within x hx with hx | hx
    · cases hx
    · exact absurd (HoldsAll.lt A x hF) (Nat.not_lt.mpr hx)
  | @construct h l c args given trees s r h' s' hc gv ok _ e ih =>
    obtain ⟨F, A⟩ := ih
    unfold Apart at A
    rw [List.map_append, List.map_append] at A
    obtain ⟨G, K, rfl, B, C, d⟩ := HoldsAll.split (by simp) A
    obtain ⟨r', h'', G', e', D, g⟩ := Ctor.call_builds hc gv ok (h := h) B s
    rw [e] at e'
    simp only [Prod.mk.injEq, Except.ok.injEq] at e'
    obtain ⟨rfl, rfl, rfl⟩ := e'
    exact ⟨G' ++ K, .cons D (C.grow g fun x hx hg => d x hg hx) (g.aside d C.lt)⟩
  | @newList h l _ ih =>
    obtain ⟨F, A⟩ := ih
    refine ⟨[h.length] ++ F, .cons (Holds.list_iff.mpr ⟨[], [], rfl, by simp, .nil, fun h => nomatch h⟩)
      (A.frame fun r hr => List.getElem?_append_left (HoldsAll.lt A r hr)) ?_⟩
    intro x hx hF
    have := HoldsAll.lt A x hF
    rw [List.mem_singleton.mp hx] at this
    exact absurd this (Nat.lt_irrefl _)
  | @get h l p s r h' s' _ ep e ih =>
    obtain ⟨F, A⟩ := ih
    obtain ⟨h'', q⟩ := getPdu_loads h s
    revert q ep
    rcases getPdu s with ⟨_ | _ | p', s''⟩
    · exact fun ep => nomatch ep
    · exact fun ep => nomatch ep
    rintro ep ⟨r', G, e', B, g⟩
    simp only [Except.ok.injEq, Option.some.injEq] at ep
    subst ep
    rw [e] at e'
    simp only [Prod.mk.injEq, Except.ok.injEq, Option.some.injEq] at e'
    obtain ⟨rfl, rfl, rfl⟩ := e'
    refine ⟨G ++ F, .cons B (HoldsAll.grow g A fun _ _ h => nomatch h) ?_⟩
    intro x hx hF
    rcases g.within x hx with hx | hx
    · cases hx
    · exact absurd (HoldsAll.lt A x hF) (Nat.not_lt.mpr hx)
  | @getNone h l x h' s s' _ e ne ih =>
    obtain ⟨F, A⟩ := ih
    obtain ⟨h'', q⟩ := getPdu_loads h s
    revert q
    rcases getPdu s with ⟨_ | _ | p', s''⟩
    · rintro ⟨e', g⟩
      rw [e] at e'
      obtain rfl := (Prod.mk.inj (Prod.mk.inj e').2).1
      exact ⟨F, HoldsAll.grow g A fun _ _ h => nomatch h⟩
    · rintro ⟨e', g⟩
      rw [e] at e'
      obtain rfl := (Prod.mk.inj (Prod.mk.inj e').2).1
      exact ⟨F, HoldsAll.grow g A fun _ _ h => nomatch h⟩
    · rintro ⟨r', G, e', _⟩
      rw [e] at e'
      exact absurd (Prod.mk.inj e').1 (ne r')
  | @parse h l c r o s hc _ ih =>
    obtain ⟨F, A⟩ := ih
    obtain ⟨G, K, rfl, B, C, d⟩ := HoldsAll.uncons A
    obtain ⟨_, _, G', B', g⟩ := (heapClasses_lawful c hc).refines [] r o h G s (by rwa [List.append_nil])
    rw [List.append_nil] at B'
    refine ⟨G' ++ K, .cons B' (C.grow g fun x hx hg => d x hg hx) ?_⟩
    intro x hx hk
    rcases g.within x hx with hx | hx
    · exact d x hx hk
    · exact absurd (C.lt x hk) (Nat.not_lt.mpr hx)
  | @assign h l r t t' path pl v s _ e ih =>
    obtain ⟨F, A⟩ := ih
    obtain ⟨G, K, rfl, B, C, d⟩ := HoldsAll.uncons A
    obtain ⟨h', G', ep, B', hl, hG', fr⟩ := putAt_holds path s B (w := .sc v) (.sc v .nil)
      (fun _ h => nomatch h) e
    rw [ep]
    refine ⟨G' ++ K, .cons B' (C.frame fun x hx => fr x fun hg => d x hg hx) fun x hx hk => ?_⟩
    rcases hG' x hx with hx | hx
    · exact d x hx hk
    · cases hx
  | @give h l r t t' q u path pl s _ e ih =>
    obtain ⟨F, A⟩ := ih
    obtain ⟨G, K, rfl, B, C, d⟩ := HoldsAll.uncons A
    obtain ⟨L, M, rfl, C, D, d'⟩ := HoldsAll.uncons C
    obtain ⟨h', G', ep, B', hl, hG', fr⟩ := putAt_holds path s B C (fun x hx hg => d x hg (by simp [hx])) e
    rw [ep]
    refine ⟨G' ++ M, .cons B' (D.frame fun x hx => fr x fun hg => d x hg (by simp [hx])) fun x hx hm => ?_⟩
    rcases hG' x hx with hx | hx
    · exact d x hx (by simp [hm])
    · exact d' x hx hm

end Dis
