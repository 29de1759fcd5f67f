import Verif.Proof.HeapSession
import Verif.Proof.Arith

/-! # Lemmas about numbers of other types -/

set_option exponentiation.threshold 4096

namespace Dis

open H (Step Place)

namespace Tree

theorem AsAll.putAttr {n : String} {a b : Tree} (h : a.As b) : ∀ {fs gs : List (String × Tree)},
    fs.map (·.1) = gs.map (·.1) → AsAll (fs.map (·.2)) (gs.map (·.2)) →
    (Dis.putAttr n a fs).map (·.1) = (Dis.putAttr n b gs).map (·.1) ∧
      AsAll ((Dis.putAttr n a fs).map (·.2)) ((Dis.putAttr n b gs).map (·.2))
  | [], [], _, _ => ⟨rfl, .cons h .nil⟩
  | [], _ :: _, e, _ => nomatch e
  | _ :: _, [], e, _ => nomatch e
  | (m, u) :: fs, (m', v) :: gs, e, c => by
    simp only [List.map_cons, List.cons.injEq] at e
    obtain ⟨rfl, e⟩ := e
    obtain ⟨c1, c2⟩ := AsAll.uncons c
    by_cases q : m = n
    · simp only [Dis.putAttr, if_pos q, List.map_cons, e, true_and]
      exact .cons h c2
    · obtain ⟨i1, i2⟩ := AsAll.putAttr (n := n) h e c2
      simp only [Dis.putAttr, if_neg q, List.map_cons, i1, true_and]
      exact .cons c1 i2

theorem AsAll.set {a b : Tree} (h : a.As b) : ∀ {l m : List Tree} (i : Nat), AsAll l m → AsAll (l.set i a) (m.set i b)
  | [], [], _, _ => .nil
  | [], _ :: _, _, c => nomatch c.length
  | _ :: _, [], _, c => nomatch c.length
  | _ :: _, _ :: _, 0, c => .cons h c.uncons.2
  | _ :: _, _ :: _, i + 1, c => .cons c.uncons.1 (AsAll.set h i c.uncons.2)

theorem AsAll.last {a b : Tree} (h : a.As b) : ∀ {l m : List Tree}, AsAll l m → AsAll (l ++ [a]) (m ++ [b])
  | [], [], _ => h
  | [], _ :: _, c => nomatch c.length
  | _ :: _, [], c => nomatch c.length
  | _ :: _, _ :: _, c => .cons c.uncons.1 (AsAll.last h c.uncons.2)

theorem AsAll.item : ∀ {l m : List Tree} {i : Nat} {u : Tree}, AsAll l m → l[i]? = some u →
    ∃ v, m[i]? = some v ∧ u.As v
  | [], _, _, _, _, e => by simp at e
  | _ :: _, [], _, _, c, _ => nomatch c.length
  | t :: l, v :: m, 0, u, c, e => by
    simp only [List.getElem?_cons_zero, Option.some.injEq] at e ⊢
    exact ⟨v, rfl, e ▸ c.uncons.1⟩
  | t :: l, v :: m, i + 1, u, c, e => by
    simp only [List.getElem?_cons_succ] at e ⊢
    exact AsAll.item c.uncons.2 e

theorem AsAll.attr' {n : String} {t : Tree} : ∀ {fs gs : List (String × Tree)}, fs.map (·.1) = gs.map (·.1) →
    AsAll (fs.map (·.2)) (gs.map (·.2)) → attrOf n fs = some t → ∃ u, attrOf n gs = some u ∧ t.As u
  | [], [], _, _, h => nomatch h
  | [], _ :: _, e, _, _ => nomatch e
  | _ :: _, [], e, _, _ => nomatch e
  | (m, u) :: fs, (m', v) :: gs, e, a, h => by
    simp only [List.map_cons, List.cons.injEq] at e
    obtain ⟨rfl, e⟩ := e
    obtain ⟨b, c⟩ := AsAll.uncons a
    by_cases q : m = n
    · simp only [attrOf, if_pos q, Option.some.injEq] at h ⊢
      subst h
      exact ⟨v, rfl, b⟩
    · simp only [attrOf, if_neg q] at h ⊢
      exact AsAll.attr' e c h

theorem As.put {t t' a b t1 : Tree} (ht : t.As t') (h : a.As b) {pl : Place} (e : t.put pl a = some t1) :
    ∃ t2, t'.put pl b = some t2 ∧ t1.As t2 := by
  cases ht with
  | sc c _ => simp [Tree.put] at e
  | @obj fs gs _ _ en c _ =>
    cases pl with
    | attr n =>
      simp only [Tree.put] at e ⊢
      split at e
      · rename_i q
        cases e
        obtain ⟨v, hv⟩ := Option.isSome_iff_exists.mp q
        obtain ⟨w, hw, _⟩ := c.attr' en hv
        rw [hw]
        obtain ⟨i1, i2⟩ := AsAll.putAttr (n := n) h en c
        exact ⟨_, rfl, .obj i1 i2 .nil⟩
      · cases e
    | item i => simp [Tree.put] at e
    | last => simp [Tree.put] at e
  | @list es ds _ _ c _ =>
    cases pl with
    | attr n => simp [Tree.put] at e
    | item i =>
      simp only [Tree.put] at e ⊢
      split at e
      · rename_i q
        cases e
        rw [← c.length, if_pos q]
        exact ⟨_, rfl, .list (.set h i c) .nil⟩
      · cases e
    | last =>
      simp only [Tree.put] at e ⊢
      cases e
      exact ⟨_, rfl, .list (.last h c) .nil⟩

theorem As.step {t t' u : Tree} (ht : t.As t') {p : Step} (e : t.step p = some u) :
    ∃ u', t'.step p = some u' ∧ u.As u' := by
  cases ht with
  | sc c _ => cases p <;> simp [Tree.step] at e
  | obj en c _ =>
    cases p with
    | attr n =>
      simp only [Tree.step] at e ⊢
      split at e
      · cases e
      · rename_i q
        obtain ⟨u', e', a⟩ := c.attr' en e
        rw [e']
        refine ⟨u', ?_, a⟩
        split
        · rename_i q'
          cases q'
          cases a with
          | sc b _ => cases b; exact absurd e q
        · rfl
    | item i => simp [Tree.step] at e
  | list c _ =>
    cases p with
    | attr n => simp [Tree.step] at e
    | item i => exact c.item e

theorem As.putAt {a b : Tree} (h : a.As b) {pl : Place} : ∀ (path : List Step) {t t' t1 : Tree}, t.As t' →
    t.putAt path pl a = some t1 → ∃ t2, t'.putAt path pl b = some t2 ∧ t1.As t2
  | [], _, _, _, ht, e => ht.put h e
  | .attr n :: ps, _, _, _, ht, e => by
    simp only [Tree.putAt, Option.bind_eq_some_iff] at e ⊢
    obtain ⟨c, e1, c', e2, e3⟩ := e
    obtain ⟨u, g1, hu⟩ := ht.step e1
    obtain ⟨u', g2, hu'⟩ := As.putAt h ps hu e2
    obtain ⟨t2, g3, ht2⟩ := ht.put hu' e3
    exact ⟨t2, ⟨u, g1, u', g2, g3⟩, ht2⟩
  | .item i :: ps, _, _, _, ht, e => by
    simp only [Tree.putAt, Option.bind_eq_some_iff] at e ⊢
    obtain ⟨c, e1, c', e2, e3⟩ := e
    obtain ⟨u, g1, hu⟩ := ht.step e1
    obtain ⟨u', g2, hu'⟩ := As.putAt h ps hu e2
    obtain ⟨t2, g3, ht2⟩ := ht.put hu' e3
    exact ⟨t2, ⟨u, g1, u', g2, g3⟩, ht2⟩

theorem put_some {t t1 a : Tree} {pl : Place} (b : Tree) (e : t.put pl a = some t1) : ∃ t2, t.put pl b = some t2 := by
  cases t with
  | sc v => simp [Tree.put] at e
  | obj fs =>
    cases pl with
    | attr n =>
      simp only [Tree.put] at e ⊢
      split at e
      · rename_i q; rw [if_pos q]; exact ⟨_, rfl⟩
      · cases e
    | item i => simp [Tree.put] at e
    | last => simp [Tree.put] at e
  | list ts =>
    cases pl with
    | attr n => simp [Tree.put] at e
    | item i =>
      simp only [Tree.put] at e ⊢
      split at e
      · rename_i q; rw [if_pos q]; exact ⟨_, rfl⟩
      · cases e
    | last => exact ⟨_, rfl⟩

theorem putAt_some {a : Tree} {pl : Place} (b : Tree) : ∀ (path : List Step) {t t1 : Tree},
    t.putAt path pl a = some t1 → ∃ t2, t.putAt path pl b = some t2
  | [], _, _, e => put_some b e
  | .attr n :: ps, _, _, e => by
    simp only [Tree.putAt, Option.bind_eq_some_iff] at e ⊢
    obtain ⟨c, e1, c', e2, e3⟩ := e
    obtain ⟨u, g2⟩ := putAt_some b ps e2
    obtain ⟨t2, g3⟩ := put_some u e3
    exact ⟨t2, c, e1, u, g2, g3⟩
  | .item i :: ps, _, _, e => by
    simp only [Tree.putAt, Option.bind_eq_some_iff] at e ⊢
    obtain ⟨c, e1, c', e2, e3⟩ := e
    obtain ⟨u, g2⟩ := putAt_some b ps e2
    obtain ⟨t2, g3⟩ := put_some u e3
    exact ⟨t2, c, e1, u, g2, g3⟩

end Tree

theorem roundMag_exact {a k : Nat} (ha : a ≤ 2 ^ 53) (hk : 1 ≤ k) : mag64 (F64.roundMag (a * 2 ^ k) 0) = a * 2 ^ k := by
  obtain ⟨v, -⟩ := roundMag_value (a * 2 ^ k) 0
  have key : ∃ q, a * 2 ^ k = q * 2 ^ max 0 ((a * 2 ^ k).log2 - 52) := by
    by_cases h : a = 0
    · exact ⟨0, by rw [h, Nat.zero_mul, Nat.zero_mul]⟩
    by_cases h2 : a = 2 ^ 53
    · refine ⟨2 ^ 52, ?_⟩
      rw [h2, ← Nat.pow_add, Nat.log2_two_pow, ← Nat.pow_add]
      congr 1
      omega
    · have hl : (a * 2 ^ k).log2 < 53 + k := by
        rw [Nat.log2_lt (Nat.mul_ne_zero h (Nat.ne_of_gt (Nat.pow_pos (by decide)))), Nat.pow_add]
        exact Nat.mul_lt_mul_of_pos_right (by omega) (Nat.pow_pos (by decide))
      refine ⟨a * 2 ^ (k - max 0 ((a * 2 ^ k).log2 - 52)), ?_⟩
      rw [Nat.mul_assoc, ← Nat.pow_add]
      congr 2
      omega
  obtain ⟨q, e⟩ := key
  generalize hs : max 0 ((a * 2 ^ k).log2 - 52) = s at *
  rw [Nat.pow_zero, Nat.mul_one] at v
  rw [v]
  have : rne (a * 2 ^ k) s = q := by rw [e]; exact rne_exact q s
  rw [this, ← e]

theorem S.attr_scalar {h : Heap} {self : Ref} {fs : List (String × Tree)} {F : List Ref} {n : String} {v : Scalar}
    (A : Holds h (.ref self) (.obj fs) F) (e : attrOf n fs = some (.sc v)) (hv : v ≠ .absent) :
    S.attr self n h = Pure.pure (.sc v) := by
  obtain ⟨d, w, G, hr, hd, B, _⟩ := A.focus e
  obtain rfl := B.sc_iff
  simp only [S.attr, hr, hd]
  cases v <;> first | rfl | exact absurd rfl hv

theorem S.putFloat_big {h : Heap} {self : Ref} {fs : List (String × Tree)} {F : List Ref} {n : String} {v : Int}
    {k : F64 → W Unit} (A : Holds h (.ref self) (.obj fs) F) (e : attrOf n fs = some (.sc (.int v)))
    (hv : F64.ofInt v = none) : S.putFloat self n k h = W.throw .structError := by
  have e1 : S.asFloat (.sc (.int v)) h = W.throw .structError := by
    rw [S.asFloat_int]
    delta S.intAsFloat
    rw [hv]
    rfl
  simp only [S.putFloat, S.float, S.bind_def, S.bind, S.attr_scalar A e nofun, W.pure_bind', e1]
  rfl

theorem S.putInt_float {h : Heap} {self : Ref} {fs : List (String × Tree)} {F : List Ref} {n : String} {v : F64}
    {k : Int → W Unit} (A : Holds h (.ref self) (.obj fs) F) (e : attrOf n fs = some (.sc (.float v))) :
    S.putInt self n k h = W.throw .structError := by
  simp only [S.putInt, S.int, S.bind_def, S.bind, S.attr_scalar A e nofun, W.pure_bind', S.asInt]
  rfl

namespace F64

theorem ofInt_none {n : Int} : ofInt n = none ↔ (2 ^ 54 - 1) * 2 ^ 970 ≤ n.natAbs := by
  unfold ofInt
  have := roundMag_overflow (n.natAbs * 2 ^ 1074) 0
  rw [Nat.add_zero, show 2044 = 970 + 1074 from rfl, Nat.pow_add, ← Nat.mul_assoc] at this
  have h2 : (2 ^ 54 - 1) * 2 ^ 970 * 2 ^ 1074 ≤ n.natAbs * 2 ^ 1074 ↔ (2 ^ 54 - 1) * 2 ^ 970 ≤ n.natAbs :=
    Nat.mul_le_mul_right_iff (Nat.pow_pos (by decide))
  rw [h2] at this
  rw [← this]
  dsimp only
  generalize roundMag (n.natAbs * 2 ^ 1074) 0 = m
  split
  · simp; omega
  · simp; omega

theorem ofInt_form {n : Int} {x : F64} (h : ofInt n = some x) : x.Finite ∧
    ∃ s : Nat, s < 2 ∧ x = ofMag s (roundMag (n * 2 ^ 1074).natAbs 0) ∧
      n * 2 ^ 1074 = if s = 1 then -((n * 2 ^ 1074).natAbs : Int) else (n * 2 ^ 1074).natAbs := by
  unfold ofInt at h
  have e : (n * 2 ^ 1074).natAbs = n.natAbs * 2 ^ 1074 := by
    rw [Int.natAbs_mul, Int.natAbs_pow]; rfl
  have hp : (0 : Int) < 2 ^ 1074 := Int.pow_pos (by decide)
  rw [e]
  dsimp only at h
  split at h
  · rename_i hm
    cases h
    refine ⟨ofMag_is_finite (by split <;> decide) hm, if n < 0 then 1 else 0, by split <;> decide, rfl, ?_⟩
    rw [← e]
    generalize (2 : Int) ^ 1074 = p at hp
    by_cases hn : n < 0
    · have : n * p < 0 := Int.mul_neg_of_neg_of_pos hn hp
      simp only [if_pos hn]
      rw [if_pos trivial]
      omega
    · have : 0 ≤ n * p := Int.mul_nonneg (by omega) (by omega)
      simp only [if_neg hn]
      rw [if_neg (by decide)]
      omega
  · cases h

theorem ofInt_exact {n : Int} (hn : n.natAbs ≤ 2 ^ 53) : ∃ x, ofInt n = some x ∧ x.units = n * 2 ^ 1074 := by
  rcases e : ofInt n with _ | x
  · have := ofInt_none.mp e
    have h1 : 2 ^ 53 < (2 ^ 54 - 1) * 2 ^ 970 := by decide
    omega
  · refine ⟨x, rfl, ?_⟩
    obtain ⟨hx, hf⟩ := ofInt_form e
    obtain ⟨s, -, -, -, -, hd⟩ := F64.rounded hx hf
    have e : (n * 2 ^ 1074).natAbs = n.natAbs * 2 ^ 1074 := by
      rw [Int.natAbs_mul, Int.natAbs_pow]; rfl
    rw [Int.pow_zero, Int.mul_one, e, roundMag_exact hn (by decide), Nat.pow_zero, Nat.mul_one, Int.sub_self] at hd
    have := Int.natAbs_eq_zero.mp hd
    omega

end F64

end Dis
