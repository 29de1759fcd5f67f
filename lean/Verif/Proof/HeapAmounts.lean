import Verif.Spec.HeapNumbers
import Verif.Proof.Heap

/-! # Objects up to the types of numbers -/

namespace Dis

namespace Tree

theorem AsAll.cons {t u : Tree} {ts us : List Tree} (a : t.As u) (b : AsAll ts us) : AsAll (t :: ts) (u :: us) := by
  cases a with
  | sc c _ => exact .sc c b
  | obj e c _ => exact .obj e c b
  | list c _ => exact .list c b

theorem AsAll.uncons {t u : Tree} {ts us : List Tree} (a : AsAll (t :: ts) (u :: us)) : t.As u ∧ AsAll ts us := by
  cases a with
  | sc c b => exact ⟨.sc c .nil, b⟩
  | obj e c b => exact ⟨.obj e c .nil, b⟩
  | list c b => exact ⟨.list c .nil, b⟩

theorem AsAll.length {ts us : List Tree} (a : AsAll ts us) : ts.length = us.length := by
  induction a with
  | nil => rfl
  | sc _ _ ih | obj _ _ _ _ ih | list _ _ _ ih => simp [ih]

mutual

theorem as_refl : ∀ t : Tree, t.As t
  | .sc v => .sc (.refl v) .nil
  | .obj fs => .obj rfl (attrs_refl fs) .nil
  | .list es => .list (asAll_refl es) .nil

theorem asAll_refl : ∀ l : List Tree, AsAll l l
  | [] => .nil
  | t :: l => .cons (as_refl t) (asAll_refl l)

theorem attrs_refl : ∀ l : List (String × Tree), AsAll (l.map (·.2)) (l.map (·.2))
  | [] => .nil
  | (_, t) :: l => .cons (as_refl t) (attrs_refl l)

end

theorem AsAll.attr {n : String} {t : Tree} : ∀ {fs gs : List (String × Tree)}, fs.map (·.1) = gs.map (·.1) →
    AsAll (fs.map (·.2)) (gs.map (·.2)) → attrOf n gs = some t → ∃ u, attrOf n fs = some u ∧ u.As t
  | [], [], _, _, h => nomatch h
  | [], _ :: _, e, _, _ => nomatch e
  | _ :: _, [], e, _, _ => nomatch e
  | (m, u) :: fs, (m', v) :: gs, e, a, h => by
    simp only [List.map_cons, List.cons.injEq] at e
    obtain ⟨rfl, e⟩ := e
    obtain ⟨b, c⟩ := AsAll.uncons a
    by_cases q : m = n
    · simp only [attrOf, if_pos q, Option.some.injEq] at h ⊢
      subst h
      exact ⟨u, rfl, b⟩
    · simp only [attrOf, if_neg q] at h ⊢
      exact AsAll.attr e c h

end Tree

/-- The value amounts to a tree up to the types of numbers. -/
def Amounts (h : Heap) (v : Val) (t : Tree) (F : List Ref) : Prop := ∃ u : Tree, u.As t ∧ Holds h v u F

/-- The values, one by one, amount to trees up to the types of numbers. -/
def AmountsAll (h : Heap) (vs : List Val) (ts : List Tree) (F : List Ref) : Prop :=
  ∃ us, Tree.AsAll us ts ∧ HoldsAll h vs us F

theorem Holds.sc_iff {h : Heap} {v : Val} {x : Scalar} {G : List Ref} (A : Holds h v (.sc x) G) : v = .sc x := by
  unfold Holds at A
  cases A
  rfl

theorem Holds.amounts {h : Heap} {v : Val} {t : Tree} {F : List Ref} (A : Holds h v t F) : Amounts h v t F :=
  ⟨t, Tree.as_refl t, A⟩

theorem S.intAsFloat_eq {v : Int} {x : F64} (e : F64.ofInt v = some x) (h : Heap) : S.intAsFloat v h = Pure.pure x := by
  delta S.intAsFloat
  rw [e]
  rfl

theorem S.asFloat_int (v : Int) (h : Heap) : S.asFloat (.sc (.int v)) h = S.intAsFloat v h := by unfold S.asFloat; rfl

theorem S.asFloat_bool (b : Bool) (h : Heap) : S.asFloat (.sc (.bool b)) h = S.intAsFloat b.toInt h := by
  unfold S.asFloat; rfl

namespace Amounts

variable {h : Heap} {v : Val} {F : List Ref}

theorem scalar {x : Scalar} (A : Amounts h v (.sc x) F) : ∃ y, v = .sc y ∧ y.As x := by
  obtain ⟨u, a, B⟩ := A
  cases a with
  | sc c _ => exact ⟨_, B.sc_iff, c⟩

theorem none (A : Amounts h v (.sc .none) F) : v = .sc .none := by
  obtain ⟨y, rfl, a⟩ := A.scalar
  cases a; rfl

theorem absent (A : Amounts h v (.sc .absent) F) : v = .sc .absent := by
  obtain ⟨y, rfl, a⟩ := A.scalar
  cases a; rfl

theorem bytes {b : Bytes} (A : Amounts h v (.sc (.bytes b)) F) : v = .sc (.bytes b) := by
  obtain ⟨y, rfl, a⟩ := A.scalar
  cases a; rfl

theorem cls {c : String} (A : Amounts h v (.sc (.cls c)) F) : v = .sc (.cls c) := by
  obtain ⟨y, rfl, a⟩ := A.scalar
  cases a; rfl

theorem asField' {b : Bool} (A : Amounts h v (.sc (.bool b)) F) (h' : Heap) : S.asField v h' = Pure.pure b.toInt := by
  obtain ⟨y, rfl, a⟩ := A.scalar
  cases a <;> rfl

theorem asInt {x : Int} (A : Amounts h v (.sc (.int x)) F) (h' : Heap) : S.asInt v h' = Pure.pure x := by
  obtain ⟨y, rfl, a⟩ := A.scalar
  cases a <;> rfl

theorem asField {x : Int} (A : Amounts h v (.sc (.int x)) F) (h' : Heap) : S.asField v h' = Pure.pure x := by
  obtain ⟨y, rfl, a⟩ := A.scalar
  cases a <;> rfl

theorem asFloat {x : F64} (A : Amounts h v (.sc (.float x)) F) (h' : Heap) : S.asFloat v h' = Pure.pure x := by
  obtain ⟨y, rfl, a⟩ := A.scalar
  cases a with
  | refl => rfl
  | int e => exact (S.asFloat_int _ _).trans (S.intAsFloat_eq e h')
  | boolFloat e => exact (S.asFloat_bool _ _).trans (S.intAsFloat_eq e h')

theorem not_sc {x : Scalar} {ts : List (String × Tree)} (A : Amounts h (.sc x) (.obj ts) F) : False := by
  obtain ⟨u, a, B⟩ := A
  cases a
  unfold Holds at B
  cases B

theorem not_sc' {x : Scalar} {ts : List Tree} (A : Amounts h (.sc x) (.list ts) F) : False := by
  obtain ⟨u, a, B⟩ := A
  cases a
  unfold Holds at B
  cases B

theorem not_ref {r : Ref} {x : Scalar} (A : Amounts h (.ref r) (.sc x) F) : False := by
  obtain ⟨y, e, _⟩ := A.scalar
  cases e

theorem isObj {r : Ref} {ts : List (String × Tree)} (A : Amounts h (.ref r) (.obj ts) F) : ∃ d, h[r]? = some (.obj d) := by
  obtain ⟨u, a, B⟩ := A
  cases a
  obtain ⟨d, _, _, hr, _⟩ := Holds.obj_iff.mp B
  exact ⟨d, hr⟩

theorem list {r : Ref} {ts : List Tree} (A : Amounts h (.ref r) (.list ts) F) :
    ∃ us G, h[r]? = some (.list us) ∧ AmountsAll h us ts G := by
  obtain ⟨u, a, B⟩ := A
  cases a with
  | list c _ =>
    obtain ⟨us, G, rfl, hr, C, _⟩ := Holds.list_iff.mp B
    exact ⟨us, G, hr, _, c, C⟩

end Amounts

namespace AmountsAll

variable {h : Heap} {vs : List Val} {ts : List Tree} {F : List Ref}

theorem length (A : AmountsAll h vs ts F) : vs.length = ts.length := by
  obtain ⟨us, a, B⟩ := A
  rw [B.length, a.length]

theorem nil (A : AmountsAll h vs [] F) : vs = [] := List.length_eq_zero_iff.mp A.length

theorem uncons {v : Val} {t : Tree} (A : AmountsAll h (v :: vs) (t :: ts) F) :
    ∃ G K, Amounts h v t G ∧ AmountsAll h vs ts K := by
  obtain ⟨us, a, B⟩ := A
  cases us with
  | nil => cases a
  | cons u us =>
    obtain ⟨b, c⟩ := a.uncons
    obtain ⟨G, K, _, C, D, _⟩ := B.uncons
    exact ⟨G, K, ⟨u, b, C⟩, us, c, D⟩

theorem item : ∀ {vs : List Val} {ts : List Tree} {F : List Ref} {i : Nat} {t : Tree}, AmountsAll h vs ts F →
    ts[i]? = some t → ∃ v G, vs[i]? = some v ∧ Amounts h v t G
  | _, [], _, _, _, _, e => by simp at e
  | [], t :: ts, _, _, _, A, _ => nomatch A.length
  | v :: vs, t :: ts, _, 0, u, A, e => by
    obtain ⟨G, K, B, _⟩ := A.uncons
    simp only [List.getElem?_cons_zero, Option.some.injEq] at e ⊢
    exact ⟨v, G, rfl, e ▸ B⟩
  | v :: vs, t :: ts, _, i + 1, u, A, e => by
    obtain ⟨G, K, _, C⟩ := A.uncons
    simp only [List.getElem?_cons_succ] at e ⊢
    exact item C e

end AmountsAll

end Dis
