import Verif.Proof.SourceRadio
import Verif.Spec.SourceArgs

/-!
# Constructors with arguments, as syntax trees (C77)
-/

namespace Dis.Src

/-- `T(vs)` makes the object `v`. -/
structure MakesOf (C : Call) (T : Ident) (vs : List Val) (v : Val) : Prop where
  cls : (look T program).isSome = true
  len : Nat.beq T I.len = false
  range : Nat.beq T I.range = false
  list : Nat.beq T I.list = false
  made : ∀ st, construct program words C T vs [] st = (.ok v, st)

/-- The statements assign to attributes of `self`, an object of the class `c` with the attributes `fs`, which then has the
attributes `fs'`. -/
def Inits (C : Call) (bs : List (Ident × Val)) (c : Ident) (ss : List Stmt) (fs fs' : List (Ident × Val)) : Prop :=
  ∀ st, Env ((I.self, .obj c fs) :: bs) st →
    ∃ st', exs C ss st = (.ok none, st') ∧ st'.io = st.io ∧ look I.self st'.locals = some (.obj c fs')

theorem inits_nil {C : Call} {bs : List (Ident × Val)} {c : Ident} {fs fs' : List (Ident × Val)} (h : fs = fs') :
    Inits C bs c [] fs fs' := fun st hst => ⟨st, exs_nil, rfl, h ▸ hst.1 _ _ rfl⟩

theorem inits_set {C : Call} {bs : List (Ident × Val)} {c f : Ident} {e : Expr} {v : Val} {ss : List Stmt}
    {fs fs' : List (Ident × Val)} (he : ∀ fs, Gives C ((I.self, .obj c fs) :: bs) e v)
    (hp : isProperty program c f = false) (h : Inits C bs c ss (put f v fs) fs') :
    Inits C bs c (.assign (.attr (.name I.self) f) e :: ss) fs fs' := fun st hst => by
  have a := exec_assign (he fs st hst) (hst.1 I.self _ rfl) hp
  obtain ⟨st', e1, io1, l1⟩ := h _ (hst.replace _ self_plain _)
  exact ⟨st', exs_cons_ok a e1, io1, l1⟩

theorem inits_super {C : Call} {bs : List (Ident × Val)} {oc : Option Ident} {c k b : Ident} {K : Class} {ss : List Stmt}
    {fs fs1 fs' : List (Ident × Val)}
    (hoc : oc = some c ∨ oc = none ∧ look I.__class__ bs = some (.cls c))
    (hK : look c program = some K) (hb : K.base = some b)
    (hc : ∀ io, C b I.__init__ (.obj k fs) [] [] io = (.ok .none, .obj k fs1, io)) (h : Inits C bs k ss fs1 fs') :
    Inits C bs k (.expr (.super oc I.__init__ [] []) :: ss) fs fs' := fun st hst => by
  have he := super_of hst rfl (hoc.imp id fun h => ⟨h.1, h.2⟩) hK hb args_nil (hc st.io)
  have ha : ex C (.expr (.super oc I.__init__ [] [])) st = (.ok none, ⟨put I.self (.obj k fs1) st.locals, st.io⟩) := by
    unfold ex exec
    exact (M.bind_ok he).trans rfl
  obtain ⟨st', e1, io1, l1⟩ := h _ (hst.replace _ self_plain _)
  exact ⟨st', exs_cons_ok ha e1, io1, l1⟩

theorem gives_or {C : Call} {bs : List (Ident × Val)} {e e' : Expr} {u v : Val} (h : Gives C bs e u)
    (h' : truth u = false → Gives C bs e' v) (ht : truth u = true → u = v) : Gives C bs (.or e e') v := fun st hst => by
  unfold ev eval
  rw [M.bind_ok (h st hst)]
  cases hu : truth u with
  | true => rw [ht hu]; rfl
  | false => exact h' hu st hst

/-- `x or T()`. -/
theorem gives_or_new {α : Type} {C : Call} {bs : List (Ident × Val)} {x T : Ident} {enc : α → Val} {a : Option α} {d : α}
    (hx : look x bs = some (optArg enc a)) (hm : Makes C T (enc d)) (ht : ∀ a, truth (enc a) = true) :
    Gives C bs (.or (.name x) (.call T [] [])) (enc (a.getD d)) := by
  refine gives_or (gives_name hx) (fun h => ?_) (fun h => ?_)
  · cases a with
    | none => exact gives_new hm
    | some y => rw [optArg, ht] at h; cases h
  · cases a with
    | none => cases h
    | some y => rfl

/-- `x or T()` for a given `x`. -/
theorem gives_or_given {C : Call} {bs : List (Ident × Val)} {x : Ident} {e : Expr} {v : Val} (hx : look x bs = some v)
    (ht : truth v = true) : Gives C bs (.or (.name x) e) v :=
  gives_or (gives_name hx) (fun h => by rw [ht] at h; cases h) fun _ => rfl

theorem gives_nil {C : Call} {bs : List (Ident × Val)} : Gives C bs (.list []) (.list []) := fun st _ => by
  unfold ev eval evalList; rfl

/-- `x or []`. -/
theorem gives_or_nil {α : Type} {C : Call} {bs : List (Ident × Val)} {x : Ident} {enc : α → Val} {a : Option (List α)}
    (hx : look x bs = some (listArg enc a)) : Gives C bs (.or (.name x) (.list [])) (.list ((a.getD []).map enc)) := by
  refine gives_or (gives_name hx) (fun h => ?_) (fun h => ?_)
  · cases a with
    | none => exact gives_nil
    | some l =>
      cases l with
      | nil => exact gives_nil
      | cons a l => cases h
  · cases a with
    | none => cases h
    | some l => rfl

/-- `[0] * n`. -/
theorem gives_zeros {C : Call} {bs : List (Ident × Val)} {n : Int} :
    Gives C bs (.bin .mul (.list [.int 0]) (.int n)) (.list (List.replicate n.toNat [.int 0]).flatten) :=
  gives_bin (u := .list [.int 0]) (v := .int n) (fun st _ => by unfold ev eval evalList eval evalList; rfl) gives_int fun _ => rfl

/-- `x or [0] * n`. -/
theorem gives_or_zeros {C : Call} {bs : List (Ident × Val)} {x : Ident} {a : Option (List Int)} {n : Int}
    (hx : look x bs = some (listArg Val.int a)) :
    Gives C bs (.or (.name x) (.bin .mul (.list [.int 0]) (.int n)))
      (.list ((if (a.getD []).isEmpty then List.replicate n.toNat 0 else a.getD []).map Val.int)) := by
  refine gives_or (gives_name hx) (fun h => ?_) (fun h => ?_)
  · have hl : a.getD [] = [] := by
      cases a with
      | none => rfl
      | some l =>
        cases l with
        | nil => rfl
        | cons a l => cases h
    rw [hl]
    cases hl : ([] : List Int) with
    | nil =>
      have : (List.replicate n.toNat [Val.int 0]).flatten = (List.replicate n.toNat (0 : Int)).map Val.int := by
        generalize n.toNat = k
        induction k with
        | zero => rfl
        | succ k ih => rw [List.replicate_succ, List.replicate_succ, List.flatten_cons, List.map_cons, ih]; rfl
      rw [show ([] : List Int).isEmpty = true from rfl, if_pos rfl, ← this]
      exact gives_zeros
    | cons a l => cases hl
  · cases a with
    | none => cases h
    | some l =>
      cases l with
      | nil => cases h
      | cons a l => rfl

/-- `list(x) if x else []`. -/
theorem gives_list_copy {α : Type} {C : Call} {bs : List (Ident × Val)} {x : Ident} {enc : α → Val} {a : Option (List α)}
    (hx : look x bs = some (listArg enc a)) :
    Gives C bs (.ite (.name x) (.call I.list [.name x] []) (.list [])) (.list ((a.getD []).map enc)) := fun st hst => by
  have h := gives_name hx st hst (C := C)
  unfold ev eval
  rw [M.bind_ok h]
  cases a with
  | none => exact gives_nil st hst
  | some l =>
    cases l with
    | nil => exact gives_nil st hst
    | cons b l =>
      show ev C (.call I.list [.name x] []) st = _
      exact eval_call (args_one (gives_name hx) hst) rfl

/-- `T(e, e')`. -/
theorem gives_make {C : Call} {bs : List (Ident × Val)} {T : Ident} {es : List Expr} {vs : List Val} {v : Val}
    (h : MakesOf C T vs v) (hes : ∀ st, Env bs st → evalList program words streams C es st = (.ok vs, st))
    (hp : byPosition vs [] = vs) (hn : byName vs [] = []) :
    Gives C bs (.call T es []) v := fun st hst =>
  eval_call (hes st hst) ((callName_class h.cls h.len h.range h.list (hst.2 _ (isClass_of h.cls))).trans (by
    rw [hp, hn]; exact h.made st))

theorem env_of {env : List (Ident × Val)} {io : Streams} (h : env.all (fun p => !isClass p.1) = true) : Env env ⟨env, io⟩ := by
  refine ⟨fun _ _ h => h, fun x hx => ?_⟩
  show look x env = none
  induction env with
  | nil => rfl
  | cons p env ih =>
    rw [List.all_cons, Bool.and_eq_true] at h
    unfold look
    cases e : Nat.beq p.1 x with
    | true =>
      have : p.1 = x := Nat.eq_of_beq_eq_true e
      rw [this, hx] at h
      cases h.1
    | false => exact ih h.2

theorem made_with {n : Nat} {c d : Ident} {f : Method} {args : List Val} {env fs' : List (Ident × Val)}
    (h0 : (look c program).isSome = true) (h1 : Nat.beq c I.len = false) (h2 : Nat.beq c I.range = false)
    (h3 : Nat.beq c I.list = false) (hm : method program c I.__init__ = some (d, f))
    (hb : bindParams f.params args [] (put I.self (.obj c (classAttrs program 16 c)) (put I.__class__ (.cls d) [])) = some env)
    (he : env.all (fun p => !isClass p.1) = true) (hs : look I.self env = some (.obj c (classAttrs program 16 c)))
    (h : Inits (run n) env c f.body (classAttrs program 16 c) fs') : MakesOf (run (n + 1)) c args (.obj c fs') where
  cls := h0
  len := h1
  range := h2
  list := h3
  made st := by
    obtain ⟨st', e1, io1, l1⟩ := h ⟨env, st.io⟩ ((env_of he).mono fun x v hx => by
      unfold look at hx
      cases e : Nat.beq I.self x with
      | true =>
        have : I.self = x := Nat.eq_of_beq_eq_true e
        subst this
        rw [e] at hx
        rw [hs]; exact hx
      | false => rw [e] at hx; exact hx)
    have hr := run_method hm hb e1 l1
    unfold construct
    simp only [show words.init = I.__init__ from rfl, hm, hr, io1]
    rfl

/-- Named and default arguments are like positional ones. -/
theorem Supplied.bind {kws : List (Ident × Val)} : ∀ {ps : List (Ident × Option Expr)} {args vs : List Val},
    Supplied ps args kws vs → ∀ env, bindParams ps args kws env = bindParams ps vs [] env
  | [], args, vs, h, env => by
    unfold Supplied at h
    rw [h.1, h.2]
    rfl
  | _ :: ps, a :: args, v :: vs, h, env => by
    unfold Supplied at h
    unfold bindParams
    rw [h.1]
    exact h.2.bind _
  | (x, d) :: ps, [], v :: vs, h, env => by
    unfold Supplied at h
    unfold bindParams
    rcases h.1 with h1 | ⟨h1, e, h2, h3⟩
    · simp only [h1]
      exact h.2.bind _
    · subst h2
      simp only [h1, h3]
      exact h.2.bind _
  | _ :: _, [], [], h, _ => by unfold Supplied at h; exact h.elim
  | _ :: _, _ :: _, [], h, _ => by unfold Supplied at h; exact h.elim

theorem MakesOf.named {n : Nat} {c d : Ident} {f : Method} {args vs : List Val} {kws : List (Ident × Val)} {v : Val}
    (h : MakesOf (run (n + 1)) c vs v) (hm : method program c I.__init__ = some (d, f))
    (hs : Supplied f.params args kws vs) (st : St) :
    construct program words (run (n + 1)) c args kws st = (.ok v, st) := by
  have := h.made st
  unfold construct at this ⊢
  simp only [show words.init = I.__init__ from rfl, hm] at this ⊢
  unfold run methods at this ⊢
  simp only [hm, hs.bind] at this ⊢
  exact this

end Dis.Src
