import Verif.Proof.Source
import Verif.Py.InPlace

/-! # Reasoning about the syntax trees: parse -/

namespace Dis.Src

/-- The statements do to the object what `p` does, as long as the object satisfies `Q` beforehand; the object of the class
`k` has the attributes `gs x`. -/
def Par {σ : Type} (C : Call) (k : Ident) (gs : σ → List (Ident × Val)) (Q : σ → Prop) (bs : List (Ident × Val))
    (ss : List Stmt) (p : P σ Unit) : Prop :=
  ∀ x, Q x → ∀ st, Env ((I.self, .obj k (gs x)) :: bs) st → ∃ st',
    exs C ss st = ((p x st.io.inp).1.map fun _ => none, st') ∧
    look I.self st'.locals = some (.obj k (gs (p x st.io.inp).2.1)) ∧ st'.io = ⟨(p x st.io.inp).2.2, st.io.out⟩

/-- One statement does to the object what `p` does; afterwards the variables `vs a` are bound, and `Q'` holds. -/
def Par1 {σ α : Type} (C : Call) (k : Ident) (gs : σ → List (Ident × Val)) (Q : σ → Prop) (Q' : α → σ → Prop)
    (bs : List (Ident × Val)) (vs : α → List (Ident × Val)) (s : Stmt) (p : P σ α) : Prop :=
  ∀ x, Q x → ∀ st, Env ((I.self, .obj k (gs x)) :: bs) st → ∃ st',
    ex C s st = ((p x st.io.inp).1.map fun _ => none, st') ∧
    look I.self st'.locals = some (.obj k (gs (p x st.io.inp).2.1)) ∧
    st'.io = ⟨(p x st.io.inp).2.2, st.io.out⟩ ∧
    ∀ a, (p x st.io.inp).1 = .ok a → Env ((I.self, .obj k (gs (p x st.io.inp).2.1)) :: (vs a ++ bs)) st' ∧
      Q' a (p x st.io.inp).2.1

theorem par_nil {σ : Type} {C : Call} {k : Ident} {gs : σ → List (Ident × Val)} {Q : σ → Prop} {bs : List (Ident × Val)} :
    Par C k gs Q bs [] (pure ()) := fun _ _ st hst =>
  ⟨st, by unfold exs execs; rfl, hst.1 _ _ rfl, rfl⟩

theorem par_cons {σ α : Type} {C : Call} {k : Ident} {gs : σ → List (Ident × Val)} {Q : σ → Prop} {Q' : α → σ → Prop}
    {bs : List (Ident × Val)} {vs : α → List (Ident × Val)} {s : Stmt} {ss : List Stmt} {p : P σ α} {p' : α → P σ Unit}
    (h : Par1 C k gs Q Q' bs vs s p) (h' : ∀ a, Par C k gs (Q' a) (vs a ++ bs) ss (p' a)) :
    Par C k gs Q bs (s :: ss) (p >>= p') := fun x hx st hst => by
  obtain ⟨st1, e1, l1, io1, k1⟩ := h x hx st hst
  show ∃ st', exs C (s :: ss) st = ((P.bind p p' x st.io.inp).1.map fun _ => none, st') ∧
    look I.self st'.locals = some (.obj k (gs (P.bind p p' x st.io.inp).2.1)) ∧
    st'.io = ⟨(P.bind p p' x st.io.inp).2.2, st.io.out⟩
  unfold exs execs P.bind
  rcases hp : p x st.io.inp with ⟨r, x', s'⟩
  rw [hp] at e1 l1 io1 k1
  cases r with
  | error e => exact ⟨st1, M.bind_error e1, l1, io1⟩
  | ok a =>
    obtain ⟨hst1, hq⟩ := k1 a rfl
    obtain ⟨st2, e2, l2, io2⟩ := h' a x' hq st1 hst1
    have hin : st1.io.inp = s' := by rw [io1]
    rw [hin] at e2 l2 io2
    refine ⟨st2, (M.bind_ok e1).trans e2, l2, io2.trans ?_⟩
    rw [io1]

theorem par_last {σ : Type} {C : Call} {k : Ident} {gs : σ → List (Ident × Val)} {Q : σ → Prop} {Q' : Unit → σ → Prop}
    {bs : List (Ident × Val)} {vs : Unit → List (Ident × Val)} {s : Stmt} {p : P σ Unit}
    (h : Par1 C k gs Q Q' bs vs s p) : Par C k gs Q bs [s] p := fun x hx st hst => by
  obtain ⟨st1, e1, l1, io1, -⟩ := h x hx st hst
  refine ⟨st1, ?_, l1, io1⟩
  unfold exs execs
  cases hr : (p x st.io.inp).1 with
  | error e => rw [hr] at e1; exact M.bind_error e1
  | ok a => rw [hr] at e1; exact (M.bind_ok e1).trans (by unfold execs; rfl)

/-- A statement `pass`. -/
theorem par_pass {σ : Type} {C : Call} {k : Ident} {gs : σ → List (Ident × Val)} {Q : σ → Prop} {bs : List (Ident × Val)}
    {ss : List Stmt} {p : P σ Unit} (h : Par C k gs Q bs ss p) : Par C k gs Q bs (.pass :: ss) p := fun x hx st hst => by
  obtain ⟨st1, e1, l1⟩ := h x hx st hst
  refine ⟨st1, ?_, l1⟩
  unfold exs execs exec
  exact (M.bind_ok (M.pure_def _ _)).trans e1

theorem eval_read {α : Type} {C : Call} {bs : List (Ident × Val)} {m : Ident} {inj : α → Val} {r : R α} {st : St}
    (hm : look m streams.reads = some (reader inj r)) (hst : Env bs st) (hi : look I.inputStream bs = some .inp) :
    ev C (.method (.name I.inputStream) m [] []) st
      = ((r st.io.inp).1.map inj, ⟨st.locals, ⟨(r st.io.inp).2, st.io.out⟩⟩) := by
  unfold ev eval
  refine (M.bind_ok (gives_name hi st hst)).trans ((M.bind_ok args_nil).trans ?_)
  show (match look m streams.reads with
    | some r => M.reading (r [])
    | .none => M.throw unsupported : M Val) st = _
  rw [hm]
  show (match (reader inj r [] : R Val) st.io.inp with
    | (x, s) => ((x, { st with io := { st.io with inp := s } }) : Except PyErr Val × St)) = _
  show (match (R.bind r fun v => pure (inj v)) st.io.inp with
    | (x, s) => ((x, { st with io := { st.io with inp := s } }) : Except PyErr Val × St)) = _
  unfold R.bind
  rcases r st.io.inp with ⟨_ | a, s⟩ <;> rfl

theorem eval_method {C : Call} {e : Expr} {m : Ident} {es : List Expr} {kws : List Ident} {v : Val} {vs : List Val}
    {st st1 st2 : St} {res : Except PyErr Val × St} (he : ev C e st = (.ok v, st1))
    (hes : evalList program words streams C es st1 = (.ok vs, st2))
    (h : callMethod program words streams C e v m (byPosition vs kws) (byName vs kws) st2 = res) :
    ev C (.method e m es kws) st = res := by
  unfold ev eval
  exact (M.bind_ok he).trans ((M.bind_ok hes).trans h)

/-- `x.f = e`, for the value of `e`. -/
theorem exec_assign {C : Call} {x f k : Ident} {gs : List (Ident × Val)} {e : Expr} {v : Val} {st st' : St}
    (he : ev C e st = (.ok v, st')) (hx : look x st'.locals = some (.obj k gs)) (hp : isProperty program k f = false) :
    ex C (.assign (.attr (.name x) f) e) st = (.ok none, ⟨put x (.obj k (put f v gs)) st'.locals, st'.io⟩) := by
  unfold ex exec
  exact (M.bind_ok he).trans ((M.bind_ok (store_attr hx hp)).trans rfl)

theorem exec_assign_error {C : Call} {x f : Ident} {e : Expr} {err : PyErr} {st st' : St}
    (he : ev C e st = (.error err, st')) : ex C (.assign (.attr (.name x) f) e) st = (.error err, st') := by
  unfold ex exec
  exact M.bind_error he

theorem exec_var {C : Call} {x : Ident} {e : Expr} {v : Val} {st st' : St} (he : ev C e st = (.ok v, st')) :
    ex C (.assign (.name x) e) st = (.ok none, ⟨put x v st'.locals, st'.io⟩) := by
  unfold ex exec
  exact (M.bind_ok he).trans rfl

theorem exec_var_error {C : Call} {x : Ident} {e : Expr} {err : PyErr} {st st' : St} (he : ev C e st = (.error err, st')) :
    ex C (.assign (.name x) e) st = (.error err, st') := by
  unfold ex exec
  exact M.bind_error he

theorem read_set_eq {σ α : Type} (r : R α) (u : α → σ → σ) (p : α → P σ Unit) :
    (P.read r >>= fun v => P.set (u v) >>= fun _ => p v)
      = ((P.read r >>= fun v => P.set (u v) >>= fun _ => (pure v : P σ α)) >>= p) := by
  funext x s
  show (P.bind (P.read r) fun v => P.bind (P.set (u v)) fun _ => p v) x s
    = (P.bind (P.bind (P.read r) fun v => P.bind (P.set (u v)) fun _ => (pure v : P σ α)) p) x s
  unfold P.bind P.read
  rcases r s with ⟨_ | a, s'⟩ <;> rfl

theorem read_set_ok {σ α : Type} {r : R α} (u : α → σ → σ) {x : σ} {s s' : InStream} {v : α} (h : r s = (.ok v, s')) :
    (P.read r >>= fun v => P.set (u v) >>= fun _ => (pure v : P σ α)) x s = (.ok v, u v x, s') := by
  show (P.bind (P.read r) fun v => P.bind (P.set (u v)) fun _ => (pure v : P σ α)) x s = _
  unfold P.bind P.read
  rw [h]; rfl

theorem read_set_error {σ α : Type} {r : R α} (u : α → σ → σ) {x : σ} {s s' : InStream} {e : PyErr}
    (h : r s = (.error e, s')) :
    (P.read r >>= fun v => P.set (u v) >>= fun _ => (pure v : P σ α)) x s = (.error e, x, s') := by
  show (P.bind (P.read r) fun v => P.bind (P.set (u v)) fun _ => (pure v : P σ α)) x s = _
  unfold P.bind P.read
  rw [h]

theorem Env.skip {bs : List (Ident × Val)} {x : Ident} {u : Val} {y : Ident} {v w : Val} {st : St}
    (h : Env ((x, u) :: bs) st) (hy : isClass y = false) (hyx : Nat.beq y x = false) (io : Streams) (hw : w = v) :
    Env ((x, u) :: (y, w) :: bs) ⟨put y v st.locals, io⟩ := by
  subst hw
  refine (h.set y w hy io).mono fun z a hz => ?_
  have hxy : Nat.beq x y = false := by
    cases e : Nat.beq x y with
    | false => rfl
    | true => rw [Nat.eq_of_beq_eq_true e] at hyx; rw [Nat.beq_refl] at hyx; cases hyx
  unfold look at hz ⊢
  cases e : Nat.beq x z with
  | true =>
    rw [e] at hz
    have : x = z := Nat.eq_of_beq_eq_true e
    subst this
    rw [hyx]
    show look x ((x, u) :: bs) = _
    unfold look; rw [Nat.beq_refl]; exact hz
  | false =>
    rw [e] at hz
    unfold look at hz
    cases e2 : Nat.beq y z with
    | true => rw [e2] at hz; exact hz
    | false => rw [e2] at hz; show look z ((x, u) :: bs) = _; unfold look; rw [e]; exact hz

theorem self_plain : isClass I.self = false := by decide +kernel

/-- `self.f = inputStream.read_x()`. -/
theorem par_read {σ α : Type} {C : Call} {k : Ident} {gs : σ → List (Ident × Val)} {Q : σ → Prop} (Q' : α → σ → Prop)
    {bs : List (Ident × Val)} {m f : Ident} {ss : List Stmt} {inj : α → Val} {r : R α} {u : α → σ → σ} {p : α → P σ Unit}
    (hm : look m streams.reads = some (reader inj r)) (hi : look I.inputStream bs = some .inp)
    (hp : isProperty program k f = false) (hu : ∀ x v, put f (inj v) (gs x) = gs (u v x))
    (hq : ∀ x v, Q x → Q' v (u v x)) (h : ∀ v, Par C k gs (Q' v) bs ss (p v)) :
    Par C k gs Q bs (.assign (.attr (.name I.self) f) (.method (.name I.inputStream) m [] []) :: ss)
      (P.read r >>= fun v => P.set (u v) >>= fun _ => p v) := by
  rw [read_set_eq]
  refine par_cons (vs := fun _ => []) (Q' := Q') (fun x hx st hst => ?_) h
  have he := eval_read (C := C) hm hst (show look I.inputStream ((I.self, Val.obj k (gs x)) :: bs) = some .inp from hi)
  rcases hr : r st.io.inp with ⟨e | v, s'⟩
  · rw [hr] at he
    rw [read_set_error u hr]
    exact ⟨_, exec_assign_error he, hst.1 _ _ rfl, rfl, fun a ha => by cases ha⟩
  · rw [hr] at he
    rw [read_set_ok u hr]
    refine ⟨_, exec_assign he (hst.1 I.self _ rfl) hp, ?_, rfl, fun a ha => ?_⟩
    · rw [hu]; exact look_put_same _ _ _
    · cases ha
      rw [hu]
      exact ⟨hst.replace _ self_plain _, hq x _ hx⟩

/-- `v = inputStream.read_x()`. -/
theorem par_local {σ α : Type} {C : Call} {k : Ident} {gs : σ → List (Ident × Val)} {Q : σ → Prop}
    {bs : List (Ident × Val)} {m y : Ident} {ss : List Stmt} {inj : α → Val} {r : R α} {p : α → P σ Unit}
    (hm : look m streams.reads = some (reader inj r)) (hi : look I.inputStream bs = some .inp)
    (hy : isClass y = false) (hys : Nat.beq y I.self = false)
    (h : ∀ v, Par C k gs Q ((y, inj v) :: bs) ss (p v)) :
    Par C k gs Q bs (.assign (.name y) (.method (.name I.inputStream) m [] []) :: ss) (P.read r >>= p) := by
  refine par_cons (vs := fun v => [(y, inj v)]) (Q' := fun _ => Q) (fun x hx st hst => ?_) h
  have he := eval_read (C := C) hm hst (show look I.inputStream ((I.self, Val.obj k (gs x)) :: bs) = some .inp from hi)
  unfold P.read
  rcases hr : r st.io.inp with ⟨e | v, s'⟩
  · rw [hr] at he
    exact ⟨_, exec_var_error he, hst.1 _ _ rfl, rfl, fun a ha => by cases ha⟩
  · rw [hr] at he
    refine ⟨_, exec_var he, ?_, rfl, fun a ha => ?_⟩
    · rw [look_put_ne hys]; exact hst.1 _ _ rfl
    · cases ha
      exact ⟨hst.skip hy hys _ rfl, hx⟩

/-- `inputStream.read_x()`, and the value is dropped. -/
theorem par_drop {σ α : Type} {C : Call} {k : Ident} {gs : σ → List (Ident × Val)} {Q : σ → Prop}
    {bs : List (Ident × Val)} {m : Ident} {ss : List Stmt} {inj : α → Val} {r : R α} {p : P σ Unit}
    (hm : look m streams.reads = some (reader inj r)) (hi : look I.inputStream bs = some .inp)
    (h : Par C k gs Q bs ss p) :
    Par C k gs Q bs (.expr (.method (.name I.inputStream) m [] []) :: ss) (P.read r >>= fun _ => p) := by
  refine par_cons (vs := fun _ => []) (Q' := fun _ => Q) (fun x hx st hst => ?_) (fun _ => h)
  have he := eval_read (C := C) hm hst (show look I.inputStream ((I.self, Val.obj k (gs x)) :: bs) = some .inp from hi)
  unfold P.read
  rcases hr : r st.io.inp with ⟨e | v, s'⟩
  · rw [hr] at he
    refine ⟨⟨st.locals, ⟨s', st.io.out⟩⟩, ?_, hst.1 _ _ rfl, rfl, fun a ha => by cases ha⟩
    unfold ex exec
    exact M.bind_error he
  · rw [hr] at he
    refine ⟨⟨st.locals, ⟨s', st.io.out⟩⟩, ?_, hst.1 _ _ rfl, rfl, fun a ha => ?_⟩
    · unfold ex exec
      exact (M.bind_ok he).trans rfl
    · exact ⟨hst, hx⟩

/-- `parse` of the object, found from the class `c` on, does to the object what `p` does. -/
def Parses {σ : Type} (C : Call) (c k : Ident) (gs : σ → List (Ident × Val)) (p : P σ Unit) : Prop :=
  ∀ (x : σ) (io : Streams), C c I.parse (.obj k (gs x)) [.inp] [] io
    = ((p x io.inp).1.map fun _ => .none, .obj k (gs (p x io.inp).2.1), ⟨(p x io.inp).2.2, io.out⟩)

/-- `self.f.parse(inputStream)`. -/
theorem par_call {σ τ : Type} {C : Call} {k c f : Ident} {gs : σ → List (Ident × Val)} {Q Q' : σ → Prop}
    {bs : List (Ident × Val)} {ss : List Stmt} {hs : τ → List (Ident × Val)} {a : Attr σ τ} {q : P τ Unit} {p : P σ Unit}
    (hparse : Parses C c c hs q) (hi : look I.inputStream bs = some .inp)
    (hp : isProperty program k f = false) (hf : ∀ x, look f (gs x) = some (.obj c (hs (a.get x))))
    (hu : ∀ x t, put f (.obj c (hs t)) (gs x) = gs (a.put x t)) (hq : ∀ x t, Q x → Q' (a.put x t))
    (h : Par C k gs Q' bs ss p) :
    Par C k gs Q bs (.expr (.method (.attr (.name I.self) f) I.parse [.name I.inputStream] []) :: ss)
      (P.call a q >>= fun _ => p) := by
  refine par_cons (vs := fun _ => []) (Q' := fun _ => Q') (fun x hx st hst => ?_) (fun _ => h)
  have hself : Gives C ((I.self, .obj k (gs x)) :: bs) (.name I.self) (.obj k (gs x)) := gives_name rfl
  have hin : Gives C ((I.self, .obj k (gs x)) :: bs) (.name I.inputStream) .inp := gives_name hi
  have h0 := method_of_attr (x := I.self) (hparse (a.get x) st.io) (hst.1 _ _ rfl) hp
  have he := eval_method (kws := []) (gives_attr hself hp (hf x) st hst) (args_one hin hst) h0
  rw [hu] at he
  unfold P.call
  rcases hr : q (a.get x) st.io.inp with ⟨e | v, t, s'⟩
  · rw [hr] at he
    refine ⟨⟨put I.self (.obj k (gs (a.put x t))) st.locals, ⟨s', st.io.out⟩⟩, ?_, look_put_same _ _ _, rfl,
      fun a ha => by cases ha⟩
    unfold ex exec
    exact M.bind_error he
  · rw [hr] at he
    refine ⟨⟨put I.self (.obj k (gs (a.put x t))) st.locals, ⟨s', st.io.out⟩⟩, ?_, look_put_same _ _ _, rfl,
      fun a ha => ?_⟩
    · unfold ex exec
      exact (M.bind_ok he).trans rfl
    · exact ⟨hst.replace _ self_plain _, hq _ _ hx⟩

/-- `super(c, self).parse(inputStream)` and `super().parse(inputStream)`. -/
theorem par_super {σ τ : Type} {C : Call} {oc : Option Ident} {c b k : Ident} {K : Class} {gs : σ → List (Ident × Val)}
    {Q Q' : σ → Prop} {bs : List (Ident × Val)} {ss : List Stmt} {hs : σ → τ → List (Ident × Val)} {a : Attr σ τ}
    {q : P τ Unit} {p : P σ Unit}
    (hparse : ∀ x, Parses C b k (hs x) q) (hi : look I.inputStream bs = some .inp)
    (hoc : oc = some c ∨ oc = none ∧ look I.__class__ bs = some (.cls c))
    (hK : look c program = some K) (hb : K.base = some b)
    (hget : ∀ x, gs x = hs x (a.get x)) (hput : ∀ x t, hs x t = gs (a.put x t)) (hq : ∀ x t, Q x → Q' (a.put x t))
    (h : Par C k gs Q' bs ss p) :
    Par C k gs Q bs (.expr (.super oc I.parse [.name I.inputStream] []) :: ss) (P.call a q >>= fun _ => p) := by
  refine par_cons (vs := fun _ => []) (Q' := fun _ => Q') (fun x hx st hst => ?_) (fun _ => h)
  have hin : Gives C ((I.self, .obj k (gs x)) :: bs) (.name I.inputStream) .inp := gives_name hi
  have h0 := hparse x (a.get x) st.io
  rw [← hget, hput] at h0
  have he := super_of hst rfl (hoc.imp id fun h => ⟨h.1, h.2⟩) hK hb (args_one hin hst) h0
  unfold P.call
  rcases hr : q (a.get x) st.io.inp with ⟨e | v, t, s'⟩
  · rw [hr] at he
    refine ⟨⟨put I.self (.obj k (gs (a.put x t))) st.locals, ⟨s', st.io.out⟩⟩, ?_, look_put_same _ _ _, rfl,
      fun a ha => by cases ha⟩
    unfold ex exec
    exact M.bind_error he
  · rw [hr] at he
    refine ⟨⟨put I.self (.obj k (gs (a.put x t))) st.locals, ⟨s', st.io.out⟩⟩, ?_, look_put_same _ _ _, rfl,
      fun a ha => ?_⟩
    · unfold ex exec
      exact (M.bind_ok he).trans rfl
    · exact ⟨hst.replace _ self_plain _, hq _ _ hx⟩

/-- `for x in e: body`, where the value of `e` is as long as `n`, and the body does what `b i` does in turn. -/
theorem par_for_goes {σ : Type} {C : Call} {k : Ident} {gs : σ → List (Ident × Val)} {Q Q' : σ → Prop} {bs : List (Ident × Val)}
    {y : Ident} {e : Expr} {body ss : List Stmt} {l : List Val} {b : Nat → P σ Unit} {p : P σ Unit}
    (run : Nat → Nat → P σ Unit) (i n : Nat)
    (he : ∀ x, Q x → Goes C ((I.self, .obj k (gs x)) :: bs) e (.list l)) (hl : l.length = n)
    (hrun0 : ∀ i, run i 0 = pure ()) (hrun : ∀ i n, run i (n + 1) = (b i >>= fun _ => run (i + 1) n))
    (J : Nat → σ → Prop) (hJ : ∀ x, Q x → J i x) (hJ' : ∀ x, J (i + n) x → Q' x)
    (hbody : ∀ j, (hj : j < n) → ∀ x, J (i + j) x → ∀ st, Env ((I.self, .obj k (gs x)) :: bs) st → ∃ st',
      exs C body ⟨put y (l[j]'(by omega)) st.locals, st.io⟩ = ((b (i + j) x st.io.inp).1.map fun _ => none, st') ∧
      Env ((I.self, .obj k (gs (b (i + j) x st.io.inp).2.1)) :: bs) st' ∧
      st'.io = ⟨(b (i + j) x st.io.inp).2.2, st.io.out⟩ ∧
      ((b (i + j) x st.io.inp).1 = .ok () → J (i + j + 1) (b (i + j) x st.io.inp).2.1))
    (h : Par C k gs Q' bs ss p) :
    Par C k gs Q bs (.for y e body :: ss) (run i n >>= fun _ => p) := by
  have key : ∀ (m : Nat) (j : Nat) (hj : j + m = n) (x : σ), J (i + j) x → ∀ st,
      Env ((I.self, .obj k (gs x)) :: bs) st → ∃ st',
      loop y (exs C body) (l.drop j) st = ((run (i + j) m x st.io.inp).1.map fun _ => none, st') ∧
      Env ((I.self, .obj k (gs (run (i + j) m x st.io.inp).2.1)) :: bs) st' ∧
      st'.io = ⟨(run (i + j) m x st.io.inp).2.2, st.io.out⟩ ∧
      ((run (i + j) m x st.io.inp).1 = .ok () → J (i + n) (run (i + j) m x st.io.inp).2.1) := by
    intro m
    induction m with
    | zero =>
      intro j hj x hx st hst
      rw [List.drop_eq_nil_of_le (by omega), hrun0]
      have : j = n := by omega
      subst this
      exact ⟨st, rfl, hst, rfl, fun _ => hx⟩
    | succ m ih =>
      intro j hj x hx st hst
      rw [List.drop_eq_getElem_cons (show j < l.length by omega), hrun]
      obtain ⟨st1, e1, l1, io1, k1⟩ := hbody j (by omega) x hx st hst
      have h0 : M.setVar y (l[j]'(by omega)) st = (.ok (), ⟨put y (l[j]'(by omega)) st.locals, st.io⟩) := rfl
      show ∃ st', (M.setVar y (l[j]'(by omega)) >>= fun _ => exs C body >>= fun r => match r with
          | some r => pure (some r)
          | .none => loop y (exs C body) (l.drop (j + 1))) st
          = ((P.bind (b (i + j)) (fun _ => run (i + j + 1) m) x st.io.inp).1.map fun _ => none, st') ∧
        Env ((I.self, .obj k (gs (P.bind (b (i + j)) (fun _ => run (i + j + 1) m) x st.io.inp).2.1)) :: bs) st' ∧
        st'.io = ⟨(P.bind (b (i + j)) (fun _ => run (i + j + 1) m) x st.io.inp).2.2, st.io.out⟩ ∧
        ((P.bind (b (i + j)) (fun _ => run (i + j + 1) m) x st.io.inp).1 = .ok () →
          J (i + n) (P.bind (b (i + j)) (fun _ => run (i + j + 1) m) x st.io.inp).2.1)
      unfold P.bind
      rcases hp : b (i + j) x st.io.inp with ⟨r, x', s'⟩
      rw [hp] at e1 l1 io1 k1
      cases r with
      | error e => exact ⟨st1, (M.bind_ok h0).trans (M.bind_error e1), l1, io1, fun h => by cases h⟩
      | ok a =>
        obtain ⟨st2, e2, l2, io2, k2⟩ := ih (j + 1) (by omega) x' (k1 rfl) st1 l1
        have hin : st1.io.inp = s' := by rw [io1]
        rw [hin] at e2 l2 io2 k2
        refine ⟨st2, (M.bind_ok h0).trans ((M.bind_ok e1).trans e2), l2, io2.trans ?_, k2⟩
        rw [io1]; rfl
  refine par_cons (vs := fun _ => []) (Q' := fun _ => Q') (fun x hx st hst => ?_) (fun _ => h)
  obtain ⟨L, e0, hst0⟩ := he x hx st hst
  obtain ⟨st', e1, l1, io1, k1⟩ := key n 0 (by omega) x (hJ x hx) _ hst0
  refine ⟨st', ?_, l1.1 _ _ rfl, io1, fun a ha => ⟨l1, hJ' _ (k1 ha)⟩⟩
  unfold ex exec
  refine (M.bind_ok e0).trans ((M.bind_ok (p := elements (Val.list l)) (a := l) rfl).trans ?_)
  rw [List.drop_zero] at e1
  exact e1

theorem par_for {σ : Type} {C : Call} {k : Ident} {gs : σ → List (Ident × Val)} {Q Q' : σ → Prop} {bs : List (Ident × Val)}
    {y : Ident} {e : Expr} {body ss : List Stmt} {l : List Val} {b : Nat → P σ Unit} {p : P σ Unit}
    (run : Nat → Nat → P σ Unit) (i n : Nat)
    (he : ∀ x, Q x → Gives C ((I.self, .obj k (gs x)) :: bs) e (.list l)) (hl : l.length = n)
    (hrun0 : ∀ i, run i 0 = pure ()) (hrun : ∀ i n, run i (n + 1) = (b i >>= fun _ => run (i + 1) n))
    (J : Nat → σ → Prop) (hJ : ∀ x, Q x → J i x) (hJ' : ∀ x, J (i + n) x → Q' x)
    (hbody : ∀ j, (hj : j < n) → ∀ x, J (i + j) x → ∀ st, Env ((I.self, .obj k (gs x)) :: bs) st → ∃ st',
      exs C body ⟨put y (l[j]'(by omega)) st.locals, st.io⟩ = ((b (i + j) x st.io.inp).1.map fun _ => none, st') ∧
      Env ((I.self, .obj k (gs (b (i + j) x st.io.inp).2.1)) :: bs) st' ∧
      st'.io = ⟨(b (i + j) x st.io.inp).2.2, st.io.out⟩ ∧
      ((b (i + j) x st.io.inp).1 = .ok () → J (i + j + 1) (b (i + j) x st.io.inp).2.1))
    (h : Par C k gs Q' bs ss p) :
    Par C k gs Q bs (.for y e body :: ss) (run i n >>= fun _ => p) :=
  par_for_goes run i n (fun x hx => (he x hx).goes) hl hrun0 hrun J hJ hJ' hbody h

end Dis.Src
