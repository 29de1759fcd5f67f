import Verif.Proof.Source2

/-! # Reasoning about the syntax trees: loops of parse methods -/

namespace Dis.Src

/-- `T()` makes the object `v`. -/
structure Makes (C : Call) (T : Ident) (v : Val) : Prop where
  cls : (look T program).isSome = true
  len : Nat.beq T I.len = false
  range : Nat.beq T I.range = false
  list : Nat.beq T I.list = false
  made : ∀ st, construct program words C T [] [] st = (.ok v, st)

/-- `parse` of the object `v` ends like `q` does, and if it ends well, with the object that `q` makes of `fresh`. -/
def Fills {τ : Type} (C : Call) (c : Ident) (v : Val) (hs : τ → List (Ident × Val)) (fresh : τ) (q : P τ Unit) : Prop :=
  ∀ io : Streams, ∃ v', C c I.parse v [.inp] [] io
      = ((q fresh io.inp).1.map fun _ => .none, v', ⟨(q fresh io.inp).2.2, io.out⟩) ∧
    (∀ u, (q fresh io.inp).1 = .ok u → v' = .obj c (hs (q fresh io.inp).2.1))

/-- `T()` and then `parse` of the new object end like `q` does, and if they end well, with the object that `q` makes of
`fresh`. -/
def Builds {τ : Type} (C : Call) (c : Ident) (hs : τ → List (Ident × Val)) (fresh : τ) (q : P τ Unit) : Prop :=
  ∃ v, Makes C c (.obj c v) ∧ Fills C c (.obj c v) hs fresh q

theorem builds_of {τ : Type} {C : Call} {c : Ident} {hs : τ → List (Ident × Val)} {fresh : τ} {q : P τ Unit}
    (hnew : Makes C c (.obj c (hs fresh))) (hparse : Parses C c c hs q) : Builds C c hs fresh q :=
  ⟨_, hnew, fun io => ⟨_, hparse fresh io, fun _ _ => rfl⟩⟩

theorem eval_call {C : Call} {f : Ident} {es : List Expr} {vs : List Val} {st st1 : St} {res : Except PyErr Val × St}
    (hes : evalList program words streams C es st = (.ok vs, st1))
    (h : callName program words C f (byPosition vs []) (byName vs []) st1 = res) : ev C (.call f es []) st = res := by
  unfold ev eval
  exact (M.bind_ok hes).trans h

theorem callName_class {C : Call} {T : Ident} {args : List Val} {kws : List (Ident × Val)} {st : St}
    (hc : (look T program).isSome = true) (h1 : Nat.beq T I.len = false) (h2 : Nat.beq T I.range = false) (h3 : Nat.beq T I.list = false)
    (hst : look T st.locals = none) :
    callName program words C T args kws st = construct program words C T args kws st := by
  unfold callName
  simp only [show words.len = I.len from rfl, show words.range = I.range from rfl, show words.list = I.list from rfl,
    h1, h2, h3]
  have : global program T st = (.ok (.cls T), st) := by
    unfold global
    have hv : M.var? T st = (.ok none, st) := by unfold M.var?; rw [hst]
    refine (M.bind_ok hv).trans ?_
    show (match look T program with
      | some _ => pure (.cls T)
      | .none => M.throw .nameError : M Val) st = _
    cases hl : look T program with
    | none => rw [hl] at hc; cases hc
    | some K => rfl
  exact (M.bind_ok this).trans rfl

theorem eval_new {C : Call} {T : Ident} {v : Val} {bs : List (Ident × Val)} {st : St} (h : Makes C T v) (hst : Env bs st) :
    ev C (.call T [] []) st = (.ok v, st) :=
  eval_call args_nil ((callName_class h.cls h.len h.range h.list (hst.2 _ (isClass_of h.cls))).trans (h.made st))

/-- A name that is neither a variable nor a class. -/
theorem eval_unknown {C : Call} {T : Ident} {st : St} (hc : look T program = none) (h1 : Nat.beq T I.len = false)
    (h2 : Nat.beq T I.range = false) (h3 : Nat.beq T I.list = false) (hst : look T st.locals = none) :
    ev C (.call T [] []) st = (.error .nameError, st) := by
  refine eval_call args_nil ?_
  unfold callName
  simp only [show words.len = I.len from rfl, show words.range = I.range from rfl, show words.list = I.list from rfl,
    h1, h2, h3]
  refine M.bind_error ?_
  unfold global
  have hv : M.var? T st = (.ok none, st) := by unfold M.var?; rw [hst]
  refine (M.bind_ok hv).trans ?_
  show (match look T program with
    | some _ => pure (.cls T)
    | .none => M.throw .nameError : M Val) st = _
  rw [hc]; rfl

/-- `self.l.append(e)`, for the value of `e`. -/
theorem exec_append {C : Call} {bs : List (Ident × Val)} {k f : Ident} {gs : List (Ident × Val)} {e : Expr} {l : List Val}
    {v : Val} {st st1 : St} (hst : Env ((I.self, .obj k gs) :: bs) st) (hp : isProperty program k f = false)
    (hf : look f gs = some (.list l)) (he : ev C e st = (.ok v, st1))
    (hst1 : look I.self st1.locals = some (.obj k gs)) :
    ex C (.expr (.method (.attr (.name I.self) f) I.append [e] [])) st
      = (.ok none, ⟨put I.self (.obj k (put f (.list (l ++ [v])) gs)) st1.locals, st1.io⟩) := by
  have hself : Gives C ((I.self, .obj k gs) :: bs) (.name I.self) (.obj k gs) := gives_name rfl
  have hes : evalList program words streams C [e] st = (.ok [v], st1) := by
    unfold evalList
    exact (M.bind_ok he).trans ((M.bind_ok args_nil).trans rfl)
  have h0 : callMethod program words streams C (.attr (.name I.self) f) (.list l) I.append (byPosition [v] [])
      (byName [v] []) st1 = (.ok .none, ⟨put I.self (.obj k (put f (.list (l ++ [v])) gs)) st1.locals, st1.io⟩) := by
    show ((putBack program (.attr (.name I.self) f) (.list (l ++ [v])) >>= fun _ => pure Val.none) : M Val) st1 = _
    exact (M.bind_ok (store_attr hst1 hp)).trans rfl
  have := eval_method (kws := []) (gives_attr hself hp hf st hst) hes h0
  unfold ex exec
  exact (M.bind_ok this).trans rfl

theorem exs_cons_ok {C : Call} {s : Stmt} {ss : List Stmt} {st st1 : St} {res : Except PyErr (Option Val) × St}
    (h : ex C s st = (.ok none, st1)) (h' : exs C ss st1 = res) : exs C (s :: ss) st = res := by
  unfold exs execs
  exact (M.bind_ok h).trans h'

theorem exs_cons_error {C : Call} {s : Stmt} {ss : List Stmt} {st st1 : St} {e : PyErr}
    (h : ex C s st = (.error e, st1)) : exs C (s :: ss) st = (.error e, st1) := by
  unfold exs execs
  exact M.bind_error h

theorem exs_nil {C : Call} {st : St} : exs C [] st = (.ok none, st) := by unfold exs execs; rfl

/-- The reading loops, one step at a time. -/
def objStep {σ τ : Type} (fresh : τ) (q : P τ Unit) (a : Attr σ (List τ)) : P σ Unit := do
  let t ← P.element fresh q
  P.set fun o => a.put o (a.get o ++ [t])

theorem appendObjs_succ {σ τ : Type} (n : Nat) (fresh : τ) (q : P τ Unit) (a : Attr σ (List τ)) :
    P.appendObjs (n + 1) fresh q a = (objStep fresh q a >>= fun _ => P.appendObjs n fresh q a) := by
  funext x s
  show (P.bind (P.element fresh q) fun t => P.bind (P.set fun o => a.put o (a.get o ++ [t])) fun _ =>
      P.appendObjs n fresh q a) x s
    = P.bind (P.bind (P.element fresh q) fun t => P.set fun o => a.put o (a.get o ++ [t])) (fun _ =>
      P.appendObjs n fresh q a) x s
  unfold P.bind P.element
  rcases q fresh s with ⟨_ | _, t, s'⟩ <;> rfl

theorem objStep_ok {σ τ : Type} {fresh t : τ} {q : P τ Unit} (a : Attr σ (List τ)) {x : σ} {s s' : InStream} {u : Unit}
    (h : q fresh s = (.ok u, t, s')) : objStep fresh q a x s = (.ok (), a.put x (a.get x ++ [t]), s') := by
  show P.bind (P.element fresh q) (fun t => P.set fun o => a.put o (a.get o ++ [t])) x s = _
  unfold P.bind P.element
  rw [h]; rfl

theorem objStep_error {σ τ : Type} {fresh t : τ} {q : P τ Unit} (a : Attr σ (List τ)) {x : σ} {s s' : InStream} {e : PyErr}
    (h : q fresh s = (.error e, t, s')) : objStep fresh q a x s = (.error e, x, s') := by
  show P.bind (P.element fresh q) (fun t => P.set fun o => a.put o (a.get o ++ [t])) x s = _
  unfold P.bind P.element
  rw [h]

/-- One read and what is done with it. -/
def readStep {σ τ : Type} (r : R τ) (u : τ → σ → σ) : P σ Unit := do
  let t ← P.read r
  P.set (u t)

theorem appendReads_succ {σ τ : Type} (n : Nat) (r : R τ) (a : Attr σ (List τ)) :
    P.appendReads (n + 1) r a
      = (readStep r (fun t o => a.put o (a.get o ++ [t])) >>= fun _ => P.appendReads n r a) := by
  funext x s
  show (P.bind (P.read r) fun t => P.bind (P.set fun o => a.put o (a.get o ++ [t])) fun _ => P.appendReads n r a) x s
    = P.bind (P.bind (P.read r) fun t => P.set fun o => a.put o (a.get o ++ [t])) (fun _ => P.appendReads n r a) x s
  unfold P.bind P.read
  rcases r s with ⟨_ | _, s'⟩ <;> rfl

theorem setReads_succ {σ : Type} (i n : Nat) (r : R Int) (a : Attr σ (List Int)) :
    P.setReads i (n + 1) r a
      = (readStep r (fun t o => a.put o ((a.get o).set i t)) >>= fun _ => P.setReads (i + 1) n r a) := by
  funext x s
  show (P.bind (P.read r) fun t => P.bind (P.set fun o => a.put o ((a.get o).set i t)) fun _ =>
      P.setReads (i + 1) n r a) x s
    = P.bind (P.bind (P.read r) fun t => P.set fun o => a.put o ((a.get o).set i t)) (fun _ =>
      P.setReads (i + 1) n r a) x s
  unfold P.bind P.read
  rcases r s with ⟨_ | _, s'⟩ <;> rfl

theorem ne_of_look {bs : List (Ident × Val)} {x y : Ident} {v : Val} (hy : look y bs = none) (hx : look x bs = some v) :
    Nat.beq y x = false := by
  cases e : Nat.beq y x with
  | false => rfl
  | true => rw [Nat.eq_of_beq_eq_true e, hx] at hy; cases hy

/-- A variable that is not listed gets a value. -/
theorem Env.other {bs : List (Ident × Val)} {st : St} (h : Env bs st) {y : Ident} (hb : look y bs = none)
    (hy : isClass y = false) (v : Val) (io : Streams) : Env bs ⟨put y v st.locals, io⟩ := (h.set y v hy io).drop hb

theorem look_cons_ne {bs : List (Ident × Val)} {y : Ident} {v : Val} (h : Nat.beq y I.self = false)
    (hb : look y bs = none) : look y ((I.self, v) :: bs) = none := by
  unfold look
  cases e : Nat.beq I.self y with
  | false => exact hb
  | true => rw [← Nat.eq_of_beq_eq_true e, Nat.beq_refl] at h; cases h

theorem eval_local {C : Call} {x : Ident} {v : Val} {st : St} (h : look x st.locals = some v) :
    ev C (.name x) st = (.ok v, st) := by
  unfold ev eval global
  have : M.var? x st = (.ok (some v), st) := by unfold M.var?; rw [h]
  exact (M.bind_ok this).trans rfl

/-- `for idx in e: element = T(); element.parse(inputStream); self.f.append(element)`. -/
theorem par_objs {σ τ : Type} {C : Call} {k c f y z : Ident} {gs : σ → List (Ident × Val)} {Q : σ → Prop}
    {bs : List (Ident × Val)} {e : Expr} {ss : List Stmt} {l : List Val} {n : Nat} {hs : τ → List (Ident × Val)}
    {a : Attr σ (List τ)} {fresh : τ} {q : P τ Unit} {p : P σ Unit}
    (he : ∀ x, Q x → Gives C ((I.self, .obj k (gs x)) :: bs) e (.list l)) (hl : l.length = n)
    (hnew : Builds C c hs fresh q) (hi : look I.inputStream bs = some .inp)
    (hp : isProperty program k f = false)
    (hf : ∀ x, look f (gs x) = some (.list ((a.get x).map fun t => .obj c (hs t))))
    (hu : ∀ x ts, put f (.list (ts.map fun t => .obj c (hs t))) (gs x) = gs (a.put x ts))
    (hy : isClass y = false) (hys : Nat.beq y I.self = false) (hyb : look y bs = none)
    (hz : isClass z = false) (hzs : Nat.beq z I.self = false) (hzb : look z bs = none)
    (h : Par C k gs (fun _ => True) bs ss p) :
    Par C k gs Q bs (.for y e [.assign (.name z) (.call c [] []),
        .expr (.method (.name z) I.parse [.name I.inputStream] []),
        .expr (.method (.attr (.name I.self) f) I.append [.name z] [])] :: ss)
      (P.appendObjs n fresh q a >>= fun _ => p) := by
  refine par_for (fun _ n => P.appendObjs n fresh q a) 0 n (b := fun _ => objStep fresh q a) he hl (fun _ => rfl)
    (fun _ n => appendObjs_succ n fresh q a) (fun _ _ => True) (fun _ _ => trivial) (fun _ _ => trivial) ?_ h
  obtain ⟨v0, hnew, hparse⟩ := hnew
  intro j hj x _ st hst
  have hst0 := hst.other (look_cons_ne hys hyb) hy (l[j]'(by omega)) st.io
  generalize put y (l[j]'(by omega)) st.locals = L0 at hst0
  have a1 : ex C (.assign (.name z) (.call c [] [])) ⟨L0, st.io⟩ = _ := exec_var (eval_new hnew hst0)
  have hst1 := hst0.other (look_cons_ne hzs hzb) hz (.obj c v0) st.io
  have hz1 : look z (put z (.obj c v0) L0) = some (.obj c v0) := look_put_same _ _ _
  generalize put z (.obj c v0) L0 = L1 at hst1 hz1 a1
  obtain ⟨v1, hparse, hok⟩ := hparse st.io
  have a2 := eval_method (C := C) (m := I.parse) (kws := []) (eval_local (st := ⟨L1, st.io⟩) hz1)
    (args_one (gives_name (show look I.inputStream ((I.self, Val.obj k (gs x)) :: bs) = some .inp from hi)) hst1)
    (method_of_var (x := z) (st := ⟨L1, st.io⟩) hparse)
  rcases hr : q fresh st.io.inp with ⟨err | u, t, s'⟩
  · rw [hr] at a2
    rw [objStep_error a hr]
    have hst2 := hst1.other (look_cons_ne hzs hzb) hz v1 ⟨s', st.io.out⟩
    refine ⟨⟨put z v1 L1, ⟨s', st.io.out⟩⟩, exs_cons_ok a1 (exs_cons_error ?_), hst2, rfl,
      fun h => by cases h⟩
    unfold ex exec
    exact M.bind_error a2
  · rw [hr] at a2 hok
    have := hok u rfl
    subst this
    rw [objStep_ok a hr]
    have hst2 := hst1.other (look_cons_ne hzs hzb) hz (.obj c (hs t)) ⟨s', st.io.out⟩
    have hz2 : look z (put z (.obj c (hs t)) L1) = some (.obj c (hs t)) := look_put_same _ _ _
    have a2' : ex C (.expr (.method (.name z) I.parse [.name I.inputStream] [])) ⟨L1, st.io⟩
        = (.ok none, ⟨put z (.obj c (hs t)) L1, ⟨s', st.io.out⟩⟩) := by
      unfold ex exec
      exact (M.bind_ok a2).trans rfl
    generalize put z (.obj c (hs t)) L1 = L2 at hst2 hz2 a2'
    have a3 := exec_append (C := C) hst2 hp (hf x) (eval_local (st := ⟨L2, ⟨s', st.io.out⟩⟩) hz2) (hst2.1 _ _ rfl)
    have hm : (List.map (fun t => Val.obj c (hs t)) (a.get x) ++ [Val.obj c (hs t)])
        = (a.get x ++ [t]).map fun t => Val.obj c (hs t) := by simp
    rw [hm, hu] at a3
    exact ⟨⟨put I.self (.obj k (gs (a.put x (a.get x ++ [t])))) L2, ⟨s', st.io.out⟩⟩,
      exs_cons_ok a1 (exs_cons_ok a2' (exs_cons_ok a3 exs_nil)), hst2.replace _ self_plain _, rfl, fun _ => trivial⟩

theorem readStep_ok {σ α : Type} {r : R α} (u : α → σ → σ) {x : σ} {s s' : InStream} {v : α} (h : r s = (.ok v, s')) :
    readStep r u x s = (.ok (), u v x, s') := by
  show P.bind (P.read r) (fun v => P.set (u v)) x s = _
  unfold P.bind P.read
  rw [h]; rfl

theorem readStep_error {σ α : Type} {r : R α} (u : α → σ → σ) {x : σ} {s s' : InStream} {e : PyErr}
    (h : r s = (.error e, s')) : readStep r u x s = (.error e, x, s') := by
  show P.bind (P.read r) (fun v => P.set (u v)) x s = _
  unfold P.bind P.read
  rw [h]

/-- `for idx in e: v = inputStream.read_x(); self.f.append(v)`. -/
theorem par_reads {σ τ : Type} {C : Call} {k f y z m : Ident} {gs : σ → List (Ident × Val)} {Q Q' : σ → Prop}
    {bs : List (Ident × Val)} {e : Expr} {ss : List Stmt} {l : List Val} {n : Nat} {inj : τ → Val}
    {a : Attr σ (List τ)} {r : R τ} {p : P σ Unit}
    (he : ∀ x, Q x → Gives C ((I.self, .obj k (gs x)) :: bs) e (.list l)) (hl : l.length = n)
    (hm : look m streams.reads = some (reader inj r)) (hi : look I.inputStream bs = some .inp)
    (hp : isProperty program k f = false)
    (hf : ∀ x, look f (gs x) = some (.list ((a.get x).map inj)))
    (hu : ∀ x ts, put f (.list (ts.map inj)) (gs x) = gs (a.put x ts)) (hq : ∀ x ts, Q x → Q (a.put x ts))
    (hy : isClass y = false) (hys : Nat.beq y I.self = false) (hyb : look y bs = none)
    (hz : isClass z = false) (hzs : Nat.beq z I.self = false) (hzb : look z bs = none)
    (hQ : ∀ x, Q x → Q' x) (h : Par C k gs Q' bs ss p) :
    Par C k gs Q bs (.for y e [.assign (.name z) (.method (.name I.inputStream) m [] []),
        .expr (.method (.attr (.name I.self) f) I.append [.name z] [])] :: ss)
      (P.appendReads n r a >>= fun _ => p) := by
  refine par_for (fun _ n => P.appendReads n r a) 0 n (b := fun _ => readStep r fun t o => a.put o (a.get o ++ [t])) he hl
    (fun _ => rfl) (fun _ n => appendReads_succ n r a) (fun _ => Q) (fun _ h => h) hQ ?_ h
  intro j hj x hx st hst
  have hst0 := hst.other (look_cons_ne hys hyb) hy (l[j]'(by omega)) st.io
  generalize put y (l[j]'(by omega)) st.locals = L0 at hst0
  have a1 := eval_read (C := C) hm hst0 (show look I.inputStream ((I.self, Val.obj k (gs x)) :: bs) = some .inp from hi)
  rcases hr : r st.io.inp with ⟨err | t, s'⟩
  · rw [readStep_error _ hr]
    simp only [hr] at a1
    exact ⟨⟨L0, ⟨s', st.io.out⟩⟩, exs_cons_error (exec_var_error a1), hst0, rfl, fun h => by cases h⟩
  · rw [readStep_ok _ hr]
    simp only [hr] at a1
    have a2 := exec_var (x := z) a1
    have hst2 := hst0.other (look_cons_ne hzs hzb) hz (inj t) ⟨s', st.io.out⟩
    have hz2 : look z (put z (inj t) L0) = some (inj t) := look_put_same _ _ _
    generalize put z (inj t) L0 = L2 at hst2 hz2 a2
    have a3 := exec_append (C := C) hst2 hp (hf x) (eval_local (st := ⟨L2, ⟨s', st.io.out⟩⟩) hz2) (hst2.1 _ _ rfl)
    have hm : (List.map inj (a.get x) ++ [inj t]) = (a.get x ++ [t]).map inj := by simp
    rw [hm, hu] at a3
    exact ⟨⟨put I.self (.obj k (gs (a.put x (a.get x ++ [t])))) L2, ⟨s', st.io.out⟩⟩,
      exs_cons_ok a2 (exs_cons_ok a3 exs_nil), hst2.replace _ self_plain _, rfl, fun _ => hq _ _ hx⟩

/-- `for idx in e: self.f.append(inputStream.read_x())`. -/
theorem par_reads_inline {σ τ : Type} {C : Call} {k f y m : Ident} {gs : σ → List (Ident × Val)} {Q Q' : σ → Prop}
    {bs : List (Ident × Val)} {e : Expr} {ss : List Stmt} {l : List Val} {n : Nat} {inj : τ → Val}
    {a : Attr σ (List τ)} {r : R τ} {p : P σ Unit}
    (he : ∀ x, Q x → Gives C ((I.self, .obj k (gs x)) :: bs) e (.list l)) (hl : l.length = n)
    (hm : look m streams.reads = some (reader inj r)) (hi : look I.inputStream bs = some .inp)
    (hp : isProperty program k f = false)
    (hf : ∀ x, look f (gs x) = some (.list ((a.get x).map inj)))
    (hu : ∀ x ts, put f (.list (ts.map inj)) (gs x) = gs (a.put x ts)) (hq : ∀ x ts, Q x → Q (a.put x ts))
    (hy : isClass y = false) (hys : Nat.beq y I.self = false) (hyb : look y bs = none)
    (hQ : ∀ x, Q x → Q' x) (h : Par C k gs Q' bs ss p) :
    Par C k gs Q bs (.for y e
        [.expr (.method (.attr (.name I.self) f) I.append [.method (.name I.inputStream) m [] []] [])] :: ss)
      (P.appendReads n r a >>= fun _ => p) := by
  refine par_for (fun _ n => P.appendReads n r a) 0 n (b := fun _ => readStep r fun t o => a.put o (a.get o ++ [t])) he hl
    (fun _ => rfl) (fun _ n => appendReads_succ n r a) (fun _ => Q) (fun _ h => h) hQ ?_ h
  intro j hj x hx st hst
  have hst0 := hst.other (look_cons_ne hys hyb) hy (l[j]'(by omega)) st.io
  generalize put y (l[j]'(by omega)) st.locals = L0 at hst0
  have a1 := eval_read (C := C) hm hst0 (show look I.inputStream ((I.self, Val.obj k (gs x)) :: bs) = some .inp from hi)
  rcases hr : r st.io.inp with ⟨err | t, s'⟩
  · rw [readStep_error _ hr]
    simp only [hr] at a1
    refine ⟨⟨L0, ⟨s', st.io.out⟩⟩, exs_cons_error ?_, hst0, rfl, fun h => by cases h⟩
    have hself : Gives C ((I.self, .obj k (gs x)) :: bs) (.name I.self) (.obj k (gs x)) := gives_name rfl
    unfold ex exec
    refine M.bind_error ?_
    unfold eval
    refine (M.bind_ok (gives_attr hself hp (hf x) _ hst0)).trans (M.bind_error ?_)
    unfold evalList
    exact M.bind_error a1
  · rw [readStep_ok _ hr]
    simp only [hr] at a1
    have a3 := exec_append (C := C) hst0 hp (hf x) a1 (hst0.1 _ _ rfl)
    have hm : (List.map inj (a.get x) ++ [inj t]) = (a.get x ++ [t]).map inj := by simp
    rw [hm, hu] at a3
    exact ⟨⟨put I.self (.obj k (gs (a.put x (a.get x ++ [t])))) L0, ⟨s', st.io.out⟩⟩,
      exs_cons_ok a3 exs_nil, hst0.replace _ self_plain _, rfl, fun _ => hq _ _ hx⟩

/-- `for idx in e: element = null(); ...`: `NameError` in the first round. -/
theorem par_unknown {σ τ : Type} {C : Call} {k c y z : Ident} {gs : σ → List (Ident × Val)} {Q : σ → Prop}
    {bs : List (Ident × Val)} {e : Expr} {ss rest : List Stmt} {l : List Val} {n : Nat}
    {a : Attr σ (List τ)} {p : P σ Unit}
    (he : ∀ x, Q x → Gives C ((I.self, .obj k (gs x)) :: bs) e (.list l)) (hl : l.length = n)
    (hc : look c program = none) (hc' : isClass c = true) (h1 : Nat.beq c I.len = false) (h2 : Nat.beq c I.range = false)
    (h3 : Nat.beq c I.list = false)
    (hy : isClass y = false) (hys : Nat.beq y I.self = false) (hyb : look y bs = none)
    (h : Par C k gs Q bs ss p) :
    Par C k gs Q bs (.for y e (.assign (.name z) (.call c [] []) :: rest) :: ss)
      (P.appendReads n (R.throw .nameError : R τ) a >>= fun _ => p) := by
  refine par_for (fun _ n => P.appendReads n (R.throw .nameError : R τ) a) 0 n
    (b := fun _ => readStep (R.throw .nameError : R τ) fun t o => a.put o (a.get o ++ [t])) he hl
    (fun _ => rfl) (fun _ n => appendReads_succ n (R.throw .nameError : R τ) a) (fun _ => Q) (fun _ h => h) (fun _ h => h)
    ?_ h
  intro j hj x hx st hst
  have hst0 := hst.other (look_cons_ne hys hyb) hy (l[j]'(by omega)) st.io
  generalize put y (l[j]'(by omega)) st.locals = L0 at hst0
  have hr : (R.throw .nameError : R τ) st.io.inp = (.error .nameError, st.io.inp) := rfl
  rw [readStep_error _ hr]
  exact ⟨⟨L0, st.io⟩, exs_cons_error (exec_var_error (eval_unknown hc h1 h2 h3 (hst0.2 _ hc'))), hst0, rfl,
    fun h => by cases h⟩

/-- `self.f = [0] * n`, and then `for idx in range(0, n): v = inputStream.read_x(); self.f[idx] = v`. -/
theorem par_fill {σ : Type} {C : Call} {k f y z m : Ident} {gs : σ → List (Ident × Val)} {Q : σ → Prop}
    {bs : List (Ident × Val)} {ss : List Stmt} {n : Nat} {a : Attr σ (List Int)} {r : R Int} {p : P σ Unit}
    (hm : look m streams.reads = some (reader .int r)) (hi : look I.inputStream bs = some .inp)
    (hp : isProperty program k f = false)
    (hf : ∀ x, look f (gs x) = some (.list ((a.get x).map .int)))
    (hu : ∀ x ts, put f (.list (ts.map .int)) (gs x) = gs (a.put x ts)) (ha : ∀ x ts, a.get (a.put x ts) = ts)
    (hy : isClass y = false) (hys : Nat.beq y I.self = false) (hyb : look y bs = none)
    (hz : isClass z = false) (hzs : Nat.beq z I.self = false) (hzb : look z bs = none) (hzy : Nat.beq z y = false)
    (hq : ∀ x ts, Q x → Q (a.put x ts)) (h : Par C k gs Q bs ss p) :
    Par C k gs Q bs (.assign (.attr (.name I.self) f) (.bin .mul (.list [.int 0]) (.int n)) ::
        .for y (.call I.range [.int 0, .int n] []) [.assign (.name z) (.method (.name I.inputStream) m [] []),
        .assign (.index (.attr (.name I.self) f) (.name y)) (.name z)] :: ss)
      (P.fillReads n r a >>= fun _ => p) := by
  have hsplit : (P.fillReads n r a >>= fun _ => p)
      = (P.set (fun o => a.put o (List.replicate n 0)) >>= fun _ => P.setReads 0 n r a >>= fun _ => p) := rfl
  rw [hsplit]
  refine par_cons (vs := fun _ => []) (Q' := fun _ x => (a.get x).length = n ∧ Q x) (fun x hx st hst => ?_) (fun _ => ?_)
  · have h0 : ev C (.bin .mul (.list [.int 0]) (.int n)) st
        = (.ok (.list ((List.replicate n (0 : Int)).map .int)), st) := by
      have hl : ev C (.list [.int 0]) st = (.ok (.list [.int 0]), st) := by
        unfold ev eval evalList eval evalList
        rfl
      have hn : ev C (.int n) st = (.ok (.int n), st) := by unfold ev eval; rfl
      unfold ev eval
      refine (M.bind_ok hl).trans ((M.bind_ok hn).trans ?_)
      show (Except.ok (Val.list (List.replicate (n : Int).toNat [Val.int 0]).flatten), st) = _
      rw [Int.toNat_natCast]
      congr 3
      clear hsplit hn hl
      induction n with
      | zero => rfl
      | succ n ih => rw [List.replicate_succ, List.flatten_cons, ih, List.replicate_succ, List.map_cons]; rfl
    have a1 := exec_assign h0 (hst.1 I.self _ rfl) hp
    rw [hu] at a1
    exact ⟨_, a1, look_put_same _ _ _, rfl, fun _ _ => ⟨hst.replace _ self_plain _, by
      show (a.get (a.put x _)).length = n; rw [ha]; simp, hq x _ hx⟩⟩
  refine par_for (fun i n => P.setReads i n r a) 0 n (b := fun i => readStep r fun t o => a.put o ((a.get o).set i t))
    (l := (List.range n).map fun (k : Nat) => .int (k : Int))
    (fun x _ => by have := gives_range0 (C := C) (bs := (I.self, .obj k (gs x)) :: bs) (gives_int (v := (n : Int)));
                   simpa using this) (by simp)
    (fun _ => rfl) (fun i n => setReads_succ i n r a) (fun _ x => (a.get x).length = n ∧ Q x) (fun _ h => h)
    (fun _ h => h.2)
    ?_ h
  intro j hj x hx st hst
  have hst0 := hst.other (look_cons_ne hys hyb) hy (.int (j : Int)) st.io
  have hy0 : look y (put y (.int (j : Int)) st.locals) = some (.int (j : Int)) := look_put_same _ _ _
  rw [List.getElem_map, List.getElem_range]
  generalize put y (.int (j : Int)) st.locals = L0 at hst0 hy0
  have a1 := eval_read (C := C) hm hst0 (show look I.inputStream ((I.self, Val.obj k (gs x)) :: bs) = some .inp from hi)
  rw [Nat.zero_add]
  rcases hr : r st.io.inp with ⟨err | t, s'⟩
  · rw [readStep_error _ hr]
    simp only [hr] at a1
    exact ⟨⟨L0, ⟨s', st.io.out⟩⟩, exs_cons_error (exec_var_error a1), hst0, rfl, fun h => by cases h⟩
  · rw [readStep_ok _ hr]
    simp only [hr] at a1
    have a2 := exec_var (x := z) a1
    have hst2 := hst0.other (look_cons_ne hzs hzb) hz (.int t) ⟨s', st.io.out⟩
    have hz2 : look z (put z (.int t) L0) = some (.int t) := look_put_same _ _ _
    have hy2 : look y (put z (.int t) L0) = some (.int (j : Int)) := by rw [look_put_ne hzy]; exact hy0
    generalize put z (.int t) L0 = L2 at hst2 hz2 hy2 a2
    have a3 : ex C (.assign (.index (.attr (.name I.self) f) (.name y)) (.name z)) ⟨L2, ⟨s', st.io.out⟩⟩
        = (.ok none, ⟨put I.self (.obj k (gs (a.put x ((a.get x).set j t)))) L2, ⟨s', st.io.out⟩⟩) := by
      have hself : Gives C ((I.self, .obj k (gs x)) :: bs) (.name I.self) (.obj k (gs x)) := gives_name rfl
      unfold ex exec
      refine (M.bind_ok (eval_local hz2)).trans ((M.bind_ok (gives_attr hself hp (hf x) _ hst2)).trans
        ((M.bind_ok (eval_local hy2)).trans ?_))
      show (if 0 ≤ (j : Int) ∧ (j : Int).toNat < ((a.get x).map Val.int).length then
          (store program (.attr (.name I.self) f) (.list (((a.get x).map Val.int).set (j : Int).toNat (.int t))) >>=
            fun _ => pure none)
        else M.throw .indexError : M (Option Val)) _ = _
      rw [if_pos ⟨by omega, by rw [Int.toNat_natCast, List.length_map, hx.1]; exact hj⟩, Int.toNat_natCast, ← List.map_set]
      refine (M.bind_ok (store_attr (hst2.1 _ _ rfl) hp)).trans ?_
      rw [hu]; rfl
    exact ⟨⟨put I.self (.obj k (gs (a.put x ((a.get x).set j t)))) L2, ⟨s', st.io.out⟩⟩,
      exs_cons_ok a2 (exs_cons_ok a3 exs_nil), hst2.replace _ self_plain _, rfl, fun _ => by
        refine ⟨?_, hq x _ hx.2⟩
        show (a.get (a.put x _)).length = n
        rw [ha, List.length_set]; exact hx.1⟩

/-- `X.parse`, from its statements. -/
theorem parses_of {σ : Type} {n : Nat} {c d k : Ident} {f : Method} {gs : σ → List (Ident × Val)} {p : P σ Unit}
    (hm : method program c I.parse = some (d, f)) (hp : f.params = [(I.inputStream, none)])
    (h : Par (run n) k gs (fun _ => True) [(I.__class__, .cls d), (I.inputStream, .inp)] f.body p) :
    Parses (run (n + 1)) c k gs p := fun x io => by
  have henv : Env (start d (.obj k (gs x)) [(I.inputStream, .inp)]) ⟨start d (.obj k (gs x)) [(I.inputStream, .inp)], io⟩ := by
    refine ⟨fun _ _ h => h, fun x hx => ?_⟩
    have h1 : ∀ y, isClass y = false → Nat.beq y x = false := fun y hy => by
      cases e : Nat.beq y x with
      | false => rfl
      | true => rw [Nat.eq_of_beq_eq_true e, hx] at hy; cases hy
    show look x (start d _ [(I.inputStream, .inp)]) = none
    simp only [look, h1 I.self (by decide +kernel), h1 I.__class__ (by decide +kernel),
      h1 I.inputStream (by decide +kernel)]
  obtain ⟨st', e1, h1, h2⟩ := h x trivial _ henv
  have := run_method (args := [.inp]) (kws := []) hm (by rw [hp]; rfl) e1 h1
  rw [this, h2]
  cases (p x io.inp).1 <;> rfl

end Dis.Src
