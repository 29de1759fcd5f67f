import Verif.Source.Program
import Verif.Source.Streams

/-! # Reasoning about the syntax trees: expressions and serialize -/

namespace Dis.Src

theorem look_put_same {α : Type} (x : Ident) (v : α) (l : List (Ident × α)) : look x (put x v l) = some v := by
  induction l with
  | nil => simp [put, look]
  | cons p l ih =>
    obtain ⟨y, w⟩ := p
    unfold put
    cases h : Nat.beq y x with
    | true => simp [look]
    | false =>
      cases h2 : Nat.ble x y with
      | true => simp [look]
      | false => simp only [look, h, ih]

theorem look_put_ne {α : Type} {x y : Ident} (h : Nat.beq x y = false) (v : α) (l : List (Ident × α)) :
    look y (put x v l) = look y l := by
  induction l with
  | nil => simp only [put, look, h]
  | cons p l ih =>
    obtain ⟨z, w⟩ := p
    unfold put
    cases h1 : Nat.beq z x with
    | true =>
      have : z = x := Nat.eq_of_beq_eq_true h1
      subst this
      simp only [look, h]
    | false =>
      cases h2 : Nat.ble x z with
      | true => simp only [look, h]
      | false => simp only [look, ih]

/-- The name is that of a class, or `null`, which is used like one. -/
def isClass (x : Ident) : Bool := (look x program).isSome || Nat.beq x I.null

/-- The variables have these values, among others, and no variable is called like a class or `null`. -/
def Env (bs : List (Ident × Val)) (st : St) : Prop :=
  (∀ x v, look x bs = some v → look x st.locals = some v) ∧ ∀ x, isClass x = true → look x st.locals = none

theorem isClass_of {x : Ident} (h : (look x program).isSome = true) : isClass x = true := by
  unfold isClass; rw [h]; rfl

theorem Env.mono {bs cs : List (Ident × Val)} {st : St} (h : Env bs st)
    (hc : ∀ x v, look x cs = some v → look x bs = some v) : Env cs st := ⟨fun x v e => h.1 x v (hc x v e), h.2⟩

theorem Env.set {bs : List (Ident × Val)} {st : St} (h : Env bs st) (x : Ident) (v : Val) (hx : isClass x = false)
    (io : Streams) : Env ((x, v) :: bs) ⟨put x v st.locals, io⟩ := by
  refine ⟨fun y w hy => ?_, fun y hy => ?_⟩
  · unfold look at hy
    cases e : Nat.beq x y with
    | true =>
      rw [e] at hy
      have : x = y := Nat.eq_of_beq_eq_true e
      subst this
      rw [look_put_same]; exact hy
    | false =>
      rw [e] at hy
      rw [look_put_ne e]; exact h.1 y w hy
  · cases e : Nat.beq x y with
    | true =>
      have : x = y := Nat.eq_of_beq_eq_true e
      subst this
      rw [hx] at hy; cases hy
    | false => rw [look_put_ne e]; exact h.2 y hy

/-- A variable gets another value. -/
theorem Env.replace {bs : List (Ident × Val)} {st : St} {x : Ident} {u : Val} (h : Env ((x, u) :: bs) st) (v : Val)
    (hx : isClass x = false) (io : Streams) : Env ((x, v) :: bs) ⟨put x v st.locals, io⟩ := by
  refine (h.set x v hx io).mono fun y w hy => ?_
  unfold look at hy ⊢
  cases e : Nat.beq x y with
  | true => rw [e] at hy; exact hy
  | false => rw [e] at hy; show look y ((x, u) :: bs) = _; unfold look; rw [e]; exact hy

theorem Env.drop {bs : List (Ident × Val)} {st : St} {x : Ident} {v : Val} (hx : look x bs = none)
    (h : Env ((x, v) :: bs) st) : Env bs st := h.mono fun y w hy => by
  unfold look
  cases e : Nat.beq x y with
  | true =>
    have : x = y := Nat.eq_of_beq_eq_true e
    subst this
    rw [hx] at hy; cases hy
  | false => exact hy

/-- Assigning to a variable the value it has. -/
theorem Env.again {bs : List (Ident × Val)} {st : St} (h : Env bs st) {x : Ident} {v : Val} (hx : look x bs = some v)
    (io : Streams) : Env bs ⟨put x v st.locals, io⟩ := by
  refine ⟨fun y w hy => ?_, fun y hy => ?_⟩
  · cases e : Nat.beq x y with
    | true =>
      have : x = y := Nat.eq_of_beq_eq_true e
      subst this
      rw [look_put_same]; rw [hx] at hy; exact hy
    | false => rw [look_put_ne e]; exact h.1 y w hy
  · cases e : Nat.beq x y with
    | true =>
      have : x = y := Nat.eq_of_beq_eq_true e
      subst this
      have h1 := h.1 x v hx
      rw [h.2 x hy] at h1; cases h1
    | false => rw [look_put_ne e]; exact h.2 y hy

/-- Evaluation in the modelled program. -/
abbrev ev (C : Call) (e : Expr) : M Val := eval program words streams C e

/-- Execution of a statement in the modelled program. -/
abbrev ex (C : Call) (s : Stmt) : M (Option Val) := exec program words streams C s

/-- Execution of statements in the modelled program. -/
abbrev exs (C : Call) (ss : List Stmt) : M (Option Val) := execs program words streams C ss

/-- The methods of the modelled program, nested at most so deep. -/
abbrev run (n : Nat) : Call := methods program words streams n

theorem bind_def {α β : Type} (p : M α) (k : α → M β) : p >>= k = M.bind p k := rfl

theorem M.bind_ok {α β : Type} {p : M α} {k : α → M β} {st st' : St} {a : α} (h : p st = (.ok a, st')) :
    (p >>= k) st = k a st' := by
  rw [bind_def]; unfold M.bind; rw [h]

theorem M.bind_error {α β : Type} {p : M α} {k : α → M β} {st st' : St} {e : PyErr} (h : p st = (.error e, st')) :
    (p >>= k) st = (.error e, st') := by
  rw [bind_def]; unfold M.bind; rw [h]

theorem M.pure_def {α : Type} (a : α) (st : St) : (pure a : M α) st = (.ok a, st) := rfl

/-- The value of the expression is `v`, nothing changes. -/
def Gives (C : Call) (bs : List (Ident × Val)) (e : Expr) (v : Val) : Prop :=
  ∀ st, Env bs st → ev C e st = (.ok v, st)

theorem gives_name {C : Call} {bs : List (Ident × Val)} {x : Ident} {v : Val} (h : look x bs = some v) :
    Gives C bs (.name x) v := fun st hst => by
  unfold ev eval global
  have : M.var? x st = (.ok (some v), st) := by unfold M.var?; rw [hst.1 _ _ h]
  rw [M.bind_ok this]
  rfl

theorem gives_int {C : Call} {bs : List (Ident × Val)} {v : Int} : Gives C bs (.int v) (.int v) := fun st _ => by
  unfold ev eval; rfl

theorem gives_attr {C : Call} {bs : List (Ident × Val)} {e : Expr} {c f : Ident} {fs : List (Ident × Val)} {v : Val}
    (h : Gives C bs e (.obj c fs)) (hp : isProperty program c f = false) (hf : look f fs = some v) :
    Gives C bs (.attr e f) v := fun st hst => by
  unfold ev eval
  rw [M.bind_ok (h st hst)]
  unfold getAttr
  simp only [hp, hf]
  rfl

theorem gives_property {C : Call} {bs : List (Ident × Val)} {e : Expr} {c f : Ident} {fs : List (Ident × Val)} {v o : Val}
    (h : Gives C bs e (.obj c fs)) (hp : isProperty program c f = true)
    (hf : ∀ io, C c f (.obj c fs) [] [] io = (.ok v, o, io)) : Gives C bs (.attr e f) v := fun st hst => by
  unfold ev eval
  rw [M.bind_ok (h st hst)]
  unfold getAttr
  simp only [hp, hf]

theorem args_nil {C : Call} {st : St} : evalList program words streams C [] st = (.ok [], st) := by
  unfold evalList; rfl

theorem args_one {C : Call} {bs : List (Ident × Val)} {e : Expr} {v : Val} (h : Gives C bs e v) {st : St}
    (hst : Env bs st) : evalList program words streams C [e] st = (.ok [v], st) := by
  unfold evalList
  rw [M.bind_ok (h st hst), M.bind_ok args_nil]
  rfl

theorem args_two {C : Call} {bs : List (Ident × Val)} {e e' : Expr} {v v' : Val} (h : Gives C bs e v)
    (h' : Gives C bs e' v') {st : St} (hst : Env bs st) :
    evalList program words streams C [e, e'] st = (.ok [v, v'], st) := by
  unfold evalList
  rw [M.bind_ok (h st hst), M.bind_ok (args_one h' hst)]
  rfl

theorem gives_len {C : Call} {bs : List (Ident × Val)} {e : Expr} {l : List Val} (h : Gives C bs e (.list l)) :
    Gives C bs (.call I.len [e] []) (.int l.length) := fun st hst => by
  unfold ev eval
  rw [M.bind_ok (args_one h hst)]
  rfl

theorem gives_index {C : Call} {bs : List (Ident × Val)} {e i : Expr} {l : List Val} {k : Nat} {v : Val}
    (h : Gives C bs e (.list l)) (hi : Gives C bs i (.int k)) (hv : l[k]? = some v) :
    Gives C bs (.index e i) v := fun st hst => by
  unfold ev eval
  rw [M.bind_ok (h st hst), M.bind_ok (hi st hst)]
  show (if (k : Int) < 0 then M.throw unsupported else M.get .indexError l[(k : Int).toNat]?) st = _
  rw [if_neg (by omega), Int.toNat_natCast, hv]
  rfl

theorem gives_range {C : Call} {bs : List (Ident × Val)} {a b : Expr} {i n : Int}
    (h : Gives C bs a (.int i)) (h' : Gives C bs b (.int n)) :
    Gives C bs (.call I.range [a, b] []) (.list ((List.range (n - i).toNat).map fun (k : Nat) => .int (i + (k : Int)))) :=
  fun st hst => by
  unfold ev eval
  rw [M.bind_ok (args_two h h' hst)]
  rfl

theorem gives_range1 {C : Call} {bs : List (Ident × Val)} {b : Expr} {n : Int} (h : Gives C bs b (.int n)) :
    Gives C bs (.call I.range [b] []) (.list ((List.range n.toNat).map fun (k : Nat) => .int (k : Int))) := fun st hst => by
  unfold ev eval
  rw [M.bind_ok (args_one h hst)]
  rfl

theorem gives_bin {C : Call} {bs : List (Ident × Val)} {op : Op} {a b : Expr} {u v w : Val}
    (h : Gives C bs a u) (h' : Gives C bs b v) (hw : ∀ st, binary op u v st = (.ok w, st)) :
    Gives C bs (.bin op a b) w := fun st hst => by
  unfold ev eval
  rw [M.bind_ok (h st hst), M.bind_ok (h' st hst), hw]

/-- `x.f = v`. -/
theorem store_attr {x f k : Ident} {gs : List (Ident × Val)} {v : Val} {st : St} (hx : look x st.locals = some (.obj k gs))
    (hp : isProperty program k f = false) :
    store program (.attr (.name x) f) v st = (.ok (), ⟨put x (.obj k (put f v gs)) st.locals, st.io⟩) := by
  show ((M.var? x >>= fun o => M.get .nameError o >>= fun o => match o with
    | .obj c fs => match isProperty program c f with
      | true => M.throw .attributeError
      | false => M.setVar x (.obj c (put f v fs))
    | .own c fs => M.setVar x (.own c (put f v fs))
    | _ => M.throw .attributeError) : M Unit) st = _
  have hv : M.var? x st = (.ok (some (.obj k gs)), st) := by unfold M.var?; rw [hx]
  refine (M.bind_ok hv).trans ((M.bind_ok (p := M.get .nameError (some (Val.obj k gs))) (a := Val.obj k gs) rfl).trans ?_)
  show (match isProperty program k f with
      | true => M.throw .attributeError
      | false => M.setVar x (.obj k (put f v gs)) : M Unit) st = _
  rw [hp]
  rfl

/-- The statements write what `w` writes, and change nothing else, apart from variables not in `bs`. -/
def Ser (C : Call) (bs : List (Ident × Val)) (ss : List Stmt) (w : W Unit) : Prop :=
  ∀ st, Env bs st → ∃ st', exs C ss st = (w.res.map fun _ => none, st') ∧ Env bs st' ∧
    st'.io = ⟨st.io.inp, st.io.out ++ w.out⟩

/-- The same for one statement. -/
def Ser1 (C : Call) (bs : List (Ident × Val)) (s : Stmt) (w : W Unit) : Prop :=
  ∀ st, Env bs st → ∃ st', ex C s st = (w.res.map fun _ => none, st') ∧ Env bs st' ∧
    st'.io = ⟨st.io.inp, st.io.out ++ w.out⟩

theorem ser_nil {C : Call} {bs : List (Ident × Val)} : Ser C bs [] (pure ()) := fun st hst =>
  ⟨st, by unfold exs execs; rfl, hst, by
    show _ = Streams.mk _ (_ ++ [])
    rw [List.append_nil]⟩

theorem ser_cons {C : Call} {bs : List (Ident × Val)} {s : Stmt} {ss : List Stmt} {w w' : W Unit}
    (h : Ser1 C bs s w) (h' : Ser C bs ss w') : Ser C bs (s :: ss) (w >>= fun _ => w') := fun st hst => by
  obtain ⟨st1, e1, hst1, io1⟩ := h st hst
  show ∃ st', exs C (s :: ss) st = ((W.bind w fun _ => w').res.map fun _ => none, st') ∧ Env bs st' ∧
    st'.io = ⟨st.io.inp, st.io.out ++ (W.bind w fun _ => w').out⟩
  unfold exs execs W.bind
  cases hw : w.res with
  | error e =>
    rw [hw] at e1
    rw [M.bind_error e1]
    exact ⟨st1, rfl, hst1, io1⟩
  | ok a =>
    rw [hw] at e1
    rw [M.bind_ok e1]
    obtain ⟨st2, e2, hst2, io2⟩ := h' st1 hst1
    exact ⟨st2, e2, hst2, by rw [io2, io1]; simp [List.append_assoc]⟩

theorem W.bind_unit (w : W Unit) : (w >>= fun _ => (pure () : W Unit)) = w := by
  show W.bind w _ = w
  unfold W.bind
  obtain ⟨o, r⟩ := w
  cases r with
  | error e => rfl
  | ok a => show W.mk (o ++ []) _ = _; rw [List.append_nil]; rfl

theorem ser_last {C : Call} {bs : List (Ident × Val)} {s : Stmt} {w : W Unit} (h : Ser1 C bs s w) : Ser C bs [s] w := by
  have := ser_cons h ser_nil
  rwa [W.bind_unit] at this

theorem ser_pass {C : Call} {bs : List (Ident × Val)} : Ser1 C bs .pass (pure ()) := fun st hst =>
  ⟨st, by unfold ex exec; rfl, hst, by
    show _ = Streams.mk _ (_ ++ [])
    rw [List.append_nil]⟩

/-- `outputStream.write_x(e)`. -/
theorem ser_write {C : Call} {bs : List (Ident × Val)} {m : Ident} {e : Expr} {v : Val} {f : Val → W Unit} {w : W Unit}
    (he : Gives C bs e v) (ho : look I.outputStream bs = some .out) (hm : look m streams.writes = some f)
    (hw : f v = w) : Ser1 C bs (.expr (.method (.name I.outputStream) m [e] [])) w := fun st hst => by
  refine ⟨⟨st.locals, ⟨st.io.inp, st.io.out ++ w.out⟩⟩, ?_, hst, rfl⟩
  have h1 : ev C (.method (.name I.outputStream) m [e] []) st
      = (w.res.map fun _ => .none, ⟨st.locals, ⟨st.io.inp, st.io.out ++ w.out⟩⟩) := by
    unfold ev eval
    rw [M.bind_ok (gives_name ho st hst), M.bind_ok (args_one he hst)]
    unfold callMethod
    simp only [hm, byPosition, List.length_nil, List.take, List.length_cons]
    rw [hw]
    have : M.writing w st = (w.res, ⟨st.locals, ⟨st.io.inp, st.io.out ++ w.out⟩⟩) := rfl
    cases hr : w.res with
    | error x => rw [hr] at this; exact M.bind_error this
    | ok a => rw [hr] at this; exact M.bind_ok this
  unfold ex exec
  cases hr : w.res with
  | error x => rw [hr] at h1; exact M.bind_error h1
  | ok a => rw [hr] at h1; exact M.bind_ok h1

/-- `serialize` of the object, found from the class `c` on, writes what `w` writes, and leaves the object as it is. -/
def Serializes (C : Call) (c : Ident) (v : Val) (w : W Unit) : Prop :=
  ∀ io : Streams, C c I.serialize v [.out] [] io = (w.res.map fun _ => .none, v, ⟨io.inp, io.out ++ w.out⟩)

/-- `x.m(...)` for an object in a variable. -/
theorem method_of_var {C : Call} {x m c : Ident} {fs : List (Ident × Val)} {args : List Val} {kws : List (Ident × Val)}
    {st : St} {r : Except PyErr Val} {v' : Val} {io : Streams} (h : C c m (.obj c fs) args kws st.io = (r, v', io)) :
    callMethod program words streams C (.name x) (.obj c fs) m args kws st = (r, ⟨put x v' st.locals, io⟩) := by
  show (match C c m (.obj c fs) args kws st.io with
    | (r, v', io) => match putBack program (.name x) v' { st with io } with
      | (.ok _, st') => (r, st')
      | (.error x, st') => (.error x, st')) = _
  rw [h]
  rfl

/-- `x.f.m(...)` for an object in an attribute. -/
theorem method_of_attr {C : Call} {x f m c k : Ident} {fs gs : List (Ident × Val)} {args : List Val}
    {kws : List (Ident × Val)} {st : St} {r : Except PyErr Val} {v' : Val} {io : Streams}
    (h : C c m (.obj c fs) args kws st.io = (r, v', io)) (hx : look x st.locals = some (.obj k gs))
    (hp : isProperty program k f = false) :
    callMethod program words streams C (.attr (.name x) f) (.obj c fs) m args kws st
      = (r, ⟨put x (.obj k (put f v' gs)) st.locals, io⟩) := by
  show (match C c m (.obj c fs) args kws st.io with
    | (r, v', io) => match putBack program (.attr (.name x) f) v' { st with io } with
      | (.ok _, st') => (r, st')
      | (.error x, st') => (.error x, st')) = _
  rw [h]
  have : putBack program (.attr (.name x) f) v' ⟨st.locals, io⟩
      = (.ok (), ⟨put x (.obj k (put f v' gs)) st.locals, io⟩) := store_attr (st := ⟨st.locals, io⟩) hx hp
  show (match putBack program (.attr (.name x) f) v' (⟨st.locals, io⟩ : St) with
      | (.ok _, st') => (r, st')
      | (.error x, st') => (.error x, st')) = _
  generalize putBack program (.attr (.name x) f) v' (⟨st.locals, io⟩ : St) = q at this
  subst this
  rfl

/-- `x.serialize(outputStream)` for a variable `x`. -/
theorem ser_var {C : Call} {bs : List (Ident × Val)} {x c : Ident} {fs : List (Ident × Val)} {w : W Unit}
    (hx : look x bs = some (.obj c fs)) (ho : look I.outputStream bs = some .out) (hs : Serializes C c (.obj c fs) w) :
    Ser1 C bs (.expr (.method (.name x) I.serialize [.name I.outputStream] [])) w := fun st hst => by
  refine ⟨⟨put x (.obj c fs) st.locals, ⟨st.io.inp, st.io.out ++ w.out⟩⟩, ?_, hst.again hx _, rfl⟩
  have h1 : ev C (.method (.name x) I.serialize [.name I.outputStream] []) st
      = (w.res.map fun _ => .none, ⟨put x (.obj c fs) st.locals, ⟨st.io.inp, st.io.out ++ w.out⟩⟩) := by
    unfold ev eval
    rw [M.bind_ok (gives_name hx st hst), M.bind_ok (args_one (gives_name ho) hst)]
    exact method_of_var (hs st.io)
  unfold ex exec
  cases hr : w.res with
  | error x => rw [hr] at h1; exact M.bind_error h1
  | ok a => rw [hr] at h1; exact M.bind_ok h1

/-- `self.f.serialize(outputStream)`. -/
theorem ser_call {C : Call} {bs : List (Ident × Val)} {x f c k : Ident} {gs fs : List (Ident × Val)} {w : W Unit}
    (hx : look x bs = some (.obj k gs)) (hp : isProperty program k f = false) (hf : look f gs = some (.obj c fs))
    (hsame : put f (.obj c fs) gs = gs)
    (ho : look I.outputStream bs = some .out) (hs : Serializes C c (.obj c fs) w) :
    Ser1 C bs (.expr (.method (.attr (.name x) f) I.serialize [.name I.outputStream] [])) w := fun st hst => by
  refine ⟨⟨put x (.obj k gs) st.locals, ⟨st.io.inp, st.io.out ++ w.out⟩⟩, ?_, hst.again hx _, rfl⟩
  have h1 : ev C (.method (.attr (.name x) f) I.serialize [.name I.outputStream] []) st
      = (w.res.map fun _ => .none, ⟨put x (.obj k gs) st.locals, ⟨st.io.inp, st.io.out ++ w.out⟩⟩) := by
    unfold ev eval
    rw [M.bind_ok (gives_attr (gives_name hx) hp hf st hst), M.bind_ok (args_one (gives_name ho) hst)]
    have := method_of_attr (x := x) (hs st.io) (hst.1 _ _ hx) hp
    rw [hsame] at this
    exact this
  unfold ex exec
  cases hr : w.res with
  | error x => rw [hr] at h1; exact M.bind_error h1
  | ok a => rw [hr] at h1; exact M.bind_ok h1

/-- `super(c, self).m(...)` and `super().m(...)`. -/
theorem super_of {C : Call} {bs : List (Ident × Val)} {oc : Option Ident} {c b k m : Ident} {K : Class}
    {gs : List (Ident × Val)} {es : List Expr} {vs : List Val} {st : St} {r : Except PyErr Val} {v' : Val} {io : Streams}
    (hst : Env bs st) (hx : look I.self bs = some (.obj k gs))
    (hoc : oc = some c ∨ oc = none ∧ look I.__class__ bs = some (.cls c))
    (hK : look c program = some K) (hb : K.base = some b)
    (hes : evalList program words streams C es st = (.ok vs, st)) (h : C b m (.obj k gs) vs [] st.io = (r, v', io)) :
    ev C (.super oc m es []) st = (r, ⟨put I.self v' st.locals, io⟩) := by
  unfold ev eval
  have h0 : (match oc with
      | some c => global program c
      | .none => (M.var? words.cls >>= fun o => M.get unsupported o)) st = (.ok (.cls c), st) := by
    rcases hoc with rfl | ⟨rfl, hc⟩
    · unfold global
      have : M.var? c st = (.ok none, st) := by
        unfold M.var?; rw [hst.2 c (isClass_of (by rw [hK]; rfl))]
      show (M.var? c >>= _) st = _
      rw [M.bind_ok this]
      show (match look c program with
        | some _ => pure (.cls c)
        | .none => M.throw .nameError : M Val) st = _
      rw [hK]; rfl
    · have : M.var? words.cls st = (.ok (some (.cls c)), st) := by
        unfold M.var?; rw [show words.cls = I.__class__ from rfl, hst.1 _ _ hc]
      show (M.var? words.cls >>= _) st = _
      rw [M.bind_ok this]; rfl
  have hvs : byPosition vs [] = vs := by unfold byPosition; simp
  have h1 : ∀ kws, kws = ([] : List (Ident × Val)) →
      callSuper program words C (.cls c) m (byPosition vs []) kws st = (r, ⟨put I.self v' st.locals, io⟩) := by
    rintro _ rfl
    rw [hvs]
    have hbase : baseOf program (.cls c) = some b := by
      show (match look c program with | some k => k.base | .none => .none) = _
      rw [hK]; exact hb
    unfold callSuper
    rw [hbase]
    have hv : M.var? I.self st = (.ok (some (.obj k gs)), st) := by unfold M.var?; rw [hst.1 _ _ hx]
    refine (M.bind_ok hv).trans ((M.bind_ok (p := M.get .nameError (some (Val.obj k gs))) (a := Val.obj k gs) rfl).trans ?_)
    show (match C b m (.obj k gs) vs [] st.io with
      | (r, self', io) => (r, St.mk (put I.self self' st.locals) io)) = _
    rw [h]
  cases oc with
  | none =>
    exact (M.bind_ok h0).trans ((M.bind_ok hes).trans (h1 _ rfl))
  | some d =>
    exact (M.bind_ok h0).trans ((M.bind_ok hes).trans (h1 _ rfl))

/-- `super(c, self).serialize(outputStream)` and `super().serialize(outputStream)`. -/
theorem ser_super {C : Call} {bs : List (Ident × Val)} {oc : Option Ident} {c b k : Ident} {K : Class}
    {gs : List (Ident × Val)} {w : W Unit} (hx : look I.self bs = some (.obj k gs))
    (hoc : oc = some c ∨ oc = none ∧ look I.__class__ bs = some (.cls c))
    (hK : look c program = some K) (hb : K.base = some b)
    (ho : look I.outputStream bs = some .out) (hs : Serializes C b (.obj k gs) w) :
    Ser1 C bs (.expr (.super oc I.serialize [.name I.outputStream] [])) w := fun st hst => by
  refine ⟨⟨put I.self (.obj k gs) st.locals, ⟨st.io.inp, st.io.out ++ w.out⟩⟩, ?_, hst.again hx _, rfl⟩
  have h1 := super_of hst hx hoc hK hb (args_one (gives_name ho) hst) (hs st.io)
  unfold ex exec
  cases hr : w.res with
  | error x => rw [hr] at h1; exact M.bind_error h1
  | ok a => rw [hr] at h1; exact M.bind_ok h1

/-- As `Gives`, but the variables may have been written with the values they had. -/
def Goes (C : Call) (bs : List (Ident × Val)) (e : Expr) (v : Val) : Prop :=
  ∀ st, Env bs st → ∃ L, ev C e st = (.ok v, ⟨L, st.io⟩) ∧ Env bs ⟨L, st.io⟩

theorem Gives.goes {C : Call} {bs : List (Ident × Val)} {e : Expr} {v : Val} (h : Gives C bs e v) : Goes C bs e v :=
  fun st hst => ⟨st.locals, h st hst, hst⟩

/-- `for x in e: body`. -/
theorem ser_for_goes {C : Call} {bs : List (Ident × Val)} {x : Ident} {e : Expr} {body : List Stmt} {α : Type} {l : List α}
    {v : α → Val} {w : α → W Unit} (he : Goes C bs e (.list (l.map v))) (hx : isClass x = false) (hb : look x bs = none)
    (h : ∀ a ∈ l, Ser C ((x, v a) :: bs) body (w a)) : Ser1 C bs (.for x e body) (W.forEach l w) := by
  have key : ∀ l : List α, (∀ a ∈ l, Ser C ((x, v a) :: bs) body (w a)) → ∀ st, Env bs st →
      ∃ st', loop x (exs C body) (l.map v) st = ((W.forEach l w).res.map fun _ => none, st') ∧ Env bs st' ∧
        st'.io = ⟨st.io.inp, st.io.out ++ (W.forEach l w).out⟩ := by
    intro l
    induction l with
    | nil =>
      intro _ st hst
      exact ⟨st, rfl, hst, by show _ = Streams.mk _ (_ ++ []); rw [List.append_nil]⟩
    | cons a l ih =>
      intro h st hst
      obtain ⟨st1, e1, hst1, io1⟩ := h a (by simp) _ (hst.set x (v a) hx st.io)
      show ∃ st', (M.setVar x (v a) >>= fun _ => exs C body >>= fun r => match r with
          | some r => pure (some r)
          | .none => loop x (exs C body) (l.map v)) st = ((W.bind (w a) fun _ => W.forEach l w).res.map fun _ => none, st') ∧
        Env bs st' ∧ st'.io = ⟨st.io.inp, st.io.out ++ (W.bind (w a) fun _ => W.forEach l w).out⟩
      have h0 : M.setVar x (v a) st = (.ok (), ⟨put x (v a) st.locals, st.io⟩) := rfl
      rw [M.bind_ok h0]
      unfold W.bind
      cases hw : (w a).res with
      | error e =>
        rw [hw] at e1
        rw [M.bind_error e1]
        exact ⟨st1, rfl, hst1.drop hb, io1⟩
      | ok _ =>
        rw [hw] at e1
        rw [M.bind_ok e1]
        obtain ⟨st2, e2, hst2, io2⟩ := ih (fun b hb => h b (List.mem_cons_of_mem _ hb)) st1 (hst1.drop hb)
        exact ⟨st2, e2, hst2, by rw [io2, io1]; simp [List.append_assoc]⟩
  intro st hst
  obtain ⟨L, e0, hst0⟩ := he st hst
  obtain ⟨st', e1, h1⟩ := key l h _ hst0
  refine ⟨st', ?_, h1⟩
  unfold ex exec
  rw [M.bind_ok e0]
  show ((pure (l.map v) : M _) >>= _) _ = _
  rw [M.bind_ok (M.pure_def _ _)]
  exact e1

theorem ser_for {C : Call} {bs : List (Ident × Val)} {x : Ident} {e : Expr} {body : List Stmt} {α : Type} {l : List α}
    {v : α → Val} {w : α → W Unit} (he : Gives C bs e (.list (l.map v))) (hx : isClass x = false) (hb : look x bs = none)
    (h : ∀ a ∈ l, Ser C ((x, v a) :: bs) body (w a)) : Ser1 C bs (.for x e body) (W.forEach l w) :=
  ser_for_goes he.goes hx hb h

theorem forRange_eq (w : Nat → W Unit) : ∀ i n, W.forRange i n w = W.forEach (List.range' i n) w
  | _, 0 => rfl
  | i, n + 1 => by
    show (w i >>= fun _ => W.forRange (i + 1) n w) = (w i >>= fun _ => W.forEach (List.range' (i + 1) n) w)
    rw [forRange_eq w (i + 1) n]

/-- `outputStream.write_x(e[i])`, also beyond the end of the list. -/
theorem ser_index {C : Call} {bs : List (Ident × Val)} {m : Ident} {e i : Expr} {α : Type} {l : List α} {inj : α → Val}
    {k : Nat} {f : Val → W Unit} {w : α → W Unit}
    (he : Gives C bs e (.list (l.map inj))) (hi : Gives C bs i (.int k)) (ho : look I.outputStream bs = some .out)
    (hm : look m streams.writes = some f) (hw : ∀ a, f (inj a) = w a) :
    Ser1 C bs (.expr (.method (.name I.outputStream) m [.index e i] [])) (W.using (index l k) w) := by
  unfold index
  cases hl : l[k]? with
  | some a =>
    exact ser_write (gives_index he hi (by rw [List.getElem?_map, hl]; rfl)) ho hm (hw a)
  | none =>
    intro st hst
    refine ⟨st, ?_, hst, by show _ = Streams.mk _ (_ ++ []); rw [List.append_nil]⟩
    have h1 : ev C (.index e i) st = (.error .indexError, st) := by
      unfold ev eval
      rw [M.bind_ok (he st hst), M.bind_ok (hi st hst)]
      show (if (k : Int) < 0 then M.throw unsupported else M.get .indexError (l.map inj)[(k : Int).toNat]?) st = _
      rw [if_neg (by omega), Int.toNat_natCast, List.getElem?_map, hl]
      rfl
    have h2 : evalList program words streams C [.index e i] st = (.error .indexError, st) := by
      unfold evalList
      exact M.bind_error h1
    have h3 : ev C (.method (.name I.outputStream) m [.index e i] []) st = (.error .indexError, st) := by
      unfold ev eval
      exact (M.bind_ok (gives_name ho st hst)).trans (M.bind_error h2)
    unfold ex exec
    exact M.bind_error h3

/-- `for x in range(a, b): body`, the elements being counted from zero. -/
theorem ser_range {C : Call} {bs : List (Ident × Val)} {x : Ident} {e : Expr} {body : List Stmt} {n : Nat}
    {w : Nat → W Unit} (he : Gives C bs e (.list ((List.range n).map fun (i : Nat) => .int (i : Int))))
    (hx : isClass x = false) (hb : look x bs = none)
    (h : ∀ i : Nat, Ser C ((x, .int i) :: bs) body (w i)) : Ser1 C bs (.for x e body) (W.forRange 0 n w) := by
  rw [forRange_eq, ← List.range_eq_range']
  exact ser_for (v := fun (i : Nat) => .int (i : Int)) he hx hb fun i _ => h i

theorem ser_range_goes {C : Call} {bs : List (Ident × Val)} {x : Ident} {e : Expr} {body : List Stmt} {n : Nat}
    {w : Nat → W Unit} (he : Goes C bs e (.list ((List.range n).map fun (i : Nat) => .int (i : Int))))
    (hx : isClass x = false) (hb : look x bs = none)
    (h : ∀ i : Nat, Ser C ((x, .int i) :: bs) body (w i)) : Ser1 C bs (.for x e body) (W.forRange 0 n w) := by
  rw [forRange_eq, ← List.range_eq_range']
  exact ser_for_goes (v := fun (i : Nat) => .int (i : Int)) he hx hb fun i _ => h i

/-- `for x in e: x.serialize(outputStream)`, where the elements are no objects. -/
theorem ser_no_method {C : Call} {bs : List (Ident × Val)} {x : Ident} {v : Val} (hx : look x bs = some v)
    (hv : ∀ (args : List Val) (st : St),
      callMethod program words streams C (.name x) v I.serialize args [] st = (.error .attributeError, st))
    (ho : look I.outputStream bs = some .out) :
    Ser1 C bs (.expr (.method (.name x) I.serialize [.name I.outputStream] [])) (W.throw .attributeError) :=
  fun st hst => by
  refine ⟨st, ?_, hst, by show _ = Streams.mk _ (_ ++ []); rw [List.append_nil]⟩
  have h3 : ev C (.method (.name x) I.serialize [.name I.outputStream] []) st = (.error .attributeError, st) := by
    unfold ev eval
    exact (M.bind_ok (gives_name hx st hst)).trans ((M.bind_ok (args_one (gives_name ho) hst)).trans (hv _ _))
  unfold ex exec
  exact M.bind_error h3

/-- `range(0, n)`. -/
theorem gives_range0 {C : Call} {bs : List (Ident × Val)} {b : Expr} {n : Int} (h : Gives C bs b (.int n)) :
    Gives C bs (.call I.range [.int 0, b] []) (.list ((List.range n.toNat).map fun (k : Nat) => .int (k : Int))) := by
  have := gives_range (gives_int (C := C) (bs := bs) (v := 0)) h
  simpa using this

/-- A method found in a class. -/
theorem run_method {n : Nat} {c m d : Ident} {f : Method} {v : Val} {args : List Val} {kws : List (Ident × Val)}
    {io : Streams} {env : List (Ident × Val)} {r : Except PyErr (Option Val)} {st : St} {v' : Val}
    (hm : method program c m = some (d, f))
    (hb : bindParams f.params args kws (put I.self v (put I.__class__ (.cls d) [])) = some env)
    (h : exs (run n) f.body ⟨env, io⟩ = (r, st)) (hv : look I.self st.locals = some v') :
    run (n + 1) c m v args kws io = (r.map fun o => o.getD .none, v', st.io) := by
  unfold run methods
  simp only [hm]
  have hb' : bindParams f.params args kws (put words.self v (put words.cls (.cls d) [])) = some env := hb
  simp only [hb']
  have h' : execs program words streams (methods program words streams n) f.body ⟨env, io⟩ = (r, st) := h
  simp only [h']
  have hv' : look words.self st.locals = some v' := hv
  cases r <;> simp [hv', Except.map]

/-- The variables when a method begins. -/
abbrev start (d : Ident) (v : Val) (ps : List (Ident × Val)) : List (Ident × Val) :=
  (I.self, v) :: (I.__class__, .cls d) :: ps

/-- `X.serialize`, from its statements. -/
theorem serializes_of {n : Nat} {c d : Ident} {f : Method} {v : Val} {w : W Unit}
    (hm : method program c I.serialize = some (d, f)) (hp : f.params = [(I.outputStream, none)])
    (h : Ser (run n) (start d v [(I.outputStream, .out)]) f.body w) : Serializes (run (n + 1)) c v w := fun io => by
  have henv : Env (start d v [(I.outputStream, .out)]) ⟨start d v [(I.outputStream, .out)], io⟩ := by
    refine ⟨fun _ _ h => h, fun x hx => ?_⟩
    have h1 : ∀ y, isClass y = false → Nat.beq y x = false := fun y hy => by
      cases e : Nat.beq y x with
      | false => rfl
      | true => rw [Nat.eq_of_beq_eq_true e, hx] at hy; cases hy
    show look x (start d v [(I.outputStream, .out)]) = none
    simp only [look, h1 I.self (by decide +kernel), h1 I.__class__ (by decide +kernel),
      h1 I.outputStream (by decide +kernel)]
  obtain ⟨st', e1, h1, h2⟩ := h _ henv
  have := run_method (args := [.out]) (kws := []) hm (by rw [hp]; rfl) e1 (h1.1 I.self v rfl)
  rw [this, h2]
  cases w.res <;> rfl

/-- A property that returns the value of an expression. -/
theorem property_of {n : Nat} {c d m : Ident} {f : Method} {e : Expr} {u v : Val}
    (hm : method program c m = some (d, f)) (hp : f.params = []) (hf : f.body = [.ret e])
    (h : Gives (run n) (start d v []) e u) (io : Streams) : run (n + 1) c m v [] [] io = (.ok u, v, io) := by
  have henv : Env (start d v []) ⟨start d v [], io⟩ := by
    refine ⟨fun _ _ h => h, fun x hx => ?_⟩
    have h1 : ∀ y, isClass y = false → Nat.beq y x = false := fun y hy => by
      cases e : Nat.beq y x with
      | false => rfl
      | true => rw [Nat.eq_of_beq_eq_true e, hx] at hy; cases hy
    show look x (start d v []) = none
    simp only [look, h1 I.self (by decide +kernel), h1 I.__class__ (by decide +kernel)]
  have h0 : exs (run n) f.body ⟨start d v [], io⟩ = (.ok (some u), ⟨start d v [], io⟩) := by
    rw [hf]
    unfold exs execs exec
    rw [bind_def]; unfold M.bind
    rw [bind_def]; unfold M.bind
    have := h _ henv
    unfold ev at this
    rw [this]; rfl
  exact run_method (args := []) (kws := []) hm (by rw [hp]; rfl) h0 (v' := v) rfl

end Dis.Src
