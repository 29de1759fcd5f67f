import Verif.Proof.SourceDirected
import Verif.Source.EncodeRadio

/-!
# Reasoning about the syntax trees: branches, and the records of a radio
-/

namespace Dis.Src

theorem var_radio : isClass I.radio = false := by decide +kernel

/-! ## Branches -/

theorem exec_truth {C : Call} {e : Expr} {ys ns : List Stmt} {v : Val} {q : Bool} {st : St} (h : ev C e st = (.ok v, st))
    (hq : truth v = q) : ex C (.ite e ys ns) st = exs C (cond q ys ns) st := by
  unfold ex exec
  refine (M.bind_ok h).trans ?_
  subst hq
  cases truth v <;> rfl

/-- What the statements after a block do, given how the block ended. -/
def after (C : Call) (ss : List Stmt) : Except PyErr (Option Val) × St → Except PyErr (Option Val) × St
  | (.error e, st) => (.error e, st)
  | (.ok (some v), st) => (.ok (some v), st)
  | (.ok none, st) => exs C ss st

theorem exs_step {C : Call} (s : Stmt) (ss : List Stmt) (st : St) : exs C (s :: ss) st = after C ss (ex C s st) := by
  rcases h : ex C s st with ⟨e | _ | v, st1⟩
  · exact exs_cons_error h
  · exact (exs_cons_ok h rfl)
  · unfold exs execs
    exact (M.bind_ok h).trans rfl

theorem exs_append {C : Call} (ss : List Stmt) : ∀ (ys : List Stmt) (st : St),
    exs C (ys ++ ss) st = after C ss (exs C ys st)
  | [], st => by
    have : exs C [] st = (.ok none, st) := exs_nil
    rw [this]; rfl
  | s :: ys, st => by
    rw [List.cons_append, exs_step, exs_step]
    rcases ex C s st with ⟨e | _ | v, st1⟩
    · rfl
    · exact exs_append ss ys st1
    · rfl

theorem exs_branch {C : Call} {e : Expr} {ys ns ss : List Stmt} {v : Val} {q : Bool} {st : St} (h : ev C e st = (.ok v, st))
    (hq : truth v = q) : exs C (.ite e ys ns :: ss) st = exs C (cond q ys ns ++ ss) st := by
  rw [exs_append, exs_step, exec_truth h hq]

/-- `if e: ... else: ...`, where the branch may depend on the object. -/
theorem par_ite {σ : Type} {C : Call} {k : Ident} {gs : σ → List (Ident × Val)} {Q : σ → Prop} {bs : List (Ident × Val)}
    {e : Expr} {ys ns ss : List Stmt} {p : P σ Unit}
    (h : ∀ x, Q x → ∃ q p', Gives C ((I.self, .obj k (gs x)) :: bs) e (.bool q) ∧
      Par C k gs (fun y => y = x) bs (cond q ys ns ++ ss) p' ∧ ∀ s, p x s = p' x s) :
    Par C k gs Q bs (.ite e ys ns :: ss) p := fun x hx st hst => by
  obtain ⟨q, p', he, h1, h2⟩ := h x hx
  obtain ⟨st', e1, l1, io1⟩ := h1 x rfl st hst
  refine ⟨st', ?_, ?_, ?_⟩
  · rw [h2, ← e1]; exact exs_branch (he st hst) rfl
  · rw [h2]; exact l1
  · rw [h2]; exact io1

/-- The same where the branch does not depend on the object. -/
theorem par_if {σ : Type} {C : Call} {k : Ident} {gs : σ → List (Ident × Val)} {Q : σ → Prop} {bs : List (Ident × Val)}
    {e : Expr} {ys ns ss : List Stmt} {p : P σ Unit} (q : Bool)
    (he : ∀ x, Q x → Gives C ((I.self, .obj k (gs x)) :: bs) e (.bool q))
    (h : Par C k gs Q bs (cond q ys ns ++ ss) p) : Par C k gs Q bs (.ite e ys ns :: ss) p := fun x hx st hst => by
  obtain ⟨st', e1, l1, io1⟩ := h x hx st hst
  exact ⟨st', (exs_branch (he x hx st hst) rfl).trans e1, l1, io1⟩

theorem gives_cmp {C : Call} {bs : List (Ident × Val)} {op : Cmp} {a b : Expr} {u v w : Val}
    (h : Gives C bs a u) (h' : Gives C bs b v) (hw : ∀ st, compare op u v st = (.ok w, st)) :
    Gives C bs (.cmp op a b) w := fun st hst => by
  unfold ev eval
  rw [M.bind_ok (h st hst), M.bind_ok (h' st hst), hw]

theorem gives_new {C : Call} {bs : List (Ident × Val)} {c : Ident} {v : Val} (h : Makes C c v) :
    Gives C bs (.call c [] []) v := fun _ hst => eval_new h hst

theorem gives_none {C : Call} {bs : List (Ident × Val)} : Gives C bs .none .none := fun st _ => by
  unfold ev eval; rfl

/-- `parse` with these arguments ends like `r` does, and if it ends well, with the object that `r` reads. -/
def Yields {τ : Type} (C : Call) (c : Ident) (fs : List (Ident × Val)) (args : List Val) (kws : List (Ident × Val))
    (enc : τ → Val) (r : R τ) : Prop :=
  ∀ io, ∃ v', C c I.parse (.obj c fs) args kws io = ((r io.inp).1.map fun _ => .none, v', ⟨(r io.inp).2, io.out⟩) ∧
    ∀ y, (r io.inp).1 = .ok y → v' = enc y

theorem yields_of {σ τ : Type} {C : Call} {c : Ident} {gs : σ → List (Ident × Val)} {args : List Val}
    {kws : List (Ident × Val)} {p : P σ Unit} {x : σ} {r : R σ} {inj : σ → τ} {enc : τ → Val}
    (h : ParsesBy C c c gs args kws p) (hr : P.run p x = r) (hi : ∀ y, enc (inj y) = .obj c (gs y)) :
    Yields C c (gs x) args kws enc (r >>= fun y => pure (inj y)) := fun io => by
  have h0 := h x io
  subst hr
  have key : (P.run p x >>= fun y => (pure (inj y) : R τ)) io.inp = (match p x io.inp with
      | (.ok _, y, s) => (.ok (inj y), s)
      | (.error e, _, s) => (.error e, s)) := by
    show R.bind (P.run p x) (fun y => pure (inj y)) io.inp = _
    unfold R.bind P.run
    rcases p x io.inp with ⟨_ | _, y, s⟩ <;> rfl
  refine ⟨.obj c (gs (p x io.inp).2.1), ?_, ?_⟩
  · rw [h0, key]
    rcases p x io.inp with ⟨_ | _, y, s⟩ <;> rfl
  · rw [key]
    rcases p x io.inp with ⟨_ | _, y, s⟩
    · exact fun y h => by cases h
    · intro z hz
      have : inj y = z := by cases hz; rfl
      rw [← this]
      exact (hi y).symm

/-- `y = T()`, `y.parse(...)`, `self.f = y`. -/
theorem par_load {σ τ : Type} {C : Call} {k c f y : Ident} {gs : σ → List (Ident × Val)} {Q Q' : σ → Prop}
    {bs : List (Ident × Val)} {es : List Expr} {ks : List Ident} {vs : List Val} {ss : List Stmt} {fs : List (Ident × Val)}
    {enc : τ → Val} {r : R τ} {u : τ → σ → σ} {p : P σ Unit}
    (hm : Makes C c (.obj c fs)) (hr : Yields C c fs (byPosition vs ks) (byName vs ks) enc r)
    (hes : ∀ x v, GivesAll C ((y, v) :: (I.self, .obj k (gs x)) :: bs) es vs)
    (hy : isClass y = false) (hys : Nat.beq y I.self = false) (hyb : look y bs = none)
    (hp : isProperty program k f = false) (hu : ∀ x v, put f (enc v) (gs x) = gs (u v x))
    (hq : ∀ x v, Q x → Q' (u v x)) (h : Par C k gs Q' bs ss p) :
    Par C k gs Q bs (.assign (.name y) (.call c [] []) :: .expr (.method (.name y) I.parse es ks) ::
        .assign (.attr (.name I.self) f) (.name y) :: ss) (P.read r >>= fun v => P.set (u v) >>= fun _ => p) := by
  intro x hx st hst
  have hyb' := look_cons_ne (v := Val.obj k (gs x)) hys hyb
  have a1 := exec_var (x := y) (eval_new (bs := (I.self, .obj k (gs x)) :: bs) hm hst)
  have e1 := hst.set y (.obj c fs) hy st.io
  have hy1 : look y (put y (Val.obj c fs) st.locals) = some (.obj c fs) := look_put_same _ _ _
  generalize put y (Val.obj c fs) st.locals = L1 at a1 e1 hy1
  obtain ⟨v', a2, hv'⟩ := hr st.io
  have a3 := eval_method (kws := ks) (eval_local (C := C) (st := ⟨L1, st.io⟩) hy1) (hes x _ _ e1)
    (method_of_var (x := y) (st := ⟨L1, st.io⟩) a2)
  have e2 := (e1.replace v' hy ⟨(r st.io.inp).2, st.io.out⟩).drop hyb'
  have hy2 : look y (put y v' L1) = some v' := look_put_same _ _ _
  generalize put y v' L1 = L2 at a3 e2 hy2
  show ∃ st' : St, _ = ((P.bind (P.read r) (fun v => P.bind (P.set (u v)) fun _ => p) x st.io.inp).1.map fun _ => none, st') ∧
    look I.self st'.locals = some (.obj k (gs (P.bind (P.read r) (fun v => P.bind (P.set (u v)) fun _ => p) x st.io.inp).2.1)) ∧
    st'.io = ⟨(P.bind (P.read r) (fun v => P.bind (P.set (u v)) fun _ => p) x st.io.inp).2.2, st.io.out⟩
  unfold P.bind P.read
  rcases hr : r st.io.inp with ⟨e | v, s'⟩
  · rw [hr] at a3 e2
    refine ⟨_, exs_cons_ok a1 (exs_cons_error (?_ : ex C _ _ = (.error e, ⟨L2, ⟨s', st.io.out⟩⟩))), e2.1 _ _ rfl, rfl⟩
    unfold ex exec
    exact M.bind_error a3
  · obtain rfl := hv' v (by rw [hr])
    rw [hr] at a3 e2
    have a4 : ex C (.expr (.method (.name y) I.parse es ks)) ⟨L1, st.io⟩ = (.ok none, ⟨L2, ⟨s', st.io.out⟩⟩) := by
      unfold ex exec
      exact (M.bind_ok a3).trans rfl
    have a5 := exec_assign (C := C) (f := f) (eval_local (C := C) (st := ⟨L2, ⟨s', st.io.out⟩⟩) hy2) (e2.1 I.self _ rfl) hp
    rw [hu] at a5
    obtain ⟨st', b1, l1, io1⟩ := h (u v x) (hq x v hx) _ (e2.replace (.obj k (gs (u v x))) self_plain ⟨s', st.io.out⟩)
    exact ⟨st', exs_cons_ok a1 (exs_cons_ok a4 (exs_cons_ok a5 b1)), l1, io1⟩

/-- `self.f.parse(...)`, when the attribute has been assigned before. -/
theorem par_call_by {σ τ : Type} {C : Call} {k c f : Ident} {gs : σ → List (Ident × Val)} {Q Q' : σ → Prop}
    {bs : List (Ident × Val)} {es : List Expr} {ks : List Ident} {vs : List Val} {ss : List Stmt}
    {hs : τ → List (Ident × Val)} {a : Attr σ τ} {q : P τ Unit} {p : P σ Unit}
    (hparse : ParsesBy C c c hs (byPosition vs ks) (byName vs ks) q)
    (hes : ∀ x, GivesAll C ((I.self, .obj k (gs x)) :: bs) es vs)
    (hp : isProperty program k f = false) (hf : ∀ x, Q x → look f (gs x) = some (.obj c (hs (a.get x))))
    (hu : ∀ x t, put f (.obj c (hs t)) (gs x) = gs (a.put x t)) (hq : ∀ x t, Q x → Q' (a.put x t))
    (h : Par C k gs Q' bs ss p) :
    Par C k gs Q bs (.expr (.method (.attr (.name I.self) f) I.parse es ks) :: ss) (P.call a q >>= fun _ => p) := by
  refine par_cons (vs := fun _ => []) (Q' := fun _ => Q') (fun x hx st hst => ?_) (fun _ => h)
  have hself : Gives C ((I.self, .obj k (gs x)) :: bs) (.name I.self) (.obj k (gs x)) := gives_name rfl
  have h0 := method_of_attr (x := I.self) (hparse (a.get x) st.io) (hst.1 _ _ rfl) hp
  have he := eval_method (kws := ks) (gives_attr hself hp (hf x hx) st hst) (hes x st hst) h0
  rw [hu] at he
  unfold P.call
  rcases hr : q (a.get x) st.io.inp with ⟨e | v, t, s'⟩
  · rw [hr] at he
    refine ⟨⟨put I.self (.obj k (gs (a.put x t))) st.locals, ⟨s', st.io.out⟩⟩, ?_, look_put_same _ _ _, rfl,
      fun a ha => by cases ha⟩
    unfold ex exec
    exact M.bind_error he
  · rw [hr] at he
    refine ⟨⟨put I.self (.obj k (gs (a.put x t))) st.locals, ⟨s', st.io.out⟩⟩, ?_, look_put_same _ _ _, rfl,
      fun a ha => ?_⟩
    · unfold ex exec
      exact (M.bind_ok he).trans rfl
    · exact ⟨hst.replace _ self_plain _, hq _ _ hx⟩

/-- `if self.f: self.f.serialize(outputStream)`. -/
theorem ser_when {α : Type} {C : Call} {bs : List (Ident × Val)} {f k : Ident} {gs : List (Ident × Val)} {o : Option α}
    {cls : α → Ident} {fs : α → List (Ident × Val)} {w : α → W Unit}
    (hx : look I.self bs = some (.obj k gs)) (hp : isProperty program k f = false)
    (hn : o = none → look f gs = some .none)
    (hf : ∀ a, o = some a → look f gs = some (.obj (cls a) (fs a)) ∧ put f (.obj (cls a) (fs a)) gs = gs)
    (ho : look I.outputStream bs = some .out) (hs : ∀ a, Serializes C (cls a) (.obj (cls a) (fs a)) (w a)) :
    Ser1 C bs (.ite (.attr (.name I.self) f) [.expr (.method (.attr (.name I.self) f) I.serialize [.name I.outputStream] [])] [])
      (W.whenSome o w) := by
  intro st hst
  cases o with
  | none =>
    obtain ⟨st', e1, h1⟩ := ser_nil (C := C) st hst
    exact ⟨st', (exec_truth (gives_attr (gives_name hx) hp (hn rfl) st hst) rfl).trans e1, h1⟩
  | some a =>
    obtain ⟨h1, h2⟩ := hf a rfl
    obtain ⟨st', e1, h3⟩ := ser_last (ser_call hx hp h1 h2 ho (hs a)) st hst
    exact ⟨st', (exec_truth (gives_attr (gives_name hx) hp h1 st hst) rfl).trans e1, h3⟩

/-- The property `self.f.marshalledSize() if self.f else 0`. -/
theorem length_of {n : Nat} {d k m f : Ident} {F : Method} {gs : List (Ident × Val)} {i : Int}
    (hm : method program k m = some (d, F)) (hps : F.params = [])
    (hF : F.body = [.ite (.attr (.name I.self) f) [.ret (.method (.attr (.name I.self) f) I.marshalledSize [] [])] [.ret (.int 0)]])
    (hp : isProperty program k f = false)
    (h : (look f gs = some .none ∧ i = 0) ∨ ∃ c fs, look f gs = some (.obj c fs) ∧ put f (.obj c fs) gs = gs ∧
      Sizes (run n) c (.obj c fs) i) (io : Streams) :
    run (n + 1) k m (.obj k gs) [] [] io = (.ok (.int i), .obj k gs, io) := by
  have hself : Gives (run n) (start d (.obj k gs) []) (.name I.self) (.obj k gs) := gives_name rfl
  have e0 := start_env0 (d := d) (v := .obj k gs) (io := io)
  rcases h with ⟨h, rfl⟩ | ⟨c, fs, h1, h2, h3⟩
  · have a1 := exec_truth (ys := [.ret (.method (.attr (.name I.self) f) I.marshalledSize [] [])]) (ns := [.ret (.int 0)])
      (gives_attr hself hp h _ e0) rfl
    have a2 : exs (run n) [.ret (.int 0)] ⟨start d (.obj k gs) [], io⟩
        = (.ok (some (.int 0)), ⟨start d (.obj k gs) [], io⟩) := by unfold exs execs exec eval; rfl
    refine run_method hm (by rw [hps]; rfl) (st := ⟨start d (.obj k gs) [], io⟩) (r := .ok (some (.int 0))) ?_ rfl
    rw [hF]
    unfold exs execs
    exact (M.bind_ok (a1.trans a2)).trans rfl
  · have a1 := exec_truth (ys := [.ret (.method (.attr (.name I.self) f) I.marshalledSize [] [])]) (ns := [.ret (.int 0)])
      (gives_attr hself hp h1 _ e0) rfl
    have b1 := method_of_attr (x := I.self) (st := ⟨start d (.obj k gs) [], io⟩) (h3 io) (e0.1 _ _ rfl) hp
    rw [h2] at b1
    have b2 := eval_method (kws := []) (gives_attr hself hp h1 _ e0) args_nil b1
    have a2 : exs (run n) [.ret (.method (.attr (.name I.self) f) I.marshalledSize [] [])] ⟨start d (.obj k gs) [], io⟩
        = (.ok (some (.int i)), ⟨put I.self (.obj k gs) (start d (.obj k gs) []), io⟩) := by
      unfold exs execs
      have : ex (run n) (.ret (.method (.attr (.name I.self) f) I.marshalledSize [] [])) ⟨start d (.obj k gs) [], io⟩
          = (.ok (some (.int i)), ⟨put I.self (.obj k gs) (start d (.obj k gs) []), io⟩) := by
        unfold ex exec
        exact (M.bind_ok b2).trans rfl
      exact (M.bind_ok this).trans rfl
    refine run_method hm (by rw [hps]; rfl) (st := ⟨put I.self (.obj k gs) (start d (.obj k gs) []), io⟩)
      (r := .ok (some (.int i))) ?_ (look_put_same _ _ _)
    rw [hF]
    unfold exs execs
    exact (M.bind_ok (a1.trans a2)).trans rfl

/-! ## The records -/

theorem par_assert {σ : Type} {C : Call} {k : Ident} {gs : σ → List (Ident × Val)} {Q : σ → Prop}
    {bs : List (Ident × Val)} {ss : List Stmt} {b : Option Int} {p : Int → P σ Unit}
    (hb : look I.bytelength bs = some (orNone b)) (h : ∀ i, b = some i → Par C k gs Q bs ss (p i)) :
    Par C k gs Q bs (.assert (.isInt (.name I.bytelength)) :: ss) (P.read (assertInt b) >>= p) := by
  intro x hx st hst
  have h1 : ev C (.isInt (.name I.bytelength)) st = (.ok (.bool (isInteger (orNone b))), st) := by
    unfold ev eval
    exact (M.bind_ok (gives_name (show look I.bytelength ((I.self, Val.obj k (gs x)) :: bs) = _ from hb) st hst)).trans rfl
  cases b with
  | none =>
    refine ⟨st, exs_cons_error ?_, hst.1 _ _ rfl, rfl⟩
    unfold ex exec
    exact (M.bind_ok h1).trans rfl
  | some i =>
    obtain ⟨st', e1, h2⟩ := h i rfl x hx st hst
    refine ⟨st', exs_cons_ok ?_ e1, h2⟩
    unfold ex exec
    exact (M.bind_ok h1).trans rfl

theorem UnknownRadio.makes (n : Nat) : Makes (run (n + 1)) I.UnknownRadio (UnknownRadio.enc {}) :=
  makes_of (p := (I.UnknownRadio, UnknownRadio.__init__)) (by decide +kernel) rfl rfl rfl (by kernel_rfl) fun _ => by kernel_rfl

theorem UnknownRadio.sizes (n : Nat) (x : Dis.UnknownRadio) :
    Sizes (run (n + 1)) I.UnknownRadio (UnknownRadio.enc x) x.marshalledSize :=
  property_of (f := UnknownRadio.marshalledSize) rfl rfl rfl (gives_len_bytes (gives_attr (gives_name rfl) (plain rfl) rfl))

theorem UnknownRadio.serializes (n : Nat) (x : Dis.UnknownRadio) :
    Serializes (run (n + 2)) I.UnknownRadio (UnknownRadio.enc x) x.serialize :=
  serializes_of (n := n + 1) (d := I.UnknownRadio) (f := UnknownRadio.serialize) rfl rfl <|
    ser_skip rfl rfl rfl rfl rfl (serializes_nothing rfl rfl rfl) <|
    ser_last (ser_write (gives_attr (gives_name rfl) (plain rfl) rfl) rfl rfl rfl)

theorem UnknownRadio.body (n : Nat) (b : Option Int) :
    Par (run (n + 2)) I.UnknownRadio UnknownRadio.fields (fun _ => True)
      [(I.__class__, .cls I.UnknownRadio), (I.inputStream, .inp), (I.bytelength, orNone b)] UnknownRadio.parse.body
      (Dis.UnknownRadio.parseInto b) :=
  par_check (variable_checks (n := n) (c := I.ModulationParametersRecord) rfl rfl rfl rfl) rfl rfl rfl rfl rfl <|
  par_assert rfl fun i hi => by
    subst hi
    exact par_bytes (fun _ _ => True) (fun _ => gives_name rfl) rfl (plain rfl) (fun _ _ => rfl) (fun _ _ _ => trivial) fun _ => par_nil

theorem UnknownRadio.parsesBy (n : Nat) (b : Int) :
    ParsesBy (run (n + 3)) I.UnknownRadio I.UnknownRadio UnknownRadio.fields [.inp] [(I.bytelength, .int b)]
      (Dis.UnknownRadio.parseInto (some b)) :=
  parses_by (f := UnknownRadio.parse) (b := orNone (some b)) rfl (fun _ => rfl) (UnknownRadio.body n (some b))

theorem UnknownAntennaPattern.makes (n : Nat) : Makes (run (n + 1)) I.UnknownAntennaPattern (UnknownAntennaPattern.enc {}) :=
  makes_of (p := (I.UnknownAntennaPattern, UnknownAntennaPattern.__init__)) (by decide +kernel) rfl rfl rfl (by kernel_rfl) fun _ => by kernel_rfl

theorem UnknownAntennaPattern.sizes (n : Nat) (x : Dis.UnknownAntennaPattern) :
    Sizes (run (n + 1)) I.UnknownAntennaPattern (UnknownAntennaPattern.enc x) x.marshalledSize :=
  property_of (f := UnknownAntennaPattern.marshalledSize) rfl rfl rfl (gives_len_bytes (gives_attr (gives_name rfl) (plain rfl) rfl))

theorem UnknownAntennaPattern.serializes (n : Nat) (x : Dis.UnknownAntennaPattern) :
    Serializes (run (n + 2)) I.UnknownAntennaPattern (UnknownAntennaPattern.enc x) x.serialize :=
  serializes_of (n := n + 1) (d := I.UnknownAntennaPattern) (f := UnknownAntennaPattern.serialize) rfl rfl <|
    ser_skip rfl rfl rfl rfl rfl (serializes_nothing rfl rfl rfl) <|
    ser_last (ser_write (gives_attr (gives_name rfl) (plain rfl) rfl) rfl rfl rfl)

theorem UnknownAntennaPattern.parsesBy (n : Nat) (b : Int) :
    ParsesBy (run (n + 3)) I.UnknownAntennaPattern I.UnknownAntennaPattern UnknownAntennaPattern.fields [.inp] [(I.bytelength, .int b)]
      (Dis.UnknownAntennaPattern.parseInto b) :=
  parses_by (f := UnknownAntennaPattern.parse) (b := .int b) rfl (fun _ => rfl) <|
    par_check (variable_checks (n := n) (b := some b) (c := I.AntennaPatternRecord) rfl rfl rfl rfl) rfl rfl rfl rfl rfl <|
    par_bytes (fun _ _ => True) (fun _ => gives_bin (gives_name rfl) gives_int fun _ => rfl) rfl (plain rfl) (fun _ _ => rfl) (fun _ _ _ => trivial) fun _ =>
    par_nil

theorem GenericRadio.makes (n : Nat) : Makes (run n) I.GenericRadio (.obj I.GenericRadio []) where
  cls := by decide +kernel
  len := rfl
  range := rfl
  list := rfl
  made _ := by kernel_rfl

theorem SimpleIntercomRadio.makes (n : Nat) : Makes (run n) I.SimpleIntercomRadio (.obj I.SimpleIntercomRadio []) where
  cls := by decide +kernel
  len := rfl
  range := rfl
  list := rfl
  made _ := by kernel_rfl

theorem mod_sizes (n : Nat) (r : Dis.ModulationParametersRecord) :
    Sizes (run (n + 1)) (modClass r) (.obj (modClass r) (modFields r)) r.marshalledSize := by
  cases r with
  | unknown r => exact UnknownRadio.sizes n r
  | generic => exact property_of (f := GenericRadio.marshalledSize) rfl rfl rfl gives_int
  | simpleIntercom => exact property_of (f := SimpleIntercomRadio.marshalledSize) rfl rfl rfl gives_int
  | haveQuick r => exact property_of (f := BasicHaveQuickMP.marshalledSize) rfl rfl rfl gives_int
  | sincgars r => exact property_of (f := CCTTSincgarsMP.marshalledSize) rfl rfl rfl gives_int

theorem mod_serializes (n : Nat) (r : Dis.ModulationParametersRecord) :
    Serializes (run (n + 2)) (modClass r) (.obj (modClass r) (modFields r)) r.serialize := by
  cases r with
  | unknown r => exact UnknownRadio.serializes n r
  | generic => exact serializes_of (f := GenericRadio.serialize) rfl rfl (ser_last ser_pass)
  | simpleIntercom => exact serializes_of (f := SimpleIntercomRadio.serialize) rfl rfl (ser_last ser_pass)
  | haveQuick r => exact BasicHaveQuickMP.serializes n r
  | sincgars r => exact CCTTSincgarsMP.serializes n r

theorem ant_sizes (n : Nat) (r : Dis.AntennaPatternRecord) :
    Sizes (run (n + 1)) (antClass r) (.obj (antClass r) (antFields r)) r.marshalledSize := by
  cases r with
  | unknown r => exact UnknownAntennaPattern.sizes n r
  | beam r => exact BeamAntennaPattern.sizes n r

theorem ant_serializes (n : Nat) (r : Dis.AntennaPatternRecord) :
    Serializes (run (n + 2)) (antClass r) (.obj (antClass r) (antFields r)) r.serialize := by
  cases r with
  | unknown r => exact UnknownAntennaPattern.serializes n r
  | beam r => exact BeamAntennaPattern.serializes n r

end Dis.Src
