import Verif.Proof.SourceRecords
import Verif.Proof.InPlaceRecords

/-!
# Reasoning about the syntax trees: the functions of the modules
-/

namespace Dis.Src

/-! ## getStandardVariableClass -/

/-- The variables of `getStandardVariableClass` when it is called (/repo/opendis/record/__init__.py:40-43). -/
abbrev getStart (t : Int) (b : SVBase) : List (Ident × Val) :=
  start I.__module__ .none [(I.recordType, .int t), (I.expectedType, .cls (baseClass b))]

/-- The same with the class made in the call (/repo/opendis/record/__init__.py:48, :73). -/
abbrev getOwn (t : Int) (b : SVBase) (attrs : List (Ident × Val)) : List (Ident × Val) :=
  put I.UnknownStandardVariableRecord (.own I.UnknownStandardVariableRecord attrs) (getStart t b)

theorem exec_if {C : Call} {e : Expr} {ys ns : List Stmt} {q : Bool} {st : St} (h : ev C e st = (.ok (.bool q), st)) :
    ex C (.ite e ys ns) st = exs C (cond q ys ns) st := by
  unfold ex exec
  refine (M.bind_ok h).trans ?_
  cases q <;> rfl

theorem exec_raise {C : Call} {e : PyErr} {st : St} : exs C [.raise e] st = (.error e, st) := by
  unfold exs execs
  rfl

theorem get_check {C : Call} {t : Int} {b : SVBase} {io : Streams} :
    ev C (.or (.not (.isInt (.name I.recordType))) (.cmp .lt (.name I.recordType) (.int 0))) ⟨getOwn t b [], io⟩
      = (.ok (.bool (decide (t < 0))), ⟨getOwn t b [], io⟩) := by kernel_rfl

theorem get_table (t : Int) :
    inTable (.own I.UnknownStandardVariableRecord [(I.recordType, .int t)])
      [(3000, I.HighFidelityHAVEQUICKRadio), (4000, I.DirectedEnergyPrecisionAimpoint), (4001, I.DirectedEnergyAreaAimpoint),
        (4500, I.DirectedEnergyDamage)] t = classVal (variableRecordClass t) := by
  unfold variableRecordClass
  simp only [inTable, eq_comm (b := t)]
  simp only [apply_ite classVal]
  rfl

theorem get_class {C : Call} {t : Int} {b : SVBase} {io : Streams} :
    ev C (.lookup [(3000, I.HighFidelityHAVEQUICKRadio), (4000, I.DirectedEnergyPrecisionAimpoint),
        (4001, I.DirectedEnergyAreaAimpoint), (4500, I.DirectedEnergyDamage)] (.name I.recordType)
        (.name I.UnknownStandardVariableRecord)) ⟨getOwn t b [(I.recordType, .int t)], io⟩
      = (.ok (classVal (variableRecordClass t)), ⟨getOwn t b [(I.recordType, .int t)], io⟩) := by
  rw [← get_table]
  kernel_rfl

theorem get_sub {C : Call} {t u : Int} {b : SVBase} {c : SVClass} {io : Streams} :
    ev C (.not (.issubclass (.name I.vrClass) (.name I.expectedType)))
        ⟨put I.vrClass (classVal c) (getOwn t b [(I.recordType, .int u)]), io⟩
      = (.ok (.bool (!c.isSubclass b)), ⟨put I.vrClass (classVal c) (getOwn t b [(I.recordType, .int u)]), io⟩) := by
  cases c <;> cases b <;> kernel_rfl

theorem getClass (n : Nat) (t : Int) (b : SVBase) (io : Streams) :
    run (n + 1) I.__module__ I.getStandardVariableClass .none [.int t, .cls (baseClass b)] [] io
      = ((Dis.getStandardVariableClass t b).map classVal, .none, io) := by
  have hm : method program I.__module__ I.getStandardVariableClass
      = some (I.__module__, Module.getStandardVariableClass) := by kernel_rfl
  have hb : bindParams Module.getStandardVariableClass.params [.int t, .cls (baseClass b)] []
      (put I.self .none (put I.__class__ (.cls I.__module__) [])) = some (getStart t b) := by kernel_rfl
  have s1 : ex (run n) (.classDef I.UnknownStandardVariableRecord) ⟨getStart t b, io⟩
      = (.ok none, ⟨getOwn t b [], io⟩) := by kernel_rfl
  have s2 := exec_if (ys := [.raise .valueError]) (ns := []) (get_check (C := run n) (t := t) (b := b) (io := io))
  have s3 : ex (run n) (.assign (.attr (.name I.UnknownStandardVariableRecord) I.recordType) (.name I.recordType))
      ⟨getOwn t b [], io⟩ = (.ok none, ⟨getOwn t b [(I.recordType, .int t)], io⟩) := by kernel_rfl
  have s4 := exec_var (x := I.vrClass) (get_class (C := run n) (t := t) (b := b) (io := io))
  have s5 := exec_if (ys := [.raise .typeError]) (ns := [])
    (get_sub (C := run n) (t := t) (u := t) (b := b) (c := variableRecordClass t) (io := io))
  unfold Dis.getStandardVariableClass
  by_cases h0 : t < 0
  · rw [if_pos h0]
    rw [decide_eq_true h0] at s2
    exact run_method hm hb (exs_cons_ok s1 (exs_cons_error (s2.trans exec_raise))) (by kernel_rfl)
  · rw [if_neg h0]
    rw [decide_eq_false h0] at s2
    generalize variableRecordClass t = c at s4 s5 ⊢
    show _ = ((if c.isSubclass b = false then Except.error PyErr.typeError else .ok c).map classVal, _, _)
    cases h : c.isSubclass b with
    | false =>
      rw [h] at s5
      rw [if_pos rfl]
      exact run_method hm hb (exs_cons_ok s1 (exs_cons_ok (s2.trans exs_nil) (exs_cons_ok s3 (exs_cons_ok s4
        (exs_cons_error (s5.trans exec_raise)))))) (by kernel_rfl)
    | true =>
      rw [h] at s5
      rw [if_neg (by decide)]
      have s6 : exs (run n) [.ret (.name I.vrClass)] ⟨put I.vrClass (classVal c) (getOwn t b [(I.recordType, .int t)]), io⟩
          = (.ok (some (classVal c)), ⟨put I.vrClass (classVal c) (getOwn t b [(I.recordType, .int t)]), io⟩) := by
        kernel_rfl
      exact run_method hm hb (exs_cons_ok s1 (exs_cons_ok (s2.trans exs_nil) (exs_cons_ok s3 (exs_cons_ok s4
        (exs_cons_ok (s5.trans exs_nil) s6))))) (by kernel_rfl)

/-! ## parseStandardVariableRecord -/

/-- The object that a class makes when called without arguments (/repo/opendis/dis7.py:66). -/
def svInit : SVClass → SVRecord
  | .highFidelityHAVEQUICKRadio => .highFidelityHAVEQUICKRadio Dis.HighFidelityHAVEQUICKRadio.init
  | .directedEnergyPrecisionAimpoint => .directedEnergyPrecisionAimpoint Dis.DirectedEnergyPrecisionAimpoint.init
  | .directedEnergyAreaAimpoint => .directedEnergyAreaAimpoint Dis.DirectedEnergyAreaAimpoint.init
  | .directedEnergyDamage => .directedEnergyDamage Dis.DirectedEnergyDamage.init
  | .unknown t => .unknown { recordType := t }

/-- A call without arguments of the class that a variable holds (/repo/opendis/dis7.py:66). -/
def callHeld (C : Call) : Val → M Val
  | .cls c => construct program words C c [] []
  | .own c attrs => constructOwn program words C c attrs [] []
  | _ => M.throw .typeError

theorem callName_var {C : Call} {f : Ident} {v : Val} {st : St} (h1 : Nat.beq f I.len = false)
    (h2 : Nat.beq f I.range = false) (h3 : Nat.beq f I.list = false) (h : look f st.locals = some v) :
    callName program words C f [] [] st = callHeld C v st := by
  unfold callName
  simp only [show words.len = I.len from rfl, show words.range = I.range from rfl, show words.list = I.list from rfl,
    h1, h2, h3]
  refine (M.bind_ok (eval_local (C := C) h)).trans ?_
  cases v <;> rfl

theorem sv_made (n : Nat) (c : SVClass) {st : St} (h : look I.svClass st.locals = some (classVal c)) :
    ev (run (n + 3)) (.call I.svClass [] []) st = (.ok (svEnc (svInit c)), st) := by
  refine eval_call args_nil ((callName_var rfl rfl rfl h).trans ?_)
  cases c with
  | highFidelityHAVEQUICKRadio => exact (HighFidelityHAVEQUICKRadio.makes n).made st
  | directedEnergyPrecisionAimpoint => exact (DirectedEnergyPrecisionAimpoint.makes n).made st
  | directedEnergyAreaAimpoint => exact (DirectedEnergyAreaAimpoint.makes n).made st
  | directedEnergyDamage => exact (DirectedEnergyDamage.makes n).made st
  | unknown t => kernel_rfl

/-- `parse` with these arguments ends like `r` does, and if it ends well, with the object that `r` reads. -/
theorem fills_by {σ : Type} {C : Call} {c : Ident} {gs : σ → List (Ident × Val)} {args : List Val} {p : P σ Unit}
    {x : σ} {r : R σ} {inj : σ → SVRecord} (h : ParsesBy C c c gs args [] p) (hr : P.run p x = r)
    (hi : ∀ y, svEnc (inj y) = .obj c (gs y)) (io : Streams) :
    ∃ v', C c I.parse (.obj c (gs x)) args [] io
        = (((r >>= fun y => (pure (inj y) : R SVRecord)) io.inp).1.map fun _ => .none, v',
          ⟨((r >>= fun y => (pure (inj y) : R SVRecord)) io.inp).2, io.out⟩) ∧
      ∀ y, ((r >>= fun y => (pure (inj y) : R SVRecord)) io.inp).1 = .ok y → v' = svEnc y := by
  have h0 := h x io
  subst hr
  have key : (P.run p x >>= fun y => (pure (inj y) : R SVRecord)) io.inp = (match p x io.inp with
      | (.ok _, y, s) => (.ok (inj y), s)
      | (.error e, _, s) => (.error e, s)) := by
    show R.bind (P.run p x) (fun y => pure (inj y)) io.inp = _
    unfold R.bind P.run
    rcases p x io.inp with ⟨_ | _, y, s⟩ <;> rfl
  refine ⟨.obj c (gs (p x io.inp).2.1), ?_, ?_⟩
  · rw [h0, key]
    rcases p x io.inp with ⟨_ | _, y, s⟩ <;> rfl
  · rw [key]
    rcases p x io.inp with ⟨_ | _, y, s⟩
    · exact fun y h => by cases h
    · intro z hz
      have : inj y = z := by cases hz; rfl
      rw [← this]
      exact (hi y).symm

theorem sv_parses (n : Nat) (c : SVClass) (b : Int) (io : Streams) :
    ∃ v', run (n + 4) (svClass (svInit c)) I.parse (svEnc (svInit c)) [.inp, .int b] [] io
        = ((c.parse b io.inp).1.map fun _ => .none, v', ⟨(c.parse b io.inp).2, io.out⟩) ∧
      ∀ y, (c.parse b io.inp).1 = .ok y → v' = svEnc y := by
  cases c with
  | highFidelityHAVEQUICKRadio =>
    exact fills_by (inj := .highFidelityHAVEQUICKRadio) (HighFidelityHAVEQUICKRadio.parsesBy n b) (HighFidelityHAVEQUICKRadio.into b _) (fun _ => rfl) io
  | directedEnergyPrecisionAimpoint =>
    exact fills_by (inj := .directedEnergyPrecisionAimpoint) (DirectedEnergyPrecisionAimpoint.parsesBy n b) (DirectedEnergyPrecisionAimpoint.into b _) (fun _ => rfl) io
  | directedEnergyAreaAimpoint =>
    exact fills_by (inj := .directedEnergyAreaAimpoint) (DirectedEnergyAreaAimpoint.parsesBy n b) (DirectedEnergyAreaAimpoint.into b _) (fun _ => rfl) io
  | directedEnergyDamage =>
    exact fills_by (inj := .directedEnergyDamage) (DirectedEnergyDamage.parsesBy n b) (DirectedEnergyDamage.into b _) (fun _ => rfl) io
  | unknown t =>
    exact fills_by (inj := .unknown) (UnknownStandardVariableRecord.parsesBy n b) (UnknownStandardVariableRecord.into b _) (fun _ => rfl) io

theorem eval_func {C : Call} {f : Ident} {es : List Expr} {vs : List Val} {st st1 : St} {r : Except PyErr Val} {v : Val}
    {io : Streams} (hes : evalList program words streams C es st = (.ok vs, st1))
    (h : C I.__module__ f .none (byPosition vs []) (byName vs []) st1.io = (r, v, io)) :
    ev C (.func f es []) st = (r, ⟨st1.locals, io⟩) := by
  unfold ev eval
  refine (M.bind_ok hes).trans ?_
  show (match C I.__module__ f .none (byPosition vs []) (byName vs []) st1.io with
    | (r, _, io) => ((r, { st1 with io }) : Except PyErr Val × St)) = _
  rw [h]

/-- The function `f` called with a stream and a class reads what `r` reads. -/
def FuncReads {τ : Type} (C : Call) (f c : Ident) (inj : τ → Val) (r : R τ) : Prop :=
  ∀ io, C I.__module__ f .none [.inp, .cls c] [] io = ((r io.inp).1.map inj, .none, ⟨(r io.inp).2, io.out⟩)

theorem var_svClass : isClass I.svClass = false := by decide +kernel
theorem var_sv_instance : isClass I.sv_instance = false := by decide +kernel
theorem var_expectedType : isClass I.expectedType = false := by decide +kernel
theorem var_recordLength : isClass I.recordLength = false := by decide +kernel

theorem start_function {b : Val} {io : Streams} :
    Env (start I.__module__ .none [(I.inputStream, .inp), (I.expectedType, b)])
      ⟨start I.__module__ .none [(I.inputStream, .inp), (I.expectedType, b)], io⟩ := by
  refine ⟨fun _ _ h => h, fun x hx => ?_⟩
  have h1 : ∀ y, isClass y = false → Nat.beq y x = false := fun y hy => by
    cases e : Nat.beq y x with
    | false => rfl
    | true => rw [Nat.eq_of_beq_eq_true e, hx] at hy; cases hy
  show look x (start I.__module__ .none [(I.inputStream, .inp), (I.expectedType, b)]) = none
  simp only [look, h1 I.self (by decide +kernel), h1 I.__class__ (by decide +kernel),
    h1 I.inputStream (by decide +kernel), h1 I.expectedType var_expectedType]

theorem sv_steps (b : SVBase) (s : InStream) : Dis.parseStandardVariableRecord b s = (match read_uint32 s with
    | (.error e, s) => (.error e, s)
    | (.ok t, s) => match read_uint16 s with
      | (.error e, s) => (.error e, s)
      | (.ok l, s) => match Dis.getStandardVariableClass t b with
        | .error e => (.error e, s)
        | .ok c => c.parse l s) := by
  unfold Dis.parseStandardVariableRecord
  show R.bind read_uint32 (fun t => R.bind read_uint16 fun l => R.bind (R.ofExcept (Dis.getStandardVariableClass t b))
    fun c => c.parse l) s = _
  unfold R.bind
  rcases read_uint32 s with ⟨_ | t, s⟩
  · rfl
  · dsimp only
    rcases read_uint16 s with ⟨_ | l, s⟩
    · rfl
    · dsimp only
      rcases Dis.getStandardVariableClass t b with _ | c <;> rfl

theorem parseRecord (n : Nat) (b : SVBase) :
    FuncReads (run (n + 5)) I.parseStandardVariableRecord (baseClass b) svEnc (Dis.parseStandardVariableRecord b) := fun io => by
  have hm : method program I.__module__ I.parseStandardVariableRecord
      = some (I.__module__, Module.parseStandardVariableRecord) := by kernel_rfl
  have hb : bindParams Module.parseStandardVariableRecord.params [.inp, .cls (baseClass b)] []
      (put I.self .none (put I.__class__ (.cls I.__module__) []))
        = some (start I.__module__ .none [(I.inputStream, .inp), (I.expectedType, .cls (baseClass b))]) := by kernel_rfl
  have e0 := start_function (b := .cls (baseClass b)) (io := io)
  have a1 := eval_read (C := run (n + 4)) (m := I.read_uint32) (inj := .int) (r := read_uint32) rfl e0 rfl
  have hmodel := sv_steps b io.inp
  rcases h1 : read_uint32 io.inp with ⟨err | t, s1⟩
  · simp only [h1] at a1 hmodel
    rw [hmodel]
    exact run_method hm hb (exs_cons_error (exec_var_error a1)) rfl
  simp only [h1] at a1 hmodel
  have b1 := exec_var (x := I.recordType) a1
  have e1 := e0.set I.recordType (.int t) (by decide +kernel) ⟨s1, io.out⟩
  generalize put I.recordType (Val.int t) _ = L1 at b1 e1
  have a2 := eval_read (C := run (n + 4)) (m := I.read_uint16) (inj := .int) (r := read_uint16) rfl e1 rfl
  rcases h2 : read_uint16 s1 with ⟨err | l, s2⟩
  · simp only [h2] at a2 hmodel
    rw [hmodel]
    exact run_method hm hb (exs_cons_ok b1 (exs_cons_error (exec_var_error a2))) (e1.1 _ _ rfl)
  simp only [h2] at a2 hmodel
  have b2 := exec_var (x := I.recordLength) a2
  have e2 := e1.set I.recordLength (.int l) var_recordLength ⟨s2, io.out⟩
  generalize put I.recordLength (Val.int l) _ = L2 at b2 e2
  have a3 := eval_func (args_two (gives_name (x := I.recordType) rfl) (gives_name (x := I.expectedType) rfl) e2)
    (getClass (n + 3) t b ⟨s2, io.out⟩)
  rcases h3 : Dis.getStandardVariableClass t b with err | c
  · rw [h3] at a3 hmodel
    rw [hmodel]
    exact run_method hm hb (exs_cons_ok b1 (exs_cons_ok b2 (exs_cons_error (exec_var_error a3)))) (e2.1 _ _ rfl)
  rw [h3] at a3 hmodel
  replace hmodel : Dis.parseStandardVariableRecord b io.inp = c.parse l s2 := hmodel
  rw [hmodel]
  have b3 := exec_var (x := I.svClass) a3
  have e3 := e2.set I.svClass (classVal c) var_svClass ⟨s2, io.out⟩
  generalize put I.svClass (classVal c) _ = L3 at b3 e3
  have a4 := sv_made (n + 1) c (st := ⟨L3, ⟨s2, io.out⟩⟩) (e3.1 _ _ rfl)
  have b4 := exec_var (x := I.sv_instance) a4
  have e4 := e3.set I.sv_instance (svEnc (svInit c)) var_sv_instance ⟨s2, io.out⟩
  generalize put I.sv_instance (svEnc (svInit c)) _ = L4 at b4 e4
  obtain ⟨v', a5, hv'⟩ := sv_parses n c l ⟨s2, io.out⟩
  have a5' := method_of_var (x := I.sv_instance) (st := ⟨L4, ⟨s2, io.out⟩⟩) a5
  have a6 := eval_method (kws := []) (gives_name (x := I.sv_instance) rfl _ e4)
    (args_two (gives_name (x := I.inputStream) rfl) (gives_name (x := I.recordLength) rfl) e4) a5'

  have e5 := e4.replace v' var_sv_instance ⟨(c.parse l s2).2, io.out⟩
  have hz : look I.sv_instance (put I.sv_instance v' L4) = some v' := look_put_same _ _ _
  rcases h4 : c.parse l s2 with ⟨err | y, s3⟩
  · simp only [h4] at a6 e5
    refine run_method hm hb (exs_cons_ok b1 (exs_cons_ok b2 (exs_cons_ok b3 (exs_cons_ok b4 (exs_cons_error ?_))))) (e5.1 _ _ rfl)
    unfold ex exec
    exact M.bind_error a6
  · simp only [h4] at a6 e5
    obtain rfl := hv' y (by rw [h4])
    have b6 : ex (run (n + 4)) (.expr (.method (.name I.sv_instance) I.parse [.name I.inputStream, .name I.recordLength] []))
        ⟨L4, ⟨s2, io.out⟩⟩ = (.ok none, ⟨put I.sv_instance (svEnc y) L4, ⟨s3, io.out⟩⟩) := by
      unfold ex exec
      exact (M.bind_ok a6).trans rfl
    have b7 : exs (run (n + 4)) [.ret (.name I.sv_instance)] ⟨put I.sv_instance (svEnc y) L4, ⟨s3, io.out⟩⟩
        = (.ok (some (svEnc y)), ⟨put I.sv_instance (svEnc y) L4, ⟨s3, io.out⟩⟩) := by
      unfold exs execs
      have : exec program words streams (run (n + 4)) (.ret (.name I.sv_instance))
          ⟨put I.sv_instance (svEnc y) L4, ⟨s3, io.out⟩⟩
            = (.ok (some (svEnc y)), ⟨put I.sv_instance (svEnc y) L4, ⟨s3, io.out⟩⟩) := by
        unfold exec
        exact (M.bind_ok (eval_local hz)).trans rfl
      exact (M.bind_ok this).trans rfl
    exact run_method hm hb (exs_cons_ok b1 (exs_cons_ok b2 (exs_cons_ok b3 (exs_cons_ok b4 (exs_cons_ok b6 b7))))) (e5.1 _ _ rfl)

/-! ## Loops and dispatch -/

theorem gives_class {C : Call} {bs : List (Ident × Val)} {c : Ident} (h : (look c program).isSome = true) :
    Gives C bs (.name c) (.cls c) := fun st hst => by
  unfold ev eval global
  have : M.var? c st = (.ok none, st) := by unfold M.var?; rw [hst.2 _ (isClass_of h)]
  refine (M.bind_ok this).trans ?_
  show (match look c program with
    | some _ => pure (.cls c)
    | .none => M.throw .nameError : M Val) st = _
  cases hl : look c program with
  | none => rw [hl] at h; cases h
  | some K => rfl

theorem par_funs {σ τ : Type} {C : Call} {k f y z g c : Ident} {gs : σ → List (Ident × Val)} {Q Q' : σ → Prop}
    {bs : List (Ident × Val)} {e : Expr} {ss : List Stmt} {l : List Val} {n : Nat} {inj : τ → Val}
    {a : Attr σ (List τ)} {r : R τ} {p : P σ Unit}
    (he : ∀ x, Q x → Gives C ((I.self, .obj k (gs x)) :: bs) e (.list l)) (hl : l.length = n)
    (hr : FuncReads C g c inj r) (hc : (look c program).isSome = true) (hi : look I.inputStream bs = some .inp)
    (hp : isProperty program k f = false)
    (hf : ∀ x, look f (gs x) = some (.list ((a.get x).map inj)))
    (hu : ∀ x ts, put f (.list (ts.map inj)) (gs x) = gs (a.put x ts)) (hq : ∀ x ts, Q x → Q (a.put x ts))
    (hy : isClass y = false) (hys : Nat.beq y I.self = false) (hyb : look y bs = none)
    (hz : isClass z = false) (hzs : Nat.beq z I.self = false) (hzb : look z bs = none)
    (hQ : ∀ x, Q x → Q' x) (h : Par C k gs Q' bs ss p) :
    Par C k gs Q bs (.for y e [.assign (.name z) (.func g [.name I.inputStream, .name c] []),
        .expr (.method (.attr (.name I.self) f) I.append [.name z] [])] :: ss)
      (P.appendReads n r a >>= fun _ => p) := by
  refine par_for (fun _ n => P.appendReads n r a) 0 n (b := fun _ => readStep r fun t o => a.put o (a.get o ++ [t])) he hl
    (fun _ => rfl) (fun _ n => appendReads_succ n r a) (fun _ => Q) (fun _ h => h) hQ ?_ h
  intro j hj x hx st hst
  have hst0 := hst.other (look_cons_ne hys hyb) hy (l[j]'(by omega)) st.io
  generalize put y (l[j]'(by omega)) st.locals = L0 at hst0
  have hi' : Gives C ((I.self, Val.obj k (gs x)) :: bs) (.name I.inputStream) .inp := gives_name hi
  have hargs : evalList program words streams C [.name I.inputStream, .name c] ⟨L0, st.io⟩
      = (.ok [.inp, .cls c], ⟨L0, st.io⟩) := args_two hi' (gives_class hc) hst0
  have a1 := eval_func hargs (hr st.io)
  rcases hr : r st.io.inp with ⟨err | t, s'⟩
  · rw [readStep_error _ hr]
    simp only [hr] at a1
    exact ⟨⟨L0, ⟨s', st.io.out⟩⟩, exs_cons_error (exec_var_error a1), hst0, rfl, fun h => by cases h⟩
  · rw [readStep_ok _ hr]
    simp only [hr] at a1
    have a2 := exec_var (x := z) a1
    have hst2 := hst0.other (look_cons_ne hzs hzb) hz (inj t) ⟨s', st.io.out⟩
    have hz2 : look z (put z (inj t) L0) = some (inj t) := look_put_same _ _ _
    generalize put z (inj t) L0 = L2 at hst2 hz2 a2
    have a3 := exec_append (C := C) hst2 hp (hf x) (eval_local (st := ⟨L2, ⟨s', st.io.out⟩⟩) hz2) (hst2.1 _ _ rfl)
    have hm : (List.map inj (a.get x) ++ [inj t]) = (a.get x ++ [t]).map inj := by simp
    rw [hm, hu] at a3
    exact ⟨⟨put I.self (.obj k (gs (a.put x (a.get x ++ [t])))) L2, ⟨s', st.io.out⟩⟩,
      exs_cons_ok a2 (exs_cons_ok a3 exs_nil), hst2.replace _ self_plain _, rfl, fun _ => hq _ _ hx⟩

theorem sv_serializes (n : Nat) (r : SVRecord) : Serializes (run (n + 7)) (svClass r) (svEnc r) r.serialize := by
  cases r with
  | highFidelityHAVEQUICKRadio r => exact HighFidelityHAVEQUICKRadio.serializes n r
  | directedEnergyPrecisionAimpoint r => exact DirectedEnergyPrecisionAimpoint.serializes n r
  | directedEnergyAreaAimpoint r => exact DirectedEnergyAreaAimpoint.serializes n r
  | directedEnergyDamage r => exact DirectedEnergyDamage.serializes n r
  | unknown r => exact UnknownStandardVariableRecord.serializes n r

theorem svEnc_inj : ∀ {x y : SVRecord}, svEnc x = svEnc y → x = y := by
  intro x y h
  cases x <;> cases y <;> first
    | exact congrArg _ (enc_inj HighFidelityHAVEQUICKRadio.inj h)
    | exact congrArg _ (enc_inj DirectedEnergyPrecisionAimpoint.inj h)
    | exact congrArg _ (enc_inj DirectedEnergyAreaAimpoint.inj h)
    | exact congrArg _ (enc_inj DirectedEnergyDamage.inj h)
    | exact congrArg _ (enc_inj UnknownStandardVariableRecord.inj h)
    | (have h1 : Nat.beq _ _ = true := (congrArg (fun c => Nat.beq c _) (Val.obj.inj h).1).trans (Nat.beq_refl _)
       cases (show false = true from h1))

end Dis.Src
