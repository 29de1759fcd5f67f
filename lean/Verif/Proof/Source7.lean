import Verif.Proof.Source6
import Verif.Source.EncodeHand
import Verif.Model.InPlaceRecords

/-!
# Reasoning about the syntax trees: bit fields, and parse methods that are given a length
-/

namespace Dis.Src

/-- The values of the expressions are `vs`, nothing changes. -/
def GivesAll (C : Call) (bs : List (Ident × Val)) (es : List Expr) (vs : List Val) : Prop :=
  ∀ st, Env bs st → evalList program words streams C es st = (.ok vs, st)

theorem all_nil {C : Call} {bs : List (Ident × Val)} : GivesAll C bs [] [] := fun _ _ => args_nil

theorem all_cons {C : Call} {bs : List (Ident × Val)} {e : Expr} {es : List Expr} {v : Val} {vs : List Val}
    (h : Gives C bs e v) (h' : GivesAll C bs es vs) : GivesAll C bs (e :: es) (v :: vs) := fun st hst => by
  unfold evalList
  rw [M.bind_ok (h st hst), M.bind_ok (h' st hst)]
  rfl

theorem gives_toInt {C : Call} {bs : List (Ident × Val)} {e : Expr} {v : Val} {i : Int} (h : Gives C bs e v)
    (hi : asInt v = some i) : Gives C bs (.toInt e) (.int i) := fun st hst => by
  unfold ev eval
  rw [M.bind_ok (h st hst)]
  unfold toInteger
  rw [hi]
  rfl

theorem gives_toBool {C : Call} {bs : List (Ident × Val)} {e : Expr} {v : Val} {b : Bool} (h : Gives C bs e v)
    (hb : truth v = b) : Gives C bs (.toBool e) (.bool b) := fun st hst => by
  unfold ev eval
  rw [M.bind_ok (h st hst), hb]
  rfl

theorem gives_bits {C : Call} {bs : List (Ident × Val)} {e : Expr} {f : Ident} {fs : List (Ident × Nat)} {vs : List Int}
    {i : Int} (h : Gives C bs e (.bits fs vs)) (hi : look f ((fs.map (·.1)).zip vs) = some i) :
    Gives C bs (.attr e f) (.int i) := fun st hst => by
  unfold ev eval
  rw [M.bind_ok (h st hst)]
  unfold getAttr
  simp only [hi]
  rfl

theorem packBits_held : ∀ (ws : List Nat) (vs : List Int), packBits ws (held ws vs) = packBits ws vs
  | [], _ => rfl
  | w :: ws, vs => by
    show ((vs.headD 0 % 2 ^ w) % 2 ^ w).toNat * 2 ^ ws.sum + packBits ws (held ws vs.tail) = _
    rw [Int.emod_emod, packBits_held ws]
    rfl

theorem serialize_held (ws : List Nat) (vs : List Int) : Bitfield.serialize ws (held ws vs) = Bitfield.serialize ws vs := by
  unfold Bitfield.serialize
  rw [packBits_held]

/-- `self._struct(...).serialize(outputStream)`. -/
theorem ser_bits {C : Call} {bs : List (Ident × Val)} {e : Expr} {es : List Expr} {fs : List (Ident × Nat)} {vs : List Val}
    {is : List Int} (he : Gives C bs e (.struct fs)) (hes : GivesAll C bs es vs) (hi : integers vs = some is)
    (hl : Nat.ble is.length fs.length = true) (ho : look I.outputStream bs = some .out) :
    Ser1 C bs (.expr (.method (.apply e es) I.serialize [.name I.outputStream] []))
      (Bitfield.serialize (fs.map (·.2)) is) := fun st hst => by
  have h0 : ev C (.apply e es) st = (.ok (.bits fs (held (fs.map (·.2)) is)), st) := by
    unfold ev eval
    rw [M.bind_ok (he st hst), M.bind_ok (hes st hst)]
    unfold callValue
    simp only [hi, hl]
    rfl
  rw [← serialize_held]
  generalize hw : Bitfield.serialize (fs.map (·.2)) (held (fs.map (·.2)) is) = w
  refine ⟨⟨st.locals, ⟨st.io.inp, st.io.out ++ w.out⟩⟩, ?_, hst, rfl⟩
  have h1 : ev C (.method (.apply e es) I.serialize [.name I.outputStream] []) st
      = (w.res.map fun _ => .none, ⟨st.locals, ⟨st.io.inp, st.io.out ++ w.out⟩⟩) := by
    refine eval_method h0 (args_one (gives_name ho) hst) ?_
    show ((M.writing (Bitfield.serialize (fs.map (·.2)) (held (fs.map (·.2)) is)) >>= fun _ => pure Val.none) : M Val) st = _
    rw [hw]
    have : M.writing w st = (w.res, ⟨st.locals, ⟨st.io.inp, st.io.out ++ w.out⟩⟩) := rfl
    cases hr : w.res with
    | error x => rw [hr] at this; exact M.bind_error this
    | ok a => rw [hr] at this; exact M.bind_ok this
  unfold ex exec
  cases hr : w.res with
  | error x => rw [hr] at h1; exact M.bind_error h1
  | ok a => rw [hr] at h1; exact M.bind_ok h1

theorem bitfield_parse_ok {ws : List Nat} {s s' : InStream} {vs : List Int} (h : Bitfield.parse ws s = (.ok vs, s')) :
    ∃ n, vs = unpackBits ws n := by
  unfold Bitfield.parse at h
  change R.bind (read_bytes (ws.sum / 8 : Nat)) (fun b => R.ofExcept (Bitfield.fromBufferCopy ws b)) s = _ at h
  unfold R.bind at h
  rcases hr : read_bytes (ws.sum / 8 : Nat) s with ⟨e | b, s1⟩
  · rw [hr] at h; cases h
  · rw [hr] at h
    simp only at h
    unfold Bitfield.fromBufferCopy at h
    by_cases hb : b.length < ws.sum / 8
    · rw [if_pos hb] at h; cases h
    · rw [if_neg hb] at h
      cases h
      exact ⟨_, rfl⟩

/-- `v = self._struct.parse(inputStream)`. -/
theorem par_bits {σ : Type} {C : Call} {k y f : Ident} {gs : σ → List (Ident × Val)} {Q : σ → Prop}
    {bs : List (Ident × Val)} {ss : List Stmt} {fs : List (Ident × Nat)} {p : List Int → P σ Unit}
    (hp : isProperty program k f = false) (hf : ∀ x, look f (gs x) = some (.struct fs))
    (hi : look I.inputStream bs = some .inp)
    (hy : isClass y = false) (hys : Nat.beq y I.self = false)
    (h : ∀ n, Par C k gs Q ((y, .bits fs (unpackBits (fs.map (·.2)) n)) :: bs) ss (p (unpackBits (fs.map (·.2)) n))) :
    Par C k gs Q bs (.assign (.name y) (.method (.attr (.name I.self) f) I.parse [.name I.inputStream] []) :: ss)
      (P.read (Bitfield.parse (fs.map (·.2))) >>= p) := by
  intro x hx st hst
  have hself : Gives C ((I.self, .obj k (gs x)) :: bs) (.name I.self) (.obj k (gs x)) := gives_name rfl
  have hin : Gives C ((I.self, .obj k (gs x)) :: bs) (.name I.inputStream) .inp := gives_name hi
  have he : ev C (.method (.attr (.name I.self) f) I.parse [.name I.inputStream] []) st
      = ((Bitfield.parse (fs.map (·.2)) st.io.inp).1.map (.bits fs ·),
        ⟨st.locals, ⟨(Bitfield.parse (fs.map (·.2)) st.io.inp).2, st.io.out⟩⟩) := by
    refine eval_method (gives_attr hself hp (hf x) st hst) (args_one hin hst) ?_
    show ((M.reading (Bitfield.parse (fs.map (·.2))) >>= fun vs => pure (.bits fs vs)) : M Val) st = _
    have : M.reading (Bitfield.parse (fs.map (·.2))) st = ((Bitfield.parse (fs.map (·.2)) st.io.inp).1,
        ⟨st.locals, ⟨(Bitfield.parse (fs.map (·.2)) st.io.inp).2, st.io.out⟩⟩) := rfl
    generalize Bitfield.parse (fs.map (·.2)) st.io.inp = q at this
    obtain ⟨_ | vs, s'⟩ := q
    · exact M.bind_error this
    · exact M.bind_ok this
  show ∃ st' : St, _ = ((P.bind (P.read (Bitfield.parse (fs.map (·.2)))) p x st.io.inp).1.map fun _ => none, st') ∧
    look I.self st'.locals = some (.obj k (gs (P.bind (P.read (Bitfield.parse (fs.map (·.2)))) p x st.io.inp).2.1)) ∧
    st'.io = ⟨(P.bind (P.read (Bitfield.parse (fs.map (·.2)))) p x st.io.inp).2.2, st.io.out⟩
  unfold P.bind P.read
  rcases hr : Bitfield.parse (fs.map (·.2)) st.io.inp with ⟨e | vs, s'⟩
  · rw [hr] at he ⊢
    exact ⟨_, exs_cons_error (exec_var_error he), hst.1 _ _ rfl, rfl⟩
  · rw [hr] at he ⊢
    obtain ⟨n, hn⟩ := bitfield_parse_ok hr
    subst hn
    obtain ⟨st', e1, l1, io1⟩ := h n x hx ⟨put y (.bits fs (unpackBits (fs.map (·.2)) n)) st.locals, ⟨s', st.io.out⟩⟩
      (hst.skip hy hys _ rfl)
    exact ⟨st', exs_cons_ok (exec_var he) e1, l1, io1⟩

/-- `self.f = e`, as the last statement but for the end of the method. -/
theorem par_assign_last {σ : Type} {C : Call} {k : Ident} {gs : σ → List (Ident × Val)} {Q : σ → Prop}
    {bs : List (Ident × Val)} {f : Ident} {e : Expr} {v : σ → Val} {u : σ → σ}
    (he : ∀ x, Q x → Gives C ((I.self, .obj k (gs x)) :: bs) e (v x))
    (hp : isProperty program k f = false) (hu : ∀ x, put f (v x) (gs x) = gs (u x)) :
    Par C k gs Q bs [.assign (.attr (.name I.self) f) e] (P.set u >>= fun _ => pure ()) :=
  par_assign (Q' := fun _ => True) he hp hu (fun _ _ => trivial) par_nil

/-- `super().serialize(outputStream)` where the inherited method has no statements. -/
theorem ser_skip {C : Call} {bs : List (Ident × Val)} {c b k : Ident} {K : Class} {gs : List (Ident × Val)} {ss : List Stmt}
    {w : W Unit} (hx : look I.self bs = some (.obj k gs)) (hd : look I.__class__ bs = some (.cls c))
    (hK : look c program = some K) (hb : K.base = some b)
    (ho : look I.outputStream bs = some .out) (hs : Serializes C b (.obj k gs) (pure ())) (h : Ser C bs ss w) :
    Ser C bs (.expr (.super none I.serialize [.name I.outputStream] []) :: ss) w :=
  ser_cons (ser_super (c := c) hx (.inr ⟨rfl, hd⟩) hK hb ho hs) h

/-- A `serialize` without statements. -/
theorem serializes_nothing {n : Nat} {c d : Ident} {f : Method} {v : Val} (hm : method program c I.serialize = some (d, f))
    (hp : f.params = [(I.outputStream, none)]) (hf : f.body = []) : Serializes (run (n + 1)) c v (pure ()) :=
  serializes_of hm hp (hf ▸ ser_nil)

/-- `super().parse(inputStream)` where the inherited method has no statements. -/
theorem par_super_skip {σ : Type} {C : Call} {c d k : Ident} {K : Class} {gs : σ → List (Ident × Val)} {Q : σ → Prop}
    {bs : List (Ident × Val)} {ss : List Stmt} {p : P σ Unit}
    (hn : ∀ (gs : List (Ident × Val)) (io : Streams), C c I.parse (.obj k gs) [.inp] [] io = (.ok .none, .obj k gs, io))
    (hi : look I.inputStream bs = some .inp)
    (hd : look I.__class__ bs = some (.cls d)) (hK : look d program = some K) (hc : K.base = some c)
    (h : Par C k gs Q bs ss p) :
    Par C k gs Q bs (.expr (.super none I.parse [.name I.inputStream] []) :: ss) p := by
  refine par_cons (vs := fun _ => []) (Q' := fun _ => Q) (p := pure ()) (p' := fun _ => p) (fun x hx st hst => ?_) (fun _ => h)
  have hin : Gives C ((I.self, .obj k (gs x)) :: bs) (.name I.inputStream) .inp := gives_name hi
  have he := super_of hst rfl (.inr ⟨rfl, hd⟩) hK hc (args_one hin hst) (hn (gs x) st.io)
  refine ⟨⟨put I.self (.obj k (gs x)) st.locals, st.io⟩, ?_, look_put_same _ _ _, rfl, fun a ha => ?_⟩
  · unfold ex exec
    exact (M.bind_ok he).trans rfl
  · exact ⟨hst.replace _ self_plain _, hx⟩

/-- A `parse` without statements. -/
theorem parses_nothing {n : Nat} {c d k : Ident} {f : Method} (hm : method program c I.parse = some (d, f))
    (hp : f.params = [(I.inputStream, none)]) (hf : f.body = []) (gs : List (Ident × Val)) (io : Streams) :
    run (n + 1) c I.parse (.obj k gs) [.inp] [] io = (.ok .none, .obj k gs, io) :=
  run_method (env := start d (.obj k gs) [(I.inputStream, .inp)]) (r := .ok none)
    (st := ⟨start d (.obj k gs) [(I.inputStream, .inp)], io⟩) hm (by rw [hp]; rfl) (by rw [hf]; rfl) rfl

/-! ## Parse methods with a length -/

/-- `parse` of the object, found from the class `c` on and called with these arguments, does to the object what `p`
does. -/
def ParsesBy {σ : Type} (C : Call) (c k : Ident) (gs : σ → List (Ident × Val)) (args : List Val)
    (kws : List (Ident × Val)) (p : P σ Unit) : Prop :=
  ∀ (x : σ) (io : Streams), C c I.parse (.obj k (gs x)) args kws io
    = ((p x io.inp).1.map fun _ => .none, .obj k (gs (p x io.inp).2.1), ⟨(p x io.inp).2.2, io.out⟩)

theorem start_env {d : Ident} {v b : Val} {io : Streams} :
    Env (start d v [(I.inputStream, .inp), (I.bytelength, b)]) ⟨start d v [(I.inputStream, .inp), (I.bytelength, b)], io⟩ := by
  refine ⟨fun _ _ h => h, fun x hx => ?_⟩
  have h1 : ∀ y, isClass y = false → Nat.beq y x = false := fun y hy => by
    cases e : Nat.beq y x with
    | false => rfl
    | true => rw [Nat.eq_of_beq_eq_true e, hx] at hy; cases hy
  show look x (start d v [(I.inputStream, .inp), (I.bytelength, b)]) = none
  simp only [look, h1 I.self (by decide +kernel), h1 I.__class__ (by decide +kernel),
    h1 I.inputStream (by decide +kernel), h1 I.bytelength (by decide +kernel)]

/-- `X.parse` with a length, from its statements. -/
theorem parses_by {σ : Type} {n : Nat} {c d k : Ident} {f : Method} {gs : σ → List (Ident × Val)} {p : P σ Unit}
    {args : List Val} {kws : List (Ident × Val)} {b : Val}
    (hm : method program c I.parse = some (d, f))
    (hb : ∀ v, bindParams f.params args kws (put I.self v (put I.__class__ (.cls d) []))
      = some (start d v [(I.inputStream, .inp), (I.bytelength, b)]))
    (h : Par (run n) k gs (fun _ => True) [(I.__class__, .cls d), (I.inputStream, .inp), (I.bytelength, b)] f.body p) :
    ParsesBy (run (n + 1)) c k gs args kws p := fun x io => by
  obtain ⟨st', e1, h1, h2⟩ := h x trivial _ start_env
  have := run_method (args := args) (kws := kws) hm (hb _) e1 h1
  rw [this, h2]
  cases (p x io.inp).1 <;> rfl

/-- The inherited `parse` does what `r` does and leaves the object as it is. -/
def Checks (C : Call) (c k : Ident) (b : Val) (r : R Unit) : Prop :=
  ∀ (gs : List (Ident × Val)) (io : Streams), C c I.parse (.obj k gs) [.inp, b] [] io
    = ((r io.inp).1.map fun _ => .none, .obj k gs, ⟨(r io.inp).2, io.out⟩)

/-- `super().parse(inputStream, bytelength)`. -/
theorem par_check {σ : Type} {C : Call} {c d k : Ident} {K : Class} {gs : σ → List (Ident × Val)} {Q : σ → Prop}
    {bs : List (Ident × Val)} {ss : List Stmt} {b : Val} {r : R Unit} {p : P σ Unit}
    (hr : Checks C c k b r) (hi : look I.inputStream bs = some .inp) (hb : look I.bytelength bs = some b)
    (hd : look I.__class__ bs = some (.cls d)) (hK : look d program = some K) (hc : K.base = some c)
    (h : Par C k gs Q bs ss p) :
    Par C k gs Q bs (.expr (.super none I.parse [.name I.inputStream, .name I.bytelength] []) :: ss)
      (P.read r >>= fun _ => p) := by
  refine par_cons (vs := fun _ => []) (Q' := fun _ => Q) (fun x hx st hst => ?_) (fun _ => h)
  have hin : Gives C ((I.self, .obj k (gs x)) :: bs) (.name I.inputStream) .inp := gives_name hi
  have hbl : Gives C ((I.self, .obj k (gs x)) :: bs) (.name I.bytelength) b := gives_name hb
  have he := super_of hst rfl (.inr ⟨rfl, hd⟩) hK hc (args_two hin hbl hst) (hr (gs x) st.io)
  unfold P.read
  rcases hr : r st.io.inp with ⟨e | u, s'⟩
  · rw [hr] at he
    refine ⟨⟨put I.self (.obj k (gs x)) st.locals, ⟨s', st.io.out⟩⟩, ?_, look_put_same _ _ _, rfl, fun a ha => by cases ha⟩
    unfold ex exec
    exact M.bind_error he
  · rw [hr] at he
    refine ⟨⟨put I.self (.obj k (gs x)) st.locals, ⟨s', st.io.out⟩⟩, ?_, look_put_same _ _ _, rfl, fun a ha => ?_⟩
    · unfold ex exec
      exact (M.bind_ok he).trans rfl
    · exact ⟨hst.replace _ self_plain _, hx⟩

theorem positive {n : Nat} {k d : Ident} {f : Method} {v : Val} {i : Int} {io : Streams}
    (hm : method program k I.is_positive_int = some (d, f)) (hp : f.params = [(I.value, none)])
    (hf : f.body = [.ret (.and (.isInt (.name I.value)) (.cmp .ge (.name I.value) (.int 0)))]) :
    run (n + 1) k I.is_positive_int v [.int i] [] io = (.ok (.bool (decide (0 ≤ i))), v, io) :=
  run_method (env := (start d v [(I.value, .int i)])) (r := .ok (some (.bool (decide (0 ≤ i)))))
    (st := ⟨start d v [(I.value, .int i)], io⟩) hm (by rw [hp]; rfl) (by rw [hf]; rfl) rfl

theorem variable_checks {n : Nat} {c k d : Ident} {f : Method} {b : Option Int}
    (hc : method program c I.parse = some (I.VariableRecord, VariableRecord.parse))
    (hm : method program k I.is_positive_int = some (d, f)) (hp : f.params = [(I.value, none)])
    (hf : f.body = [.ret (.and (.isInt (.name I.value)) (.cmp .ge (.name I.value) (.int 0)))]) :
    Checks (run (n + 2)) c k (orNone b) (Dis.VariableRecord.parse b) := fun gs io => by
  cases b with
  | none =>
    exact run_method (env := start I.VariableRecord (.obj k gs) [(I.inputStream, .inp), (I.bytelength, .none)])
      (r := .ok none) (st := ⟨start I.VariableRecord (.obj k gs) [(I.inputStream, .inp), (I.bytelength, .none)], io⟩)
      hc rfl rfl rfl
  | some i =>
    have h0 := fun io => positive (n := n) (v := .obj k gs) (i := i) (io := io) hm hp hf
    have key : ∀ q : Bool, decide (0 ≤ i) = q → exs (run (n + 1)) VariableRecord.parse.body
        ⟨start I.VariableRecord (.obj k gs) [(I.inputStream, .inp), (I.bytelength, .int i)], io⟩
        = (match q with | true => .ok none | false => .error .valueError,
          ⟨start I.VariableRecord (.obj k gs) [(I.inputStream, .inp), (I.bytelength, .int i)], io⟩) := by
      intro q hq
      have h1 : ev (run (n + 1)) (.method (.name I.self) I.is_positive_int [.name I.bytelength] [])
          ⟨start I.VariableRecord (.obj k gs) [(I.inputStream, .inp), (I.bytelength, .int i)], io⟩
          = (.ok (.bool q), ⟨start I.VariableRecord (.obj k gs) [(I.inputStream, .inp), (I.bytelength, .int i)], io⟩) := by
        refine eval_method (eval_local rfl) (args_one (gives_name rfl) start_env) ?_
        rw [← hq]
        exact (method_of_var (x := I.self) (st := ⟨start I.VariableRecord (.obj k gs) [(I.inputStream, .inp), (I.bytelength, .int i)], io⟩) (h0 io)).trans rfl
      have h2 : ev (run (n + 1)) (.and (.cmp .isNot (.name I.bytelength) .none) (.not (.method (.name I.self) I.is_positive_int [.name I.bytelength] [])))
          ⟨start I.VariableRecord (.obj k gs) [(I.inputStream, .inp), (I.bytelength, .int i)], io⟩
          = (.ok (.bool !q), ⟨start I.VariableRecord (.obj k gs) [(I.inputStream, .inp), (I.bytelength, .int i)], io⟩) := by
        unfold ev eval
        have h4 : ev (run (n + 1)) (.cmp .isNot (.name I.bytelength) .none)
            ⟨start I.VariableRecord (.obj k gs) [(I.inputStream, .inp), (I.bytelength, .int i)], io⟩
            = (.ok (.bool true), ⟨start I.VariableRecord (.obj k gs) [(I.inputStream, .inp), (I.bytelength, .int i)], io⟩) := by
          kernel_rfl
        refine (M.bind_ok h4).trans ?_
        show eval _ _ _ _ (.not _) _ = _
        unfold eval
        exact (M.bind_ok h1).trans rfl
      have h3 : ex (run (n + 1)) (.ite (.and (.cmp .isNot (.name I.bytelength) .none) (.not (.method (.name I.self) I.is_positive_int [.name I.bytelength] []))) [.raise .valueError] [])
          ⟨start I.VariableRecord (.obj k gs) [(I.inputStream, .inp), (I.bytelength, .int i)], io⟩
          = (match q with | true => .ok none | false => .error .valueError,
            ⟨start I.VariableRecord (.obj k gs) [(I.inputStream, .inp), (I.bytelength, .int i)], io⟩) := by
        unfold ex exec
        refine (M.bind_ok h2).trans ?_
        cases q <;> rfl
      cases q with
      | true => exact exs_cons_ok h3 exs_nil
      | false => exact exs_cons_error h3
    unfold Dis.VariableRecord.parse
    by_cases hi : i ≥ 0
    · have := key true (by simpa using hi)
      show _ = (((if i ≥ 0 then pure () else R.throw .valueError : R Unit) io.inp).1.map _, _, (⟨((if i ≥ 0 then pure () else R.throw .valueError : R Unit) io.inp).2, _⟩ : Streams))
      rw [if_pos hi]
      exact run_method hc rfl this rfl
    · have := key false (by simpa using hi)
      show _ = (((if i ≥ 0 then pure () else R.throw .valueError : R Unit) io.inp).1.map _, _, (⟨((if i ≥ 0 then pure () else R.throw .valueError : R Unit) io.inp).2, _⟩ : Streams))
      rw [if_neg hi]
      exact run_method hc rfl this rfl

theorem standard_checks {n : Nat} {c k d : Ident} {f : Method} {i : Int}
    (hc : method program c I.parse = some (I.StandardVariableRecord, StandardVariableRecord.parse))
    (hm : method program k I.is_positive_int = some (d, f)) (hp : f.params = [(I.value, none)])
    (hf : f.body = [.ret (.and (.isInt (.name I.value)) (.cmp .ge (.name I.value) (.int 0)))]) :
    Checks (run (n + 3)) c k (.int i) (Dis.StandardVariableRecord.parse i) := fun gs io => by
  have h0 := variable_checks (n := n) (c := I.VariableRecord) (b := some i) rfl hm hp hf
  have key : ∀ q : Bool, decide (i % 8 = 0) = q →
      Par (run (n + 2)) k (fun (_ : Unit) => gs) (fun _ => True)
        [(I.__class__, .cls I.StandardVariableRecord), (I.inputStream, .inp), (I.bytelength, .int i)]
        StandardVariableRecord.parse.body
        (P.read (Dis.VariableRecord.parse (some i)) >>= fun _ =>
          P.read (match q with | true => pure () | false => R.throw .valueError)) := by
    intro q hq
    refine par_check h0 rfl rfl rfl rfl rfl fun x _ st hst => ?_
    have hb : Gives (run (n + 2)) ((I.self, .obj k gs) :: [(I.__class__, .cls I.StandardVariableRecord), (I.inputStream, .inp), (I.bytelength, .int i)])
        (.bin .mod (.name I.bytelength) (.int 8)) (.int (i.fmod 8)) :=
      gives_bin (gives_name rfl) gives_int fun _ => rfl
    have h2 : ev (run (n + 2)) (.not (.cmp .eq (.bin .mod (.name I.bytelength) (.int 8)) (.int 0))) st = (.ok (.bool !q), st) := by
      have h1 : ev (run (n + 2)) (.cmp .eq (.bin .mod (.name I.bytelength) (.int 8)) (.int 0)) st
          = (.ok (.bool (i.fmod 8 == 0)), st) := by
        unfold ev eval
        exact (M.bind_ok (hb st hst)).trans ((M.bind_ok (gives_int (C := run (n + 2)) (v := 0) st hst)).trans rfl)
      unfold ev eval
      refine (M.bind_ok h1).trans ?_
      have : (i.fmod 8 == 0) = q := by
        rw [← hq, Int.fmod_eq_emod_of_nonneg _ (by decide)]
        by_cases h : i % 8 = 0 <;> simp [h]
      rw [this]
      rfl
    have h3 : ex (run (n + 2)) (.ite (.not (.cmp .eq (.bin .mod (.name I.bytelength) (.int 8)) (.int 0))) [.raise .valueError] []) st
        = (match q with | true => .ok none | false => .error .valueError, st) := by
      unfold ex exec
      refine (M.bind_ok h2).trans ?_
      cases q <;> rfl
    cases q with
    | true => exact ⟨st, exs_cons_ok h3 exs_nil, hst.1 _ _ rfl, rfl⟩
    | false => exact ⟨st, exs_cons_error h3, hst.1 _ _ rfl, rfl⟩
  have e : (Dis.StandardVariableRecord.parse i) = (Dis.VariableRecord.parse (some i) >>= fun _ =>
      (match decide (i % 8 = 0) with | true => pure () | false => R.throw .valueError : R Unit)) := by
    unfold Dis.StandardVariableRecord.parse
    by_cases h : i % 8 = 0 <;> simp [h]
  have := parses_by (c := c) (args := [.inp, .int i]) (kws := []) hc (fun _ => rfl) (key _ rfl) () io
  rw [this, e]
  have e2 : ∀ (r : R Unit) (t : R Unit), (P.read r >>= fun _ => P.read t : P Unit Unit) () io.inp
      = (((r >>= fun _ => t : R Unit) io.inp).1, (), ((r >>= fun _ => t : R Unit) io.inp).2) := by
    intro r t
    show P.bind (P.read r) (fun _ => P.read t) () io.inp = ((R.bind r (fun _ => t) io.inp).1, (), (R.bind r (fun _ => t) io.inp).2)
    unfold P.bind P.read R.bind
    rcases r io.inp with ⟨_ | _, _⟩ <;> rfl
  rw [e2]

end Dis.Src
