import Verif.Proof.IoTable
import Verif.Props.SourceRadio
import Verif.Spec.IoFactory

/-!
# The factory (C79)
-/

namespace Dis.Io

open Src

/-- A new object of the class `c` that parses does what the decoder `d` of the model does. -/
def Decodes (c : Ident) (d : R AnyPdu) : Prop := ∀ (file : Val → Except PyErr Bytes) (n : Nat) (io : Streams),
  (∃ e, d io.inp = (.error e, io.inp) ∧ (world file n).make c io = (.error e, io)) ∨
  ∃ v, (world file n).make c io = (.ok (.obj c v), io) ∧
    match d io.inp with
    | (.ok x, s) => ∃ w, value x = some w ∧
        (world file n).call c I.parse (.obj c v) [.inp] [] io = (.ok .none, w, ⟨s, io.out⟩)
    | (.error e, s) => ∃ w, (world file n).call c I.parse (.obj c v) [.inp] [] io = (.error e, w, ⟨s, io.out⟩)

theorem decodes (e : Sourced) (he : e ∈ sourced) (hm : e.makes = true) (inj : e.entry.codec.Obj → AnyPdu) {d : R AnyPdu}
    (hd : d = R.bind (e.entry.codec.parse e.entry.codec.fresh) fun p => pure (inj p))
    (hv : ∀ p, value (inj p) = some (.obj e.cls (e.fields p))) : Decodes e.cls d := by
  intro file n io
  obtain ⟨v, -, h⟩ := C77_construct e he hm
  obtain ⟨h1, -, h2⟩ := h n
  refine .inr ⟨v, ?_, ?_⟩
  · show (match construct program words (methods program words treeStreams (n + 8)) e.cls [] [] ⟨[], io⟩ with
      | (r, st) => (r, st.io)) = _
    rw [treeStreams_eq, h1]
  · have h := h2 io
    rw [hd]
    simp only [R.bind, world, treeStreams_eq]
    revert h
    rcases e.entry.codec.parse e.entry.codec.fresh io.inp with ⟨_ | x, s⟩ <;> intro h
    · exact h
    · exact ⟨_, hv x, h⟩

theorem serializes (e : Sourced) (he : e ∈ sourced) (file : Val → Except PyErr Bytes) (n : Nat) (io : Streams)
    (x : e.entry.codec.Obj) (v : Src.Val) (hv : .obj e.cls (e.fields x) = v) :
    (world file n).call e.cls I.serialize v [.out] [] io =
      ((e.entry.codec.serialize x).res.map fun _ => .none, v, ⟨io.inp, io.out ++ (e.entry.codec.serialize x).out⟩) := by
  subst hv
  simp only [world, treeStreams_eq]
  exact C77_serialize e he n x io

theorem linear_decodes : Decodes I.LinearObjectStatePdu (PduClass.decode .LinearObjectStatePdu) := by
  intro file n io
  have hr := (C77_raises n ⟨[], io⟩).1
  refine .inl ⟨.nameError, ?_, ?_⟩
  · rfl
  · simp only [world, treeStreams_eq, hr]

/-- As `decodes`, for a class outside the catalogue: from its constructor and its in-place `parse` (C77). -/
theorem decodes_into {α : Type} {c : Ident} {enc : α → Src.Val} {fresh : α} {into : P α Unit} {parse : R α} (inj : α → AnyPdu)
    {d : R AnyPdu} (hd : d = R.bind parse fun p => pure (inj p)) (hv : ∀ p, value (inj p) = some (enc p))
    {fs : List (Ident × Src.Val)} (hf : enc fresh = .obj c fs)
    (hmake : ∀ n st, construct program words (methods program words streams (n + 8)) c [] [] st = (.ok (enc fresh), st))
    (hparse : ∀ n io, methods program words streams (n + 8) c I.parse (enc fresh) [.inp] [] io =
      ((into fresh io.inp).1.map fun _ => Src.Val.none, enc (into fresh io.inp).2.1, ⟨(into fresh io.inp).2.2, io.out⟩))
    (hrun : ∀ s, P.run into fresh s = parse s) : Decodes c d := by
  intro file n io
  refine .inr ⟨fs, ?_, ?_⟩
  · show (match construct program words (methods program words treeStreams (n + 8)) c [] [] ⟨[], io⟩ with
      | (r, st) => (r, st.io)) = _
    rw [treeStreams_eq, hmake, hf]
  · rw [hd]
    simp only [R.bind, world, treeStreams_eq, ← hrun, ← hf, hparse, P.run]
    rcases into fresh io.inp with ⟨_ | u, x, s⟩
    · exact ⟨_, rfl⟩
    · exact ⟨_, hv x, rfl⟩

theorem transmitter_decodes : Decodes I.TransmitterPdu (PduClass.decode .TransmitterPdu) :=
  decodes_into .TransmitterPdu rfl (fun _ => rfl) rfl C77_transmitter_construct (fun n => C77_transmitter_parse n _)
    fun s => congrFun (C59_transmitter _ s).1 s

theorem intercom_decodes : Decodes I.IntercomControlPdu (PduClass.decode .IntercomControlPdu) :=
  decodes_into .IntercomControlPdu rfl (fun _ => rfl) rfl C77_intercom_construct (fun n => C77_intercom_parse n _)
    fun s => congrFun (C59_intercom _ s).2.2 s

/-! ### Statements -/

section

variable {O : World} {C : Call}

theorem execs_expr {e : Expr} {ss : List Stmt} {st st' : St} {v : Val} (h : eval modules O C e st = (.ok v, st')) :
    execs modules O C (.expr e :: ss) st = execs modules O C ss st' := by
  rw [execs, exec]
  show M.bind (M.bind (eval modules O C e) _) _ _ = _
  simp only [M.bind, h]
  rfl

theorem execs_expr_error {e : Expr} {ss : List Stmt} {st st' : St} {x : PyErr} (h : eval modules O C e st = (.error x, st')) :
    execs modules O C (.expr e :: ss) st = (.error x, st') := by
  rw [execs, exec]
  show M.bind (M.bind (eval modules O C e) _) _ _ = _
  simp only [M.bind, h]

theorem execs_assign {x : Ident} {e : Expr} {ss : List Stmt} {st st' : St} {v : Val}
    (h : eval modules O C e st = (.ok v, st')) :
    execs modules O C (.assign (.name x) e :: ss) st = execs modules O C ss ⟨put x v st'.locals, st'.io⟩ := by
  rw [execs, exec]
  show M.bind (M.bind (eval modules O C e) _) _ _ = _
  simp only [M.bind, h]
  rfl

theorem execs_assign_error {x : Ident} {e : Expr} {ss : List Stmt} {st st' : St} {r : PyErr}
    (h : eval modules O C e st = (.error r, st')) :
    execs modules O C (.assign (.name x) e :: ss) st = (.error r, st') := by
  rw [execs, exec]
  show M.bind (M.bind (eval modules O C e) _) _ _ = _
  simp only [M.bind, h]

theorem execs_ret {e : Expr} {ss : List Stmt} {st st' : St} {v : Val} (h : eval modules O C e st = (.ok v, st')) :
    execs modules O C (.ret e :: ss) st = (.ok (some v), st') := by
  rw [execs, exec]
  show M.bind (M.bind (eval modules O C e) _) _ _ = _
  simp only [M.bind, h]
  rfl

theorem execs_ret_error {e : Expr} {ss : List Stmt} {st st' : St} {x : PyErr} (h : eval modules O C e st = (.error x, st')) :
    execs modules O C (.ret e :: ss) st = (.error x, st') := by
  rw [execs, exec]
  show M.bind (M.bind (eval modules O C e) _) _ _ = _
  simp only [M.bind, h]

theorem execs_ite {t : Expr} {y z ss : List Stmt} {st st' : St} {b : Bool}
    (h : eval modules O C t st = (.ok (.val (.bool b)), st')) :
    execs modules O C (.ite t y z :: ss) st =
      M.bind (execs modules O C (if b then y else z))
        (fun r => match r with | some v => pure (some v) | .none => execs modules O C ss) st' := by
  rw [execs, exec]
  show M.bind (M.bind (eval modules O C t) _) _ _ = _
  simp only [M.bind, h]
  cases b <;> rfl

theorem execs_with {e : Expr} {x : Ident} {body ss : List Stmt} {st st' : St} {v : Val}
    (h : eval modules O C e st = (.ok v, st')) :
    execs modules O C (.withAs e x body :: ss) st =
      M.bind (execs modules O C body)
        (fun r => match r with | some v => pure (some v) | .none => execs modules O C ss) ⟨put x v st'.locals, st'.io⟩ := by
  rw [execs, exec]
  show M.bind (M.bind (eval modules O C e) _) _ _ = _
  simp only [M.bind, h]
  rfl

theorem execs_with_error {e : Expr} {x : Ident} {body ss : List Stmt} {st st' : St} {r : PyErr}
    (h : eval modules O C e st = (.error r, st')) :
    execs modules O C (.withAs e x body :: ss) st = (.error r, st') := by
  rw [execs, exec]
  show M.bind (M.bind (eval modules O C e) _) _ _ = _
  simp only [M.bind, h]

theorem eval_var {x : Ident} {l : List (Ident × Val)} {io : Streams} {v : Val} (h : look x l = some v) :
    eval modules O C (.name x) ⟨l, io⟩ = (.ok v, ⟨l, io⟩) := by
  rw [eval]
  unfold global
  simp only [Bind.bind, M.bind, M.var?, h]
  rfl

/-- The table of the factory, with the names of the classes. -/
def table : List (Int × Ident) := Dis.PduTypeDecoders.map fun p => (p.1, ident p.2)

theorem eval_table {l : List (Ident × Val)} {io : Streams} (h : look I.PduTypeDecoders l = none) :
    eval modules O C (.name I.PduTypeDecoders) ⟨l, io⟩ = (.ok (.dict table), ⟨l, io⟩) := by
  rw [eval]
  unfold global
  simp only [Bind.bind, M.bind, M.var?, h]
  rfl

theorem callMethod_input (e : Expr) (m : Ident) (args : List Val) : callMethod O C e .input m args = inputMethod m args := by
  rfl

theorem inputMethod_seek (k : Nat) (st : St) : inputMethod I.seek [.val (.int k), .val (.int 0)] st =
    (.ok (.val (.int k)), ⟨st.locals, ⟨⟨st.io.inp.data, k⟩, st.io.out⟩⟩) := by
  have hk : ¬ (k : Int) < 0 := by omega
  have h1 : Nat.beq I.seek I.read = false := rfl
  have h2 : Nat.beq I.seek I.seek = true := rfl
  unfold inputMethod
  rw [h1, h2]
  show (if (k : Int) < 0 then M.bind _ _ else M.bind _ _ : M Val) _ = _
  rw [if_neg hk]
  rfl

/-- `inputStream.stream.seek(k, 0)`. -/
theorem eval_seek (k : Int) (p : Nat) (hp : k = p) {l : List (Ident × Val)} {io : Streams} (h : look I.inputStream l = some (.val .inp)) :
    eval modules O C (.method (.attr (.name I.inputStream) I.stream) I.seek [.int k, .int 0]) ⟨l, io⟩ =
      (.ok (.val (.int k)), ⟨l, ⟨⟨io.inp.data, p⟩, io.out⟩⟩) := by
  subst hp
  have h1 : eval modules O C (.attr (.name I.inputStream) I.stream) ⟨l, io⟩ = (.ok .input, ⟨l, io⟩) := by
    rw [eval]
    exact step (eval_var h)
  have h2 : evalList modules O C [.int p, .int 0] ⟨l, io⟩ = (.ok [.val (.int p), .val (.int 0)], ⟨l, io⟩) := by
    simp only [evalList, eval]
    rfl
  rw [eval_method, step h1, step h2]
  rw [callMethod_input, inputMethod_seek]

/-- `inputStream.read_byte()`. -/
theorem eval_read {l : List (Ident × Val)} {io : Streams} (h : look I.inputStream l = some (.val .inp)) :
    eval modules O C (.method (.name I.inputStream) I.read_byte []) ⟨l, io⟩ =
      match C (some I.DataInputStream) I.read_byte [] io with
      | (r, io) => (r, ⟨l, io⟩) := by
  have h2 : evalList modules O C [] ⟨l, io⟩ = (.ok [], ⟨l, io⟩) := by
    rw [evalList]; rfl
  rw [eval_method, step (eval_var h), step h2]
  rfl

theorem table_keys (t : Int) : (table.map (·.1)).contains t = (Dis.PduTypeDecoders.lookup t).isSome := by
  unfold table
  generalize Dis.PduTypeDecoders = l
  induction l with
  | nil => rfl
  | cons p l ih =>
    rcases p with ⟨k, c⟩
    rw [List.map_cons, List.map_cons, List.contains_cons, ih, List.lookup_cons]
    cases t == k <;> rfl

theorem table_find (t : Int) : table.find? (·.1 == t) = (Dis.PduTypeDecoders.lookup t).map fun c => (t, ident c) := by
  unfold table
  generalize Dis.PduTypeDecoders = l
  induction l with
  | nil => rfl
  | cons p l ih =>
    rcases p with ⟨k, c⟩
    rw [List.map_cons, List.find?_cons, ih, List.lookup_cons, Bool.beq_comm]
    rcases h : t == k
    · rfl
    · rw [eq_of_beq h]; rfl

/-- `pduType in PduTypeDecoders.keys()`. -/
theorem eval_known {l : List (Ident × Val)} {io : Streams} {t : Int} (ht : look I.pduType l = some (.val (.int t)))
    (hn : look I.PduTypeDecoders l = none) :
    eval modules O C (.isIn (.name I.pduType) (.method (.name I.PduTypeDecoders) I.keys [])) ⟨l, io⟩ =
      (.ok (.val (.bool (Dis.PduTypeDecoders.lookup t).isSome)), ⟨l, io⟩) := by
  have h2 : evalList modules O C [] ⟨l, io⟩ = (.ok [], ⟨l, io⟩) := by
    rw [evalList]; rfl
  have h3 : eval modules O C (.method (.name I.PduTypeDecoders) I.keys []) ⟨l, io⟩ =
      (.ok (.keys (table.map (·.1))), ⟨l, io⟩) := by
    rw [eval_method, step (eval_table hn), step h2]
    generalize table = T
    rfl
  rw [← table_keys, eval]
  show M.bind (eval modules O C _) _ _ = _
  rw [step (eval_var ht)]
  show M.bind (eval modules O C _) _ _ = _
  rw [step h3]
  generalize table.map (·.1) = T
  rfl

/-- `PduTypeDecoders[pduType]`. -/
theorem eval_decoder {l : List (Ident × Val)} {io : Streams} {t : Int} {c : PduClass}
    (ht : look I.pduType l = some (.val (.int t))) (hn : look I.PduTypeDecoders l = none)
    (hc : Dis.PduTypeDecoders.lookup t = some c) :
    eval modules O C (.index (.name I.PduTypeDecoders) (.name I.pduType)) ⟨l, io⟩ =
      (.ok (.val (.cls (ident c))), ⟨l, io⟩) := by
  rw [eval]
  show M.bind (eval modules O C _) _ _ = _
  rw [step (eval_table hn)]
  show M.bind (eval modules O C _) _ _ = _
  rw [step (eval_var ht)]
  show (match table.find? (·.1 == t) with | some (_, c) => pure (.val (.cls c)) | .none => M.throw unsupported : M Val) _ = _
  rw [table_find, hc]
  rfl

/-- `Decoder()`. -/
theorem eval_make {l : List (Ident × Val)} {io : Streams} {c : Ident} (h : look I.Decoder l = some (.val (.cls c))) :
    eval modules O C (.call I.Decoder []) ⟨l, io⟩ =
      match O.make c io with
      | (r, io) => (r.map .val, ⟨l, io⟩) := by
  have h2 : evalList modules O C [] ⟨l, io⟩ = (.ok [], ⟨l, io⟩) := by
    rw [evalList]; rfl
  rw [eval]
  show M.bind (evalList modules O C []) _ _ = _
  rw [step h2]
  unfold callName
  simp only [Bind.bind, M.bind, M.var?, h]

/-- `pdu.parse(inputStream)`. -/
theorem eval_parse {l : List (Ident × Val)} {io : Streams} {c : Ident} {fs : List (Ident × Src.Val)}
    (h : look I.pdu l = some (.val (.obj c fs))) (hi : look I.inputStream l = some (.val .inp)) :
    eval modules O C (.method (.name I.pdu) I.parse [.name I.inputStream]) ⟨l, io⟩ =
      match O.call c I.parse (.obj c fs) [.inp] [] io with
      | (r, v', io) => (r.map .val, ⟨put I.pdu (.val v') l, io⟩) := by
  rw [eval_method, step (eval_var h), step (eval_one (eval_var hi))]
  rfl

end

theorem getPdu_calling (O : World) (n : Nat) (io : Streams) :
    run modules O (n + 1) .none I.getPdu [.val .inp] io =
      ending (execs modules O (run modules O n) getPdu.body ⟨[(I.inputStream, .val .inp)], io⟩) := by
  rw [run, show find modules .none I.getPdu = some ⟨[I.inputStream], getPdu.body⟩ from rfl]
  generalize getPdu.body = b
  rfl

/-- The local variables when the type is known, and when the class is. -/
abbrev typed (t : Int) : List (Ident × Val) := put I.pduType (.val (.int t)) [(I.inputStream, .val .inp)]
abbrev chosen (t : Int) (c : Ident) : List (Ident × Val) := put I.Decoder (.val (.cls c)) (typed t)
abbrev created (t : Int) (c : Ident) (v : Src.Val) : List (Ident × Val) := put I.pdu (.val v) (chosen t c)

/-- From the type on. -/
def known' : List Stmt :=
  [.assign (.name I.Decoder) (.index (.name I.PduTypeDecoders) (.name I.pduType)),
   .assign (.name I.pdu) (.call I.Decoder []),
   .expr (.method (.name I.pdu) I.parse [.name I.inputStream]),
   .ret (.name I.pdu)]

theorem getPdu_body : getPdu.body =
    [.expr (.method (.attr (.name I.inputStream) I.stream) I.seek [.int 2, .int 0]),
     .assign (.name I.pduType) (.method (.name I.inputStream) I.read_byte []),
     .expr (.method (.attr (.name I.inputStream) I.stream) I.seek [.int 0, .int 0]),
     .ite (.isIn (.name I.pduType) (.method (.name I.PduTypeDecoders) I.keys [])) known' [],
     .ret .none] := rfl

theorem getPdu_short' (O : World) (n : Nat) (io : Streams) (e : PyErr) (s : InStream)
    (h : read_byte ⟨io.inp.data, 2⟩ = (.error e, s)) :
    run modules O (n + 2) .none I.getPdu [.val .inp] io = (.error e, ⟨s, io.out⟩) := by
  have hr := read_byte_runs O n
  rw [getPdu_calling, getPdu_body]
  revert hr
  generalize run modules O (n + 1) = C
  intro hr
  rw [execs_expr (eval_seek 2 2 rfl rfl), execs_assign_error (r := e) (st' := ⟨[(I.inputStream, .val .inp)], ⟨s, io.out⟩⟩)]
  · rfl
  · rw [eval_read rfl, hr, reads, h]
    rfl

theorem getPdu_typed (O : World) (n : Nat) (io : Streams) (t : Int) (s : InStream)
    (h : read_byte ⟨io.inp.data, 2⟩ = (.ok t, s)) :
    run modules O (n + 2) .none I.getPdu [.val .inp] io =
      ending (M.bind (execs modules O (run modules O (n + 1)) (if (Dis.PduTypeDecoders.lookup t).isSome then known' else []))
        (fun r => match r with
          | some v => pure (some v)
          | .none => execs modules O (run modules O (n + 1)) [.ret .none]) ⟨typed t, ⟨⟨s.data, 0⟩, io.out⟩⟩) := by
  have hr := read_byte_runs O n
  rw [getPdu_calling, getPdu_body]
  revert hr
  generalize run modules O (n + 1) = C
  intro hr
  rw [execs_expr (eval_seek 2 2 rfl rfl),
    execs_assign (v := .val (.int t)) (st' := ⟨[(I.inputStream, .val .inp)], ⟨s, io.out⟩⟩)]
  · rw [execs_expr (eval_seek 0 0 rfl rfl), execs_ite (eval_known (t := t) rfl rfl)]
  · rw [eval_read rfl, hr, reads, h]
    rfl

theorem getPdu_unknown (O : World) (n : Nat) (io : Streams) (t : Int) (s : InStream)
    (h : read_byte ⟨io.inp.data, 2⟩ = (.ok t, s)) (hl : Dis.PduTypeDecoders.lookup t = none) :
    run modules O (n + 2) .none I.getPdu [.val .inp] io = (.ok (.val .none), ⟨⟨s.data, 0⟩, io.out⟩) := by
  rw [getPdu_typed O n io t s h, hl]
  generalize run modules O (n + 1) = C
  simp only [Option.isSome_none, Bool.false_eq_true, if_false, M.bind]
  rw [execs]
  show ending (execs modules O C [.ret .none] _) = _
  rw [execs_ret (v := .val .none) (st' := ⟨typed t, ⟨⟨s.data, 0⟩, io.out⟩⟩)]
  · rfl
  · rw [eval]; rfl

theorem getPdu_refused (O : World) (n : Nat) (io : Streams) (t : Int) (s : InStream) (c : PduClass) (e : PyErr) (io' : Streams)
    (h : read_byte ⟨io.inp.data, 2⟩ = (.ok t, s)) (hl : Dis.PduTypeDecoders.lookup t = some c)
    (hm : O.make (ident c) ⟨⟨s.data, 0⟩, io.out⟩ = (.error e, io')) :
    run modules O (n + 2) .none I.getPdu [.val .inp] io = (.error e, io') := by
  rw [getPdu_typed O n io t s h, hl]
  generalize run modules O (n + 1) = C
  simp only [Option.isSome_some, if_true, M.bind]
  unfold known'
  rw [execs_assign (eval_decoder (t := t) rfl rfl hl),
    execs_assign_error (r := e) (st' := ⟨chosen t (ident c), io'⟩)]
  · rfl
  · rw [eval_make (c := ident c) rfl, hm]
    rfl

theorem getPdu_parses (O : World) (n : Nat) (io : Streams) (t : Int) (s : InStream) (c : PduClass)
    (fs : List (Ident × Src.Val)) (r : Except PyErr Src.Val) (v : Src.Val) (io' : Streams)
    (h : read_byte ⟨io.inp.data, 2⟩ = (.ok t, s)) (hl : Dis.PduTypeDecoders.lookup t = some c)
    (hm : O.make (ident c) ⟨⟨s.data, 0⟩, io.out⟩ = (.ok (.obj (ident c) fs), ⟨⟨s.data, 0⟩, io.out⟩))
    (hp : O.call (ident c) I.parse (.obj (ident c) fs) [.inp] [] ⟨⟨s.data, 0⟩, io.out⟩ = (r, v, io')) :
    run modules O (n + 2) .none I.getPdu [.val .inp] io = (r.map fun _ => .val v, io') := by
  rw [getPdu_typed O n io t s h, hl]
  generalize run modules O (n + 1) = C
  simp only [Option.isSome_some, if_true, M.bind]
  unfold known'
  rw [execs_assign (eval_decoder (t := t) rfl rfl hl),
    execs_assign (v := .val (.obj (ident c) fs)) (st' := ⟨chosen t (ident c), ⟨⟨s.data, 0⟩, io.out⟩⟩)]
  · have he := eval_parse (O := O) (C := C) (l := created t (ident c) (.obj (ident c) fs)) (io := ⟨⟨s.data, 0⟩, io.out⟩)
      (c := ident c) (fs := fs) rfl rfl
    rw [hp] at he
    rcases r with e | r
    · rw [execs_expr_error he]
      rfl
    · rw [execs_expr he, execs_ret (eval_var (v := .val v) rfl)]
      rfl
  · rw [eval_make (c := ident c) rfl, hm]
    rfl

/-- What `getPdu` of the model does, as the source has to do it. -/
theorem getPdu_runs (file : Val → Except PyErr Bytes) (k n : Nat) (io : Streams)
    (hd : ∀ t s c, read_byte ⟨io.inp.data, 2⟩ = (.ok t, s) → Dis.PduTypeDecoders.lookup t = some c → Decodes (ident c) c.decode) :
    match Dis.getPdu io.inp with
    | (.ok (some x), s) => ∃ v, value x = some v ∧
        run modules (world file k) (n + 2) .none I.getPdu [.val .inp] io = (.ok (.val v), ⟨s, io.out⟩)
    | (.ok .none, s) => run modules (world file k) (n + 2) .none I.getPdu [.val .inp] io = (.ok (.val .none), ⟨s, io.out⟩)
    | (.error e, s) => run modules (world file k) (n + 2) .none I.getPdu [.val .inp] io = (.error e, ⟨s, io.out⟩) := by
  have hg : Dis.getPdu io.inp = match read_byte ⟨io.inp.data, 2⟩ with
      | (.error e, s) => (.error e, s)
      | (.ok t, s) => match Dis.PduTypeDecoders.lookup t with
        | .none => (.ok .none, ⟨s.data, 0⟩)
        | some c => match c.decode ⟨s.data, 0⟩ with
          | (.ok x, s) => (.ok (some x), s)
          | (.error e, s) => (.error e, s) := by
    unfold Dis.getPdu
    show R.bind (R.seek 2) _ _ = _
    unfold R.bind R.seek
    show R.bind read_byte _ _ = _
    unfold R.bind
    rcases read_byte ⟨io.inp.data, 2⟩ with ⟨e | t, s⟩
    · rfl
    · dsimp only
      show R.bind _ _ _ = _
      unfold R.bind
      dsimp only
      rcases Dis.PduTypeDecoders.lookup t with _ | c
      · rfl
      · show R.bind c.decode _ _ = _
        unfold R.bind
        dsimp only
        rcases c.decode ⟨s.data, 0⟩ with ⟨e | x, s⟩ <;> rfl
  rw [hg]
  rcases h : read_byte ⟨io.inp.data, 2⟩ with ⟨e | t, s⟩
  · exact getPdu_short' _ n io e s h
  · dsimp only
    rcases hl : Dis.PduTypeDecoders.lookup t with _ | c
    · exact getPdu_unknown _ n io t s h hl
    · dsimp only
      rcases hd t s c h hl file k ⟨⟨s.data, 0⟩, io.out⟩ with ⟨e, he, hm⟩ | ⟨v, hm, hp⟩
      · dsimp only at he
        rw [he]
        exact getPdu_refused _ n io t s c e _ h hl hm
      · dsimp only at hp
        revert hp
        rcases c.decode ⟨s.data, 0⟩ with ⟨e | x, s'⟩ <;> intro hp
        · obtain ⟨w, hw⟩ := hp
          exact getPdu_parses _ n io t s c v _ w _ h hl hm hw
        · obtain ⟨w, hv, hw⟩ := hp
          exact ⟨w, hv, getPdu_parses _ n io t s c v _ w _ h hl hm hw⟩

theorem eval_file {O : World} {C : Call} {l : List (Ident × Val)} {io : Streams} {f : Ident}
    (hf : look f l = some .input) (hd : look I.DataInputStream l = none) :
    eval modules O C (.call I.DataInputStream [.name f]) ⟨l, io⟩ = (.ok (.val .inp), ⟨l, io⟩) := by
  rw [eval]
  show M.bind (evalList modules O C _) _ _ = _
  rw [step (eval_one (eval_var hf))]
  unfold callName
  simp only [Bind.bind, M.bind, M.var?, hd]
  rfl

theorem eval_getPdu {O : World} {C : Call} {l : List (Ident × Val)} {io : Streams}
    (hi : look I.inputStream l = some (.val .inp)) (hd : look I.getPdu l = none) :
    eval modules O C (.call I.getPdu [.name I.inputStream]) ⟨l, io⟩ =
      match C .none I.getPdu [.val .inp] io with
      | (r, io) => (r, ⟨l, io⟩) := by
  rw [eval]
  show M.bind (evalList modules O C _) _ _ = _
  rw [step (eval_one (eval_var hi))]
  unfold callName
  simp only [Bind.bind, M.bind, M.var?, hd]
  rfl

theorem eval_io {O : World} {C : Call} {l : List (Ident × Val)} {io : Streams} (hd : look I.io l = none) :
    eval modules O C (.name I.io) ⟨l, io⟩ = (.ok (.module I.io), ⟨l, io⟩) := by
  rw [eval]
  unfold global
  simp only [Bind.bind, M.bind, M.var?, hd]
  rfl

theorem eval_bytesIO {O : World} {C : Call} {l : List (Ident × Val)} {io : Streams} {d : Bytes}
    (hd : look I.data l = some (.val (.bytes d))) (hi : look I.io l = none) :
    eval modules O C (.method (.name I.io) I.BytesIO [.name I.data]) ⟨l, io⟩ = (.ok .input, ⟨l, ⟨⟨d, 0⟩, io.out⟩⟩) := by
  rw [eval_method, step (eval_io hi), step (eval_one (eval_var hd))]
  rfl

theorem eval_open {O : World} {C : Call} {l : List (Ident × Val)} {io : Streams} {p : Val}
    (hp : look I.filePath l = some p) (hi : look I.io l = none) :
    eval modules O C (.method (.name I.io) I.«open» [.name I.filePath, .str [114, 98]]) ⟨l, io⟩ =
      match O.file p with
      | .ok d => (.ok .input, ⟨l, ⟨⟨d, 0⟩, io.out⟩⟩)
      | .error e => (.error e, ⟨l, io⟩) := by
  have h2 : evalList modules O C [.name I.filePath, .str [114, 98]] ⟨l, io⟩ = (.ok [p, .str [114, 98]], ⟨l, io⟩) := by
    rw [evalList]
    show M.bind (eval modules O C _) _ _ = _
    rw [step (eval_var hp), evalList, evalList, eval]
    rfl
  rw [eval_method, step (eval_io hi), step h2]
  show M.bind (M.of (O.file p)) _ _ = _
  unfold M.bind M.of
  rcases O.file p <;> rfl

theorem createPdu_runs (O : World) (n : Nat) (d : Bytes) (io : Streams) :
    run modules O (n + 1) .none I.createPdu [.val (.bytes d)] io =
      run modules O n .none I.getPdu [.val .inp] ⟨⟨d, 0⟩, io.out⟩ := by
  rw [run, show find modules .none I.createPdu = some ⟨[I.data],
    [.assign (.name I.memoryStream) (.method (.name I.io) I.BytesIO [.name I.data]),
     .assign (.name I.inputStream) (.call I.DataInputStream [.name I.memoryStream]),
     .ret (.call I.getPdu [.name I.inputStream])]⟩ from rfl]
  generalize run modules O n = C
  show ending (execs modules O C _ ⟨[(I.data, .val (.bytes d))], io⟩) = _
  rw [execs_assign (eval_bytesIO rfl rfl), execs_assign (eval_file rfl rfl)]
  have h := eval_getPdu (O := O) (C := C) (io := ⟨⟨d, 0⟩, io.out⟩) (l := put I.inputStream (.val .inp)
    (put I.memoryStream .input [(I.data, .val (.bytes d))])) rfl rfl
  revert h
  rcases C .none I.getPdu [.val .inp] ⟨⟨d, 0⟩, io.out⟩ with ⟨e | v, io'⟩ <;> intro h
  · rw [execs_ret_error h]; rfl
  · rw [execs_ret h]; rfl

theorem createPduFromFilePath_runs (O : World) (n : Nat) (p : Val) (io : Streams) :
    run modules O (n + 1) .none I.createPduFromFilePath [p] io =
      match O.file p with
      | .ok d => run modules O n .none I.getPdu [.val .inp] ⟨⟨d, 0⟩, io.out⟩
      | .error e => (.error e, io) := by
  rw [run, show find modules .none I.createPduFromFilePath = some ⟨[I.filePath],
    [.withAs (.method (.name I.io) I.«open» [.name I.filePath, .str [114, 98]]) I.f
       [.assign (.name I.inputStream) (.call I.DataInputStream [.name I.f]),
        .assign (.name I.pdu) (.call I.getPdu [.name I.inputStream])],
     .ret (.name I.pdu)]⟩ from rfl]
  generalize run modules O n = C
  show ending (execs modules O C _ ⟨[(I.filePath, p)], io⟩) = _
  have ho := eval_open (O := O) (C := C) (io := io) (l := [(I.filePath, p)]) (p := p) rfl rfl
  revert ho
  rcases O.file p with e | d <;> intro ho
  · rw [execs_with_error ho]; rfl
  · rw [execs_with ho, M.bind, execs_assign (eval_file rfl rfl)]
    dsimp only
    have h := eval_getPdu (O := O) (C := C) (io := ⟨⟨d, 0⟩, io.out⟩) (l := put I.inputStream (.val .inp)
      (put I.f .input [(I.filePath, p)])) rfl rfl
    revert h
    rcases C .none I.getPdu [.val .inp] ⟨⟨d, 0⟩, io.out⟩ with ⟨e | v, io'⟩ <;> intro h
    · rw [execs_assign_error h]; rfl
    · rw [execs_assign h, execs]
      show ending (execs modules O C [.ret (.name I.pdu)] _) = _
      rw [execs_ret (eval_var (v := v) rfl)]
      rfl

end Dis.Io
