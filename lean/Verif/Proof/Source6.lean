import Verif.Proof.Source5

/-!
# Attributes that may be missing, and a method called in an expression
-/

namespace Dis.Src

theorem missing_attr {C : Call} {bs : List (Ident × Val)} {e : Expr} {c f : Ident} {fs : List (Ident × Val)}
    (h : Gives C bs e (.obj c fs)) (hp : isProperty program c f = false) (hf : look f fs = none) {st : St}
    (hst : Env bs st) : ev C (.attr e f) st = (.error .attributeError, st) := by
  unfold ev eval
  rw [M.bind_ok (h st hst)]
  unfold getAttr
  simp only [hp, hf]
  rfl

/-- `outputStream.write_x(self.f)` where the attribute may be missing. -/
theorem ser_write_opt {C : Call} {bs : List (Ident × Val)} {m c f : Ident} {fs : List (Ident × Val)} {o : Option Int}
    {w : Int → W Unit} (hx : look I.self bs = some (.obj c fs)) (hp : isProperty program c f = false)
    (hf : look f fs = o.map .int) (ho : look I.outputStream bs = some .out)
    (hm : look m streams.writes = some (packInt w)) :
    Ser1 C bs (.expr (.method (.name I.outputStream) m [.attr (.name I.self) f] [])) (W.using (attr o) w) := by
  cases o with
  | some v => exact ser_write (gives_attr (gives_name hx) hp hf) ho hm rfl
  | none =>
    intro st hst
    refine ⟨st, ?_, hst, by show _ = Streams.mk _ (_ ++ []); rw [List.append_nil]⟩
    have h2 : evalList program words streams C [.attr (.name I.self) f] st = (.error .attributeError, st) := by
      unfold evalList
      exact M.bind_error (missing_attr (gives_name hx) hp hf hst)
    unfold ex exec
    refine M.bind_error (?_ : ev C (.method (.name I.outputStream) m [.attr (.name I.self) f] []) st = (.error .attributeError, st))
    unfold ev eval
    exact (M.bind_ok (gives_name ho st hst)).trans (M.bind_error h2)

/-- `self.f.serialize(outputStream)` where the attribute may be missing. -/
theorem ser_call_opt {α : Type} {C : Call} {bs : List (Ident × Val)} {f c k : Ident} {gs : List (Ident × Val)}
    {fs : α → List (Ident × Val)} {o : Option α} {w : α → W Unit}
    (hx : look I.self bs = some (.obj k gs)) (hp : isProperty program k f = false)
    (hf : look f gs = o.map fun a => .obj c (fs a)) (hsame : ∀ a, o = some a → put f (.obj c (fs a)) gs = gs)
    (ho : look I.outputStream bs = some .out) (hs : ∀ a, Serializes C c (.obj c (fs a)) (w a)) :
    Ser1 C bs (.expr (.method (.attr (.name I.self) f) I.serialize [.name I.outputStream] [])) (W.using (attr o) w) := by
  cases o with
  | some v => exact ser_call hx hp hf (hsame v rfl) ho (hs v)
  | none =>
    intro st hst
    refine ⟨st, ?_, hst, by show _ = Streams.mk _ (_ ++ []); rw [List.append_nil]⟩
    unfold ex exec
    refine M.bind_error (?_ : ev C (.method (.attr (.name I.self) f) I.serialize [.name I.outputStream] []) st
      = (.error .attributeError, st))
    unfold ev eval
    exact M.bind_error (missing_attr (gives_name hx) hp hf hst)

/-- `range(self.m() // 8)`. -/
theorem goes_range_method {C : Call} {bs : List (Ident × Val)} {x c m : Ident} {fs : List (Ident × Val)} {a : Int}
    (hx : look x bs = some (.obj c fs)) (h : ∀ io, C c m (.obj c fs) [] [] io = (.ok (.int a), .obj c fs, io)) :
    Goes C bs (.call I.range [.bin .floordiv (.method (.name x) m [] []) (.int 8)] [])
      (.list ((List.range (a / 8).toNat).map fun (i : Nat) => .int (i : Int))) := fun st hst => by
  refine ⟨put x (.obj c fs) st.locals, ?_, hst.again hx _⟩
  have h1 : ev C (.method (.name x) m [] []) st = (.ok (.int a), ⟨put x (.obj c fs) st.locals, st.io⟩) := by
    unfold ev eval
    rw [M.bind_ok (gives_name hx st hst), M.bind_ok args_nil]
    exact method_of_var (h st.io)
  have h2 : ev C (.bin .floordiv (.method (.name x) m [] []) (.int 8)) st
      = (.ok (.int (a / 8)), ⟨put x (.obj c fs) st.locals, st.io⟩) := by
    unfold ev eval
    rw [M.bind_ok h1, M.bind_ok (gives_int (C := C) (bs := bs) (v := 8) _ (hst.again hx _))]
    show ((.ok (.int (a.fdiv 8)), _) : Except PyErr Val × St) = _
    rw [Int.fdiv_eq_ediv_of_nonneg _ (by decide)]
  unfold ev eval
  have h3 : evalList program words streams C [.bin .floordiv (.method (.name x) m [] []) (.int 8)] st
      = (.ok [.int (a / 8)], ⟨put x (.obj c fs) st.locals, st.io⟩) := by
    unfold evalList
    rw [M.bind_ok h2, M.bind_ok args_nil]
    rfl
  rw [M.bind_ok h3]
  rfl

theorem times_succ {σ α : Type} (r : R α) (n : Nat) :
    (P.read (R.times (n + 1) r) >>= fun _ => pure () : P σ Unit) =
      ((P.read r >>= fun _ => pure ()) >>= fun _ => P.read (R.times n r) >>= fun _ => pure ()) := by
  funext x s
  show P.bind (P.read (R.bind r fun a => R.bind (R.times n r) fun l => pure (a :: l))) (fun _ => pure ()) x s =
    P.bind (P.bind (P.read r) fun _ => pure ()) (fun _ => P.bind (P.read (R.times n r)) fun _ => pure ()) x s
  unfold P.bind P.read R.bind
  rcases r s with ⟨_ | a, s1⟩
  · rfl
  · dsimp only [pure]
    rcases R.times n r s1 with ⟨_ | l, s2⟩ <;> rfl

/-- `for y in e: inputStream.read_x()`. -/
theorem par_skip {σ α : Type} {C : Call} {k y m : Ident} {gs : σ → List (Ident × Val)} {Q : σ → Prop}
    {bs : List (Ident × Val)} {e : Expr} {ss : List Stmt} {l : List Val} {n : Nat} {inj : α → Val} {r : R α} {p : P σ Unit}
    (he : ∀ x, Q x → Goes C ((I.self, .obj k (gs x)) :: bs) e (.list l)) (hl : l.length = n)
    (hm : look m streams.reads = some (reader inj r)) (hi : look I.inputStream bs = some .inp)
    (hy : isClass y = false) (hys : Nat.beq y I.self = false) (hyb : look y bs = none) (h : Par C k gs Q bs ss p) :
    Par C k gs Q bs (.for y e [.expr (.method (.name I.inputStream) m [] [])] :: ss) (P.read (R.times n r) >>= fun _ => p) := by
  have hp : (P.read (R.times n r) >>= fun _ => p : P σ Unit) = ((P.read (R.times n r) >>= fun _ => pure ()) >>= fun _ => p) := by
    funext x s
    show P.bind (P.read (R.times n r)) (fun _ => p) x s = P.bind (P.bind (P.read (R.times n r)) fun _ => pure ()) (fun _ => p) x s
    unfold P.bind P.read
    rcases R.times n r s with ⟨_ | a, s1⟩ <;> rfl
  rw [hp]
  refine par_for_goes (fun _ n => P.read (R.times n r) >>= fun _ => pure ()) 0 n (b := fun _ => P.read r >>= fun _ => pure ()) he hl
    (fun _ => rfl) (fun _ n => times_succ r n) (fun _ => Q) (fun _ h => h) (fun _ h => h) ?_ h
  intro j hj x hx st hst
  have hst0 := hst.other (look_cons_ne hys hyb) hy (l[j]'(by omega)) st.io
  generalize put y (l[j]'(by omega)) st.locals = L0 at hst0
  have a1 := eval_read (C := C) hm hst0 (show look I.inputStream ((I.self, Val.obj k (gs x)) :: bs) = some .inp from hi)
  show ∃ st', exs C [.expr (.method (.name I.inputStream) m [] [])] ⟨L0, st.io⟩
      = ((P.bind (P.read r) (fun _ => pure ()) x st.io.inp).1.map fun _ => none, st') ∧
    Env ((I.self, .obj k (gs (P.bind (P.read r) (fun _ => pure ()) x st.io.inp).2.1)) :: bs) st' ∧
    st'.io = ⟨(P.bind (P.read r) (fun _ => pure ()) x st.io.inp).2.2, st.io.out⟩ ∧
    ((P.bind (P.read r) (fun _ => pure ()) x st.io.inp).1 = .ok () → Q (P.bind (P.read r) (fun _ => pure ()) x st.io.inp).2.1)
  unfold P.bind P.read
  rcases hr : r st.io.inp with ⟨err | t, s'⟩
  · simp only [hr] at a1
    refine ⟨⟨L0, ⟨s', st.io.out⟩⟩, exs_cons_error ?_, hst0, rfl, fun h => by cases h⟩
    unfold ex exec
    exact M.bind_error a1
  · simp only [hr] at a1
    refine ⟨⟨L0, ⟨s', st.io.out⟩⟩, exs_cons_ok ?_ exs_nil, hst0, rfl, fun _ => hx⟩
    unfold ex exec
    exact M.bind_ok a1

end Dis.Src
