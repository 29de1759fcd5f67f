import Verif.Proof.Source7
import Verif.Proof.SourceVars

/-!
# Reasoning about the syntax trees: sizes, the length of a standard variable record, bytes
-/

namespace Dis.Src

/-- `marshalledSize()` of the object is `i`, and nothing changes. -/
def Sizes (C : Call) (c : Ident) (v : Val) (i : Int) : Prop :=
  ∀ io, C c I.marshalledSize v [] [] io = (.ok (.int i), v, io)

theorem start_env0 {d : Ident} {v : Val} {io : Streams} : Env (start d v []) ⟨start d v [], io⟩ := by
  refine ⟨fun _ _ h => h, fun x hx => ?_⟩
  have h1 : ∀ y, isClass y = false → Nat.beq y x = false := fun y hy => by
    cases e : Nat.beq y x with
    | false => rfl
    | true => rw [Nat.eq_of_beq_eq_true e, hx] at hy; cases hy
  show look x (start d v []) = none
  simp only [look, h1 I.self (by decide +kernel), h1 I.__class__ (by decide +kernel)]

theorem gives_len_bytes {C : Call} {bs : List (Ident × Val)} {e : Expr} {l : Bytes} (h : Gives C bs e (.bytes l)) :
    Gives C bs (.call I.len [e] []) (.int l.length) := fun st hst => by
  unfold ev eval
  rw [M.bind_ok (args_one h hst)]
  rfl

/-- `self.recordLength`. -/
theorem recordLength_of {n : Nat} {k : Ident} {gs : List (Ident × Val)} {i : Int}
    (hm : method program k I.recordLength = some (I.StandardVariableRecord, StandardVariableRecord.recordLength))
    (h : Sizes (run n) k (.obj k gs) i) (io : Streams) :
    run (n + 1) k I.recordLength (.obj k gs) [] [] io = (.ok (.int i), .obj k gs, io) := by
  have h0 : ev (run n) (.method (.name I.self) I.marshalledSize [] [])
      ⟨start I.StandardVariableRecord (.obj k gs) [], io⟩
      = (.ok (.int i), ⟨put I.self (.obj k gs) (start I.StandardVariableRecord (.obj k gs) []), io⟩) :=
    eval_method (eval_local rfl) args_nil
      (method_of_var (x := I.self) (st := ⟨start I.StandardVariableRecord (.obj k gs) [], io⟩) (h io))
  have h1 : exs (run n) StandardVariableRecord.recordLength.body ⟨start I.StandardVariableRecord (.obj k gs) [], io⟩
      = (.ok (some (.int i)), ⟨put I.self (.obj k gs) (start I.StandardVariableRecord (.obj k gs) []), io⟩) := by
    show exs (run n) [.ret (.method (.name I.self) I.marshalledSize [] [])] _ = _
    unfold exs execs
    have : ex (run n) (.ret (.method (.name I.self) I.marshalledSize [] [])) ⟨start I.StandardVariableRecord (.obj k gs) [], io⟩
        = (.ok (some (.int i)), ⟨put I.self (.obj k gs) (start I.StandardVariableRecord (.obj k gs) []), io⟩) := by
      unfold ex exec
      exact (M.bind_ok h0).trans rfl
    exact (M.bind_ok this).trans rfl
  exact run_method hm rfl h1 (look_put_same _ _ _)

theorem gives_recordLength {n : Nat} {bs : List (Ident × Val)} {k : Ident} {gs : List (Ident × Val)} {i : Int}
    (hx : look I.self bs = some (.obj k gs))
    (hm : method program k I.recordLength = some (I.StandardVariableRecord, StandardVariableRecord.recordLength))
    (h : Sizes (run n) k (.obj k gs) i) : Gives (run (n + 1)) bs (.attr (.name I.self) I.recordLength) (.int i) :=
  gives_property (gives_name hx) (by unfold isProperty; rw [hm]; rfl) (recordLength_of hm h)

/-- `StandardVariableRecord.serialize`. -/
theorem standard_serializes {n : Nat} {c k : Ident} {gs : List (Ident × Val)} {t i : Int}
    (hc : method program c I.serialize = some (I.StandardVariableRecord, StandardVariableRecord.serialize))
    (ht : look I.recordType gs = some (.int t))
    (hm : method program k I.recordLength = some (I.StandardVariableRecord, StandardVariableRecord.recordLength))
    (h : Sizes (run n) k (.obj k gs) i) :
    Serializes (run (n + 2)) c (.obj k gs) (Dis.StandardVariableRecord.serialize t i) :=
  serializes_of (n := n + 1) (d := I.StandardVariableRecord) (f := StandardVariableRecord.serialize) hc rfl <|
    ser_skip rfl rfl rfl rfl rfl (serializes_nothing rfl rfl rfl) <|
    ser_cons (ser_write (gives_attr (gives_name rfl) (plain rfl) ht) rfl rfl rfl) <|
    ser_last (ser_write (gives_recordLength rfl hm h) rfl rfl rfl)

/-- `for x in e: size += x.marshalledSize()`. -/
theorem size_loop {α : Type} {C : Call} {c : Ident} {v : α → List (Ident × Val)} {sz : α → Int} {bs : List (Ident × Val)}
    (h : ∀ a, Sizes C c (.obj c (v a)) (sz a)) (hs : isClass I.size = false) (hr : isClass I.record = false)
    (hb : look I.record bs = none) (l : List α) (s : Int) (st : St) (hst : Env ((I.size, .int s) :: bs) st) :
    ∃ L, loop I.record (exs C [.augAdd (.name I.size) (.method (.name I.record) I.marshalledSize [] [])])
        (l.map fun a => .obj c (v a)) st = (.ok none, ⟨L, st.io⟩) ∧
      Env ((I.size, .int (s + (l.map sz).sum)) :: bs) ⟨L, st.io⟩ := by
  have hb' : ∀ w, look I.record ((I.size, w) :: bs) = none := fun w => by
    unfold look
    rw [show Nat.beq I.size I.record = false from rfl]
    exact hb
  induction l generalizing s st with
  | nil => exact ⟨st.locals, rfl, by simpa using hst⟩
  | cons a l ih =>
    have h0 : M.setVar I.record (.obj c (v a)) st = (.ok (), ⟨put I.record (.obj c (v a)) st.locals, st.io⟩) := rfl
    have hst0 := hst.set I.record (.obj c (v a)) hr st.io
    have a1 : ev C (.name I.size) ⟨put I.record (.obj c (v a)) st.locals, st.io⟩ = _ :=
      gives_name (v := .int s) rfl _ hst0
    have a2 : ev C (.method (.name I.record) I.marshalledSize [] []) ⟨put I.record (.obj c (v a)) st.locals, st.io⟩
        = (.ok (.int (sz a)), ⟨put I.record (.obj c (v a)) (put I.record (.obj c (v a)) st.locals), st.io⟩) :=
      eval_method (eval_local (look_put_same _ _ _)) args_nil
        (method_of_var (x := I.record) (st := ⟨put I.record (.obj c (v a)) st.locals, st.io⟩) (h a st.io))
    have hst1 := (hst0.again (x := I.record) rfl st.io).drop (hb' _)
    generalize put I.record (.obj c (v a)) (put I.record (.obj c (v a)) st.locals) = L1 at a2 hst1
    have a3 : ex C (.augAdd (.name I.size) (.method (.name I.record) I.marshalledSize [] []))
        ⟨put I.record (.obj c (v a)) st.locals, st.io⟩ = (.ok none, ⟨put I.size (.int (s + sz a)) L1, st.io⟩) := by
      unfold ex exec
      exact (M.bind_ok a1).trans ((M.bind_ok a2).trans rfl)
    have hst2 := hst1.replace (.int (s + sz a)) hs st.io
    obtain ⟨L, e1, h1⟩ := ih (s + sz a) _ hst2
    refine ⟨L, ?_, ?_⟩
    · show ((M.setVar I.record (.obj c (v a)) >>= fun _ => exs C [.augAdd (.name I.size) (.method (.name I.record) I.marshalledSize [] [])] >>= fun r => match r with
          | some r => pure (some r)
          | .none => loop I.record (exs C [.augAdd (.name I.size) (.method (.name I.record) I.marshalledSize [] [])]) (l.map fun a => .obj c (v a))) : M _) st = _
      exact (M.bind_ok h0).trans ((M.bind_ok (exs_cons_ok a3 exs_nil)).trans e1)
    · rw [List.map_cons, List.sum_cons, ← Int.add_assoc]
      exact h1

/-- The loop as a statement. -/
theorem exec_size {α : Type} {C : Call} {c : Ident} {v : α → List (Ident × Val)} {sz : α → Int} {bs : List (Ident × Val)}
    {e : Expr} {l : List α} {s : Int} {st : St}
    (h : ∀ a, Sizes C c (.obj c (v a)) (sz a)) (hs : isClass I.size = false) (hr : isClass I.record = false)
    (hb : look I.record bs = none) (hst : Env ((I.size, .int s) :: bs) st)
    (he : Gives C ((I.size, .int s) :: bs) e (.list (l.map fun a => .obj c (v a)))) :
    ∃ L, ex C (.for I.record e [.augAdd (.name I.size) (.method (.name I.record) I.marshalledSize [] [])]) st
        = (.ok none, ⟨L, st.io⟩) ∧ Env ((I.size, .int (s + (l.map sz).sum)) :: bs) ⟨L, st.io⟩ := by
  obtain ⟨L, e1, h1⟩ := size_loop h hs hr hb l s st hst
  refine ⟨L, ?_, h1⟩
  unfold ex exec
  exact (M.bind_ok (he st hst)).trans
    ((M.bind_ok (p := elements (Val.list (l.map fun a => .obj c (v a)))) (a := l.map fun a => .obj c (v a)) rfl).trans e1)

/-- `self.f = inputStream.read_bytes(e)`. -/
theorem par_bytes {σ : Type} {C : Call} {k f : Ident} {gs : σ → List (Ident × Val)} {Q : σ → Prop} (Q' : Bytes → σ → Prop)
    {bs : List (Ident × Val)} {e : Expr} {i : Int} {ss : List Stmt} {u : Bytes → σ → σ} {p : Bytes → P σ Unit}
    (he : ∀ x, Gives C ((I.self, .obj k (gs x)) :: bs) e (.int i)) (hi : look I.inputStream bs = some .inp)
    (hp : isProperty program k f = false) (hu : ∀ x v, put f (.bytes v) (gs x) = gs (u v x))
    (hq : ∀ x v, Q x → Q' v (u v x)) (h : ∀ v, Par C k gs (Q' v) bs ss (p v)) :
    Par C k gs Q bs (.assign (.attr (.name I.self) f) (.method (.name I.inputStream) I.read_bytes [e] []) :: ss)
      (P.read (read_bytes i) >>= fun v => P.set (u v) >>= fun _ => p v) := by
  rw [read_set_eq]
  refine par_cons (vs := fun _ => []) (Q' := Q') (fun x hx st hst => ?_) h
  have he : ev C (.method (.name I.inputStream) I.read_bytes [e] []) st
      = ((read_bytes i st.io.inp).1.map .bytes, ⟨st.locals, ⟨(read_bytes i st.io.inp).2, st.io.out⟩⟩) := by
    refine eval_method (gives_name (show look I.inputStream ((I.self, Val.obj k (gs x)) :: bs) = some .inp from hi) st hst)
      (args_one (he x) hst) ?_
    show (match (R.bind (read_bytes i) fun v => (pure (Val.bytes v) : R Val)) st.io.inp with
      | (x, s) => ((x, { st with io := { st.io with inp := s } }) : Except PyErr Val × St)) = _
    unfold R.bind
    rcases read_bytes i st.io.inp with ⟨_ | a, s⟩ <;> rfl
  rcases hr : read_bytes i st.io.inp with ⟨e | v, s'⟩
  · rw [hr] at he
    rw [read_set_error u hr]
    exact ⟨_, exec_assign_error he, hst.1 _ _ rfl, rfl, fun a ha => by cases ha⟩
  · rw [hr] at he
    rw [read_set_ok u hr]
    refine ⟨_, exec_assign he (hst.1 I.self _ rfl) hp, ?_, rfl, fun a ha => ?_⟩
    · rw [hu]; exact look_put_same _ _ _
    · cases ha
      rw [hu]
      exact ⟨hst.replace _ self_plain _, hq x _ hx⟩

end Dis.Src
