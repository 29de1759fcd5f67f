import Verif.Proof.SourceInit
import Verif.Proof.SourceRecords
import Verif.Spec.SourceFamily

/-!
# `__init__` of the header and the families, called on an object (C77)
-/

namespace Dis.Src

/-- Every parameter gets one value. -/
theorem Supplied.length {kws : List (Ident × Val)} : ∀ {ps : List (Ident × Option Expr)} {args vs : List Val},
    Supplied ps args kws vs → vs.length = ps.length
  | [], _, _, h => by unfold Supplied at h; rw [h.2]; rfl
  | _ :: ps, _ :: args, v :: vs, h => by unfold Supplied at h; rw [List.length_cons, List.length_cons, h.2.length]
  | _ :: ps, [], v :: vs, h => by unfold Supplied at h; rw [List.length_cons, List.length_cons, h.2.length]
  | _ :: _, [], [], h => by unfold Supplied at h; exact h.elim
  | _ :: _, _ :: _, [], h => by unfold Supplied at h; exact h.elim

/-- `__init__` on an object that is there already. -/
theorem runs_init {n : Nat} {b d k : Ident} {f : Method} {vs : List Val} {env fs fs' : List (Ident × Val)}
    (hm : method program b I.__init__ = some (d, f))
    (hb : bindParams f.params vs [] (put I.self (.obj k fs) (put I.__class__ (.cls d) [])) = some env)
    (he : env.all (fun p => !isClass p.1) = true) (hs : look I.self env = some (.obj k fs))
    (h : Inits (run n) env k f.body fs fs') (io : Streams) :
    run (n + 1) b I.__init__ (.obj k fs) vs [] io = (.ok .none, .obj k fs', io) := by
  obtain ⟨st', e1, io1, l1⟩ := h ⟨env, io⟩ ((env_of he).mono fun x v hx => by
    unfold look at hx
    cases e : Nat.beq I.self x with
    | true =>
      have : I.self = x := Nat.eq_of_beq_eq_true e
      subst this
      rw [e] at hx
      rw [hs]; exact hx
    | false => rw [e] at hx; exact hx)
  have hr := run_method hm hb e1 l1
  rw [hr, io1]
  rfl

/-- Named and default arguments of `__init__`. -/
theorem init_named {n : Nat} {b d : Ident} {f : Method} {o : Val} {args vs : List Val} {kws : List (Ident × Val)}
    (hm : method program b I.__init__ = some (d, f)) (hs : Supplied f.params args kws vs) (io : Streams) :
    run (n + 1) b I.__init__ o args kws io = run (n + 1) b I.__init__ o vs [] io := by
  unfold run methods
  simp only [hm, hs.bind]

theorem inits_branch {C : Call} {bs : List (Ident × Val)} {c : Ident} {e : Expr} {ys ns ss : List Stmt} {v : Val} {q : Bool}
    {fs fs' : List (Ident × Val)} (he : Gives C ((I.self, .obj c fs) :: bs) e v) (hq : truth v = q)
    (h : Inits C bs c (cond q ys ns ++ ss) fs fs') : Inits C bs c (.ite e ys ns :: ss) fs fs' := fun st hst => by
  rw [exs_branch (he st hst) hq]
  exact h st hst

theorem gives_is_none {C : Call} {bs : List (Ident × Val)} {x : Ident} {v : Val} (h : look x bs = some v) :
    Gives C bs (.cmp .is (.name x) .none) (.bool (!given v)) :=
  gives_cmp (gives_name h) gives_none fun st => by cases v <;> rfl

theorem gives_is_not_none {C : Call} {bs : List (Ident × Val)} {x : Ident} {v : Val} (h : look x bs = some v) :
    Gives C bs (.cmp .isNot (.name x) .none) (.bool (given v)) :=
  gives_cmp (gives_name h) gives_none fun st => by cases v <;> rfl

theorem gives_and_false {C : Call} {bs : List (Ident × Val)} {e e' : Expr} {v : Val} (h : Gives C bs e v)
    (hv : truth v = false) : Gives C bs (.and e e') v := fun st hst => by
  unfold ev eval
  rw [M.bind_ok (h st hst), hv]
  rfl

theorem gives_and_true {C : Call} {bs : List (Ident × Val)} {e e' : Expr} {v w : Val} (h : Gives C bs e v)
    (hv : truth v = true) (h' : Gives C bs e' w) : Gives C bs (.and e e') w := fun st hst => by
  unfold ev eval
  rw [M.bind_ok (h st hst), hv]
  exact h' st hst

theorem gives_not_hasattr {C : Call} {bs : List (Ident × Val)} {c f x : Ident} {fs : List (Ident × Val)}
    (h : look x bs = some (.obj c fs)) :
    Gives C bs (.not (.hasattr (.name x) f)) (.bool (!(isProperty program c f || (look f fs).isSome))) := fun st hst => by
  unfold ev eval
  have : eval program words streams C (.hasattr (.name x) f) st =
      (.ok (.bool (isProperty program c f || (look f fs).isSome)), st) := by
    unfold eval
    exact (M.bind_ok (gives_name h st hst)).trans rfl
  exact (M.bind_ok this).trans rfl

/-- `x or T()` for any value of `x`. -/
theorem gives_or_any {C : Call} {bs : List (Ident × Val)} {x T : Ident} {u d : Val}
    (hx : look x bs = some u) (hm : Makes C T d) :
    Gives C bs (.or (.name x) (.call T [] [])) (if truth u then u else d) := by
  refine gives_or (gives_name hx) (fun h => ?_) (fun h => ?_)
  · rw [h]; exact gives_new hm
  · rw [h]; rfl

/-- `x is None and not hasattr(self, 'pduType')`. -/
theorem gives_missing {C : Call} {bs : List (Ident × Val)} {x c : Ident} {v : Val} {fs : List (Ident × Val)}
    (h : look x ((I.self, .obj c fs) :: bs) = some v) (hp : isProperty program c I.pduType = false) :
    Gives C ((I.self, .obj c fs) :: bs) (.and (.cmp .is (.name x) .none) (.not (.hasattr (.name I.self) I.pduType)))
      (.bool (!given v && !(look I.pduType fs).isSome)) := by
  cases hv : given v with
  | true =>
    have := gives_is_none (C := C) h
    rw [hv] at this
    exact gives_and_false this rfl
  | false =>
    have h1 := gives_is_none (C := C) h
    rw [hv] at h1
    have := gives_and_true h1 rfl (gives_not_hasattr (C := C) (f := I.pduType) (x := I.self) rfl)
    rw [hp] at this
    exact this

/-- The header: the object, or the arguments, must give a type. -/
theorem header_inits (C : Call) (bs : List (Ident × Val)) (k : Ident) (version exercise typ family stamp length : Val)
    (fs : List (Ident × Val))
    (h1 : look I.protocolVersion bs = some version) (h2 : look I.exerciseID bs = some exercise)
    (h3 : look I.pduType bs = some typ) (h4 : look I.protocolFamily bs = some family)
    (h5 : look I.timestamp bs = some stamp) (h6 : look I.pduLength bs = some length)
    (hp : ∀ f ∈ headerNames, isProperty program k f = false)
    (ht : given typ = true ∨ (look I.pduType fs).isSome = true) :
    Inits C bs k PduSuperclass.__init__.body fs (headerAttrs version exercise typ family stamp length fs) := by
  have h1' : ∀ fs, look I.protocolVersion ((I.self, .obj k fs) :: bs) = some version := fun _ => h1
  have h2' : ∀ fs, look I.exerciseID ((I.self, .obj k fs) :: bs) = some exercise := fun _ => h2
  have h3' : ∀ fs, look I.pduType ((I.self, .obj k fs) :: bs) = some typ := fun _ => h3
  have h4' : ∀ fs, look I.protocolFamily ((I.self, .obj k fs) :: bs) = some family := fun _ => h4
  have h5' : ∀ fs, look I.timestamp ((I.self, .obj k fs) :: bs) = some stamp := fun _ => h5
  have h6' : ∀ fs, look I.pduLength ((I.self, .obj k fs) :: bs) = some length := fun _ => h6
  have hpt : isProperty program k I.pduType = false := hp _ (by simp [headerNames])
  unfold headerAttrs
  refine inits_set (fun _ => gives_name (h1' _)) (hp _ (by simp [headerNames])) <|
    inits_set (fun _ => gives_name (h2' _)) (hp _ (by simp [headerNames])) ?_
  have hl : (look I.pduType (put I.exerciseID exercise (put I.protocolVersion version fs))) = look I.pduType fs := by
    rw [look_put_ne rfl, look_put_ne rfl]
  cases hg : given typ with
  | false =>
    rw [hg] at ht
    have hs := ht.resolve_left (by simp)
    simp only [Bool.false_eq_true, if_false]
    refine inits_branch (gives_missing (h3' _) hpt) (q := false) (by rw [hl, hs, Bool.not_true, Bool.and_false]; rfl) ?_
    refine inits_branch (gives_is_not_none (h3' _)) (q := false) hg ?_
    refine inits_branch (gives_missing (h4' _) hpt) (q := false) (by rw [hl, hs, Bool.not_true, Bool.and_false]; rfl) ?_
    refine inits_branch (gives_is_not_none (h3' _)) (q := false) hg ?_
    exact inits_set (fun _ => gives_name (h5' _)) (hp _ (by simp [headerNames])) <|
      inits_set (fun _ => gives_name (h6' _)) (hp _ (by simp [headerNames])) <| inits_nil rfl
  | true =>
    simp only [if_true]
    refine inits_branch (gives_missing (h3' _) hpt) (q := false) (by rw [hg]; rfl) ?_
    refine inits_branch (gives_is_not_none (h3' _)) (q := true) hg ?_
    refine inits_set (fun _ => gives_name (h3' _)) hpt ?_
    refine inits_branch (gives_missing (h4' _) hpt) (q := false)
      (by rw [look_put_same, Option.isSome_some, Bool.not_true, Bool.and_false]; rfl) ?_
    refine inits_branch (gives_is_not_none (h3' _)) (q := true) hg ?_
    exact inits_set (fun _ => gives_name (h4' _)) (hp _ (by simp [headerNames])) <|
      inits_set (fun _ => gives_name (h5' _)) (hp _ (by simp [headerNames])) <|
      inits_set (fun _ => gives_name (h6' _)) (hp _ (by simp [headerNames])) <| inits_nil rfl

/-- `PduSuperclass.__init__` on an object. -/
theorem header_init (n : Nat) (k : Ident) (version exercise typ family stamp length : Val) (fs : List (Ident × Val))
    (hp : ∀ f ∈ headerNames, isProperty program k f = false)
    (ht : given typ = true ∨ (look I.pduType fs).isSome = true) (io : Streams) :
    run (n + 1) I.PduSuperclass I.__init__ (.obj k fs) [version, exercise, typ, family, stamp, length] [] io =
      (.ok .none, .obj k (headerAttrs version exercise typ family stamp length fs), io) :=
  runs_init (d := I.PduSuperclass) (f := PduSuperclass.__init__) (by kernel_rfl) rfl (by rfl) (by rfl)
    (header_inits _ _ k version exercise typ family stamp length fs rfl rfl rfl rfl rfl rfl hp ht) io

/-- The statements raise, if the name `numberOfSegments` is not bound. -/
def Fails (C : Call) (bs : List (Ident × Val)) (c : Ident) (ss : List Stmt) (fs : List (Ident × Val)) (e : PyErr) : Prop :=
  ∀ st, Env ((I.self, .obj c fs) :: bs) st → look I.numberOfSegments st.locals = none →
    ∃ st' v, exs C ss st = (.error e, st') ∧ st'.io = st.io ∧ look I.self st'.locals = some v

theorem fails_set {C : Call} {bs : List (Ident × Val)} {c f : Ident} {e : Expr} {v : Val} {ss : List Stmt}
    {fs : List (Ident × Val)} {er : PyErr} (he : ∀ fs, Gives C ((I.self, .obj c fs) :: bs) e v)
    (hp : isProperty program c f = false) (h : Fails C bs c ss (put f v fs) er) :
    Fails C bs c (.assign (.attr (.name I.self) f) e :: ss) fs er := fun st hst hna => by
  have a := exec_assign (he fs st hst) (hst.1 I.self _ rfl) hp
  obtain ⟨st', v', e1, io1, l1⟩ := h _ (hst.replace _ self_plain _) ((look_put_ne rfl _ _).trans hna)
  exact ⟨st', v', exs_cons_ok a e1, io1, l1⟩

theorem fails_assign {C : Call} {bs : List (Ident × Val)} {c f : Ident} {e : Expr} {ss : List Stmt}
    {fs : List (Ident × Val)} {er : PyErr} (he : ∀ st, Env ((I.self, .obj c fs) :: bs) st → look I.numberOfSegments st.locals = none → ev C e st = (.error er, st)) :
    Fails C bs c (.assign (.attr (.name I.self) f) e :: ss) fs er := fun st hst hna =>
  ⟨st, _, exs_cons_error (exec_assign_error (he st hst hna)), rfl, hst.1 I.self _ rfl⟩

theorem fails_branch {C : Call} {bs : List (Ident × Val)} {c : Ident} {e : Expr} {ys ns ss : List Stmt} {v : Val} {q : Bool}
    {fs : List (Ident × Val)} {er : PyErr} (he : Gives C ((I.self, .obj c fs) :: bs) e v) (hq : truth v = q)
    (h : Fails C bs c (cond q ys ns ++ ss) fs er) : Fails C bs c (.ite e ys ns :: ss) fs er := fun st hst hna => by
  rw [exs_branch (he st hst) hq]
  exact h st hst hna

theorem fails_raise {C : Call} {bs : List (Ident × Val)} {c : Ident} {ss : List Stmt} {fs : List (Ident × Val)} {er : PyErr} :
    Fails C bs c (.raise er :: ss) fs er := fun st hst hna =>
  ⟨st, _, exs_cons_error (by unfold ex exec; rfl), rfl, hst.1 I.self _ rfl⟩

theorem fails_after_super {C : Call} {bs : List (Ident × Val)} {oc : Option Ident} {c k b : Ident} {K : Class} {ss : List Stmt}
    {fs fs1 : List (Ident × Val)} {er : PyErr}
    (hoc : oc = some c ∨ oc = none ∧ look I.__class__ bs = some (.cls c))
    (hK : look c program = some K) (hb : K.base = some b)
    (hc : ∀ io, C b I.__init__ (.obj k fs) [] [] io = (.ok .none, .obj k fs1, io)) (h : Fails C bs k ss fs1 er) :
    Fails C bs k (.expr (.super oc I.__init__ [] []) :: ss) fs er := fun st hst hna => by
  have he := super_of hst rfl (hoc.imp id fun h => ⟨h.1, h.2⟩) hK hb args_nil (hc st.io)
  have ha : ex C (.expr (.super oc I.__init__ [] [])) st = (.ok none, ⟨put I.self (.obj k fs1) st.locals, st.io⟩) := by
    unfold ex exec
    exact (M.bind_ok he).trans rfl
  obtain ⟨st', v, e1, io1, l1⟩ := h _ (hst.replace _ self_plain _) ((look_put_ne rfl _ _).trans hna)
  exact ⟨st', v, exs_cons_ok ha e1, io1, l1⟩

theorem fails_super {C : Call} {bs : List (Ident × Val)} {oc : Option Ident} {c k b : Ident} {K : Class} {ss : List Stmt}
    {fs : List (Ident × Val)} {er : PyErr}
    (hoc : oc = some c ∨ oc = none ∧ look I.__class__ bs = some (.cls c))
    (hK : look c program = some K) (hb : K.base = some b)
    (hc : ∀ io, ∃ v, C b I.__init__ (.obj k fs) [] [] io = (.error er, v, io)) :
    Fails C bs k (.expr (.super oc I.__init__ [] []) :: ss) fs er := fun st hst hna => by
  obtain ⟨v, hv⟩ := hc st.io
  have he := super_of hst rfl (hoc.imp id fun h => ⟨h.1, h.2⟩) hK hb args_nil hv
  refine ⟨_, v, exs_cons_error (st1 := ⟨put I.self v st.locals, st.io⟩) ?_, rfl, look_put_same _ _ _⟩
  unfold ex exec
  exact M.bind_error he

theorem runs_fail {n : Nat} {b d k : Ident} {f : Method} {vs : List Val} {env fs : List (Ident × Val)} {er : PyErr}
    (hm : method program b I.__init__ = some (d, f))
    (hb : bindParams f.params vs [] (put I.self (.obj k fs) (put I.__class__ (.cls d) [])) = some env)
    (he : env.all (fun p => !isClass p.1) = true) (hs : look I.self env = some (.obj k fs))
    (hna : look I.numberOfSegments env = none) (h : Fails (run n) env k f.body fs er) (io : Streams) :
    ∃ v, run (n + 1) b I.__init__ (.obj k fs) vs [] io = (.error er, v, io) := by
  obtain ⟨st', v, e1, io1, l1⟩ := h ⟨env, io⟩ ((env_of he).mono fun x v hx => by
    unfold look at hx
    cases e : Nat.beq I.self x with
    | true =>
      have : I.self = x := Nat.eq_of_beq_eq_true e
      subst this
      rw [e] at hx
      rw [hs]; exact hx
    | false => rw [e] at hx; exact hx) hna
  refine ⟨v, ?_⟩
  rw [run_method hm hb e1 l1, io1]
  rfl

/-- Without a type it raises. -/
theorem header_raises (n : Nat) (k : Ident) (version exercise family stamp length : Val) (fs : List (Ident × Val))
    (hp : ∀ f ∈ headerNames, isProperty program k f = false) (ht : look I.pduType fs = none) (io : Streams) :
    ∃ v, run (n + 1) I.PduSuperclass I.__init__ (.obj k fs) [version, exercise, .none, family, stamp, length] [] io =
      (.error .valueError, v, io) := by
  refine runs_fail (d := I.PduSuperclass) (f := PduSuperclass.__init__) (by kernel_rfl) rfl (by rfl) (by rfl) (by rfl) ?_ io
  refine fails_set (fun _ => gives_name rfl) (hp _ (by simp [headerNames])) <|
    fails_set (fun _ => gives_name rfl) (hp _ (by simp [headerNames])) <|
    fails_branch (gives_missing (v := .none) rfl (hp _ (by simp [headerNames]))) (q := true) ?_ fails_raise
  rw [look_put_ne rfl, look_put_ne rfl, ht]
  rfl

/-- The header without arguments. -/
theorem header_default (n : Nat) (k : Ident) (fs : List (Ident × Val))
    (hp : ∀ f ∈ headerNames, isProperty program k f = false) (ht : (look I.pduType fs).isSome = true) (io : Streams) :
    run (n + 1) I.PduSuperclass I.__init__ (.obj k fs) [] [] io =
      (.ok .none, .obj k (headerAttrs (.int 7) (.int 0) .none .none (.int 0) (.int 0) fs), io) :=
  (init_named (d := I.PduSuperclass) (f := PduSuperclass.__init__) (by kernel_rfl)
    (args := []) (kws := []) (vs := [.int 7, .int 0, .none, .none, .int 0, .int 0])
    ⟨.inr ⟨rfl, _, rfl, rfl⟩, .inr ⟨rfl, _, rfl, rfl⟩, .inr ⟨rfl, _, rfl, rfl⟩, .inr ⟨rfl, _, rfl, rfl⟩,
      .inr ⟨rfl, _, rfl, rfl⟩, .inr ⟨rfl, _, rfl, rfl⟩, rfl, rfl⟩ io).trans
    (header_init n k (.int 7) (.int 0) .none .none (.int 0) (.int 0) fs hp (.inr ht) io)

/-- The header without arguments, for an object without a type. -/
theorem header_default_raises (n : Nat) (k : Ident) (fs : List (Ident × Val))
    (hp : ∀ f ∈ headerNames, isProperty program k f = false) (ht : look I.pduType fs = none) (io : Streams) :
    ∃ v, run (n + 1) I.PduSuperclass I.__init__ (.obj k fs) [] [] io = (.error .valueError, v, io) := by
  obtain ⟨v, hv⟩ := header_raises n k (.int 7) (.int 0) .none (.int 0) (.int 0) fs hp ht io
  exact ⟨v, (init_named (d := I.PduSuperclass) (f := PduSuperclass.__init__) (by kernel_rfl)
    (args := []) (kws := []) (vs := [.int 7, .int 0, .none, .none, .int 0, .int 0])
    ⟨.inr ⟨rfl, _, rfl, rfl⟩, .inr ⟨rfl, _, rfl, rfl⟩, .inr ⟨rfl, _, rfl, rfl⟩, .inr ⟨rfl, _, rfl, rfl⟩,
      .inr ⟨rfl, _, rfl, rfl⟩, .inr ⟨rfl, _, rfl, rfl⟩, rfl, rfl⟩ io).trans hv⟩

/-- `LiveEntityPdu.__init__`. -/
theorem live_init (n : Nat) (k : Ident) (number : Val) (fs : List (Ident × Val))
    (hp : ∀ f ∈ I.subprotocolNumber :: I.padding :: headerNames, isProperty program k f = false)
    (ht : (look I.pduType fs).isSome = true) (io : Streams) :
    run (n + 2) I.LiveEntityPdu I.__init__ (.obj k fs) [number] [] io =
      (.ok .none, .obj k (put I.padding (.int 0) (put I.subprotocolNumber number (newHeader fs))), io) :=
  runs_init (d := I.LiveEntityPdu) (f := LiveEntityPdu.__init__) (by kernel_rfl) rfl (by rfl) (by rfl)
    (inits_super (c := I.LiveEntityPdu) (.inl rfl) rfl rfl
      (fun io => header_default n k fs (fun f hf => hp f (.tail _ (.tail _ hf))) ht io) <|
    inits_set (fun _ => gives_name rfl) (hp _ (by simp)) <| inits_set (fun _ => gives_int) (hp _ (by simp)) <| inits_nil rfl) io

/-- `Pdu.__init__`. -/
theorem pdu_init (n : Nat) (k : Ident) (status : Val) (fs : List (Ident × Val))
    (hp : ∀ f ∈ I.pduStatus :: I.padding :: headerNames, isProperty program k f = false)
    (ht : (look I.pduType fs).isSome = true) (io : Streams) :
    run (n + 2) I.Pdu I.__init__ (.obj k fs) [status] [] io =
      (.ok .none, .obj k (put I.padding (.int 0) (put I.pduStatus status (newHeader fs))), io) :=
  runs_init (d := I.Pdu) (f := Pdu.__init__) (by kernel_rfl) rfl (by rfl) (by rfl)
    (inits_super (c := I.Pdu) (.inl rfl) rfl rfl
      (fun io => header_default n k fs (fun f hf => hp f (.tail _ (.tail _ hf))) ht io) <|
    inits_set (fun _ => gives_name rfl) (hp _ (by simp)) <| inits_set (fun _ => gives_int) (hp _ (by simp)) <| inits_nil rfl) io

theorem pdu_default (n : Nat) (k : Ident) (fs : List (Ident × Val))
    (hp : ∀ f ∈ I.pduStatus :: I.padding :: headerNames, isProperty program k f = false)
    (ht : (look I.pduType fs).isSome = true) (io : Streams) :
    run (n + 2) I.Pdu I.__init__ (.obj k fs) [] [] io = (.ok .none, .obj k (newPdu fs), io) :=
  (init_named (d := I.Pdu) (f := Pdu.__init__) (by kernel_rfl) (args := []) (kws := []) (vs := [.int 0])
    ⟨.inr ⟨rfl, _, rfl, rfl⟩, rfl, rfl⟩ io).trans (pdu_init n k (.int 0) fs hp ht io)

/-- `Pdu.__init__` of an object without a type. -/
theorem pdu_raises (n : Nat) (k : Ident) (status : Val) (fs : List (Ident × Val))
    (hp : ∀ f ∈ headerNames, isProperty program k f = false) (ht : look I.pduType fs = none) (io : Streams) :
    ∃ v, run (n + 2) I.Pdu I.__init__ (.obj k fs) [status] [] io = (.error .valueError, v, io) :=
  runs_fail (d := I.Pdu) (f := Pdu.__init__) (by kernel_rfl) rfl (by rfl) (by rfl) (by rfl)
    (fails_super (c := I.Pdu) (.inl rfl) rfl rfl fun io => header_default_raises n k fs hp ht io) io

/-- The families with two entities. -/
theorem two_inits {C : Call} {bs : List (Ident × Val)} {c k b x y : Ident} {K : Class} {u v d : Val} {fs fs1 : List (Ident × Val)}
    (hK : look c program = some K) (hb : K.base = some b)
    (hc : ∀ io, C b I.__init__ (.obj k fs) [] [] io = (.ok .none, .obj k fs1, io))
    (hx : ∀ fs, look x ((I.self, .obj k fs) :: bs) = some u) (hy : ∀ fs, look y ((I.self, .obj k fs) :: bs) = some v)
    (hm : Makes C I.EntityIdentifier d) (hpx : isProperty program k x = false) (hpy : isProperty program k y = false) :
    Inits C bs k [.expr (.super (some c) I.__init__ [] []),
      .assign (.attr (.name I.self) x) (.or (.name x) (.call I.EntityIdentifier [] [])),
      .assign (.attr (.name I.self) y) (.or (.name y) (.call I.EntityIdentifier [] []))] fs
      (put y (orElse v d) (put x (orElse u d) fs1)) :=
  inits_super (c := c) (.inl rfl) hK hb hc <|
    inits_set (fun _ => gives_or_any (hx _) hm) hpx <| inits_set (fun _ => gives_or_any (hy _) hm) hpy <| inits_nil rfl

theorem management_init (n : Nat) (k : Ident) (u v : Val) (fs : List (Ident × Val))
    (hp : ∀ f ∈ I.originatingEntityID :: I.receivingEntityID :: I.pduStatus :: I.padding :: headerNames,
      isProperty program k f = false)
    (ht : (look I.pduType fs).isSome = true) (io : Streams) :
    run (n + 4) I.SimulationManagementFamilyPdu I.__init__ (.obj k fs) [u, v] [] io =
      (.ok .none, .obj k (put I.receivingEntityID (orElse v newEntity) (put I.originatingEntityID (orElse u newEntity)
        (newPdu fs))), io) :=
  runs_init (d := I.SimulationManagementFamilyPdu) (f := SimulationManagementFamilyPdu.__init__) (by kernel_rfl) rfl (by rfl)
    (by rfl)
    (two_inits rfl rfl (fun io => pdu_default (n + 1) k fs (fun f hf => hp f (.tail _ (.tail _ hf))) ht io)
      (fun _ => rfl) (fun _ => rfl) (EntityIdentifier.makes (n + 1)) (hp _ (by simp)) (hp _ (by simp))) io

theorem reliable_init (n : Nat) (k : Ident) (u v : Val) (fs : List (Ident × Val))
    (hp : ∀ f ∈ I.originatingEntityID :: I.receivingEntityID :: I.pduStatus :: I.padding :: headerNames,
      isProperty program k f = false)
    (ht : (look I.pduType fs).isSome = true) (io : Streams) :
    run (n + 4) I.SimulationManagementWithReliabilityFamilyPdu I.__init__ (.obj k fs) [u, v] [] io =
      (.ok .none, .obj k (put I.receivingEntityID (orElse v newEntity) (put I.originatingEntityID (orElse u newEntity)
        (newPdu fs))), io) :=
  runs_init (d := I.SimulationManagementWithReliabilityFamilyPdu) (f := SimulationManagementWithReliabilityFamilyPdu.__init__)
    (by kernel_rfl) rfl (by rfl) (by rfl)
    (two_inits rfl rfl (fun io => pdu_default (n + 1) k fs (fun f hf => hp f (.tail _ (.tail _ hf))) ht io)
      (fun _ => rfl) (fun _ => rfl) (EntityIdentifier.makes (n + 1)) (hp _ (by simp)) (hp _ (by simp))) io

theorem warfare_init (n : Nat) (k : Ident) (u v : Val) (fs : List (Ident × Val))
    (hp : ∀ f ∈ I.firingEntityID :: I.targetEntityID :: I.pduStatus :: I.padding :: headerNames,
      isProperty program k f = false)
    (ht : (look I.pduType fs).isSome = true) (io : Streams) :
    run (n + 4) I.WarfareFamilyPdu I.__init__ (.obj k fs) [u, v] [] io =
      (.ok .none, .obj k (put I.targetEntityID (orElse v newEntity) (put I.firingEntityID (orElse u newEntity)
        (newPdu fs))), io) :=
  runs_init (d := I.WarfareFamilyPdu) (f := WarfareFamilyPdu.__init__) (by kernel_rfl) rfl (by rfl) (by rfl)
    (two_inits rfl rfl (fun io => pdu_default (n + 1) k fs (fun f hf => hp f (.tail _ (.tail _ hf))) ht io)
      (fun _ => rfl) (fun _ => rfl) (EntityIdentifier.makes (n + 1)) (hp _ (by simp)) (hp _ (by simp))) io

/-- `AttributePdu` has no type. -/
theorem attribute_raises (n : Nat) (a b c d e f : Val) (io : Streams) :
    ∃ v, run (n + 4) I.AttributePdu I.__init__ (.obj I.AttributePdu (classAttrs program 16 I.AttributePdu))
      [a, b, c, d, e, f] [] io = (.error .valueError, v, io) := by
  have hp : ∀ f ∈ headerNames, isProperty program I.AttributePdu f = false := by
    intro f hf
    simp only [headerNames, List.mem_cons, List.not_mem_nil, or_false] at hf
    rcases hf with rfl | rfl | rfl | rfl | rfl | rfl <;> kernel_rfl
  refine runs_fail (d := I.AttributePdu) (f := AttributePdu.__init__) (by kernel_rfl) rfl (by rfl) (by rfl) (by rfl)
    (fails_super (c := I.AttributePdu) (.inl rfl) rfl rfl fun io => ?_) io
  refine runs_fail (d := I.EntityInformationFamilyPdu) (f := EntityInformationFamilyPdu.__init__) (by kernel_rfl) rfl (by rfl)
    (by rfl) (by rfl) (fails_super (c := I.EntityInformationFamilyPdu) (.inl rfl) rfl rfl fun io => ?_) io
  obtain ⟨v, hv⟩ := pdu_raises n I.AttributePdu (.int 0) (classAttrs program 16 I.AttributePdu) hp (by kernel_rfl) io
  exact ⟨v, (init_named (d := I.Pdu) (f := Pdu.__init__) (by kernel_rfl) (args := []) (kws := []) (vs := [.int 0])
    ⟨.inr ⟨rfl, _, rfl, rfl⟩, rfl, rfl⟩ io).trans hv⟩

/-- A name that nothing binds. -/
theorem no_such_name {C : Call} {x : Ident} {st : St} (h : look x st.locals = none) (hc : look x program = none) :
    ev C (.name x) st = (.error .nameError, st) := by
  unfold ev eval global
  have : M.var? x st = (.ok none, st) := by rw [← h]; rfl
  refine (M.bind_ok this).trans ?_
  simp only [hc]
  rfl

/-- `LinearObjectStatePdu.__init__` uses the name `numberOfSegments`, which is no variable. -/
theorem segments_raises (n : Nat) (a b c d e f g h : Val) (io : Streams) :
    ∃ v, run (n + 4) I.LinearObjectStatePdu I.__init__ (.obj I.LinearObjectStatePdu (classAttrs program 16 I.LinearObjectStatePdu))
      [a, b, c, d, e, f, g, h] [] io = (.error .nameError, v, io) := by
  have hp : ∀ f ∈ I.pduStatus :: I.padding :: headerNames, isProperty program I.LinearObjectStatePdu f = false := by
    intro f hf
    simp only [headerNames, List.mem_cons, List.not_mem_nil, or_false] at hf
    rcases hf with rfl | rfl | rfl | rfl | rfl | rfl | rfl | rfl <;> kernel_rfl
  have hm := EntityIdentifier.makes (n + 1)
  refine runs_fail (d := I.LinearObjectStatePdu) (f := LinearObjectStatePdu.__init__) (by kernel_rfl) rfl (by rfl) (by rfl) (by rfl)
    (fails_after_super (c := I.LinearObjectStatePdu) (fs1 := newPdu (classAttrs program 16 I.LinearObjectStatePdu)) (.inl rfl) rfl rfl (fun io => ?_) <|
    fails_set (fun _ => gives_or_any rfl hm) (by kernel_rfl) <| fails_set (fun _ => gives_or_any rfl hm) (by kernel_rfl) <|
    fails_set (fun _ => gives_name rfl) (by kernel_rfl) <| fails_set (fun _ => gives_name rfl) (by kernel_rfl) <|
    fails_assign fun st _ hna => no_such_name hna (by kernel_rfl)) io
  exact runs_init (d := I.SyntheticEnvironmentFamilyPdu) (f := SyntheticEnvironmentFamilyPdu.__init__) (by kernel_rfl) rfl (by rfl)
    (by rfl) (inits_super (c := I.SyntheticEnvironmentFamilyPdu) (.inl rfl) rfl rfl
      (fun io => pdu_default n _ _ hp (by kernel_rfl) io) (inits_nil rfl)) io

/-- `HighFidelityHAVEQUICKRadio(...)`. -/
theorem HighFidelityHAVEQUICKRadio.makesOf (n : Nat) (net : Option Dis.NetId) (t d w1 w2 w3 w4 w5 w6 : Int) :
    MakesOf (run (n + 3)) I.HighFidelityHAVEQUICKRadio
      [optArg NetId.enc net, .int t, .int d, .int w1, .int w2, .int w3, .int w4, .int w5, .int w6]
      (HighFidelityHAVEQUICKRadio.enc (Dis.HighFidelityHAVEQUICKRadio.init net t d w1 w2 w3 w4 w5 w6)) :=
  made_with (n := n + 2) (d := I.HighFidelityHAVEQUICKRadio) (f := HighFidelityHAVEQUICKRadio.__init__)
    (by kernel_rfl) rfl rfl rfl (by kernel_rfl) rfl (by rfl) (by rfl) <|
    inits_set (fun _ => gives_int) (by kernel_rfl) <|
    inits_set (fun _ => gives_or_new rfl (NetId.makes (n + 1)) (fun _ => rfl)) (by kernel_rfl) <|
    inits_set (fun _ => gives_name rfl) (by kernel_rfl) <|
    inits_set (fun _ => gives_int) (by kernel_rfl) <|
    inits_set (fun _ => gives_name rfl) (by kernel_rfl) <|
    inits_set (fun _ => gives_name rfl) (by kernel_rfl) <|
    inits_set (fun _ => gives_name rfl) (by kernel_rfl) <|
    inits_set (fun _ => gives_name rfl) (by kernel_rfl) <|
    inits_set (fun _ => gives_name rfl) (by kernel_rfl) <|
    inits_set (fun _ => gives_name rfl) (by kernel_rfl) <|
    inits_set (fun _ => gives_name rfl) (by kernel_rfl) <|
    inits_nil rfl

end Dis.Src
