import Verif.Proof.SourceRadio

/-!
# Reasoning about the syntax trees: IntercomControlPdu
-/

namespace Dis.Src

theorem var_intercomParametersLength : isClass I.intercomParametersLength = false := by decide +kernel

theorem IntercomControlPdu.found : look I.IntercomControlPdu program = some IntercomControlPdu := rfl

theorem IntercomControlPdu.makes (n : Nat) : Makes (run (n + 4)) I.IntercomControlPdu (IntercomControlPdu.enc Dis.IntercomControlPdu.init) :=
  makes_of (p := (I.IntercomControlPdu, IntercomControlPdu.__init__)) (by decide +kernel) rfl rfl rfl (by kernel_rfl) fun _ => by kernel_rfl

theorem gives_length {n : Nat} {x : Dis.IntercomControlPdu} {l : List Dis.IntercomCommunicationsParameters}
    (h : x.intercomParameters = .records l) (io : Streams) :
    run (n + 1) I.IntercomControlPdu I.intercomParametersLength (IntercomControlPdu.enc x) [] [] io
      = (.ok (.int l.length), IntercomControlPdu.enc x, io) :=
  property_of (d := I.IntercomControlPdu) (f := IntercomControlPdu.intercomParametersLength) rfl rfl rfl
    (gives_len_map (v := IntercomCommunicationsParameters.enc) (gives_attr (gives_name rfl) (plain rfl) (by
      show some (paramsVal x.intercomParameters) = _
      rw [h]; rfl))) io

theorem fails_length {n : Nat} {x : Dis.IntercomControlPdu} {v : Val} (h : paramsVal x.intercomParameters = v)
    (hv : callName program words (run n) I.len [v] [] = M.throw .typeError) (io : Streams) :
    run (n + 1) I.IntercomControlPdu I.intercomParametersLength (IntercomControlPdu.enc x) [] [] io
      = (.error .typeError, IntercomControlPdu.enc x, io) := by
  have e0 := start_env0 (d := I.IntercomControlPdu) (v := IntercomControlPdu.enc x) (io := io)
  have hself : Gives (run n) (start I.IntercomControlPdu (IntercomControlPdu.enc x) []) (.name I.self) (IntercomControlPdu.enc x) :=
    gives_name rfl
  have h1 : Gives (run n) (start I.IntercomControlPdu (IntercomControlPdu.enc x) []) (.attr (.name I.self) I.intercomParameters) v :=
    gives_attr hself (plain rfl) (by
      show some (paramsVal x.intercomParameters) = _
      rw [h])
  have h2 : ev (run n) (.call I.len [.attr (.name I.self) I.intercomParameters] [])
      ⟨start I.IntercomControlPdu (IntercomControlPdu.enc x) [], io⟩
      = (.error .typeError, ⟨start I.IntercomControlPdu (IntercomControlPdu.enc x) [], io⟩) :=
    eval_call (args_one h1 e0) (congrFun hv _)
  refine run_method (d := I.IntercomControlPdu) (f := IntercomControlPdu.intercomParametersLength) rfl rfl
    (st := ⟨start I.IntercomControlPdu (IntercomControlPdu.enc x) [], io⟩) (r := .error .typeError) ?_ rfl
  refine exs_cons_error ?_
  unfold ex exec
  exact M.bind_error h2

theorem len_none {C : Call} : callName program words C I.len [.none] [] = M.throw .typeError := rfl

theorem len_obj {C : Call} {c : Ident} {fs : List (Ident × Val)} : callName program words C I.len [.obj c fs] [] = M.throw .typeError := rfl

theorem tail_fails (n : Nat) (x : Dis.IntercomControlPdu) (v : Val) (w : W Unit) (ss : List Stmt) (hv : paramsVal x.intercomParameters = v)
    (hc : callName program words (run (n + 1)) I.len [v] [] = M.throw .typeError) :
      Ser (run (n + 2)) (start I.IntercomControlPdu (IntercomControlPdu.enc x) [(I.outputStream, .out)])
      (.expr (.method (.name I.outputStream) I.write_unsigned_int [.attr (.name I.self) I.intercomParametersLength] []) :: ss)
      ((W.throw .typeError : W Unit) >>= fun _ => w) := by
  intro st hst
  refine ⟨st, exs_cons_error ?_, hst, ?_⟩
  · have a1 : ev (run (n + 2)) (.attr (.name I.self) I.intercomParametersLength) st = (.error .typeError, st) := by
      unfold ev eval
      have hself : ev (run (n + 2)) (.name I.self) st = (.ok (IntercomControlPdu.enc x), st) := gives_name rfl st hst
      refine (M.bind_ok hself).trans ?_
      unfold getAttr
      have hp : isProperty program I.IntercomControlPdu I.intercomParametersLength = true := rfl
      simp only [hp, fails_length hv hc]
    have a2 : evalList program words streams (run (n + 2)) [.attr (.name I.self) I.intercomParametersLength] st = (.error .typeError, st) := by
      unfold evalList
      exact M.bind_error a1
    unfold ex exec
    refine M.bind_error ?_
    unfold eval
    have hout : ev (run (n + 2)) (.name I.outputStream) st = (.ok .out, st) := gives_name rfl st hst
    exact (M.bind_ok hout).trans (M.bind_error a2)
  · show _ = Streams.mk _ (_ ++ [])
    rw [List.append_nil]

theorem tail_records (l : List Dis.IntercomCommunicationsParameters) :
    (W.using (IntercomParametersValue.records l).len write_unsigned_int >>= fun _ => (IntercomParametersValue.records l).serializeAll)
      = (write_unsigned_int (l.length : Int) >>= fun _ => W.forEach l Dis.IntercomCommunicationsParameters.serialize) := by
  have h : ∀ i : Int, W.using (Except.ok i) write_unsigned_int = write_unsigned_int i := fun _ => rfl
  simp only [IntercomParametersValue.len, IntercomParametersValue.serializeAll, h]

theorem IntercomControlPdu.tail (n : Nat) (x : Dis.IntercomControlPdu) :
    Ser (run (n + 2)) (start I.IntercomControlPdu (IntercomControlPdu.enc x) [(I.outputStream, .out)])
      [.expr (.method (.name I.outputStream) I.write_unsigned_int [.attr (.name I.self) I.intercomParametersLength] []),
       .for I.anObj (.attr (.name I.self) I.intercomParameters)
        [.expr (.method (.name I.anObj) I.serialize [.name I.outputStream] [])]]
      (W.using x.intercomParameters.len write_unsigned_int >>= fun _ => x.intercomParameters.serializeAll) := by
  rcases h : x.intercomParameters with _ | r | l
  · exact tail_fails n x .none _ _ (by rw [h]; rfl) len_none
  · exact tail_fails n x (IntercomCommunicationsParameters.enc r) _ _ (by rw [h]; rfl) len_obj
  · rw [tail_records]
    exact ser_cons (ser_write (gives_property (gives_name rfl) rfl (gives_length h)) rfl rfl (packInt_int _ _)) <|
      ser_last (ser_for (v := IntercomCommunicationsParameters.enc) (gives_attr (gives_name rfl) (plain rfl) (by
        show some (paramsVal x.intercomParameters) = _
        rw [h]; rfl)) var_anObj rfl fun a _ =>
        ser_last (ser_var rfl rfl (IntercomCommunicationsParameters.serializes (n + 1) a)))

theorem IntercomControlPdu.serializes (n : Nat) (x : Dis.IntercomControlPdu) :
    Serializes (run (n + 8)) I.IntercomControlPdu (IntercomControlPdu.enc x) x.serialize :=
  serializes_of (n := n + 7) (d := I.IntercomControlPdu) (f := IntercomControlPdu.serialize) rfl rfl <|
    ser_cons (ser_super (c := I.IntercomControlPdu) rfl (Or.inl rfl) IntercomControlPdu.found rfl rfl (RadioCommunicationsFamilyPdu.serializes (n + 4) _ _ _)) <|
    ser_cons (ser_write (gives_attr (gives_name rfl) (plain rfl) rfl) rfl rfl rfl) <|
    ser_cons (ser_write (gives_attr (gives_name rfl) (plain rfl) rfl) rfl rfl rfl) <|
    ser_cons (ser_call rfl (plain rfl) rfl rfl rfl (EntityIdentifier.serializes (n + 5) _)) <|
    ser_cons (ser_write (gives_attr (gives_name rfl) (plain rfl) rfl) rfl rfl rfl) <|
    ser_cons (ser_write (gives_attr (gives_name rfl) (plain rfl) rfl) rfl rfl rfl) <|
    ser_cons (ser_write (gives_attr (gives_name rfl) (plain rfl) rfl) rfl rfl rfl) <|
    ser_cons (ser_write (gives_attr (gives_name rfl) (plain rfl) rfl) rfl rfl rfl) <|
    ser_cons (ser_write (gives_attr (gives_name rfl) (plain rfl) rfl) rfl rfl rfl) <|
    ser_cons (ser_call rfl (plain rfl) rfl rfl rfl (EntityIdentifier.serializes (n + 5) _)) <|
    ser_cons (ser_write (gives_attr (gives_name rfl) (plain rfl) rfl) rfl rfl rfl) <|
    IntercomControlPdu.tail (n + 5) x

theorem class_parse (n : Nat) (io : Streams) :
    run (n + 1) I.IntercomCommunicationsParameters I.parse .inp [] [] io = (.error .typeError, .inp, io) := by kernel_rfl

theorem par_class {n : Nat} {bs : List (Ident × Val)} {p : IntercomParametersValue → P Dis.IntercomControlPdu Unit}
    (hi : look I.inputStream bs = some .inp) :
    Par (run (n + 1)) I.IntercomControlPdu IntercomControlPdu.fields (fun _ => True) bs
      [.assign (.attr (.name I.self) I.intercomParameters) (.method (.name I.IntercomCommunicationsParameters) I.parse [.name I.inputStream] [])]
      (P.read (R.throw .typeError) >>= p) := fun x _ st hst => by
  refine ⟨st, exs_cons_error (exec_assign_error ?_), hst.1 _ _ rfl, rfl⟩
  refine eval_method (kws := []) (gives_class (c := I.IntercomCommunicationsParameters) (by decide +kernel) st hst)
    (args_one (bs := (I.self, .obj I.IntercomControlPdu (IntercomControlPdu.fields x)) :: bs) (gives_name hi) hst) ?_
  have hm : method program I.IntercomCommunicationsParameters I.parse
      = some (I.IntercomCommunicationsParameters, IntercomCommunicationsParameters.parse) := rfl
  unfold callMethod
  show (match method program I.IntercomCommunicationsParameters I.parse, [Val.inp] with
    | .none, _ => M.throw .attributeError
    | some _, self :: args => fun st =>
      match run (n + 1) I.IntercomCommunicationsParameters I.parse self args [] st.io with
      | (r, _, io) => (r, { st with io })
    | some _, [] => M.throw .typeError) st = _
  rw [hm]
  simp only [class_parse]

theorem IntercomControlPdu.parses (n : Nat) :
    Parses (run (n + 8)) I.IntercomControlPdu I.IntercomControlPdu IntercomControlPdu.fields Dis.IntercomControlPdu.parseInto :=
  parses_of (n := n + 7) (d := I.IntercomControlPdu) (f := IntercomControlPdu.parse) rfl rfl <|
    par_super (Q' := fun _ => True) (c := I.IntercomControlPdu) (hs := fun x y => RadioCommunicationsFamilyPdu.fields y ++ IntercomControlPdu.own x)
      (fun _ => RadioCommunicationsFamilyPdu.parses (n + 4) _ _) rfl (Or.inl rfl) IntercomControlPdu.found rfl (fun _ => rfl) (fun _ _ => rfl) (fun _ _ _ => trivial) <|
    par_read (fun _ _ => True) rfl rfl (plain rfl) (fun _ _ => rfl) (fun _ _ _ => trivial) fun _ =>
    par_read (fun _ _ => True) rfl rfl (plain rfl) (fun _ _ => rfl) (fun _ _ _ => trivial) fun _ =>
    par_call (Q' := fun _ => True) (EntityIdentifier.parses (n + 5)) rfl (plain rfl) (fun _ => rfl) (fun _ _ => rfl) (fun _ _ _ => trivial) <|
    par_read (fun _ _ => True) rfl rfl (plain rfl) (fun _ _ => rfl) (fun _ _ _ => trivial) fun _ =>
    par_read (fun _ _ => True) rfl rfl (plain rfl) (fun _ _ => rfl) (fun _ _ _ => trivial) fun _ =>
    par_read (fun _ _ => True) rfl rfl (plain rfl) (fun _ _ => rfl) (fun _ _ _ => trivial) fun _ =>
    par_read (fun _ _ => True) rfl rfl (plain rfl) (fun _ _ => rfl) (fun _ _ _ => trivial) fun _ =>
    par_read (fun _ _ => True) rfl rfl (plain rfl) (fun _ _ => rfl) (fun _ _ _ => trivial) fun _ =>
    par_call (Q' := fun _ => True) (EntityIdentifier.parses (n + 5)) rfl (plain rfl) (fun _ => rfl) (fun _ _ => rfl) (fun _ _ _ => trivial) <|
    par_read (fun _ _ => True) rfl rfl (plain rfl) (fun _ _ => rfl) (fun _ _ _ => trivial) fun _ =>
    par_local rfl rfl var_intercomParametersLength rfl fun _ =>
    par_class (n := n + 6) rfl

theorem paramsVal_inj : ∀ {x y : IntercomParametersValue}, paramsVal x = paramsVal y → x = y := by
  intro x y h
  rcases x with _ | x | x <;> rcases y with _ | y | y
  · rfl
  · cases h
  · cases h
  · cases h
  · exact congrArg _ (enc_inj IntercomCommunicationsParameters.inj h)
  · cases h
  · cases h
  · cases h
  · exact congrArg _ (list_inj (enc_inj IntercomCommunicationsParameters.inj) (congrArg some h))

theorem IntercomControlPdu.inj : ∀ {x y : Dis.IntercomControlPdu}, IntercomControlPdu.fields x = IntercomControlPdu.fields y → x = y := by
  rintro ⟨p, a0, a1, a2, a3, a4, a5, a6, a7, a8, a9, a10⟩ ⟨q, b0, b1, b2, b3, b4, b5, b6, b7, b8, b9, b10⟩ h
  obtain rfl : p = q := RadioCommunicationsFamilyPdu.inj (List.append_inj_left h rfl)
  obtain rfl : a0 = b0 := int_inj (congrArg (look I.controlType) h)
  obtain rfl : a1 = b1 := int_inj (congrArg (look I.communicationsChannelType) h)
  obtain rfl : a2 = b2 := obj_inj EntityIdentifier.inj (congrArg (look I.sourceEntityID) h)
  obtain rfl : a3 = b3 := int_inj (congrArg (look I.sourceCommunicationsDeviceID) h)
  obtain rfl : a4 = b4 := int_inj (congrArg (look I.sourceLineID) h)
  obtain rfl : a5 = b5 := int_inj (congrArg (look I.transmitPriority) h)
  obtain rfl : a6 = b6 := int_inj (congrArg (look I.transmitLineState) h)
  obtain rfl : a7 = b7 := int_inj (congrArg (look I.command) h)
  obtain rfl : a8 = b8 := obj_inj EntityIdentifier.inj (congrArg (look I.masterEntityID) h)
  obtain rfl : a9 = b9 := int_inj (congrArg (look I.masterCommunicationsDeviceID) h)
  obtain rfl : a10 = b10 := paramsVal_inj (Option.some.inj (congrArg (look I.intercomParameters) h))
  rfl

end Dis.Src
