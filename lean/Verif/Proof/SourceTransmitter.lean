import Verif.Proof.SourceRadio
import Verif.Proof.InPlaceSpecial

/-!
# Reasoning about the syntax trees: TransmitterPdu
-/

namespace Dis.Src

theorem var_variableTransmitterParameterCount : isClass I.variableTransmitterParameterCount = false := by decide +kernel
theorem var_antennaPatternLength : isClass I.antennaPatternLength = false := by decide +kernel
theorem var_modulationParametersLength : isClass I.modulationParametersLength = false := by decide +kernel

theorem par_congr {σ : Type} {C : Call} {k : Ident} {gs : σ → List (Ident × Val)} {Q : σ → Prop} {bs : List (Ident × Val)}
    {ss : List Stmt} {p p' : P σ Unit} (h : Par C k gs Q bs ss p') (hp : ∀ x, Q x → ∀ s, p x s = p' x s) :
    Par C k gs Q bs ss p := fun x hx st hst => by
  obtain ⟨st', e1, l1, io1⟩ := h x hx st hst
  rw [hp x hx]
  exact ⟨st', e1, l1, io1⟩

theorem yields_nothing {n : Nat} {c d : Ident} {f : Method} {o : Option Dis.ModulationParametersRecord}
    (hm : method program c I.parse = some (d, f))
    (hb : ∀ v, bindParams f.params [.inp] [] (put I.self v (put I.__class__ (.cls d) []))
      = some (start d v [(I.inputStream, .inp), (I.bytelength, .none)])) (hf : f.body = [.pass])
    (ho : modVal o = .obj c []) : Yields (run (n + 1)) c [] [.inp] [] modVal (pure o) :=
  yields_of (σ := Unit) (gs := fun _ => []) (p := pure ()) (x := ()) (r := pure ()) (inj := fun _ => o)
    (parses_by (b := .none) hm hb (hf ▸ par_pass par_nil)) rfl fun _ => ho

theorem GenericRadio.yields (n : Nat) : Yields (run (n + 1)) I.GenericRadio [] [.inp] [] modVal (pure (some .generic)) :=
  yields_nothing (d := I.GenericRadio) (f := GenericRadio.parse) rfl (fun _ => rfl) rfl rfl

theorem SimpleIntercomRadio.yields (n : Nat) :
    Yields (run (n + 1)) I.SimpleIntercomRadio [] [.inp] [] modVal (pure (some .simpleIntercom)) :=
  yields_nothing (d := I.SimpleIntercomRadio) (f := SimpleIntercomRadio.parse) rfl (fun _ => rfl) rfl rfl

/-- The statement on the modulation parameters (/repo/opendis/dis7.py:5076-5096). -/
abbrev modBranch : Stmt :=
  .ite (.cmp .gt (.name I.modulationParametersLength) (.int 0))
      [.ite (.cmp .eq (.attr (.attr (.name I.self) I.modulationType) I.radioSystem) (.int 1))
         [.ite (.cmp .eq (.attr (.attr (.name I.self) I.modulationType) I.majorModulation) (.int 0))
            [.assign (.name I.radio) (.call I.SimpleIntercomRadio [] [])]
            [.assign (.name I.radio) (.call I.GenericRadio [] [])],
          .expr (.method (.name I.radio) I.parse [.name I.inputStream] [])]
         [.ite (.cmp .isIn (.attr (.attr (.name I.self) I.modulationType) I.radioSystem) (.list [.int 2, .int 3, .int 4]))
            [.assign (.name I.radio) (.call I.BasicHaveQuickMP [] []),
             .expr (.method (.name I.radio) I.parse [.name I.inputStream] [])]
            [.ite (.cmp .eq (.attr (.attr (.name I.self) I.modulationType) I.radioSystem) (.int 6))
               [.assign (.name I.radio) (.call I.CCTTSincgarsMP [] []),
                .expr (.method (.name I.radio) I.parse [.name I.inputStream] [])]
               [.assign (.name I.radio) (.call I.UnknownRadio [] []),
                .expr (.method (.name I.radio) I.parse [.name I.inputStream, .name I.modulationParametersLength] [I.bytelength])]]],
       .assign (.attr (.name I.self) I.modulationParameters) (.name I.radio)]
      [.assign (.attr (.name I.self) I.modulationParameters) .none]

/-- The statement on the antenna pattern (/repo/opendis/dis7.py:5097-5109). -/
abbrev antBranch : Stmt :=
  .ite (.cmp .gt (.name I.antennaPatternLength) (.int 0))
      [.ite (.cmp .eq (.attr (.name I.self) I.antennaPatternType) (.int 1))
         [.assign (.attr (.name I.self) I.antennaPattern) (.call I.BeamAntennaPattern [] []),
          .expr (.method (.attr (.name I.self) I.antennaPattern) I.parse [.name I.inputStream] [])]
         [.assign (.attr (.name I.self) I.antennaPattern) (.call I.UnknownAntennaPattern [] []),
          .expr (.method (.attr (.name I.self) I.antennaPattern) I.parse [.name I.inputStream, .name I.antennaPatternLength] [I.bytelength])]]
      [.assign (.attr (.name I.self) I.antennaPattern) .none]

theorem gives_systems {C : Call} {bs : List (Ident × Val)} :
    Gives C bs (.list [.int 2, .int 3, .int 4]) (.list [.int 2, .int 3, .int 4]) := fun st _ => by
  unfold ev eval evalList evalList evalList evalList eval
  rfl

theorem gives_radioSystem {C : Call} {bs : List (Ident × Val)} (x : Dis.TransmitterPdu) :
    Gives C ((I.self, .obj I.TransmitterPdu (TransmitterPdu.fields x)) :: bs)
      (.attr (.attr (.name I.self) I.modulationType) I.radioSystem) (.int x.modulationType.radioSystem) :=
  gives_attr (gives_attr (gives_name rfl) (plain rfl) rfl) (plain rfl) rfl

theorem gives_majorModulation {C : Call} {bs : List (Ident × Val)} (x : Dis.TransmitterPdu) :
    Gives C ((I.self, .obj I.TransmitterPdu (TransmitterPdu.fields x)) :: bs)
      (.attr (.attr (.name I.self) I.modulationType) I.majorModulation) (.int x.modulationType.majorModulation) :=
  gives_attr (gives_attr (gives_name rfl) (plain rfl) rfl) (plain rfl) rfl

/-- `radio = T()`, `radio.parse(inputStream)`, `self.modulationParameters = radio`. -/
theorem par_radio {C : Call} {c : Ident} {Q : Dis.TransmitterPdu → Prop} {bs : List (Ident × Val)} {ss : List Stmt}
    {fs : List (Ident × Val)} {r : R (Option Dis.ModulationParametersRecord)} {p : P Dis.TransmitterPdu Unit}
    (hm : Makes C c (.obj c fs)) (hr : Yields C c fs [.inp] [] modVal r)
    (hi : look I.inputStream bs = some .inp) (hb : look I.radio bs = none)
    (h : Par C I.TransmitterPdu TransmitterPdu.fields (fun _ => True) bs ss p) :
    Par C I.TransmitterPdu TransmitterPdu.fields Q bs
      (.assign (.name I.radio) (.call c [] []) :: .expr (.method (.name I.radio) I.parse [.name I.inputStream] []) ::
        .assign (.attr (.name I.self) I.modulationParameters) (.name I.radio) :: ss)
      (P.read r >>= fun v => P.set (fun o => { o with modulationParameters := v }) >>= fun _ => p) :=
  par_load (vs := [.inp]) (ks := []) (Q' := fun _ => True) hm hr (fun x v _ hst => args_one (bs := (I.radio, v) :: (I.self, .obj I.TransmitterPdu (TransmitterPdu.fields x)) :: bs) (gives_name hi) hst) var_radio rfl hb
    (plain rfl) (fun _ _ => rfl) (fun _ _ _ => trivial) h

theorem par_mod {n : Nat} {bs : List (Ident × Val)} {ss : List Stmt} {len : Int} {p : P Dis.TransmitterPdu Unit}
    (hi : look I.inputStream bs = some .inp) (hl : look I.modulationParametersLength bs = some (.int len))
    (hb : look I.radio bs = none)
    (h : Par (run (n + 3)) I.TransmitterPdu TransmitterPdu.fields (fun _ => True) bs ss p) :
    Par (run (n + 3)) I.TransmitterPdu TransmitterPdu.fields (fun _ => True) bs (modBranch :: ss)
      (P.get (fun o : Dis.TransmitterPdu => o.modulationType) >>= fun m =>
        P.read (TransmitterPdu.parseModulationParameters m len) >>= fun v =>
        P.set (fun o => { o with modulationParameters := v }) >>= fun _ => p) := by
  refine par_ite fun x _ => ⟨decide (0 < len), P.read (TransmitterPdu.parseModulationParameters x.modulationType len) >>= fun v =>
        P.set (fun o => { o with modulationParameters := v }) >>= fun _ => p, gives_cmp (gives_name hl) gives_int fun _ => rfl, ?_,
        fun s => rfl⟩
  unfold TransmitterPdu.parseModulationParameters
  by_cases h0 : len > 0
  · rw [decide_eq_true (show 0 < len from h0), if_pos h0]
    refine par_if (x.modulationType.radioSystem == 1) (fun y hy => by
      subst hy; exact gives_cmp (gives_radioSystem _) gives_int fun _ => rfl) ?_
    by_cases h1 : x.modulationType.radioSystem = 1
    · rw [show (x.modulationType.radioSystem == 1) = true from beq_iff_eq.2 h1, if_pos h1]
      refine par_if (x.modulationType.majorModulation == 0) (fun y hy => by
        subst hy; exact gives_cmp (gives_majorModulation _) gives_int fun _ => rfl) ?_
      by_cases h2 : x.modulationType.majorModulation = 0
      · rw [show (x.modulationType.majorModulation == 0) = true from beq_iff_eq.2 h2, if_pos h2]
        exact par_radio (SimpleIntercomRadio.makes _) (SimpleIntercomRadio.yields _) hi hb h
      · rw [show (x.modulationType.majorModulation == 0) = false from beq_eq_false_iff_ne.2 h2, if_neg h2]
        exact par_radio (GenericRadio.makes _) (GenericRadio.yields _) hi hb h
    · rw [show (x.modulationType.radioSystem == 1) = false from beq_eq_false_iff_ne.2 h1, if_neg h1]
      refine par_if (decide (x.modulationType.radioSystem = 2 ∨ x.modulationType.radioSystem = 3 ∨ x.modulationType.radioSystem = 4))
        (fun y hy => by
          subst hy
          refine gives_cmp (gives_radioSystem _) gives_systems fun _ => ?_
          have : ∀ i : Int, decide (i = 2 ∨ i = 3 ∨ i = 4)
              = [Val.int 2, .int 3, .int 4].any fun v => match asInt v with | some b => i == b | .none => false := by
            intro i
            rw [Bool.eq_iff_iff]
            simp [asInt]
          rw [this]
          rfl) ?_
      by_cases h2 : x.modulationType.radioSystem = 2 ∨ x.modulationType.radioSystem = 3 ∨ x.modulationType.radioSystem = 4
      · rw [decide_eq_true h2, if_pos h2]
        exact par_radio (BasicHaveQuickMP.makes _) (yields_of (enc := modVal) (inj := fun y => some (Dis.ModulationParametersRecord.haveQuick y)) (BasicHaveQuickMP.parses n)
          (BasicHaveQuickMP.into _ _) fun _ => rfl) hi hb h
      · rw [decide_eq_false h2, if_neg h2]
        refine par_if (x.modulationType.radioSystem == 6) (fun y hy => by
          subst hy; exact gives_cmp (gives_radioSystem _) gives_int fun _ => rfl) ?_
        by_cases h3 : x.modulationType.radioSystem = 6
        · rw [show (x.modulationType.radioSystem == 6) = true from beq_iff_eq.2 h3, if_pos h3]
          exact par_radio (CCTTSincgarsMP.makes _) (yields_of (enc := modVal) (inj := fun y => some (Dis.ModulationParametersRecord.sincgars y)) (CCTTSincgarsMP.parses n)
            (CCTTSincgarsMP.into _ _) fun _ => rfl) hi hb h
        · rw [show (x.modulationType.radioSystem == 6) = false from beq_eq_false_iff_ne.2 h3, if_neg h3]
          exact par_load (vs := [.inp, .int len]) (ks := [I.bytelength]) (Q' := fun _ => True) (UnknownRadio.makes _)
            (yields_of (enc := modVal) (inj := fun y => some (Dis.ModulationParametersRecord.unknown y)) (UnknownRadio.parsesBy n len) (UnknownRadio.into _ _) fun _ => rfl)
            (fun x v _ hst => args_two (bs := (I.radio, v) :: (I.self, .obj I.TransmitterPdu (TransmitterPdu.fields x)) :: bs) (gives_name hi) (gives_name hl) hst) var_radio rfl hb
            (plain rfl) (fun _ _ => rfl) (fun _ _ _ => trivial) h
  · rw [decide_eq_false (show ¬ 0 < len from h0), if_neg h0]
    exact par_assign (f := I.modulationParameters) (u := fun o => { o with modulationParameters := none }) (Q' := fun _ => True) (fun _ _ => gives_none) (plain rfl)
      (fun _ => rfl) (fun _ _ => trivial) h

theorem pattern_call (len : Int) (p : P Dis.TransmitterPdu Unit) (x : Dis.TransmitterPdu) (hx : x.antennaPattern = some (.unknown {})) (s : InStream) :
    (P.read (Dis.UnknownAntennaPattern.parse {} len) >>= fun v =>
      P.set (fun o : Dis.TransmitterPdu => { o with antennaPattern := some (.unknown v) }) >>= fun _ => p) x s
    = (P.call ⟨fun _ => ({} : Dis.UnknownAntennaPattern), fun o v => { o with antennaPattern := some (.unknown v) }⟩
        (Dis.UnknownAntennaPattern.parseInto len) >>= fun _ => p) x s := by
  have hput : { x with antennaPattern := some (.unknown {}) } = x := by rw [← hx]
  rw [← UnknownAntennaPattern.into]
  have key : ∀ e v s', Dis.UnknownAntennaPattern.parseInto len {} s = (Except.error e, v, s') → v = {} := by
    intro e v s'
    unfold Dis.UnknownAntennaPattern.parseInto
    show P.bind (P.read _) _ _ _ = _ → _
    unfold P.bind P.read
    rcases Dis.VariableRecord.parse (some len) s with ⟨_ | _, s1⟩
    · intro h; cases h; rfl
    · show P.bind _ _ _ _ = _ → _
      unfold P.bind
      rcases read_bytes (len - 6) s1 with ⟨_ | _, s2⟩
      · intro h; cases h
      · intro h; cases h
  show P.bind _ _ _ _ = P.bind _ _ _ _
  unfold P.bind P.read P.call P.run
  rcases hr : Dis.UnknownAntennaPattern.parseInto len {} s with ⟨e | u, v, s'⟩
  · obtain rfl := key e v s' hr
    show (_, x, _) = (_, { x with antennaPattern := some (.unknown {}) }, _)
    rw [hput]
  · rfl

theorem par_ant {n : Nat} {bs : List (Ident × Val)} {ss : List Stmt} {len : Int} {p : P Dis.TransmitterPdu Unit}
    (hi : look I.inputStream bs = some .inp) (hl : look I.antennaPatternLength bs = some (.int len))
    (h : Par (run (n + 3)) I.TransmitterPdu TransmitterPdu.fields (fun _ => True) bs ss p) :
    Par (run (n + 3)) I.TransmitterPdu TransmitterPdu.fields (fun _ => True) bs (antBranch :: ss)
      (P.get (fun o : Dis.TransmitterPdu => o.antennaPatternType) >>= fun t =>
        TransmitterPdu.parseAntennaPatternInto t len >>= fun _ => p) := by
  refine par_ite fun x _ => ⟨decide (0 < len), TransmitterPdu.parseAntennaPatternInto x.antennaPatternType len >>= fun _ => p,
    gives_cmp (gives_name hl) gives_int fun _ => rfl, ?_, fun s => rfl⟩
  unfold TransmitterPdu.parseAntennaPatternInto
  by_cases h0 : len > 0
  · rw [decide_eq_true (show 0 < len from h0), if_pos h0]
    refine par_if (x.antennaPatternType == 1) (fun y hy => by
      subst hy; exact gives_cmp (gives_attr (gives_name rfl) (plain rfl) rfl) gives_int fun _ => rfl) ?_
    by_cases h1 : x.antennaPatternType = 1
    · rw [show (x.antennaPatternType == 1) = true from beq_iff_eq.2 h1, if_pos h1, P.bind_assoc]
      exact par_assign (Q' := fun y => y.antennaPattern = some (.beam Dis.BeamAntennaPattern.init))
        (v := fun _ => BeamAntennaPattern.enc Dis.BeamAntennaPattern.init)
        (fun _ _ => gives_new (BeamAntennaPattern.makes (n + 1))) (plain rfl) (fun _ => rfl) (fun _ _ => rfl) <|
        par_call_by (vs := [.inp]) (ks := []) (Q' := fun _ => True) (BeamAntennaPattern.parses n)
          (fun x _ hst => args_one (bs := (I.self, .obj I.TransmitterPdu (TransmitterPdu.fields x)) :: bs) (gives_name hi) hst) (plain rfl) (fun y hy => by
            show some (antVal y.antennaPattern) = _
            rw [hy]; rfl) (fun _ _ => rfl) (fun _ _ _ => trivial) h
    · rw [show (x.antennaPatternType == 1) = false from beq_eq_false_iff_ne.2 h1, if_neg h1, P.bind_assoc]
      refine par_assign (Q' := fun y => y.antennaPattern = some (.unknown {}))
        (v := fun _ => UnknownAntennaPattern.enc {})
        (fun _ _ => gives_new (UnknownAntennaPattern.makes (n + 2))) (plain rfl) (fun _ => rfl) (fun _ _ => rfl) ?_
      rw [P.bind_assoc]
      refine par_congr ?_ (pattern_call len p)
      exact par_call_by (vs := [.inp, .int len]) (ks := [I.bytelength]) (Q' := fun _ => True) (UnknownAntennaPattern.parsesBy n len)
          (fun x _ hst => args_two (bs := (I.self, .obj I.TransmitterPdu (TransmitterPdu.fields x)) :: bs) (gives_name hi) (gives_name hl) hst) (plain rfl) (fun y hy => by
            show some (antVal y.antennaPattern) = _
            rw [hy]; rfl) (fun _ _ => rfl) (fun _ _ _ => trivial) h
  · rw [decide_eq_false (show ¬ 0 < len from h0), if_neg h0]
    exact par_assign (f := I.antennaPattern) (u := fun o => { o with antennaPattern := none }) (Q' := fun _ => True) (fun _ _ => gives_none) (plain rfl)
      (fun _ => rfl) (fun _ _ => trivial) h

theorem TransmitterPdu.found : look I.TransmitterPdu program = some TransmitterPdu := rfl

theorem TransmitterPdu.makes (n : Nat) : Makes (run (n + 4)) I.TransmitterPdu (TransmitterPdu.enc Dis.TransmitterPdu.init) :=
  makes_of (p := (I.TransmitterPdu, TransmitterPdu.__init__)) (by decide +kernel) rfl rfl rfl (by kernel_rfl) fun _ => by kernel_rfl

theorem TransmitterPdu.patternLength (n : Nat) (x : Dis.TransmitterPdu) (io : Streams) :
    run (n + 2) I.TransmitterPdu I.antennaPatternLength (TransmitterPdu.enc x) [] [] io
      = (.ok (.int x.antennaPatternLength), TransmitterPdu.enc x, io) := by
  refine length_of (n := n + 1) (d := I.TransmitterPdu) (F := TransmitterPdu.antennaPatternLength) (f := I.antennaPattern) rfl rfl rfl (plain rfl) ?_ io
  rcases h : x.antennaPattern with _ | r
  · exact .inl ⟨by show some (antVal x.antennaPattern) = _; rw [h]; rfl, by unfold Dis.TransmitterPdu.antennaPatternLength; rw [h]⟩
  · refine .inr ⟨antClass r, antFields r, by show some (antVal x.antennaPattern) = _; rw [h]; rfl, ?_, ?_⟩
    · show TransmitterPdu.fields { x with antennaPattern := some r } = TransmitterPdu.fields x
      rw [← h]
    · have := ant_sizes n r
      unfold Dis.TransmitterPdu.antennaPatternLength
      rw [h]
      exact this

theorem TransmitterPdu.parametersLength (n : Nat) (x : Dis.TransmitterPdu) (io : Streams) :
    run (n + 2) I.TransmitterPdu I.modulationParametersLength (TransmitterPdu.enc x) [] [] io
      = (.ok (.int x.modulationParametersLength), TransmitterPdu.enc x, io) := by
  refine length_of (n := n + 1) (d := I.TransmitterPdu) (F := TransmitterPdu.modulationParametersLength) (f := I.modulationParameters) rfl rfl rfl (plain rfl) ?_ io
  rcases h : x.modulationParameters with _ | r
  · exact .inl ⟨by show some (modVal x.modulationParameters) = _; rw [h]; rfl, by unfold Dis.TransmitterPdu.modulationParametersLength; rw [h]⟩
  · refine .inr ⟨modClass r, modFields r, by show some (modVal x.modulationParameters) = _; rw [h]; rfl, ?_, ?_⟩
    · show TransmitterPdu.fields { x with modulationParameters := some r } = TransmitterPdu.fields x
      rw [← h]
    · have := mod_sizes n r
      unfold Dis.TransmitterPdu.modulationParametersLength
      rw [h]
      exact this

theorem TransmitterPdu.serializes (n : Nat) (x : Dis.TransmitterPdu) :
    Serializes (run (n + 8)) I.TransmitterPdu (TransmitterPdu.enc x) x.serialize :=
  serializes_of (n := n + 7) (d := I.TransmitterPdu) (f := TransmitterPdu.serialize) rfl rfl <|
    ser_cons (ser_super (c := I.TransmitterPdu) rfl (Or.inl rfl) TransmitterPdu.found rfl rfl (RadioCommunicationsFamilyPdu.serializes (n + 4) _ _ _)) <|
    ser_cons (ser_call rfl (plain rfl) rfl rfl rfl (EntityIdentifier.serializes (n + 5) _)) <|
    ser_cons (ser_write (gives_attr (gives_name rfl) (plain rfl) rfl) rfl rfl rfl) <|
    ser_cons (ser_call rfl (plain rfl) rfl rfl rfl (EntityType.serializes (n + 6) _)) <|
    ser_cons (ser_write (gives_attr (gives_name rfl) (plain rfl) rfl) rfl rfl rfl) <|
    ser_cons (ser_write (gives_attr (gives_name rfl) (plain rfl) rfl) rfl rfl rfl) <|
    ser_cons (ser_write (gives_property (gives_name rfl) rfl (property_of (n := n + 6) (d := I.TransmitterPdu) (f := TransmitterPdu.variableTransmitterParameterCount) rfl rfl rfl (gives_len_map (gives_attr (gives_name rfl) (plain rfl) rfl)))) rfl rfl (packInt_int _ _)) <|
    ser_cons (ser_call rfl (plain rfl) rfl rfl rfl (WorldCoordinates.serializes (n + 6) _)) <|
    ser_cons (ser_call rfl (plain rfl) rfl rfl rfl (Vector3Float.serializes (n + 6) _)) <|
    ser_cons (ser_write (gives_attr (gives_name rfl) (plain rfl) rfl) rfl rfl rfl) <|
    ser_cons (ser_write (gives_property (gives_name rfl) rfl (TransmitterPdu.patternLength (n + 5) x)) rfl rfl (packInt_int _ _)) <|
    ser_cons (ser_write (gives_attr (gives_name rfl) (plain rfl) rfl) rfl rfl rfl) <|
    ser_cons (ser_write (gives_attr (gives_name rfl) (plain rfl) rfl) rfl rfl rfl) <|
    ser_cons (ser_write (gives_attr (gives_name rfl) (plain rfl) rfl) rfl rfl rfl) <|
    ser_cons (ser_call rfl (plain rfl) rfl rfl rfl (ModulationType.serializes (n + 5) _)) <|
    ser_cons (ser_write (gives_attr (gives_name rfl) (plain rfl) rfl) rfl rfl rfl) <|
    ser_cons (ser_write (gives_attr (gives_name rfl) (plain rfl) rfl) rfl rfl rfl) <|
    ser_cons (ser_write (gives_property (gives_name rfl) rfl (TransmitterPdu.parametersLength (n + 5) x)) rfl rfl (packInt_int _ _)) <|
    ser_cons (ser_write (gives_attr (gives_name rfl) (plain rfl) rfl) rfl rfl rfl) <|
    ser_cons (ser_write (gives_attr (gives_name rfl) (plain rfl) rfl) rfl rfl rfl) <|
    ser_cons (ser_when (cls := modClass) (fs := modFields) rfl (plain rfl)
      (fun h => by show some (modVal x.modulationParameters) = _; rw [h]; rfl)
      (fun r h => ⟨by show some (modVal x.modulationParameters) = _; rw [h]; rfl, by
        show TransmitterPdu.fields { x with modulationParameters := some r } = TransmitterPdu.fields x
        rw [← h]⟩) rfl (mod_serializes (n + 5))) <|
    ser_cons (ser_when (cls := antClass) (fs := antFields) rfl (plain rfl)
      (fun h => by show some (antVal x.antennaPattern) = _; rw [h]; rfl)
      (fun r h => ⟨by show some (antVal x.antennaPattern) = _; rw [h]; rfl, by
        show TransmitterPdu.fields { x with antennaPattern := some r } = TransmitterPdu.fields x
        rw [← h]⟩) rfl (ant_serializes (n + 5))) <|
    ser_last (ser_for (v := svEnc) (gives_attr (gives_name rfl) (plain rfl) rfl) var_vtp rfl fun a _ =>
      ser_last (ser_var (c := svClass a) (fs := svFields a) rfl rfl (sv_serializes n a)))

theorem TransmitterPdu.parses (n : Nat) :
    Parses (run (n + 8)) I.TransmitterPdu I.TransmitterPdu TransmitterPdu.fields Dis.TransmitterPdu.parseInto :=
  parses_of (n := n + 7) (d := I.TransmitterPdu) (f := TransmitterPdu.parse) rfl rfl <|
    par_super (Q' := fun _ => True) (c := I.TransmitterPdu) (hs := fun x y => RadioCommunicationsFamilyPdu.fields y ++ TransmitterPdu.own x)
      (fun _ => RadioCommunicationsFamilyPdu.parses (n + 4) _ _) rfl (Or.inl rfl) TransmitterPdu.found rfl (fun _ => rfl) (fun _ _ => rfl) (fun _ _ _ => trivial) <|
    par_call (Q' := fun _ => True) (EntityIdentifier.parses (n + 5)) rfl (plain rfl) (fun _ => rfl) (fun _ _ => rfl) (fun _ _ _ => trivial) <|
    par_read (fun _ _ => True) rfl rfl (plain rfl) (fun _ _ => rfl) (fun _ _ _ => trivial) fun _ =>
    par_call (Q' := fun _ => True) (EntityType.parses (n + 6)) rfl (plain rfl) (fun _ => rfl) (fun _ _ => rfl) (fun _ _ _ => trivial) <|
    par_read (fun _ _ => True) rfl rfl (plain rfl) (fun _ _ => rfl) (fun _ _ _ => trivial) fun _ =>
    par_read (fun _ _ => True) rfl rfl (plain rfl) (fun _ _ => rfl) (fun _ _ _ => trivial) fun _ =>
    par_local rfl rfl var_variableTransmitterParameterCount rfl fun _ =>
    par_call (Q' := fun _ => True) (WorldCoordinates.parses (n + 6)) rfl (plain rfl) (fun _ => rfl) (fun _ _ => rfl) (fun _ _ _ => trivial) <|
    par_call (Q' := fun _ => True) (Vector3Float.parses (n + 6)) rfl (plain rfl) (fun _ => rfl) (fun _ _ => rfl) (fun _ _ _ => trivial) <|
    par_read (fun _ _ => True) rfl rfl (plain rfl) (fun _ _ => rfl) (fun _ _ _ => trivial) fun _ =>
    par_local rfl rfl var_antennaPatternLength rfl fun _ =>
    par_read (fun _ _ => True) rfl rfl (plain rfl) (fun _ _ => rfl) (fun _ _ _ => trivial) fun _ =>
    par_read (fun _ _ => True) rfl rfl (plain rfl) (fun _ _ => rfl) (fun _ _ _ => trivial) fun _ =>
    par_read (fun _ _ => True) rfl rfl (plain rfl) (fun _ _ => rfl) (fun _ _ _ => trivial) fun _ =>
    par_call (Q' := fun _ => True) (ModulationType.parses (n + 5)) rfl (plain rfl) (fun _ => rfl) (fun _ _ => rfl) (fun _ _ _ => trivial) <|
    par_read (fun _ _ => True) rfl rfl (plain rfl) (fun _ _ => rfl) (fun _ _ _ => trivial) fun _ =>
    par_read (fun _ _ => True) rfl rfl (plain rfl) (fun _ _ => rfl) (fun _ _ _ => trivial) fun _ =>
    par_local rfl rfl var_modulationParametersLength rfl fun _ =>
    par_read (fun _ _ => True) rfl rfl (plain rfl) (fun _ _ => rfl) (fun _ _ _ => trivial) fun _ =>
    par_read (fun _ _ => True) rfl rfl (plain rfl) (fun _ _ => rfl) (fun _ _ _ => trivial) fun _ =>
    par_mod (n := n + 4) rfl rfl rfl <|
    par_ant (n := n + 4) rfl rfl <|
    par_funs (Q' := fun _ => True) (fun _ _ => gives_range0 (gives_name rfl)) (by simp) (parseRecord (n + 2) .variableTransmitterParameters) (by decide +kernel) rfl (plain rfl)
      (fun _ => rfl) (fun _ _ => rfl) (fun _ _ _ => trivial) var__ rfl rfl var_vtp rfl rfl (fun _ _ => trivial) <|
    par_nil

theorem UnknownRadio.inj : ∀ {x y : Dis.UnknownRadio}, UnknownRadio.fields x = UnknownRadio.fields y → x = y := by
  rintro ⟨a⟩ ⟨b⟩ h
  obtain rfl : a = b := bytes_inj (congrArg (look I.data) h)
  rfl

theorem UnknownAntennaPattern.inj : ∀ {x y : Dis.UnknownAntennaPattern}, UnknownAntennaPattern.fields x = UnknownAntennaPattern.fields y → x = y := by
  rintro ⟨a⟩ ⟨b⟩ h
  obtain rfl : a = b := bytes_inj (congrArg (look I.data) h)
  rfl

theorem modVal_inj : ∀ {x y : Option Dis.ModulationParametersRecord}, modVal x = modVal y → x = y := by
  intro x y h
  rcases x with _ | x <;> rcases y with _ | y
  · rfl
  · cases h
  · cases h
  · cases x <;> cases y <;> first
      | rfl
      | exact congrArg (fun z => some (Dis.ModulationParametersRecord.unknown z)) (obj_inj (c := I.UnknownRadio) UnknownRadio.inj (congrArg some h))
      | exact congrArg (fun z => some (Dis.ModulationParametersRecord.haveQuick z)) (obj_inj (c := I.BasicHaveQuickMP) BasicHaveQuickMP.inj (congrArg some h))
      | exact congrArg (fun z => some (Dis.ModulationParametersRecord.sincgars z)) (obj_inj (c := I.CCTTSincgarsMP) CCTTSincgarsMP.inj (congrArg some h))
      | (have h1 : Nat.beq _ _ = true := (congrArg (fun c => Nat.beq c _) (Val.obj.inj h).1).trans (Nat.beq_refl _)
         cases (show false = true from h1))

theorem antVal_inj : ∀ {x y : Option Dis.AntennaPatternRecord}, antVal x = antVal y → x = y := by
  intro x y h
  rcases x with _ | x <;> rcases y with _ | y
  · rfl
  · cases h
  · cases h
  · cases x <;> cases y <;> first
      | exact congrArg (fun z => some (Dis.AntennaPatternRecord.unknown z)) (obj_inj (c := I.UnknownAntennaPattern) UnknownAntennaPattern.inj (congrArg some h))
      | exact congrArg (fun z => some (Dis.AntennaPatternRecord.beam z)) (obj_inj (c := I.BeamAntennaPattern) BeamAntennaPattern.inj (congrArg some h))
      | (have h1 : Nat.beq _ _ = true := (congrArg (fun c => Nat.beq c _) (Val.obj.inj h).1).trans (Nat.beq_refl _)
         cases (show false = true from h1))

theorem TransmitterPdu.inj : ∀ {x y : Dis.TransmitterPdu}, TransmitterPdu.fields x = TransmitterPdu.fields y → x = y := by
  rintro ⟨p, a0, a1, a2, a3, a4, a5, a6, a7, a8, a9, a10, a11, a12, a13, a14, a15, a16, a17, a18⟩
    ⟨q, b0, b1, b2, b3, b4, b5, b6, b7, b8, b9, b10, b11, b12, b13, b14, b15, b16, b17, b18⟩ h
  obtain rfl : p = q := RadioCommunicationsFamilyPdu.inj (List.append_inj_left h rfl)
  obtain rfl : a0 = b0 := obj_inj EntityIdentifier.inj (congrArg (look I.radioReferenceID) h)
  obtain rfl : a1 = b1 := int_inj (congrArg (look I.radioNumber) h)
  obtain rfl : a2 = b2 := obj_inj EntityType.inj (congrArg (look I.radioEntityType) h)
  obtain rfl : a3 = b3 := int_inj (congrArg (look I.transmitState) h)
  obtain rfl : a4 = b4 := int_inj (congrArg (look I.inputSource) h)
  obtain rfl : a5 = b5 := obj_inj WorldCoordinates.inj (congrArg (look I.antennaLocation) h)
  obtain rfl : a6 = b6 := obj_inj Vector3Float.inj (congrArg (look I.relativeAntennaLocation) h)
  obtain rfl : a7 = b7 := int_inj (congrArg (look I.antennaPatternType) h)
  obtain rfl : a8 = b8 := int_inj (congrArg (look I.frequency) h)
  obtain rfl : a9 = b9 := float_inj (congrArg (look I.transmitFrequencyBandwidth) h)
  obtain rfl : a10 = b10 := float_inj (congrArg (look I.power) h)
  obtain rfl : a11 = b11 := obj_inj ModulationType.inj (congrArg (look I.modulationType) h)
  obtain rfl : a12 = b12 := int_inj (congrArg (look I.cryptoSystem) h)
  obtain rfl : a13 = b13 := int_inj (congrArg (look I.cryptoKeyId) h)
  obtain rfl : a14 = b14 := int_inj (congrArg (look I.padding2) h)
  obtain rfl : a15 = b15 := int_inj (congrArg (look I.padding3) h)
  obtain rfl : a16 = b16 := modVal_inj (Option.some.inj (congrArg (look I.modulationParameters) h))
  obtain rfl : a17 = b17 := antVal_inj (Option.some.inj (congrArg (look I.antennaPattern) h))
  obtain rfl : a18 = b18 := list_inj svEnc_inj (congrArg (look I.variableTransmitterParameters) h)
  rfl

end Dis.Src
