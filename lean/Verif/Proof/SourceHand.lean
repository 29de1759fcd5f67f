import Verif.Proof.Source6
import Verif.Proof.SourceLaw4
import Verif.Proof.SourceLaws
import Verif.Source.EncodeHand

/-!
# Classes with attributes that may be missing, and `VariableDatum`, do what their syntax trees say
-/

namespace Dis.Src

theorem var_x : isClass I.x = false := by decide +kernel

/-! ## AttachedParts -/

theorem AttachedParts.serializes (n : Nat) (x : Dis.AttachedParts) :
    Serializes (run (n + 1)) I.AttachedParts (AttachedParts.enc x) x.serialize := by
  obtain ⟨recordType, detachedIndicator, partAttachedTo, parameterType, attachedPartType, parameterValue⟩ := x
  exact serializes_of (n := n) (d := I.AttachedParts) (f := AttachedParts.serialize) rfl rfl <|
    ser_cons (ser_write (gives_attr (gives_name rfl) (plain rfl) rfl) rfl rfl rfl) <|
    ser_cons (ser_write (gives_attr (gives_name rfl) (plain rfl) rfl) rfl rfl rfl) <|
    ser_cons (ser_write (gives_attr (gives_name rfl) (plain rfl) rfl) rfl rfl rfl) <|
    ser_cons (ser_write (gives_attr (gives_name rfl) (plain rfl) rfl) rfl rfl rfl) <|
    ser_last (ser_write_opt rfl (plain rfl) (by cases parameterValue <;> rfl) rfl rfl)

theorem AttachedParts.makes (n : Nat) : Makes (run (n + 2)) I.AttachedParts (AttachedParts.enc Dis.AttachedParts.init) :=
  makes_of (p := (I.AttachedParts, AttachedParts.__init__)) (by decide +kernel) rfl rfl rfl (by kernel_rfl) fun _ => by kernel_rfl

theorem AttachedParts.parses (n : Nat) :
    Parses (run (n + 1)) I.AttachedParts I.AttachedParts AttachedParts.fields Dis.AttachedParts.parseInto :=
  parses_of (n := n) (d := I.AttachedParts) (f := AttachedParts.parse) rfl rfl <|
    par_read (fun _ _ => True) rfl rfl (plain rfl) (by rintro ⟨_, _, _, _, _, _ | _⟩ _ <;> rfl) (fun _ _ _ => trivial) fun _ =>
    par_read (fun _ _ => True) rfl rfl (plain rfl) (by rintro ⟨_, _, _, _, _, _ | _⟩ _ <;> rfl) (fun _ _ _ => trivial) fun _ =>
    par_read (fun _ _ => True) rfl rfl (plain rfl) (by rintro ⟨_, _, _, _, _, _ | _⟩ _ <;> rfl) (fun _ _ _ => trivial) fun _ =>
    par_read (fun _ _ => True) rfl rfl (plain rfl) (by rintro ⟨_, _, _, _, _, _ | _⟩ _ <;> rfl) (fun _ _ _ => trivial) fun _ =>
    par_read (fun _ _ => True) rfl rfl (plain rfl) (by rintro ⟨_, _, _, _, _, _ | _⟩ _ <;> rfl) (fun _ _ _ => trivial) fun _ =>
    par_nil

theorem AttachedParts.inj : ∀ {x y : Dis.AttachedParts}, AttachedParts.fields x = AttachedParts.fields y → x = y := by
  rintro ⟨a0, a1, a2, a3, a4, a5⟩ ⟨b0, b1, b2, b3, b4, b5⟩ h
  obtain rfl : a0 = b0 := int_inj (congrArg (look I.recordType) h)
  obtain rfl : a1 = b1 := int_inj (congrArg (look I.detachedIndicator) h)
  obtain rfl : a2 = b2 := int_inj (congrArg (look I.partAttachedTo) h)
  obtain rfl : a3 = b3 := int_inj (congrArg (look I.parameterType) h)
  obtain rfl : a4 = b4 := obj_inj EntityType.inj (congrArg (look I.attachedPartType) h)
  rcases a5 with _ | a5 <;> rcases b5 with _ | b5
  · rfl
  · cases congrArg (look I.parameterValue) h
  · cases congrArg (look I.parameterValue) h
  · obtain rfl : a5 = b5 := int_inj (congrArg (look I.parameterValue) h)
    rfl

/-! ## SilentAggregateSystem -/

theorem SilentAggregateSystem.serializes (n : Nat) (x : Dis.SilentAggregateSystem) :
    Serializes (run (n + 2)) I.SilentAggregateSystem (SilentAggregateSystem.enc x) x.serialize := by
  obtain ⟨a, b, o⟩ := x
  refine serializes_of (n := n + 1) (d := I.SilentAggregateSystem) (f := SilentAggregateSystem.serialize) rfl rfl <|
    ser_cons (ser_write (v := .int a) (gives_attr (gives_name rfl) (plain rfl) ?_) rfl rfl rfl) <|
    ser_last (ser_call_opt (c := I.AggregateType) (fs := AggregateType.fields) rfl (plain rfl) ?_ ?_ rfl
      fun y => AggregateType.serializes n y)
  · cases o <;> rfl
  · cases o <;> rfl
  · rintro y rfl; rfl

theorem SilentAggregateSystem.makes (n : Nat) :
    Makes (run (n + 2)) I.SilentAggregateSystem (SilentAggregateSystem.enc Dis.SilentAggregateSystem.init) :=
  makes_of (p := (I.SilentAggregateSystem, SilentAggregateSystem.__init__)) (by decide +kernel) rfl rfl rfl (by kernel_rfl)
    fun _ => by kernel_rfl

theorem SilentAggregateSystem.parses (n : Nat) :
    Parses (run (n + 2)) I.SilentAggregateSystem I.SilentAggregateSystem SilentAggregateSystem.fields
      Dis.SilentAggregateSystem.parseInto :=
  parses_of (n := n + 1) (d := I.SilentAggregateSystem) (f := SilentAggregateSystem.parse) rfl rfl <|
    par_read (fun _ _ => True) rfl rfl (plain rfl) (by rintro ⟨_, _, _ | _⟩ _ <;> rfl) (fun _ _ _ => trivial) fun _ =>
    par_call (Q' := fun _ => True) (AggregateType.parses n) rfl (plain rfl) (by rintro ⟨_, _, _ | _⟩ <;> rfl)
      (by rintro ⟨_, _, _ | _⟩ _ <;> rfl) (fun _ _ _ => trivial) <|
    par_nil

theorem SilentAggregateSystem.builds (n : Nat) : Builds (run (n + 2)) I.SilentAggregateSystem SilentAggregateSystem.fields
    Dis.SilentAggregateSystem.init Dis.SilentAggregateSystem.parseInto :=
  builds_of (SilentAggregateSystem.makes n) (SilentAggregateSystem.parses n)

theorem SilentAggregateSystem.inj : ∀ {x y : Dis.SilentAggregateSystem},
    SilentAggregateSystem.fields x = SilentAggregateSystem.fields y → x = y := by
  rintro ⟨a0, a1, _ | a2⟩ ⟨b0, b1, _ | b2⟩ h
  · obtain rfl : a0 = b0 := int_inj (congrArg (look I.numberOfAggregates) h)
    obtain rfl : a1 = b1 := obj_inj AggregateType.inj (congrArg (look I.aggregateType) h)
    rfl
  · cases congrArg (look I.entityType) h
  · cases congrArg (look I.entityType) h
  · obtain rfl : a0 = b0 := int_inj (congrArg (look I.numberOfAggregates) h)
    obtain rfl : a1 = b1 := obj_inj AggregateType.inj (congrArg (look I.aggregateType) h)
    obtain rfl : a2 = b2 := obj_inj AggregateType.inj (congrArg (look I.entityType) h)
    rfl

/-! ## EnvironmentGeneral -/

theorem EnvironmentGeneral.serializes (n : Nat) (x : Dis.EnvironmentGeneral) :
    Serializes (run (n + 1)) I.EnvironmentGeneral (EnvironmentGeneral.enc x) x.serialize := by
  obtain ⟨environmentType, length, index, padding, geometry, padding2, padding1⟩ := x
  refine serializes_of (n := n) (d := I.EnvironmentGeneral) (f := EnvironmentGeneral.serialize) rfl rfl <|
    ser_cons (ser_write (v := .int environmentType) (gives_attr (gives_name rfl) (plain rfl) ?_) rfl rfl rfl) <|
    ser_cons (ser_write (v := .int length) (gives_attr (gives_name rfl) (plain rfl) ?_) rfl rfl rfl) <|
    ser_cons (ser_write (v := .int index) (gives_attr (gives_name rfl) (plain rfl) ?_) rfl rfl rfl) <|
    ser_cons (ser_write_opt rfl (plain rfl) ?_ rfl rfl) <|
    ser_cons (ser_write (v := orNone geometry) (gives_attr (gives_name rfl) (plain rfl) ?_) rfl rfl ?_) <|
    ser_last (ser_write (v := .int padding2) (gives_attr (gives_name rfl) (plain rfl) ?_) rfl rfl rfl)
  all_goals first | (cases padding1 <;> rfl) | (cases geometry <;> rfl)

theorem EnvironmentGeneral.makes (n : Nat) :
    Makes (run (n + 1)) I.EnvironmentGeneral (EnvironmentGeneral.enc Dis.EnvironmentGeneral.init) :=
  makes_of (p := (I.EnvironmentGeneral, EnvironmentGeneral.__init__)) (by decide +kernel) rfl rfl rfl (by kernel_rfl)
    fun _ => by kernel_rfl

theorem EnvironmentGeneral.parses (n : Nat) :
    Parses (run (n + 1)) I.EnvironmentGeneral I.EnvironmentGeneral EnvironmentGeneral.fields Dis.EnvironmentGeneral.parseInto :=
  parses_of (n := n) (d := I.EnvironmentGeneral) (f := EnvironmentGeneral.parse) rfl rfl <|
    par_read (fun _ _ => True) rfl rfl (plain rfl) (by rintro ⟨_, _, _, _, _, _, _ | _⟩ _ <;> rfl) (fun _ _ _ => trivial) fun _ =>
    par_read (fun _ _ => True) rfl rfl (plain rfl) (by rintro ⟨_, _, _, _, _, _, _ | _⟩ _ <;> rfl) (fun _ _ _ => trivial) fun _ =>
    par_read (fun _ _ => True) rfl rfl (plain rfl) (by rintro ⟨_, _, _, _, _, _, _ | _⟩ _ <;> rfl) (fun _ _ _ => trivial) fun _ =>
    par_read (fun _ _ => True) rfl rfl (plain rfl) (by rintro ⟨_, _, _, _, _, _, _ | _⟩ _ <;> rfl) (fun _ _ _ => trivial) fun _ =>
    par_read (fun _ _ => True) rfl rfl (plain rfl) (by rintro ⟨_, _, _, _, _, _, _ | _⟩ _ <;> rfl) (fun _ _ _ => trivial) fun _ =>
    par_read (fun _ _ => True) rfl rfl (plain rfl) (by rintro ⟨_, _, _, _, _, _, _ | _⟩ _ <;> rfl) (fun _ _ _ => trivial) fun _ =>
    par_nil

theorem orNone_inj {a b : Option Int} (h : some (orNone a) = some (orNone b)) : a = b := by
  cases a <;> cases b <;> first | rfl | cases h
  rfl

theorem EnvironmentGeneral.inj : ∀ {x y : Dis.EnvironmentGeneral},
    EnvironmentGeneral.fields x = EnvironmentGeneral.fields y → x = y := by
  rintro ⟨a0, a1, a2, a3, a4, a5, _ | a6⟩ ⟨b0, b1, b2, b3, b4, b5, _ | b6⟩ h
  case none.some => cases congrArg (look I.padding1) h
  case some.none => cases congrArg (look I.padding1) h
  all_goals
    obtain rfl : a0 = b0 := int_inj (congrArg (look I.environmentType) h)
    obtain rfl : a1 = b1 := int_inj (congrArg (look I.length) h)
    obtain rfl : a2 = b2 := int_inj (congrArg (look I.index) h)
    obtain rfl : a3 = b3 := int_inj (congrArg (look I.padding) h)
    obtain rfl : a4 = b4 := orNone_inj (congrArg (look I.geometry) h)
    obtain rfl : a5 = b5 := int_inj (congrArg (look I.padding2) h)
  · rfl
  · obtain rfl : a6 = b6 := int_inj (congrArg (look I.padding1) h)
    rfl

/-! ## Environment -/

theorem Environment.serializes (n : Nat) (x : Dis.Environment) :
    Serializes (run (n + 1)) I.Environment (Environment.enc x) x.serialize := by
  obtain ⟨environmentType, length, index, padding0, padding1, padding⟩ := x
  refine serializes_of (n := n) (d := I.Environment) (f := Environment.serialize) rfl rfl <|
    ser_cons (ser_write (v := .int environmentType) (gives_attr (gives_name rfl) (plain rfl) ?_) rfl rfl rfl) <|
    ser_cons (ser_write (v := .int length) (gives_attr (gives_name rfl) (plain rfl) ?_) rfl rfl rfl) <|
    ser_cons (ser_write (v := .int index) (gives_attr (gives_name rfl) (plain rfl) ?_) rfl rfl rfl) <|
    ser_last (ser_write_opt rfl (plain rfl) ?_ rfl rfl)
  all_goals cases padding <;> rfl

theorem Environment.makes (n : Nat) : Makes (run (n + 1)) I.Environment (Environment.enc Dis.Environment.init) :=
  makes_of (p := (I.Environment, Environment.__init__)) (by decide +kernel) rfl rfl rfl (by kernel_rfl) fun _ => by kernel_rfl

theorem Environment.parses (n : Nat) :
    Parses (run (n + 1)) I.Environment I.Environment Environment.fields Dis.Environment.parseInto :=
  parses_of (n := n) (d := I.Environment) (f := Environment.parse) rfl rfl <|
    par_read (fun _ _ => True) rfl rfl (plain rfl) (by rintro ⟨_, _, _, _, _, _ | _⟩ _ <;> rfl) (fun _ _ _ => trivial) fun _ =>
    par_read (fun _ _ => True) rfl rfl (plain rfl) (by rintro ⟨_, _, _, _, _, _ | _⟩ _ <;> rfl) (fun _ _ _ => trivial) fun _ =>
    par_read (fun _ _ => True) rfl rfl (plain rfl) (by rintro ⟨_, _, _, _, _, _ | _⟩ _ <;> rfl) (fun _ _ _ => trivial) fun _ =>
    par_read (fun _ _ => True) rfl rfl (plain rfl) (by rintro ⟨_, _, _, _, _, _ | _⟩ _ <;> rfl) (fun _ _ _ => trivial) fun _ =>
    par_nil

theorem Environment.inj : ∀ {x y : Dis.Environment}, Environment.fields x = Environment.fields y → x = y := by
  rintro ⟨a0, a1, a2, a3, a4, _ | a5⟩ ⟨b0, b1, b2, b3, b4, _ | b5⟩ h
  case none.some => cases congrArg (look I.padding) h
  case some.none => cases congrArg (look I.padding) h
  all_goals
    obtain rfl : a0 = b0 := int_inj (congrArg (look I.environmentType) h)
    obtain rfl : a1 = b1 := int_inj (congrArg (look I.length) h)
    obtain rfl : a2 = b2 := int_inj (congrArg (look I.index) h)
    obtain rfl : a3 = b3 := int_inj (congrArg (look I.padding0) h)
    obtain rfl : a4 = b4 := int_inj (congrArg (look I.padding1) h)
  · rfl
  · obtain rfl : a5 = b5 := int_inj (congrArg (look I.padding) h)
    rfl

/-! ## SeparationVP -/

theorem SeparationVP.serializes (n : Nat) (x : Dis.SeparationVP) :
    Serializes (run (n + 3)) I.SeparationVP (SeparationVP.enc x) x.serialize :=
  serializes_of (n := n + 2) (d := I.SeparationVP) (f := SeparationVP.serialize) rfl rfl <|
    ser_cons (ser_write (gives_attr (gives_name rfl) (plain rfl) rfl) rfl rfl rfl) <|
    ser_cons (ser_write (gives_attr (gives_name rfl) (plain rfl) rfl) rfl rfl rfl) <|
    ser_cons (ser_write (gives_attr (gives_name rfl) (plain rfl) rfl) rfl rfl rfl) <|
    ser_cons (ser_write (gives_attr (gives_name rfl) (plain rfl) rfl) rfl rfl rfl) <|
    ser_cons (ser_call rfl (plain rfl) rfl rfl rfl (EntityIdentifier.serializes n _)) <|
    ser_cons (ser_write (gives_attr (gives_name rfl) (plain rfl) rfl) rfl rfl rfl) <|
    ser_last (ser_write (gives_attr (gives_name rfl) (plain rfl) rfl) rfl rfl (by cases x.stationLocation <;> rfl))

theorem SeparationVP.makes (n : Nat) : Makes (run (n + 3)) I.SeparationVP (SeparationVP.enc Dis.SeparationVP.init) :=
  makes_of (p := (I.SeparationVP, SeparationVP.__init__)) (by decide +kernel) rfl rfl rfl (by kernel_rfl) fun _ => by kernel_rfl

theorem SeparationVP.parses (n : Nat) :
    Parses (run (n + 3)) I.SeparationVP I.SeparationVP SeparationVP.fields Dis.SeparationVP.parseInto :=
  parses_of (n := n + 2) (d := I.SeparationVP) (f := SeparationVP.parse) rfl rfl <|
    par_read (fun _ _ => True) rfl rfl (plain rfl) (fun _ _ => rfl) (fun _ _ _ => trivial) fun _ =>
    par_read (fun _ _ => True) rfl rfl (plain rfl) (fun _ _ => rfl) (fun _ _ _ => trivial) fun _ =>
    par_read (fun _ _ => True) rfl rfl (plain rfl) (fun _ _ => rfl) (fun _ _ _ => trivial) fun _ =>
    par_read (fun _ _ => True) rfl rfl (plain rfl) (fun _ _ => rfl) (fun _ _ _ => trivial) fun _ =>
    par_call (Q' := fun _ => True) (EntityIdentifier.parses n) rfl (plain rfl) (fun _ => rfl) (fun _ _ => rfl) (fun _ _ _ => trivial) <|
    par_read (fun _ _ => True) rfl rfl (plain rfl) (fun _ _ => rfl) (fun _ _ _ => trivial) fun _ =>
    par_read (fun _ _ => True) rfl rfl (plain rfl) (fun _ _ => rfl) (fun _ _ _ => trivial) fun _ =>
    par_nil

theorem SeparationVP.inj : ∀ {x y : Dis.SeparationVP}, SeparationVP.fields x = SeparationVP.fields y → x = y := by
  rintro ⟨a0, a1, a2, a3, a4, a5, a6⟩ ⟨b0, b1, b2, b3, b4, b5, b6⟩ h
  obtain rfl : a0 = b0 := int_inj (congrArg (look I.recordType) h)
  obtain rfl : a1 = b1 := int_inj (congrArg (look I.reasonForSeparation) h)
  obtain rfl : a2 = b2 := int_inj (congrArg (look I.preEntityIndicator) h)
  obtain rfl : a3 = b3 := int_inj (congrArg (look I.padding1) h)
  obtain rfl : a4 = b4 := obj_inj EntityIdentifier.inj (congrArg (look I.parentEntityID) h)
  obtain rfl : a5 = b5 := int_inj (congrArg (look I.padding2) h)
  have h6 : some (stationValue a6) = some (stationValue b6) := congrArg (look I.stationLocation) h
  rcases a6 with a6 | a6 <;> rcases b6 with b6 | b6
  · obtain rfl : a6 = b6 := int_inj h6
    rfl
  · cases h6
  · cases h6
  · obtain rfl : a6 = b6 := obj_inj NamedLocationIdentification.inj h6
    rfl

/-! ## VariableDatum -/

theorem VariableDatum.padding (n : Nat) (x : Dis.VariableDatum) (io : Streams) :
    run (n + 1) I.VariableDatum I.datumPaddingSizeInBits (VariableDatum.enc x) [] [] io
      = (.ok (.int x.datumPaddingSizeInBits), VariableDatum.enc x, io) := by
  have hmod : x.variableDatumLength.fmod 64 = x.variableDatumLength % 64 := Int.fmod_eq_emod_of_nonneg _ (by decide)
  unfold Dis.VariableDatum.datumPaddingSizeInBits
  rw [← hmod]
  have key : ∀ b : Bool, (x.variableDatumLength.fmod 64 != 0) = b →
      ∃ L, look I.self L = some (VariableDatum.enc x) ∧
      exs (run n) VariableDatum.datumPaddingSizeInBits.body ⟨start I.VariableDatum (VariableDatum.enc x) [], io⟩
        = (.ok (some (.int (match b with | true => 64 - x.variableDatumLength.fmod 64 | false => 0))), ⟨L, io⟩) := by
    intro b hb
    cases b with
    | false =>
      refine ⟨put I.remainder (.int (x.variableDatumLength.fmod 64)) (put I.padding (.int 0) (start I.VariableDatum (VariableDatum.enc x) [])),
        rfl, exs_cons_ok rfl <| exs_cons_ok rfl <| exs_cons_ok (st1 := ⟨put I.remainder (.int (x.variableDatumLength.fmod 64)) (put I.padding (.int 0) (start I.VariableDatum (VariableDatum.enc x) [])), io⟩) ?_ rfl⟩
      · unfold ex exec
        refine (M.bind_ok (p := eval program words streams (run n) (.cmp .ne (.name I.remainder) (.int 0)))
          (a := Val.bool (x.variableDatumLength.fmod 64 != 0)) rfl).trans ?_
        rw [hb]
        rfl
    | true =>
      refine ⟨put I.padding (.int (64 - x.variableDatumLength.fmod 64)) (put I.remainder (.int (x.variableDatumLength.fmod 64)) (put I.padding (.int 0) (start I.VariableDatum (VariableDatum.enc x) []))),
        rfl, exs_cons_ok rfl <| exs_cons_ok rfl <| exs_cons_ok (st1 := ⟨put I.padding (.int (64 - x.variableDatumLength.fmod 64)) (put I.remainder (.int (x.variableDatumLength.fmod 64)) (put I.padding (.int 0) (start I.VariableDatum (VariableDatum.enc x) []))), io⟩) ?_ rfl⟩
      · unfold ex exec
        refine (M.bind_ok (p := eval program words streams (run n) (.cmp .ne (.name I.remainder) (.int 0)))
          (a := Val.bool (x.variableDatumLength.fmod 64 != 0)) rfl).trans ?_
        rw [hb]
        rfl
  cases hb : (x.variableDatumLength.fmod 64 != 0) with
  | false =>
    obtain ⟨L, h1, h2⟩ := key _ hb
    rw [if_neg (by simpa using hb)]
    exact run_method (f := VariableDatum.datumPaddingSizeInBits) (d := I.VariableDatum) rfl rfl h2 h1
  | true =>
    obtain ⟨L, h1, h2⟩ := key _ hb
    rw [if_pos (by simpa using hb)]
    exact run_method (f := VariableDatum.datumPaddingSizeInBits) (d := I.VariableDatum) rfl rfl h2 h1

theorem VariableDatum.serializes (n : Nat) (x : Dis.VariableDatum) :
    Serializes (run (n + 2)) I.VariableDatum (VariableDatum.enc x) x.serialize := by
  have hdiv : x.variableDatumLength.fdiv 8 = x.variableDatumLength / 8 := Int.fdiv_eq_ediv_of_nonneg _ (by decide)
  unfold Dis.VariableDatum.serialize
  rw [← hdiv]
  exact serializes_of (n := n + 1) (d := I.VariableDatum) (f := VariableDatum.serialize) rfl rfl <|
    ser_cons (ser_write (gives_attr (gives_name rfl) (plain rfl) rfl) rfl rfl rfl) <|
    ser_cons (ser_write (gives_attr (gives_name rfl) (plain rfl) rfl) rfl rfl rfl) <|
    ser_cons (ser_range (gives_range1 (gives_bin (gives_attr (gives_name rfl) (plain rfl) rfl) gives_int fun _ => rfl)) var_x rfl fun i =>
      ser_last (ser_index (gives_attr (gives_name rfl) (plain rfl) rfl) (gives_name rfl) rfl rfl fun _ => rfl)) <|
    ser_last <| ser_range_goes (goes_range_method rfl (VariableDatum.padding n x)) var_x rfl fun i =>
      ser_last (ser_write gives_int rfl rfl rfl)

theorem VariableDatum.makes (n : Nat) : Makes (run (n + 1)) I.VariableDatum (VariableDatum.enc Dis.VariableDatum.init) :=
  makes_of (p := (I.VariableDatum, VariableDatum.__init__)) (by decide +kernel) rfl rfl rfl (by kernel_rfl) fun _ => by kernel_rfl

theorem VariableDatum.parses (n : Nat) :
    Parses (run (n + 2)) I.VariableDatum I.VariableDatum VariableDatum.fields Dis.VariableDatum.parseInto :=
  parses_of (n := n + 1) (d := I.VariableDatum) (f := VariableDatum.parse) rfl rfl <|
    par_read (fun _ _ => True) rfl rfl (plain rfl) (fun _ _ => rfl) (fun _ _ _ => trivial) fun _ =>
    par_read (fun v (x : Dis.VariableDatum) => x.variableDatumLength = v) rfl rfl (plain rfl) (fun _ _ => rfl) (fun _ _ _ => rfl) fun v =>
    par_reads_inline (Q' := fun (x : Dis.VariableDatum) => x.variableDatumLength = v)
      (fun (x : Dis.VariableDatum) (h : x.variableDatumLength = v) =>
        gives_range1 (gives_bin (gives_attr_eq (gives_name rfl) (plain rfl) rfl h) gives_int fun _ => rfl))
      (by simp [Int.fdiv_eq_ediv_of_nonneg]) rfl rfl (plain rfl) (fun _ => rfl) (fun _ _ => rfl) (fun _ _ h => h)
      var_x rfl rfl (fun _ h => h) <|
    par_skip (fun (x : Dis.VariableDatum) (h : x.variableDatumLength = v) => by
        have := goes_range_method (bs := (I.self, .obj I.VariableDatum (VariableDatum.fields x)) :: (I.__class__, .cls I.VariableDatum) :: [(I.inputStream, .inp)])
          (x := I.self) rfl (VariableDatum.padding n x)
        unfold Dis.VariableDatum.datumPaddingSizeInBits at this
        rw [h] at this
        exact this)
      (by simp [Dis.VariableDatum.datumPaddingSizeInBits]) rfl rfl var_x rfl rfl <|
    par_nil

theorem VariableDatum.builds (n : Nat) : Builds (run (n + 2)) I.VariableDatum VariableDatum.fields
    Dis.VariableDatum.init Dis.VariableDatum.parseInto :=
  builds_of (VariableDatum.makes (n + 1)) (VariableDatum.parses n)

theorem VariableDatum.inj : ∀ {x y : Dis.VariableDatum}, VariableDatum.fields x = VariableDatum.fields y → x = y := by
  rintro ⟨a0, a1, a2⟩ ⟨b0, b1, b2⟩ h
  obtain rfl : a0 = b0 := int_inj (congrArg (look I.variableDatumID) h)
  obtain rfl : a1 = b1 := int_inj (congrArg (look I.variableDatumLength) h)
  obtain rfl : a2 = b2 := list_inj ints_inj (congrArg (look I.variableData) h)
  rfl

end Dis.Src
