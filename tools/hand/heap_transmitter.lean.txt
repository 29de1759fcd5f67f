/-- `GenericRadio()`, /repo/opendis/record/radio/__init__.py:313 (there is no `__init__`). -/
def GenericRadio.newHeap : H Ref := H.new [("__class__", .cls "GenericRadio")] fun _ => pure ()

/-- `GenericRadio.parse`, /repo/opendis/record/radio/__init__.py:326-329. -/
def GenericRadio.parseHeap (_self : Ref) : H Unit := pure ()

/-- `SimpleIntercomRadio()`, /repo/opendis/record/radio/__init__.py:332 (there is no `__init__`). -/
def SimpleIntercomRadio.newHeap : H Ref := H.new [("__class__", .cls "SimpleIntercomRadio")] fun _ => pure ()

/-- `SimpleIntercomRadio.parse`, /repo/opendis/record/radio/__init__.py:349-352. -/
def SimpleIntercomRadio.parseHeap (_self : Ref) : H Unit := pure ()

/-- `BasicHaveQuickMP.marshalledSize`, /repo/opendis/record/radio/__init__.py:376-377. -/
def BasicHaveQuickMP.marshalledSizeHeap (_self : Ref) : S Int := pure 16

/-- `CCTTSincgarsMP.marshalledSize`, /repo/opendis/record/radio/__init__.py:423-424. -/
def CCTTSincgarsMP.marshalledSizeHeap (_self : Ref) : S Int := pure 16

/-- `radio.marshalledSize()` by the class of the modulation parameters, /repo/opendis/dis7.py:5008. -/
def ModulationParametersRecord.marshalledSizeHeap (self : Ref) : S Int := do
  S.dispatch (← S.attr self "__class__")
    [("UnknownRadio", UnknownRadio.marshalledSizeHeap self),
     ("GenericRadio", pure 0),  -- /repo/opendis/record/radio/__init__.py:320-321
     ("SimpleIntercomRadio", pure 0),  -- /repo/opendis/record/radio/__init__.py:343-344
     ("BasicHaveQuickMP", BasicHaveQuickMP.marshalledSizeHeap self),
     ("CCTTSincgarsMP", CCTTSincgarsMP.marshalledSizeHeap self)]

/-- `radio.serialize(outputStream)` by the class of the modulation parameters, /repo/opendis/dis7.py:5042. -/
def ModulationParametersRecord.serializeHeap (self : Ref) : S Unit := do
  S.dispatch (← S.attr self "__class__")
    [("UnknownRadio", UnknownRadio.serializeHeap self),
     ("GenericRadio", pure ()),  -- /repo/opendis/record/radio/__init__.py:323-324
     ("SimpleIntercomRadio", pure ()),  -- /repo/opendis/record/radio/__init__.py:346-347
     ("BasicHaveQuickMP", BasicHaveQuickMP.serializeHeap self),
     ("CCTTSincgarsMP", CCTTSincgarsMP.serializeHeap self)]

/-- `pattern.marshalledSize()` by the class of the antenna pattern, /repo/opendis/dis7.py:5001. -/
def AntennaPatternRecord.marshalledSizeHeap (self : Ref) : S Int := do
  S.dispatch (← S.attr self "__class__")
    [("UnknownAntennaPattern", UnknownAntennaPattern.marshalledSizeHeap self),
     ("BeamAntennaPattern", BeamAntennaPattern.marshalledSizeHeap self)]

/-- `pattern.serialize(outputStream)` by the class of the antenna pattern, /repo/opendis/dis7.py:5046. -/
def AntennaPatternRecord.serializeHeap (self : Ref) : S Unit := do
  S.dispatch (← S.attr self "__class__")
    [("UnknownAntennaPattern", UnknownAntennaPattern.serializeHeap self),
     ("BeamAntennaPattern", BeamAntennaPattern.serializeHeap self)]

/-- The local variable `radio` of `TransmitterPdu.parse`, /repo/opendis/dis7.py:5077-5092. -/
def TransmitterPdu.radioHeap (modulationParametersLength : Int) (self : Ref) : H Ref := do
  let radioSystem ← H.intAttr (← H.objAttr self "modulationType") "radioSystem"
  if radioSystem = 1 then
    let majorModulation ← H.intAttr (← H.objAttr self "modulationType") "majorModulation"
    if majorModulation = 0 then H.load SimpleIntercomRadio.newHeap SimpleIntercomRadio.parseHeap
    else H.load GenericRadio.newHeap GenericRadio.parseHeap
  else if radioSystem = 2 ∨ radioSystem = 3 ∨ radioSystem = 4 then
    H.load BasicHaveQuickMP.newHeap (BasicHaveQuickMP.parseHeap none)
  else if radioSystem = 6 then H.load CCTTSincgarsMP.newHeap (CCTTSincgarsMP.parseHeap none)
  else H.load UnknownRadio.newHeap (UnknownRadio.parseHeap (some modulationParametersLength))

/-- The statements on the modulation parameters in `TransmitterPdu.parse`, /repo/opendis/dis7.py:5076-5095. -/
def TransmitterPdu.parseModulationParametersHeap (modulationParametersLength : Int) (self : Ref) : H Unit :=
  if modulationParametersLength > 0 then do
    let radio ← TransmitterPdu.radioHeap modulationParametersLength self
    H.setAttr self "modulationParameters" (.ref radio)
  else H.setAttr self "modulationParameters" (.sc .none)

/-- The statements on the antenna pattern in `TransmitterPdu.parse`, /repo/opendis/dis7.py:5097-5109. -/
def TransmitterPdu.parseAntennaPatternHeap (antennaPatternLength : Int) (self : Ref) : H Unit :=
  if antennaPatternLength > 0 then do
    let antennaPatternType ← H.intAttr self "antennaPatternType"
    if antennaPatternType = 1 then
      H.setNew self "antennaPattern" BeamAntennaPattern.newHeap
      H.call self "antennaPattern" (BeamAntennaPattern.parseHeap (some 40))
    else
      H.setNew self "antennaPattern" UnknownAntennaPattern.newHeap
      H.call self "antennaPattern" (UnknownAntennaPattern.parseHeap antennaPatternLength)
  else H.setAttr self "antennaPattern" (.sc .none)
-----
theorem BasicHaveQuickMP.sizes : Sizes BasicHaveQuickMP.members BasicHaveQuickMP.marshalledSize BasicHaveQuickMP.marshalledSizeHeap :=
  fun _ _ _ _ _ _ => rfl

theorem CCTTSincgarsMP.sizes : Sizes CCTTSincgarsMP.members CCTTSincgarsMP.marshalledSize CCTTSincgarsMP.marshalledSizeHeap :=
  fun _ _ _ _ _ _ => rfl

theorem ModulationParametersRecord.shows : Shows ModulationParametersRecord.members ModulationParametersRecord.serialize
    ModulationParametersRecord.serializeHeap := by
  intro ex self o h F A
  cases o with
  | unknown r => exact Shows.dispatched (fs := UnknownRadio.members) (o := r) UnknownRadio.shows (c := "UnknownRadio") A (by simp [UnknownRadio.members, attrOf]) (by simp [attrOf])
  | generic => exact Shows.dispatched (fs := fun _ : Unit => [("__class__", .sc (.cls "GenericRadio"))]) (o := ()) (m := fun _ => pure ()) .pure (c := "GenericRadio") A rfl (by simp [attrOf])
  | simpleIntercom => exact Shows.dispatched (fs := fun _ : Unit => [("__class__", .sc (.cls "SimpleIntercomRadio"))]) (o := ()) (m := fun _ => pure ()) .pure (c := "SimpleIntercomRadio") A rfl (by simp [attrOf])
  | haveQuick r => exact Shows.dispatched (fs := BasicHaveQuickMP.members) (o := r) BasicHaveQuickMP.shows (c := "BasicHaveQuickMP") A (by simp [BasicHaveQuickMP.members, attrOf]) (by simp [attrOf])
  | sincgars r => exact Shows.dispatched (fs := CCTTSincgarsMP.members) (o := r) CCTTSincgarsMP.shows (c := "CCTTSincgarsMP") A (by simp [CCTTSincgarsMP.members, attrOf]) (by simp [attrOf])

theorem ModulationParametersRecord.sizes : Sizes ModulationParametersRecord.members
    ModulationParametersRecord.marshalledSize ModulationParametersRecord.marshalledSizeHeap := by
  intro ex self o h F A
  cases o with
  | unknown r => exact Sizes.dispatched (fs := UnknownRadio.members) (o := r) UnknownRadio.sizes (c := "UnknownRadio") A (by simp [UnknownRadio.members, attrOf]) (by simp [attrOf])
  | generic => exact Sizes.dispatched (fs := fun _ : Unit => [("__class__", .sc (.cls "GenericRadio"))]) (o := ()) (k := fun _ => 0) (m := fun _ => pure 0) (fun _ _ _ _ _ _ => rfl) (c := "GenericRadio") A rfl (by simp [attrOf])
  | simpleIntercom => exact Sizes.dispatched (fs := fun _ : Unit => [("__class__", .sc (.cls "SimpleIntercomRadio"))]) (o := ()) (k := fun _ => 0) (m := fun _ => pure 0) (fun _ _ _ _ _ _ => rfl) (c := "SimpleIntercomRadio") A rfl (by simp [attrOf])
  | haveQuick r => exact Sizes.dispatched (fs := BasicHaveQuickMP.members) (o := r) BasicHaveQuickMP.sizes (c := "BasicHaveQuickMP") A (by simp [BasicHaveQuickMP.members, attrOf]) (by simp [attrOf])
  | sincgars r => exact Sizes.dispatched (fs := CCTTSincgarsMP.members) (o := r) CCTTSincgarsMP.sizes (c := "CCTTSincgarsMP") A (by simp [CCTTSincgarsMP.members, attrOf]) (by simp [attrOf])

theorem AntennaPatternRecord.shows : Shows AntennaPatternRecord.members AntennaPatternRecord.serialize
    AntennaPatternRecord.serializeHeap := by
  intro ex self o h F A
  cases o with
  | unknown r => exact Shows.dispatched (fs := UnknownAntennaPattern.members) (o := r) UnknownAntennaPattern.shows (c := "UnknownAntennaPattern") A (by simp [UnknownAntennaPattern.members, attrOf]) (by simp [attrOf])
  | beam r => exact Shows.dispatched (fs := BeamAntennaPattern.members) (o := r) BeamAntennaPattern.shows (c := "BeamAntennaPattern") A (by simp [BeamAntennaPattern.members, attrOf]) (by simp [attrOf])

theorem AntennaPatternRecord.sizes : Sizes AntennaPatternRecord.members AntennaPatternRecord.marshalledSize
    AntennaPatternRecord.marshalledSizeHeap := by
  intro ex self o h F A
  cases o with
  | unknown r => exact Sizes.dispatched (fs := UnknownAntennaPattern.members) (o := r) UnknownAntennaPattern.sizes (c := "UnknownAntennaPattern") A (by simp [UnknownAntennaPattern.members, attrOf]) (by simp [attrOf])
  | beam r => exact Sizes.dispatched (fs := BeamAntennaPattern.members) (o := r) BeamAntennaPattern.sizes (c := "BeamAntennaPattern") A (by simp [BeamAntennaPattern.members, attrOf]) (by simp [attrOf])

theorem GenericRadio.loads : Loads (H.load GenericRadio.newHeap GenericRadio.parseHeap) (pure () : R Unit)
    (fun _ => [("__class__", .sc (.cls "GenericRadio"))]) :=
  .load (us := fun _ : Unit => [("__class__", .sc (.cls "GenericRadio"))]) (fresh := ()) (p := pure ()) (g := id)
    (.new .done) .pure rfl fun _ => rfl

theorem SimpleIntercomRadio.loads : Loads (H.load SimpleIntercomRadio.newHeap SimpleIntercomRadio.parseHeap)
    (pure () : R Unit) (fun _ => [("__class__", .sc (.cls "SimpleIntercomRadio"))]) :=
  .load (us := fun _ : Unit => [("__class__", .sc (.cls "SimpleIntercomRadio"))]) (fresh := ()) (p := pure ()) (g := id)
    (.new .done) .pure rfl fun _ => rfl

theorem TransmitterPdu.setRadio {τ : Type} {r : R τ} {g : τ → ModulationParametersRecord} {m : H Ref}
    {ts : τ → List (String × Tree)} (hm : Loads m r ts) (hg : ∀ v, (g v).members = ts v) :
    Refines TransmitterPdu.members (P.read (r >>= fun v => Pure.pure (some (g v))) >>= fun v =>
        P.set fun o : TransmitterPdu => { o with modulationParameters := v })
      (fun self => m >>= fun x => H.setAttr self "modulationParameters" (.ref x)) :=
  Refines.setLoad (σ := TransmitterPdu) (g := fun v => some (g v))
    (f := fun v o => { o with modulationParameters := v }) hm
    (fun o => by
      simp [TransmitterPdu.members, RadioCommunicationsFamilyPdu.members, Pdu.members, PduSuperclass.members, attrOf])
    (fun o v => by
      rw [← hg]
      simp [TransmitterPdu.members, RadioCommunicationsFamilyPdu.members, Pdu.members, PduSuperclass.members, putAttr,
        Tree.noneOr])

theorem TransmitterPdu.refinesModulationParameters (n : Int) : Refines TransmitterPdu.members
    (P.get (·.modulationType) >>= fun modulationType =>
      P.read (TransmitterPdu.parseModulationParameters modulationType n) >>= fun modulationParameters =>
      P.set fun o : TransmitterPdu => { o with modulationParameters := modulationParameters })
    (TransmitterPdu.parseModulationParametersHeap n) := by
  intro ex self o h F s A
  have h1 : ∀ o, (attrOf "modulationParameters" (TransmitterPdu.members o)).isSome := fun o => by
    simp [TransmitterPdu.members, RadioCommunicationsFamilyPdu.members, Pdu.members, PduSuperclass.members, attrOf]
  have h2 : ∀ (o : TransmitterPdu) (v : Option ModulationParametersRecord),
      TransmitterPdu.members { o with modulationParameters := v } =
        putAttr "modulationParameters" (.noneOr ModulationParametersRecord.members v) (TransmitterPdu.members o) := fun o v => by
    simp [TransmitterPdu.members, RadioCommunicationsFamilyPdu.members, Pdu.members, PduSuperclass.members, putAttr]
  obtain ⟨r, G, e, B⟩ := A.objAttr s (n := "modulationType") (attrOf_append (t := Tree.obj (ModulationType.members o.modulationType)) (by
    simp [TransmitterPdu.members, RadioCommunicationsFamilyPdu.members, Pdu.members, PduSuperclass.members, attrOf]))
  have e1 := B.intAttr s (n := "radioSystem") (v := o.modulationType.radioSystem) (by simp [ModulationType.members, attrOf])
  have e2 := B.intAttr s (n := "majorModulation") (v := o.modulationType.majorModulation) (by simp [ModulationType.members, attrOf])
  show (_ = ((P.read (TransmitterPdu.parseModulationParameters o.modulationType n) >>= fun v =>
    P.set fun o : TransmitterPdu => { o with modulationParameters := v }) o s).1) ∧ (_ = ((P.read (TransmitterPdu.parseModulationParameters o.modulationType n) >>= fun v =>
    P.set fun o : TransmitterPdu => { o with modulationParameters := v }) o s).2.2) ∧ ∃ F', Holds _ _ (.obj (TransmitterPdu.members ((P.read (TransmitterPdu.parseModulationParameters o.modulationType n) >>= fun v =>
    P.set fun o : TransmitterPdu => { o with modulationParameters := v }) o s).2.1 ++ _)) F' ∧ _
  unfold TransmitterPdu.parseModulationParametersHeap TransmitterPdu.parseModulationParameters
  by_cases hn : n > 0
  · rw [if_pos hn, if_pos hn]
    by_cases c1 : o.modulationType.radioSystem = 1
    · rw [if_pos c1]
      by_cases c2 : o.modulationType.majorModulation = 0
      · rw [if_pos c2]
        have E : (TransmitterPdu.radioHeap n self >>= fun x => H.setAttr self "modulationParameters" (.ref x)) h s =
            (H.load SimpleIntercomRadio.newHeap SimpleIntercomRadio.parseHeap >>= fun x => H.setAttr self "modulationParameters" (.ref x)) h s := by
          simp only [TransmitterPdu.radioHeap, H.bind_def, H.bind, e, e1, e2, c1, c2, if_true]
        rw [E]
        exact (TransmitterPdu.setRadio (g := fun _ => .simpleIntercom) SimpleIntercomRadio.loads fun _ => rfl) ex self o h F s A
      · rw [if_neg c2]
        have E : (TransmitterPdu.radioHeap n self >>= fun x => H.setAttr self "modulationParameters" (.ref x)) h s =
            (H.load GenericRadio.newHeap GenericRadio.parseHeap >>= fun x => H.setAttr self "modulationParameters" (.ref x)) h s := by
          simp only [TransmitterPdu.radioHeap, H.bind_def, H.bind, e, e1, e2, c1, c2, if_true, if_false]
        rw [E]
        exact (TransmitterPdu.setRadio (g := fun _ => .generic) GenericRadio.loads fun _ => rfl) ex self o h F s A
    · rw [if_neg c1]
      by_cases c2 : o.modulationType.radioSystem = 2 ∨ o.modulationType.radioSystem = 3 ∨ o.modulationType.radioSystem = 4
      · rw [if_pos c2]
        have E : (TransmitterPdu.radioHeap n self >>= fun x => H.setAttr self "modulationParameters" (.ref x)) h s =
            (H.load BasicHaveQuickMP.newHeap (BasicHaveQuickMP.parseHeap none) >>= fun x => H.setAttr self "modulationParameters" (.ref x)) h s := by
          simp only [TransmitterPdu.radioHeap, H.bind_def, H.bind, e, e1, e2, c1, if_pos c2, if_false]
        rw [E]
        exact (TransmitterPdu.setRadio (g := fun r => (.haveQuick r))
          (Loads.plain BasicHaveQuickMP.makesNew (BasicHaveQuickMP.refines none) (BasicHaveQuickMP.into none _)) fun _ => rfl) ex self o h F s A
      · rw [if_neg c2]
        by_cases c3 : o.modulationType.radioSystem = 6
        · rw [if_pos c3]
          have E : (TransmitterPdu.radioHeap n self >>= fun x => H.setAttr self "modulationParameters" (.ref x)) h s =
              (H.load CCTTSincgarsMP.newHeap (CCTTSincgarsMP.parseHeap none) >>= fun x => H.setAttr self "modulationParameters" (.ref x)) h s := by
            simp only [TransmitterPdu.radioHeap, H.bind_def, H.bind, e, e1, e2, if_neg c1, if_neg c2, if_pos c3]
          rw [E]
          exact (TransmitterPdu.setRadio (g := fun r => (.sincgars r))
            (Loads.plain CCTTSincgarsMP.makesNew (CCTTSincgarsMP.refines none) (CCTTSincgarsMP.into none _)) fun _ => rfl) ex self o h F s A
        · rw [if_neg c3]
          have E : (TransmitterPdu.radioHeap n self >>= fun x => H.setAttr self "modulationParameters" (.ref x)) h s =
              (H.load UnknownRadio.newHeap (UnknownRadio.parseHeap (some n)) >>= fun x => H.setAttr self "modulationParameters" (.ref x)) h s := by
            simp only [TransmitterPdu.radioHeap, H.bind_def, H.bind, e, e1, e2, if_neg c1, if_neg c2, if_neg c3]
          rw [E]
          exact (TransmitterPdu.setRadio (g := fun r => (.unknown r))
            (Loads.plain UnknownRadio.makesNew (UnknownRadio.refines (some n)) (UnknownRadio.into (some n) _)) fun _ => rfl) ex self o h F s A
  · rw [if_neg hn, if_neg hn]
    exact Refines.set' h1 (fun o => h2 o none) ex self o h F s A

theorem TransmitterPdu.refinesAntennaPattern (n : Int) : Refines TransmitterPdu.members
    (P.get (·.antennaPatternType) >>= fun antennaPatternType =>
      TransmitterPdu.parseAntennaPatternInto antennaPatternType n)
    (TransmitterPdu.parseAntennaPatternHeap n) := by
  have h1 : ∀ o, (attrOf "antennaPattern" (TransmitterPdu.members o)).isSome := fun o => by
    simp [TransmitterPdu.members, RadioCommunicationsFamilyPdu.members, Pdu.members, PduSuperclass.members, attrOf]
  have h2 : ∀ (o : TransmitterPdu) (v : Option AntennaPatternRecord),
      TransmitterPdu.members { o with antennaPattern := v } =
        putAttr "antennaPattern" (.noneOr AntennaPatternRecord.members v) (TransmitterPdu.members o) := fun o v => by
    simp [TransmitterPdu.members, RadioCommunicationsFamilyPdu.members, Pdu.members, PduSuperclass.members, putAttr]
  unfold TransmitterPdu.parseAntennaPatternHeap TransmitterPdu.parseAntennaPatternInto
  by_cases hn : n > 0
  · simp only [if_pos hn]
    refine .bind (.intGet fun o => by
      simp [TransmitterPdu.members, RadioCommunicationsFamilyPdu.members, Pdu.members, PduSuperclass.members, attrOf]) fun t => ?_
    by_cases ht : t = 1
    · simp only [if_pos ht]
      exact Refines.setCall (σ := TransmitterPdu) (ts := BeamAntennaPattern.members) (fresh := BeamAntennaPattern.init) (f := fun o v => { o with antennaPattern := some (.beam v) }) BeamAntennaPattern.makesNew
        (BeamAntennaPattern.refines (some 40)) h1 (fun o v => h2 o (some (.beam v))) fun _ _ _ => rfl
    · simp only [if_neg ht]
      have e : (P.set (fun o : TransmitterPdu => { o with antennaPattern := some (.unknown {}) }) >>= fun _ =>
            P.read (UnknownAntennaPattern.parse {} n) >>= fun p =>
            P.set fun o : TransmitterPdu => { o with antennaPattern := some (.unknown p) }) =
          (P.set (fun o : TransmitterPdu => { o with antennaPattern := some (.unknown {}) }) >>= fun _ =>
            P.call ⟨fun _ => {}, fun o v => { o with antennaPattern := some (.unknown v) }⟩ (UnknownAntennaPattern.parseInto n)) := by
        funext o s
        simp only [UnknownAntennaPattern.parse, UnknownAntennaPattern.parseInto, P.bind_def, P.bind, P.set, P.read, P.call,
          R.bind_def, R.bind]
        rcases VariableRecord.parse (some n) s with ⟨_ | _, s'⟩
        · rfl
        · dsimp only
          rcases read_bytes (n - 6) s' with ⟨_ | _, s''⟩ <;> rfl
      rw [e]
      exact Refines.setCall (σ := TransmitterPdu) (ts := UnknownAntennaPattern.members) (fresh := {}) (f := fun o v => { o with antennaPattern := some (.unknown v) }) UnknownAntennaPattern.makesNew
        (UnknownAntennaPattern.refines n) h1 (fun o v => h2 o (some (.unknown v))) fun _ _ _ => rfl
  · simp only [if_neg hn]
    exact .set' h1 (fun o => h2 o none)

theorem TransmitterPdu.modulationThen {n : Int} {k : P TransmitterPdu Unit} {l : Ref → H Unit}
    (hk : Refines TransmitterPdu.members k l) : Refines TransmitterPdu.members
      (P.get (·.modulationType) >>= fun modulationType =>
        P.read (TransmitterPdu.parseModulationParameters modulationType n) >>= fun modulationParameters =>
        (P.set fun o : TransmitterPdu => { o with modulationParameters := modulationParameters }) >>= fun _ => k)
      (fun self => TransmitterPdu.parseModulationParametersHeap n self >>= fun _ => l self) := by
  have := Refines.bind (l := fun self _ => l self) (TransmitterPdu.refinesModulationParameters n) fun _ : Unit => hk
  rw [P.bind_assoc] at this
  simp only [P.bind_assoc] at this
  exact this

theorem TransmitterPdu.antennaThen {n : Int} {k : P TransmitterPdu Unit} {l : Ref → H Unit}
    (hk : Refines TransmitterPdu.members k l) : Refines TransmitterPdu.members
      (P.get (·.antennaPatternType) >>= fun antennaPatternType =>
        TransmitterPdu.parseAntennaPatternInto antennaPatternType n >>= fun _ => k)
      (fun self => TransmitterPdu.parseAntennaPatternHeap n self >>= fun _ => l self) := by
  have := Refines.bind (l := fun self _ => l self) (TransmitterPdu.refinesAntennaPattern n) fun _ : Unit => hk
  rw [P.bind_assoc] at this
  exact this

namespace Shows

variable {σ : Type} {fs : σ → List (String × Tree)}

theorem intercomList {n : String} {g : σ → IntercomParametersValue}
    (h1 : ∀ o, attrOf n (fs o) = some (g o).tree) {ex : List (String × Tree)} {self : Ref} {o : σ}
    {h : Heap} {F : List Ref} (A : Amounts h (.ref self) (.obj (fs o ++ ex)) F) :
    match g o with
    | .records l => ∃ us G, S.list self n h = Pure.pure us ∧
        AmountsAll h us (l.map fun v => .obj (IntercomCommunicationsParameters.members v)) G
    | _ => S.list self n h = W.throw .typeError := by
  have h2 := attrOf_append (ex := ex) (h1 o)
  obtain ⟨v, G, e, B⟩ := S.attr_eq A h2 (by cases g o <;> nofun)
  cases hg : g o with
  | none =>
    rw [hg] at B
    obtain rfl := B.none
    simp only [S.bind_def, S.bind, S.list, e, W.pure_bind', S.items]
    rfl
  | record r =>
    rw [hg] at B
    cases v with
    | sc x => exact B.not_sc.elim
    | ref r =>
      obtain ⟨d, hr⟩ := B.isObj
      simp only [S.bind_def, S.bind, S.list, e, W.pure_bind', S.items, hr]
  | records l =>
    rw [hg] at B
    cases v with
    | sc x => exact B.not_sc'.elim
    | ref r =>
      obtain ⟨us, G, hr, C⟩ := B.list
      refine ⟨us, G, ?_, C⟩
      simp only [S.bind_def, S.bind, S.list, e, W.pure_bind', S.items, hr]

theorem intercomLen {n : String} {k : Int → W Unit} {g : σ → IntercomParametersValue}
    (h1 : ∀ o, attrOf n (fs o) = some (g o).tree) :
    Shows fs (fun o => W.using (g o).len k) (fun self => S.putLen self n k) := by
  intro ex self o h F A
  have e := intercomList h1 A
  simp only [S.putLen, S.bind_def, S.bind]
  cases hg : g o with
  | none => rw [hg] at e; rw [e]; rfl
  | record r => rw [hg] at e; rw [e]; rfl
  | records l =>
    rw [hg] at e
    obtain ⟨us, G, e, C⟩ := e
    rw [e, W.pure_bind', C.length, List.length_map]
    rfl

theorem intercomEach {n : String} {c : Ref → S Unit} {g : σ → IntercomParametersValue}
    (hw : Shows IntercomCommunicationsParameters.members IntercomCommunicationsParameters.serialize c)
    (h1 : ∀ o, attrOf n (fs o) = some (g o).tree) :
    Shows fs (fun o => (g o).serializeAll) (fun self => S.each self n c) := by
  intro ex self o h F A
  have e := intercomList h1 A
  simp only [S.each, S.bind_def, S.bind]
  cases hg : g o with
  | none => rw [hg] at e; rw [e]; rfl
  | record r => rw [hg] at e; rw [e]; rfl
  | records l =>
    rw [hg] at e
    obtain ⟨us, G, e, C⟩ := e
    rw [e, W.pure_bind']
    refine forEach_eq (fun v x G A => ?_) C
    cases v with
    | sc x => exact A.not_sc.elim
    | ref r =>
      have := hw [] r x h G (by rwa [List.append_nil])
      simp only [S.asObj]
      exact (W.pure_bind' _ _).trans this

end Shows
