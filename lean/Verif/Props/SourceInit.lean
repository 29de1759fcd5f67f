import Verif.Proof.SourceInitLaw
import Verif.Proof.SourceInitRadio
import Verif.Props.Source

/-!
# C77: constructors with arguments, as syntax trees

`C77_construct` is about constructors without arguments. Here they get arguments: by position, by name or by default.
-/

namespace Dis

open Src

/-- **C77.** A constructor with any arguments, given by position, by name or left to their defaults, makes the object that the
constructor of the model makes of them. -/
theorem C77_construct_with (e : Constructor) (he : e ∈ constructors) (a : e.Args) (args : List Src.Val)
    (kws : List (Ident × Src.Val)) (hs : Supplied e.params args kws (e.values a)) (n : Nat) (st : St) :
    construct program words (methods program words streams (n + 8)) e.cls.cls args kws st =
      (.ok (.obj e.cls.cls (e.cls.fields (e.make a))), st) :=
  have h := constructors_lawful e he
  (h.2.1 n a).named h.1 hs st

/-- **C77.** These are all constructors of the classes compared, but that of `AngularVelocityVector` and the one without
parameters. -/
theorem C77_constructors : ∀ e ∈ sourced,
    e.cls ∈ constructors.map (·.cls.cls) ∨ e.cls = I.AngularVelocityVector ∨
      (method program e.cls I.__init__).map (·.2.params) = some [] := by
  have h : (sourced.all fun e => (constructors.map (·.cls.cls)).contains e.cls || e.cls == I.AngularVelocityVector ||
      ((method program e.cls I.__init__).map (·.2.params.isEmpty)) == some true) = true := by decide +kernel
  intro e he
  have := List.all_eq_true.1 h e he
  simp only [Bool.or_eq_true, beq_iff_eq, List.contains_iff_mem] at this
  rcases this with (h | h) | h
  · exact .inl h
  · exact .inr (.inl h)
  · refine .inr (.inr ?_)
    cases hm : method program e.cls I.__init__ with
    | none => rw [hm] at h; cases h
    | some f =>
      rw [hm] at h
      simp only [Option.map_some, Option.some.injEq, List.isEmpty_iff] at h ⊢
      exact h

/-- **C77.** The constructor of `AngularVelocityVector` drops its arguments: all of them make the vector (0, 0, 0)
(/repo/opendis/dis7.py:2710-2716). -/
theorem C77_construct_vector (x y z : Src.Val) (args : List Src.Val) (kws : List (Ident × Src.Val))
    (hs : Supplied AngularVelocityVector.__init__.params args kws [x, y, z]) (n : Nat) (st : St) :
    construct program words (methods program words streams (n + 8)) I.AngularVelocityVector args kws st =
      (.ok (.obj I.AngularVelocityVector [(I.x, .int 0), (I.y, .int 0), (I.z, .int 0)]), st) := by
  have hm : method program I.AngularVelocityVector I.__init__ =
      some (I.AngularVelocityVector, AngularVelocityVector.__init__) := by kernel_rfl
  refine MakesOf.named (n := n + 7) ?_ hm hs st
  refine made_with (by decide +kernel) rfl rfl rfl hm rfl rfl rfl ?_
  exact inits_set (fun _ => gives_int) (by kernel_rfl) <| inits_set (fun _ => gives_int) (by kernel_rfl) <|
    inits_set (fun _ => gives_int) (by kernel_rfl) <| inits_nil rfl

/-- **C77.** Constructing and writing at once: the bytes are those the model writes for the object made of the arguments. -/
theorem C77_construct_serialize (e : Constructor) (he : e ∈ constructors) (a : e.Args)
    (args : List Src.Val) (kws : List (Ident × Src.Val)) (hs : Supplied e.params args kws (e.values a)) (n : Nat) (st : St) :
    ∃ v, construct program words (methods program words streams (n + 8)) e.cls.cls args kws st = (.ok v, st) ∧
      ∀ io, methods program words streams (n + 8) e.cls.cls I.serialize v [.out] [] io =
        ((e.cls.entry.codec.serialize (e.make a)).res.map fun _ => Val.none, v,
          ⟨io.inp, io.out ++ (e.cls.entry.codec.serialize (e.make a)).out⟩) :=
  ⟨_, C77_construct_with e he a args kws hs n st, fun io => (constructors_lawful e he).2.2.serialize n (e.make a) io⟩

/-- **C77.** `TransmitterPdu(...)` with any arguments: modulation parameters and antenna pattern are taken as they are, the
variable parameters are copied. -/
theorem C77_transmitter_construct_with (ref : Option EntityIdentifier) (num : Int) (typ : Option EntityType) (state src : Int)
    (loc : Option WorldCoordinates) (rel : Option Vector3Float) (pat freq : Int) (band power : F64)
    (modType : Option ModulationType) (crypto key : Int) (mp : Option ModulationParametersRecord)
    (ant : Option AntennaPatternRecord) (vtps : Option (List SVRecord)) (args : List Src.Val) (kws : List (Ident × Src.Val))
    (hs : Supplied TransmitterPdu.__init__.params args kws
      [optArg EntityIdentifier.enc ref, .int num, optArg EntityType.enc typ, .int state, .int src,
        optArg WorldCoordinates.enc loc, optArg Vector3Float.enc rel, .int pat, .int freq, .float band, .float power,
        optArg ModulationType.enc modType, .int crypto, .int key, modVal mp, antVal ant, listArg svEnc vtps])
    (n : Nat) (st : St) :
    construct program words (methods program words streams (n + 8)) I.TransmitterPdu args kws st =
      (.ok (.obj I.TransmitterPdu (TransmitterPdu.fields
        (Dis.TransmitterPdu.init ref num typ state src loc rel pat freq band power modType crypto key mp ant (vtps.getD [])))), st) :=
  (TransmitterPdu.makesOf (n + 4) ref num typ state src loc rel pat freq band power modType crypto key mp ant vtps).named
    (d := I.TransmitterPdu) (f := TransmitterPdu.__init__) (by kernel_rfl) hs st

/-- **C77.** `IntercomControlPdu(...)` with any arguments. -/
theorem C77_intercom_construct_with (ctl chan : Int) (src : Option EntityIdentifier) (dev line prio state cmd : Int)
    (master : Option EntityIdentifier) (mdev : Int) (params : IntercomParametersValue) (args : List Src.Val)
    (kws : List (Ident × Src.Val))
    (hs : Supplied IntercomControlPdu.__init__.params args kws
      [.int ctl, .int chan, optArg EntityIdentifier.enc src, .int dev, .int line, .int prio, .int state, .int cmd,
        optArg EntityIdentifier.enc master, .int mdev, paramsVal params])
    (n : Nat) (st : St) :
    construct program words (methods program words streams (n + 8)) I.IntercomControlPdu args kws st =
      (.ok (.obj I.IntercomControlPdu (IntercomControlPdu.fields
        (Dis.IntercomControlPdu.init ctl chan src dev line prio state cmd master mdev params))), st) :=
  (IntercomControlPdu.makesOf (n + 4) ctl chan src dev line prio state cmd master mdev params).named
    (d := I.IntercomControlPdu) (f := IntercomControlPdu.__init__) (by kernel_rfl) hs st

/-! Concrete cases: `CollisionPdu(EntityIdentifier(...), mass=1.5, collisionType=1)`, and an angular velocity. -/

/-- The collision of an entity of mass 1.5, with the other arguments left out. -/
def exampleCollision : Constructor.CollisionPdu.Args :=
  (some { simulationAddress := { site := 17, application := 23 }, entityNumber := 42 }, none, none, 1, none, 0x3FF8000000000000,
    none)

theorem exampleCollision_supplied :
    Supplied Constructor.CollisionPdu.params
      [EntityIdentifier.enc { simulationAddress := { site := 17, application := 23 }, entityNumber := 42 }]
      [(I.mass, .float 0x3FF8000000000000), (I.collisionType, .int 1)] (Constructor.CollisionPdu.values exampleCollision) :=
  ⟨rfl, .inr ⟨rfl, _, rfl, rfl⟩, .inr ⟨rfl, _, rfl, rfl⟩, .inl rfl, .inr ⟨rfl, _, rfl, rfl⟩, .inl rfl,
    .inr ⟨rfl, _, rfl, rfl⟩, rfl, rfl⟩

example (n : Nat) (st : St) :
    construct program words (methods program words streams (n + 8)) I.CollisionPdu
      [EntityIdentifier.enc { simulationAddress := { site := 17, application := 23 }, entityNumber := 42 }]
      [(I.mass, .float 0x3FF8000000000000), (I.collisionType, .int 1)] st =
      (.ok (.obj I.CollisionPdu (CollisionPdu.fields
        (Dis.CollisionPdu.init (issuingEntityID := some { simulationAddress := { site := 17, application := 23 }, entityNumber := 42 })
          (collisionType := 1) (mass := 0x3FF8000000000000)))), st) :=
  C77_construct_with Constructor.CollisionPdu (by simp only [constructors, List.mem_cons, true_or, or_true]) exampleCollision _ _
    exampleCollision_supplied n st

example : (Dis.CollisionPdu.init (issuingEntityID := some { simulationAddress := { site := 17, application := 23 }, entityNumber := 42 })
    (collisionType := 1) (mass := 0x3FF8000000000000)).serialize.res = .ok () := by decide +kernel

example : Supplied AngularVelocityVector.__init__.params [.float 0x3FF8000000000000] [(I.z, .int 3)]
    [.float 0x3FF8000000000000, .float 0, .int 3] :=
  ⟨rfl, .inr ⟨rfl, _, rfl, rfl⟩, .inl rfl, rfl, rfl⟩

/-- `IntercomControlPdu(1, intercomParameters=[], command=2)`. -/
example : Supplied IntercomControlPdu.__init__.params [.int 1] [(I.intercomParameters, .list []), (I.command, .int 2)]
    [.int 1, .int 0, optArg EntityIdentifier.enc none, .int 0, .int 0, .int 0, .int 0, .int 2, optArg EntityIdentifier.enc none,
      .int 0, paramsVal (.records [])] :=
  ⟨rfl, .inr ⟨rfl, _, rfl, rfl⟩, .inr ⟨rfl, _, rfl, rfl⟩, .inr ⟨rfl, _, rfl, rfl⟩, .inr ⟨rfl, _, rfl, rfl⟩,
    .inr ⟨rfl, _, rfl, rfl⟩, .inr ⟨rfl, _, rfl, rfl⟩, .inl rfl, .inr ⟨rfl, _, rfl, rfl⟩, .inr ⟨rfl, _, rfl, rfl⟩, .inl rfl,
    rfl, rfl⟩

/-- `TransmitterPdu(radioNumber=7, antennaPattern=BeamAntennaPattern())`. -/
example : Supplied TransmitterPdu.__init__.params []
    [(I.radioNumber, .int 7), (I.antennaPattern, antVal (some (.beam Dis.BeamAntennaPattern.init)))]
    [optArg EntityIdentifier.enc none, .int 7, optArg EntityType.enc none, .int 0, .int 0,
      optArg WorldCoordinates.enc none, optArg Vector3Float.enc none, .int 0, .int 0, .float 0, .float 0,
      optArg ModulationType.enc none, .int 0, .int 0, modVal none, antVal (some (.beam Dis.BeamAntennaPattern.init)),
      listArg svEnc none] :=
  ⟨.inr ⟨rfl, _, rfl, rfl⟩, .inl rfl, .inr ⟨rfl, _, rfl, rfl⟩, .inr ⟨rfl, _, rfl, rfl⟩, .inr ⟨rfl, _, rfl, rfl⟩,
    .inr ⟨rfl, _, rfl, rfl⟩, .inr ⟨rfl, _, rfl, rfl⟩, .inr ⟨rfl, _, rfl, rfl⟩, .inr ⟨rfl, _, rfl, rfl⟩,
    .inr ⟨rfl, _, rfl, rfl⟩, .inr ⟨rfl, _, rfl, rfl⟩, .inr ⟨rfl, _, rfl, rfl⟩, .inr ⟨rfl, _, rfl, rfl⟩,
    .inr ⟨rfl, _, rfl, rfl⟩, .inr ⟨rfl, _, rfl, rfl⟩, .inl rfl, .inr ⟨rfl, _, rfl, rfl⟩, rfl, rfl⟩

end Dis
