import Verif.Proof.SourceDerived1
import Verif.Props.SourceInit
import Verif.Props.SourceRadio
import Verif.Props.Sizes

/-!
# C80: derived attributes and sizes, as the source computes them

A method under `@property` looks like an attribute to the user of the library. Reading it runs the method; assigning to it
raises. `marshalledSize()` is an ordinary method.
-/

namespace Dis

open Src

/-- **C80.** Reading a derived attribute of an object that a variable holds gives its value, and changes nothing: neither the
variables nor the streams. -/
theorem C80_read (d : Derived) (hd : d ∈ derived) (x : d.cls.entry.codec.Obj) (v : Ident) (n : Nat) (st : St)
    (hv : look v st.locals = some (.obj d.cls.cls (d.cls.fields x))) :
    eval program words streams (methods program words streams (n + 8)) (.attr (.name v) d.name) st = (.ok (d.value x), st) := by
  have h := derived_lawful d hd
  unfold eval
  rw [M.bind_ok (eval_local hv)]
  unfold getAttr
  simp only [h.prop]
  show (match run (n + 8) d.cls.cls d.name _ [] [] st.io with | (r, _, io) => (r, { st with io })) = _
  rw [h.reads n x st.io]

/-- **C80.** A derived attribute cannot be assigned to: the statement raises `AttributeError` once the value to be assigned has
been computed, and then nothing has changed. -/
theorem C80_write (d : Derived) (hd : d ∈ derived) (x : d.cls.entry.codec.Obj) (v : Ident) (e : Expr) (u : Src.Val) (n : Nat)
    (st : St) (hv : look v st.locals = some (.obj d.cls.cls (d.cls.fields x)))
    (he : eval program words streams (methods program words streams n) e st = (.ok u, st)) :
    exec program words streams (methods program words streams n) (.assign (.attr (.name v) d.name) e) st
      = (.error .attributeError, st) := by
  have h := derived_lawful d hd
  unfold exec
  rw [M.bind_ok he]
  refine M.bind_error ?_
  have h1 : M.get .nameError (some (Src.Val.obj d.cls.cls (d.cls.fields x))) st = (.ok (.obj d.cls.cls (d.cls.fields x)), st) := rfl
  unfold store
  show (M.bind (M.var? v) fun o => M.bind (M.get .nameError o) _) st = _
  have h0 : M.var? v st = (.ok (some (.obj d.cls.cls (d.cls.fields x))), st) := by rw [← hv]; rfl
  refine (M.bind_ok h0).trans ((M.bind_ok h1).trans ?_)
  simp only [h.prop]
  rfl

/-- Every property of the class is in the list. -/
private def Listed (e : Sourced) : Bool :=
  propertyNames.all fun f => !isProperty program e.cls f || derived.any fun d => Nat.beq d.cls.cls e.cls && Nat.beq d.name f

private theorem listed1 : sourced1.all Listed = true := by decide +kernel

private theorem listed2 : sourced2.all Listed = true := by decide +kernel

private theorem listed3 : sourced3.all Listed = true := by decide +kernel

private theorem listed4 : sourced4.all Listed = true := by decide +kernel

private theorem listed5 : sourced5.all Listed = true := by decide +kernel

private theorem listed6 : sourced6.all Listed = true := by decide +kernel

private theorem listed7 : sourced7.all Listed = true := by decide +kernel

private theorem allDerived (e : Sourced) (he : e ∈ sourced) : Listed e = true := by
  simp only [sourced, List.mem_append] at he
  rcases he with (((((h | h) | h) | h) | h) | h) | h
  · exact List.all_eq_true.1 listed1 e h
  · exact List.all_eq_true.1 listed2 e h
  · exact List.all_eq_true.1 listed3 e h
  · exact List.all_eq_true.1 listed4 e h
  · exact List.all_eq_true.1 listed5 e h
  · exact List.all_eq_true.1 listed6 e h
  · exact List.all_eq_true.1 listed7 e h

/-- **C80.** These are all derived attributes of the classes compared: a name is a property of such a class exactly if it is in
the list. -/
theorem C80_all (e : Sourced) (he : e ∈ sourced) (f : Ident) :
    isProperty program e.cls f = true ↔ ∃ d ∈ derived, d.cls.cls = e.cls ∧ d.name = f := by
  have h1 := allDerived e he
  constructor
  · intro hf
    have hmem : f ∈ propertyNames := by
      by_contra hn
      have : propertyNames.all (fun p => !Nat.beq p f) = true := List.all_eq_true.2 fun p hp => by
        cases hb : Nat.beq p f with
        | false => rfl
        | true => exact absurd (Nat.eq_of_beq_eq_true hb ▸ hp) hn
      rw [plain this] at hf
      cases hf
    have h2 := List.all_eq_true.1 h1 f hmem
    rw [hf, Bool.not_true, Bool.false_or] at h2
    obtain ⟨d, hd, hb⟩ := List.any_eq_true.1 h2
    rw [Bool.and_eq_true] at hb
    exact ⟨d, hd, Nat.eq_of_beq_eq_true hb.1, Nat.eq_of_beq_eq_true hb.2⟩
  · rintro ⟨d, hd, h2, rfl⟩
    rw [← h2]
    exact (derived_lawful d hd).prop

/-- **C80.** The derived attributes of `TransmitterPdu`: the sizes of the two optional parts, 0 if the part is not there, and the
number of variable parameters. Reading them changes nothing. -/
theorem C80_transmitter (x : TransmitterPdu) (v : Ident) (n : Nat) (st : St)
    (hv : look v st.locals = some (.obj I.TransmitterPdu (TransmitterPdu.fields x))) :
    eval program words streams (methods program words streams (n + 8)) (.attr (.name v) I.antennaPatternLength) st
      = (.ok (.int (x.antennaPattern.elim 0 (·.marshalledSize))), st) ∧
    eval program words streams (methods program words streams (n + 8)) (.attr (.name v) I.modulationParametersLength) st
      = (.ok (.int (x.modulationParameters.elim 0 (·.marshalledSize))), st) ∧
    eval program words streams (methods program words streams (n + 8)) (.attr (.name v) I.variableTransmitterParameterCount) st
      = (.ok (.int x.variableTransmitterParameters.length), st) := by
  have key : ∀ {f : Ident} {u : Src.Val}, isProperty program I.TransmitterPdu f = true →
      (∀ io, run (n + 8) I.TransmitterPdu f (TransmitterPdu.enc x) [] [] io = (.ok u, TransmitterPdu.enc x, io)) →
      eval program words streams (methods program words streams (n + 8)) (.attr (.name v) f) st = (.ok u, st) := by
    intro f u hp hr
    unfold eval
    rw [M.bind_ok (eval_local hv)]
    unfold getAttr
    simp only [hp]
    show (match run (n + 8) I.TransmitterPdu f _ [] [] st.io with | (r, _, io) => (r, { st with io })) = _
    rw [hr st.io]
  refine ⟨key (by decide +kernel) fun io => ?_, key (by decide +kernel) fun io => ?_, key (by decide +kernel) fun io => ?_⟩
  · rw [Src.TransmitterPdu.patternLength (n + 6) x io]
    unfold TransmitterPdu.antennaPatternLength
    cases x.antennaPattern <;> rfl
  · rw [Src.TransmitterPdu.parametersLength (n + 6) x io]
    unfold TransmitterPdu.modulationParametersLength
    cases x.modulationParameters <;> rfl
  · exact property_of (n := n + 7) (d := I.TransmitterPdu) (f := Src.TransmitterPdu.variableTransmitterParameterCount) rfl rfl rfl
      (gives_len_map (gives_attr (gives_name rfl) (by decide +kernel) rfl)) io

/-- **Specification for C80.** Run on this object, `marshalledSize()` of the source returns a number, `serialize` of the source
writes that many bytes whenever it does not raise, and neither changes the object. -/
def TellsSize (c : Ident) (v : Src.Val) : Prop :=
  ∃ i : Int, ∀ n io,
    methods program words streams (n + 8) c I.marshalledSize v [] [] io = (.ok (.int i), v, io) ∧
    ∀ r v' io', methods program words streams (n + 8) c I.serialize v [.out] [] io = (.ok r, v', io') →
      v' = v ∧ (io'.out.length : Int) = io.out.length + i

private theorem TellsSize.of {c : Ident} {v : Src.Val} {w : W Unit} {i : Int} (hi : Writes w i)
    (hm : ∀ n, Src.Sizes (run (n + 8)) c v i) (hs : ∀ n, Src.Serializes (run (n + 8)) c v w) : TellsSize c v := by
  refine ⟨i, fun n io => ⟨hm n io, fun r v' io' h => ?_⟩⟩
  have h1 := (hs n io).symm.trans h
  cases hr : w.res with
  | error e => rw [hr] at h1; cases h1
  | ok u =>
    rw [hr] at h1
    simp only [Prod.mk.injEq] at h1
    refine ⟨h1.2.1.symm, ?_⟩
    rw [← h1.2.2]
    have := hi w.out ⟨rfl, u, hr⟩
    simp only [List.length_append]
    push_cast
    omega

/-- **C80.** The common records tell how many bytes they write. -/
theorem C80_sizes_common :
    (∀ x : SimulationAddress, TellsSize I.SimulationAddress (SimulationAddress.enc x)) ∧
    (∀ x : EntityIdentifier, TellsSize I.EntityIdentifier (EntityIdentifier.enc x)) ∧
    (∀ x : EventIdentifier, TellsSize I.EventIdentifier (EventIdentifier.enc x)) ∧
    (∀ x : EulerAngles, TellsSize I.EulerAngles (EulerAngles.enc x)) ∧
    (∀ x : Vector3Float, TellsSize I.Vector3Float (Vector3Float.enc x)) ∧
    (∀ x : WorldCoordinates, TellsSize I.WorldCoordinates (WorldCoordinates.enc x)) := by
  obtain ⟨h1, h2, h3, h4, h5, h6⟩ := C58_common
  exact ⟨fun x => .of (h1 x) (fun n _ => by kernel_rfl) fun n => Src.SimulationAddress.serializes (n + 7) x,
    fun x => .of (h2 x) (fun n _ => by kernel_rfl) fun n => Src.EntityIdentifier.serializes (n + 6) x,
    fun x => .of (h3 x) (fun n _ => by kernel_rfl) fun n => Src.EventIdentifier.serializes (n + 6) x,
    fun x => .of (h4 x) (fun n _ => by kernel_rfl) fun n => Src.EulerAngles.serializes (n + 7) x,
    fun x => .of (h5 x) (fun n _ => by kernel_rfl) fun n => Src.Vector3Float.serializes (n + 7) x,
    fun x => .of (h6 x) (fun n _ => by kernel_rfl) fun n => Src.WorldCoordinates.serializes (n + 7) x⟩

/-- **C80.** So do the records of the radio and warfare modules that are not standard variable records. -/
theorem C80_sizes_parts :
    (∀ x : SpreadSpectrum, TellsSize I.SpreadSpectrum (SpreadSpectrum.enc x)) ∧
    (∀ x : ModulationType, TellsSize I.ModulationType (ModulationType.enc x)) ∧
    (∀ x : NetId, TellsSize I.NetId (NetId.enc x)) ∧
    (∀ x : DEFireFlags, TellsSize I.DEFireFlags (DEFireFlags.enc x)) ∧
    (∀ x : DirectedEnergyTargetEnergyDeposition,
      TellsSize I.DirectedEnergyTargetEnergyDeposition (DirectedEnergyTargetEnergyDeposition.enc x)) ∧
    (∀ x : AntennaPatternRecord, TellsSize (antClass x) (.obj (antClass x) (antFields x))) ∧
    (∀ x : ModulationParametersRecord, TellsSize (modClass x) (.obj (modClass x) (modFields x))) := by
  obtain ⟨h1, h2, h3, h4, h5, h6, h7⟩ := C58_parts
  exact ⟨fun x => .of (h1 x) (fun n _ => by kernel_rfl) fun n => Src.SpreadSpectrum.serializes (n + 7) x,
    fun x => .of (h2 x) (fun n _ => by kernel_rfl) fun n => Src.ModulationType.serializes (n + 6) x,
    fun x => .of (h3 x) (fun n _ => by kernel_rfl) fun n => Src.NetId.serializes (n + 7) x,
    fun x => .of (h4 x) (fun n _ => by kernel_rfl) fun n => Src.DEFireFlags.serializes (n + 7) x,
    fun x => .of (h5 x) (fun n => Src.DirectedEnergyTargetEnergyDeposition.sizes (n + 5) x)
      fun n => Src.DirectedEnergyTargetEnergyDeposition.serializes (n + 5) x,
    fun x => .of (h6 x) (fun n => ant_sizes (n + 7) x) fun n => ant_serializes (n + 6) x,
    fun x => .of (h7 x) (fun n => mod_sizes (n + 7) x) fun n => mod_serializes (n + 6) x⟩

theorem sv_sizes (n : Nat) (r : SVRecord) : Src.Sizes (run (n + 8)) (svClass r) (svEnc r) r.marshalledSize := by
  cases r with
  | highFidelityHAVEQUICKRadio r => exact Src.HighFidelityHAVEQUICKRadio.sizes (n + 4) r
  | directedEnergyDamage r => exact Src.DirectedEnergyDamage.sizes _ r
  | directedEnergyAreaAimpoint r => exact Src.DirectedEnergyAreaAimpoint.sizes (n + 4) r
  | directedEnergyPrecisionAimpoint r => exact Src.DirectedEnergyPrecisionAimpoint.sizes _ r
  | unknown r => exact Src.UnknownStandardVariableRecord.sizes _ r

/-- **C80 (violated for the standard variable records).** `marshalledSize()` of such a record, run in the source, returns 2
(radio), 12 (area aimpoint) or 8 (the others) less than the number of bytes that its `serialize`, run in the source, writes. -/
theorem C80_sizes_records_violated (r : SVRecord) (n : Nat) (io : Streams) :
    ∃ i : Int, methods program words streams (n + 8) (svClass r) I.marshalledSize (svEnc r) [] [] io
        = (.ok (.int i), svEnc r, io) ∧
      ∀ u v' io', methods program words streams (n + 8) (svClass r) I.serialize (svEnc r) [.out] [] io = (.ok u, v', io') →
        (io'.out.length : Int) = io.out.length + i +
          (match r with
          | .highFidelityHAVEQUICKRadio _ => 2
          | .directedEnergyAreaAimpoint _ => 12
          | _ => 8) := by
  refine ⟨r.marshalledSize, sv_sizes n r io, fun u v' io' h => ?_⟩
  have h1 := (C77_serializeRecord (n + 1) r io).symm.trans h
  cases hr : r.serialize.res with
  | error e => rw [hr] at h1; cases h1
  | ok u =>
    rw [hr] at h1
    simp only [Prod.mk.injEq] at h1
    rw [← h1.2.2]
    have := C58_records_partial r r.serialize.out ⟨rfl, u, hr⟩
    simp only [List.length_append]
    push_cast
    cases r <;> simp only at this ⊢ <;> omega

/-! Concrete cases: a PDU with two fixed datums, and a record that says too little. -/

private def sample : ActionRequestPdu :=
  { ActionRequestPdu.init with _datums := { fixedDatumRecords := [FixedDatum.init 1 2, FixedDatum.init 3 4], variableDatumRecords := [] } }

/-- The variable 9999 holds the PDU. -/
private def held : St := ⟨[(9999, ActionRequestPdu.enc sample)], ⟨⟨[], 0⟩, []⟩⟩

example : eval program words streams (methods program words streams 8) (.attr (.name 9999) I.numberOfFixedDatumRecords) held
    = (.ok (.int 2), held) :=
  C80_read Derived.ActionRequestPdu.numberOfFixedDatumRecords (by simp [derived]) sample 9999 0 held rfl

example : exec program words streams (methods program words streams 8)
    (.assign (.attr (.name 9999) I.numberOfFixedDatumRecords) (.int 3)) held = (.error .attributeError, held) :=
  C80_write Derived.ActionRequestPdu.numberOfFixedDatumRecords (by simp [derived]) sample 9999 (.int 3) (.int 3) 8 held rfl rfl

example : TellsSize I.NetId (NetId.enc (NetId.init 700 2 1 0)) := C80_sizes_parts.2.2.1 _

/-- A damage record says 40 and writes 48 bytes. -/
example : (methods program words streams 8 I.DirectedEnergyDamage I.marshalledSize
      (svEnc (.directedEnergyDamage DirectedEnergyDamage.init)) [] [] ⟨⟨[], 0⟩, []⟩).1.toOption = some (.int 40) ∧
    (methods program words streams 8 I.DirectedEnergyDamage I.serialize
      (svEnc (.directedEnergyDamage DirectedEnergyDamage.init)) [.out] [] ⟨⟨[], 0⟩, []⟩).2.2.out.length = 48 := by
  constructor <;> kernel_rfl

end Dis
