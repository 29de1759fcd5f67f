import Verif.Proof.RecordsInPdus

/-!
# C58: `marshalledSize`

The records of `opendis/record` have a method `marshalledSize()`. The library uses it for the lengths
it sends (`antennaPatternLength`, `modulationParametersLength`, `recordLength`) and for nothing else,
so a wrong value shows up only at the receiver.
-/

namespace Dis

/-- **Specification for C58.** Whenever the serializer `w` succeeds it has written `n` bytes. -/
def Writes (w : W Unit) (n : Int) : Prop := ∀ b, w.Emits b → (b.length : Int) = n

private theorem Writes.of {w : W Unit} {n : Nat} {m : Int} (h : Sized w n) (e : (n : Int) = m) :
    Writes w m := fun b hb => by rw [h b hb, e]

/-- **C58.** The common records write as many bytes as they say. -/
theorem C58_common :
    (∀ o : SimulationAddress, Writes o.serialize o.marshalledSize) ∧
    (∀ o : EntityIdentifier, Writes o.serialize o.marshalledSize) ∧
    (∀ o : EventIdentifier, Writes o.serialize o.marshalledSize) ∧
    (∀ o : EulerAngles, Writes o.serialize o.marshalledSize) ∧
    (∀ o : Vector3Float, Writes o.serialize o.marshalledSize) ∧
    (∀ o : WorldCoordinates, Writes o.serialize o.marshalledSize) :=
  ⟨fun o => .of o.sized rfl, fun o => .of o.sized rfl, fun o => .of o.sized rfl,
   fun o => .of o.sized rfl, fun o => .of o.sized rfl, fun o => .of o.sized rfl⟩

/-- A serialize that succeeds, and the size it has. -/
example : (EntityIdentifier.init (some (SimulationAddress.init 3 44)) 5).serialize.Emits
      [0, 3, 0, 44, 0, 5] ∧
    (EntityIdentifier.init (some (SimulationAddress.init 3 44)) 5).marshalledSize = 6 :=
  ⟨⟨by decide +kernel, (), by decide +kernel⟩, by decide +kernel⟩

/-- **C58.** So do all bit-field classes, whatever their fields and values. -/
theorem C58_bitfields (ws : List Nat) (vs : List Int) :
    Writes (Bitfield.serialize ws vs) (Bitfield.marshalledSize ws) :=
  .of (Bitfield.sized vs) rfl

/-- **C58.** So do the records of the radio and warfare modules that are not standard variable
records. -/
theorem C58_parts :
    (∀ o : SpreadSpectrum, Writes o.serialize o.marshalledSize) ∧
    (∀ o : ModulationType, Writes o.serialize o.marshalledSize) ∧
    (∀ o : NetId, Writes o.serialize o.marshalledSize) ∧
    (∀ o : DEFireFlags, Writes o.serialize o.marshalledSize) ∧
    (∀ o : DirectedEnergyTargetEnergyDeposition, Writes o.serialize o.marshalledSize) ∧
    (∀ o : AntennaPatternRecord, Writes o.serialize o.marshalledSize) ∧
    (∀ o : ModulationParametersRecord, Writes o.serialize o.marshalledSize) := by
  refine ⟨fun o => .of o.sized rfl, fun o => .of o.sized rfl, fun o => .of o.sized rfl,
    fun o => .of o.sized rfl, fun o => .of o.sized rfl, fun o => .of o.sized ?_,
    fun o => .of o.sized ?_⟩
  · cases o <;> rfl
  · cases o <;> rfl

example : (NetId.init 700 2 1 0).serialize.Emits [175, 36] ∧
    (NetId.init 700 2 1 0).marshalledSize = 2 :=
  ⟨⟨by decide +kernel, (), by decide +kernel⟩, by decide +kernel⟩

/-- **C58.** The two lengths a Transmitter PDU announces are the lengths of the parts that follow. -/
theorem C58_transmitter (o : TransmitterPdu) :
    Writes (W.whenSome o.modulationParameters ModulationParametersRecord.serialize)
      o.modulationParametersLength ∧
    Writes (W.whenSome o.antennaPattern AntennaPatternRecord.serialize) o.antennaPatternLength := by
  constructor
  · unfold TransmitterPdu.modulationParametersLength
    cases o.modulationParameters with
    | none => exact .of (Sized.pure ()) rfl
    | some p => exact C58_parts.2.2.2.2.2.2 p
  · unfold TransmitterPdu.antennaPatternLength
    cases o.antennaPattern with
    | none => exact .of (Sized.pure ()) rfl
    | some p => exact C58_parts.2.2.2.2.2.1 p

/-- What C58 would say of the standard variable records. -/
def C58_records_tell : Prop := ∀ r : SVRecord, Writes r.serialize r.marshalledSize

/-- **C58 (violated).** No standard variable record says how many bytes it writes: the radio record
writes 2 bytes more than it says, an area aimpoint 12 and the others 8. -/
theorem C58_records_partial (r : SVRecord) :
    Writes r.serialize (r.marshalledSize +
      match r with
      | .highFidelityHAVEQUICKRadio _ => 2
      | .directedEnergyAreaAimpoint _ => 12
      | _ => 8) := by
  refine .of r.sized ?_
  cases r with
  | directedEnergyAreaAimpoint r =>
    simp only [SVRecord.wireSize, SVRecord.marshalledSize, DirectedEnergyAreaAimpoint.marshalledSize_eq,
      DirectedEnergyAreaAimpoint.wireSize]
    omega
  | unknown r =>
    simp only [SVRecord.wireSize, SVRecord.marshalledSize, UnknownStandardVariableRecord.marshalledSize]
    omega
  | _ => rfl

/-- **C58 (violated).** In particular no record at all that can be sent tells its size. -/
theorem C58_records_never (r : SVRecord) (b : Bytes) (hb : r.serialize.Emits b) :
    (b.length : Int) ≠ r.marshalledSize := by
  have := C58_records_partial r b hb
  rw [this]
  cases r <;> simp only <;> omega

theorem C58_records_violated : ¬ C58_records_tell := by
  intro h
  have h1 := h (.directedEnergyDamage DirectedEnergyDamage.init)
  obtain ⟨b, hb⟩ : ∃ b, (SVRecord.directedEnergyDamage DirectedEnergyDamage.init).serialize.Emits b := by
    exact ⟨_, rfl, (), by decide +kernel⟩
  exact C58_records_never _ b hb (h1 b hb)

/-- A damage record of 40 bytes, as it says, takes 48. -/
example : (SVRecord.directedEnergyDamage DirectedEnergyDamage.init).serialize.Ok ∧
    (SVRecord.directedEnergyDamage DirectedEnergyDamage.init).marshalledSize = 40 :=
  ⟨⟨(), by decide +kernel⟩, rfl⟩

end Dis
