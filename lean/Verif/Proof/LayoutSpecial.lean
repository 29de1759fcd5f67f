import Verif.Spec.LayoutSpecial
import Verif.Proof.LayoutWarfare

/-!
# `serialize` writes the layout: classes of `Verif.Model.Special`

Generated by `tools/genlayout.py`.
-/

set_option linter.unusedVariables false

namespace Dis

theorem SVRecord.lay (r : SVRecord) : Lay r.serialize r.wire := by
  cases r with
  | highFidelityHAVEQUICKRadio r => exact r.lay
  | directedEnergyPrecisionAimpoint r => exact r.lay
  | directedEnergyAreaAimpoint r => exact r.lay
  | directedEnergyDamage r => exact r.lay
  | unknown r => exact r.lay

theorem ModulationParametersRecord.lay (r : ModulationParametersRecord) : Lay r.serialize r.wire := by
  cases r with
  | unknown r => exact r.lay
  | generic => exact Lay.nil
  | simpleIntercom => exact Lay.nil
  | haveQuick r => exact r.lay
  | sincgars r => exact r.lay

theorem AntennaPatternRecord.lay (r : AntennaPatternRecord) : Lay r.serialize r.wire := by
  cases r with
  | unknown r => exact r.lay
  | beam r => exact r.lay

theorem Lay.whenSome {α} {w : α → W Unit} {f : α → List Slot} (h : ∀ x, Lay (w x) (f x))
    (o : Option α) : Lay (W.whenSome o w) ((o.map f).getD []) := by
  cases o with
  | none => exact Lay.nil
  | some x => exact h x

theorem IntercomParametersValue.lay_using (v : IntercomParametersValue) {w : Int → W Unit}
    {k : Int → Slot} (h : ∀ x, Lay (w x) [k x]) :
    Lay (W.using v.len w) [Slot.orFail .typeError (fun l => k l.length) v.list?] := by
  cases v with
  | records l => exact h _
  | none => rfl
  | record _ => rfl

theorem IntercomParametersValue.lay_len (v : IntercomParametersValue) :
    Lay (W.using v.len write_unsigned_int)
      [Slot.orFail .typeError (fun l => .u32 l.length) v.list?] := v.lay_using lay_unsigned_int

theorem IntercomParametersValue.lay_all (v : IntercomParametersValue) :
    Lay v.serializeAll
      (Slot.orFailAll .typeError (·.flatMap IntercomCommunicationsParameters.wire) v.list?) := by
  cases v with
  | records l => exact Lay.forEach IntercomCommunicationsParameters.lay
  | none => rfl
  | record _ => rfl

theorem TransmitterPdu.lay (o : TransmitterPdu) : Lay o.serialize o.wire := by
  unfold TransmitterPdu.serialize TransmitterPdu.wire
  exact Lay.bind (RadioCommunicationsFamilyPdu.lay _) <|
    Lay.bind (EntityIdentifier.lay _) <|
    Lay.bind (lay_uint16 _) <|
    Lay.bind (EntityType.lay _) <|
    Lay.bind (lay_uint8 _) <|
    Lay.bind (lay_uint8 _) <|
    Lay.bind (lay_uint16 _) <|
    Lay.bind (WorldCoordinates.lay _) <|
    Lay.bind (Vector3Float.lay _) <|
    Lay.bind (lay_uint16 _) <|
    Lay.bind (lay_uint16 _) <|
    Lay.bind (lay_uint64 _) <|
    Lay.bind (lay_float32 _) <|
    Lay.bind (lay_float32 _) <|
    Lay.bind (ModulationType.lay _) <|
    Lay.bind (lay_uint16 _) <|
    Lay.bind (lay_uint16 _) <|
    Lay.bind (lay_uint8 _) <|
    Lay.bind (lay_uint16 _) <|
    Lay.bind (lay_uint8 _) <|
    Lay.bind (Lay.whenSome ModulationParametersRecord.lay _) <|
    Lay.bind (Lay.whenSome AntennaPatternRecord.lay _) <|
    Lay.last (Lay.forEach SVRecord.lay)

theorem DirectedEnergyFirePdu.lay (o : DirectedEnergyFirePdu) : Lay o.serialize o.wire := by
  unfold DirectedEnergyFirePdu.serialize DirectedEnergyFirePdu.wire
  exact Lay.bind (WarfareFamilyPdu.lay _) <|
    Lay.bind (EntityType.lay _) <|
    Lay.bind (ClockTime.lay _) <|
    Lay.bind (Lay.attr lay_float32 _) <|
    Lay.bind (Vector3Float.lay _) <|
    Lay.bind (lay_float32 _) <|
    Lay.bind (lay_float32 _) <|
    Lay.bind (lay_uint32 _) <|
    Lay.bind (lay_float32 _) <|
    Lay.bind (lay_float32 _) <|
    Lay.bind (DEFireFlags.lay _) <|
    Lay.bind (lay_uint8 _) <|
    Lay.bind (lay_uint8 _) <|
    Lay.bind (lay_uint32 _) <|
    Lay.bind (lay_uint16 _) <|
    Lay.bind (lay_uint16 _) <|
    Lay.last (Lay.forEach SVRecord.lay)

theorem EntityDamageStatusPdu.lay (o : EntityDamageStatusPdu) : Lay o.serialize o.wire := by
  unfold EntityDamageStatusPdu.serialize EntityDamageStatusPdu.wire
  exact Lay.bind (WarfareFamilyPdu.lay _) <|
    Lay.bind (EntityIdentifier.lay _) <|
    Lay.bind (lay_uint16 _) <|
    Lay.bind (lay_uint16 _) <|
    Lay.bind (lay_uint16 _) <|
    Lay.last (Lay.forEach SVRecord.lay)

theorem IntercomControlPdu.lay (o : IntercomControlPdu) : Lay o.serialize o.wire := by
  unfold IntercomControlPdu.serialize IntercomControlPdu.wire
  exact Lay.bind (RadioCommunicationsFamilyPdu.lay _) <|
    Lay.bind (lay_unsigned_byte _) <|
    Lay.bind (lay_unsigned_byte _) <|
    Lay.bind (EntityIdentifier.lay _) <|
    Lay.bind (lay_unsigned_byte _) <|
    Lay.bind (lay_unsigned_byte _) <|
    Lay.bind (lay_unsigned_byte _) <|
    Lay.bind (lay_unsigned_byte _) <|
    Lay.bind (lay_unsigned_byte _) <|
    Lay.bind (EntityIdentifier.lay _) <|
    Lay.bind (lay_unsigned_short _) <|
    Lay.bind (IntercomParametersValue.lay_len _) <|
    Lay.last (IntercomParametersValue.lay_all _)

end Dis
