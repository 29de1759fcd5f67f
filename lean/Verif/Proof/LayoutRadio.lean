import Verif.Spec.LayoutRadio
import Verif.Proof.LayoutPdus5

/-!
# `serialize` writes the layout: classes of `Verif.Model.Radio`

Generated by `tools/genlayout.py`.
-/

set_option linter.unusedVariables false

namespace Dis

theorem StandardVariableRecord.lay (t n) :
    Lay (StandardVariableRecord.serialize t n) (StandardVariableRecord.wire t n) :=
  Lay.bind (lay_uint32 _) (lay_uint32 _)

theorem SpreadSpectrum.lay (o : SpreadSpectrum) : Lay o.serialize o.wire :=
  Bitfield.lay rfl rfl rfl

theorem NetId.lay (o : NetId) : Lay o.serialize o.wire :=
  Bitfield.lay rfl rfl rfl

theorem UnknownRadio.lay (o : UnknownRadio) : Lay o.serialize o.wire := Lay.raw _

theorem UnknownAntennaPattern.lay (o : UnknownAntennaPattern) : Lay o.serialize o.wire := Lay.raw _

theorem BeamAntennaPattern.lay (o : BeamAntennaPattern) : Lay o.serialize o.wire := by
  unfold BeamAntennaPattern.serialize BeamAntennaPattern.wire
  exact Lay.bind (EulerAngles.lay _) <|
    Lay.bind (lay_float32 _) <|
    Lay.bind (lay_float32 _) <|
    Lay.bind (lay_uint8 _) <|
    Lay.bind (lay_uint8 _) <|
    Lay.bind (lay_uint16 _) <|
    Lay.bind (lay_float32 _) <|
    Lay.bind (lay_float32 _) <|
    Lay.bind (lay_float32 _) <|
    Lay.last (lay_uint32 _)

theorem ModulationType.lay (o : ModulationType) : Lay o.serialize o.wire := by
  unfold ModulationType.serialize ModulationType.wire
  exact Lay.bind (SpreadSpectrum.lay _) <|
    Lay.bind (lay_uint16 _) <|
    Lay.bind (lay_uint16 _) <|
    Lay.last (lay_uint16 _)

theorem BasicHaveQuickMP.lay (o : BasicHaveQuickMP) : Lay o.serialize o.wire := by
  unfold BasicHaveQuickMP.serialize BasicHaveQuickMP.wire
  exact Lay.bind (NetId.lay _) <|
    Lay.bind (lay_uint16 _) <|
    Lay.bind (lay_uint16 _) <|
    Lay.bind (lay_uint8 _) <|
    Lay.bind (lay_uint8 _) <|
    Lay.bind (lay_uint32 _) <|
    Lay.last (lay_uint32 _)

theorem CCTTSincgarsMP.lay (o : CCTTSincgarsMP) : Lay o.serialize o.wire := by
  unfold CCTTSincgarsMP.serialize CCTTSincgarsMP.wire
  exact Lay.bind (lay_uint16 _) <|
    Lay.bind (lay_uint16 _) <|
    Lay.bind (lay_uint16 _) <|
    Lay.bind (lay_uint8 _) <|
    Lay.bind (lay_uint8 _) <|
    Lay.bind (lay_uint32 _) <|
    Lay.bind (lay_uint16 _) <|
    Lay.last (lay_uint16 _)

theorem HighFidelityHAVEQUICKRadio.lay (o : HighFidelityHAVEQUICKRadio) : Lay o.serialize o.wire := by
  unfold HighFidelityHAVEQUICKRadio.serialize HighFidelityHAVEQUICKRadio.wire
  exact Lay.bind (StandardVariableRecord.lay _ _) <|
    Lay.bind (lay_uint16 _) <|
    Lay.bind (NetId.lay _) <|
    Lay.bind (lay_uint8 _) <|
    Lay.bind (lay_uint8 _) <|
    Lay.bind (lay_uint32 _) <|
    Lay.bind (lay_uint32 _) <|
    Lay.bind (lay_uint32 _) <|
    Lay.bind (lay_uint32 _) <|
    Lay.bind (lay_uint32 _) <|
    Lay.bind (lay_uint32 _) <|
    Lay.last (lay_uint32 _)

end Dis
