import Verif.Spec.LayoutWarfare
import Verif.Proof.LayoutRadio

/-!
# `serialize` writes the layout: classes of `Verif.Model.Warfare`

Generated by `tools/genlayout.py`.
-/

set_option linter.unusedVariables false

namespace Dis

theorem DEFireFlags.lay (o : DEFireFlags) : Lay o.serialize o.wire :=
  Bitfield.lay rfl rfl rfl

theorem DirectedEnergyDamage.lay (o : DirectedEnergyDamage) : Lay o.serialize o.wire := by
  unfold DirectedEnergyDamage.serialize DirectedEnergyDamage.wire
  exact Lay.bind (StandardVariableRecord.lay _ _) <|
    Lay.bind (lay_uint32 _) <|
    Lay.bind (lay_uint16 _) <|
    Lay.bind (lay_uint16 _) <|
    Lay.bind (Vector3Float.lay _) <|
    Lay.bind (lay_float32 _) <|
    Lay.bind (lay_float32 _) <|
    Lay.bind (lay_uint8 _) <|
    Lay.bind (lay_uint8 _) <|
    Lay.bind (lay_uint8 _) <|
    Lay.bind (lay_uint8 _) <|
    Lay.bind (EventIdentifier.lay _) <|
    Lay.last (lay_uint16 _)

theorem DirectedEnergyTargetEnergyDeposition.lay (o : DirectedEnergyTargetEnergyDeposition) : Lay o.serialize o.wire := by
  unfold DirectedEnergyTargetEnergyDeposition.serialize DirectedEnergyTargetEnergyDeposition.wire
  exact Lay.bind (EntityIdentifier.lay _) <|
    Lay.bind (lay_uint16 _) <|
    Lay.last (lay_float32 _)

theorem DirectedEnergyAreaAimpoint.lay (o : DirectedEnergyAreaAimpoint) : Lay o.serialize o.wire := by
  unfold DirectedEnergyAreaAimpoint.serialize DirectedEnergyAreaAimpoint.wire
  exact Lay.bind (StandardVariableRecord.lay _ _) <|
    Lay.bind (lay_uint32 _) <|
    Lay.bind (lay_uint16 _) <|
    Lay.bind (lay_uint16 _) <|
    Lay.bind (lay_uint16 _) <|
    Lay.bind (lay_uint16 _) <|
    Lay.bind (Lay.forEach BeamAntennaPattern.lay) <|
    Lay.last (Lay.forEach DirectedEnergyTargetEnergyDeposition.lay)

theorem DirectedEnergyPrecisionAimpoint.lay (o : DirectedEnergyPrecisionAimpoint) : Lay o.serialize o.wire := by
  unfold DirectedEnergyPrecisionAimpoint.serialize DirectedEnergyPrecisionAimpoint.wire
  exact Lay.bind (StandardVariableRecord.lay _ _) <|
    Lay.bind (lay_uint32 _) <|
    Lay.bind (lay_uint16 _) <|
    Lay.bind (lay_uint16 _) <|
    Lay.bind (WorldCoordinates.lay _) <|
    Lay.bind (Vector3Float.lay _) <|
    Lay.bind (Vector3Float.lay _) <|
    Lay.bind (Vector3Float.lay _) <|
    Lay.bind (EntityIdentifier.lay _) <|
    Lay.bind (lay_uint8 _) <|
    Lay.bind (lay_uint8 _) <|
    Lay.bind (lay_float32 _) <|
    Lay.bind (lay_float32 _) <|
    Lay.bind (lay_float32 _) <|
    Lay.bind (lay_float32 _) <|
    Lay.last (lay_uint32 _)

theorem UnknownStandardVariableRecord.lay (o : UnknownStandardVariableRecord) : Lay o.serialize o.wire := by
  unfold UnknownStandardVariableRecord.serialize UnknownStandardVariableRecord.wire
  exact Lay.bind (StandardVariableRecord.lay _ _) <|
    Lay.bind (lay_uint32 _) <|
    Lay.bind (lay_uint16 _) <|
    Lay.last (Lay.raw _)

end Dis
