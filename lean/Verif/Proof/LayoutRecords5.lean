import Verif.Spec.LayoutRecords5
import Verif.Proof.LayoutRecords4

/-!
# `serialize` writes the layout: classes of `Verif.Model.Records5`

Generated by `tools/genlayout.py`.
-/

set_option linter.unusedVariables false

namespace Dis

theorem EnvironmentGeneral.lay (o : EnvironmentGeneral) : Lay o.serialize o.wire := by
  unfold EnvironmentGeneral.serialize EnvironmentGeneral.wire
  exact Lay.bind (lay_unsigned_int _) <|
    Lay.bind (lay_unsigned_byte _) <|
    Lay.bind (lay_unsigned_byte _) <|
    Lay.bind (Lay.attr lay_unsigned_byte _) <|
    Lay.bind (Lay.need lay_unsigned_byte _) <|
    Lay.last (lay_unsigned_byte _)

theorem GridAxis.lay (o : GridAxis) : Lay o.serialize o.wire := by
  unfold GridAxis.serialize GridAxis.wire
  exact Lay.bind (lay_double _) <|
    Lay.bind (lay_double _) <|
    Lay.bind (lay_unsigned_short _) <|
    Lay.bind (lay_unsigned_byte _) <|
    Lay.bind (lay_unsigned_byte _) <|
    Lay.bind (lay_unsigned_short _) <|
    Lay.last (lay_unsigned_short _)

theorem RecordSpecification.lay (o : RecordSpecification) : Lay o.serialize o.wire := by
  unfold RecordSpecification.serialize RecordSpecification.wire
  exact Lay.bind (lay_unsigned_int _) <|
    Lay.last (Lay.forEach RecordSpecificationElement.lay)

theorem EventIdentifierLiveEntity.lay (o : EventIdentifierLiveEntity) : Lay o.serialize o.wire := by
  unfold EventIdentifierLiveEntity.serialize EventIdentifierLiveEntity.wire
  exact Lay.bind (lay_unsigned_byte _) <|
    Lay.bind (lay_unsigned_byte _) <|
    Lay.last (lay_unsigned_short _)

theorem ExpendableDescriptor.lay (o : ExpendableDescriptor) : Lay o.serialize o.wire := by
  unfold ExpendableDescriptor.serialize ExpendableDescriptor.wire
  exact Lay.bind (EntityType.lay _) <|
    Lay.last (lay_long _)

theorem PropulsionSystemData.lay (o : PropulsionSystemData) : Lay o.serialize o.wire := by
  unfold PropulsionSystemData.serialize PropulsionSystemData.wire
  exact Lay.bind (lay_float _) <|
    Lay.last (lay_float _)

theorem LiveEntityIdentifier.lay (o : LiveEntityIdentifier) : Lay o.serialize o.wire := by
  unfold LiveEntityIdentifier.serialize LiveEntityIdentifier.wire
  exact Lay.bind (LiveSimulationAddress.lay _) <|
    Lay.last (lay_unsigned_short _)

theorem SeparationVP.lay (o : SeparationVP) : Lay o.serialize o.wire := by
  unfold SeparationVP.serialize SeparationVP.wire
  exact Lay.bind (lay_unsigned_byte _) <|
    Lay.bind (lay_unsigned_byte _) <|
    Lay.bind (lay_unsigned_byte _) <|
    Lay.bind (lay_unsigned_byte _) <|
    Lay.bind (EntityIdentifier.lay _) <|
    Lay.bind (lay_unsigned_short _) <|
    Lay.last (Lay.asInt lay_unsigned_int _)

theorem EmitterSystem.lay (o : EmitterSystem) : Lay o.serialize o.wire := by
  unfold EmitterSystem.serialize EmitterSystem.wire
  exact Lay.bind (lay_unsigned_short _) <|
    Lay.bind (lay_unsigned_byte _) <|
    Lay.last (lay_unsigned_byte _)

theorem PduStatus.lay (o : PduStatus) : Lay o.serialize o.wire := by
  unfold PduStatus.serialize PduStatus.wire
  exact lay_unsigned_byte _

theorem EmissionSystemBeamRecord.lay (o : EmissionSystemBeamRecord) : Lay o.serialize o.wire := by
  unfold EmissionSystemBeamRecord.serialize EmissionSystemBeamRecord.wire
  exact Lay.bind (lay_unsigned_byte _) <|
    Lay.bind (lay_unsigned_byte _) <|
    Lay.bind (lay_unsigned_short _) <|
    Lay.bind (EEFundamentalParameterData.lay _) <|
    Lay.bind (lay_unsigned_byte _) <|
    Lay.bind (lay_unsigned_byte _) <|
    Lay.bind (lay_unsigned_byte _) <|
    Lay.bind (BeamStatus.lay _) <|
    Lay.bind (lay_unsigned_int _) <|
    Lay.last (Lay.forEach TrackJamData.lay)

theorem EmissionSystemRecord.lay (o : EmissionSystemRecord) : Lay o.serialize o.wire := by
  unfold EmissionSystemRecord.serialize EmissionSystemRecord.wire
  exact Lay.bind (lay_unsigned_byte _) <|
    Lay.bind (lay_unsigned_byte _) <|
    Lay.bind (lay_unsigned_short _) <|
    Lay.bind (EmitterSystem.lay _) <|
    Lay.bind (Vector3Float.lay _) <|
    Lay.last (Lay.forEach EmissionSystemBeamRecord.lay)

end Dis
