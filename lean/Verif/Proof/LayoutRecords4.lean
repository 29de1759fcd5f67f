import Verif.Spec.LayoutRecords4
import Verif.Proof.LayoutRecords3

/-!
# `serialize` writes the layout: classes of `Verif.Model.Records4`

Generated by `tools/genlayout.py`.
-/

set_option linter.unusedVariables false

namespace Dis

theorem LaunchedMunitionRecord.lay (o : LaunchedMunitionRecord) : Lay o.serialize o.wire := by
  unfold LaunchedMunitionRecord.serialize LaunchedMunitionRecord.wire
  exact Lay.bind (EventIdentifier.lay _) <|
    Lay.bind (lay_unsigned_short _) <|
    Lay.bind (EventIdentifier.lay _) <|
    Lay.bind (lay_unsigned_short _) <|
    Lay.bind (EventIdentifier.lay _) <|
    Lay.bind (lay_unsigned_short _) <|
    Lay.last (WorldCoordinates.lay _)

theorem IFFFundamentalParameterData.lay (o : IFFFundamentalParameterData) : Lay o.serialize o.wire := by
  unfold IFFFundamentalParameterData.serialize IFFFundamentalParameterData.wire
  exact Lay.bind (lay_float _) <|
    Lay.bind (lay_float _) <|
    Lay.bind (lay_float _) <|
    Lay.bind (lay_float _) <|
    Lay.bind (lay_unsigned_int _) <|
    Lay.bind (lay_unsigned_byte _) <|
    Lay.last (Lay.range (fun i => Lay.index lay_unsigned_byte _ i) _)

theorem FundamentalOperationalData.lay (o : FundamentalOperationalData) : Lay o.serialize o.wire := by
  unfold FundamentalOperationalData.serialize FundamentalOperationalData.wire
  exact Lay.bind (lay_unsigned_byte _) <|
    Lay.bind (lay_unsigned_byte _) <|
    Lay.bind (lay_unsigned_byte _) <|
    Lay.bind (lay_unsigned_byte _) <|
    Lay.bind (lay_unsigned_short _) <|
    Lay.bind (lay_unsigned_short _) <|
    Lay.bind (lay_unsigned_short _) <|
    Lay.bind (lay_unsigned_short _) <|
    Lay.bind (lay_unsigned_short _) <|
    Lay.last (lay_unsigned_short _)

theorem IntercomCommunicationsParameters.lay (o : IntercomCommunicationsParameters) : Lay o.serialize o.wire := by
  unfold IntercomCommunicationsParameters.serialize IntercomCommunicationsParameters.wire
  exact Lay.bind (lay_unsigned_short _) <|
    Lay.bind (lay_unsigned_short _) <|
    Lay.last (lay_unsigned_int _)

theorem Munition.lay (o : Munition) : Lay o.serialize o.wire := by
  unfold Munition.serialize Munition.wire
  exact Lay.bind (EntityType.lay _) <|
    Lay.bind (lay_unsigned_int _) <|
    Lay.bind (lay_unsigned_short _) <|
    Lay.bind (lay_unsigned_byte _) <|
    Lay.last (lay_unsigned_byte _)

theorem StandardVariableSpecification.lay (o : StandardVariableSpecification) : Lay o.serialize o.wire := by
  unfold StandardVariableSpecification.serialize StandardVariableSpecification.wire
  exact Lay.bind (lay_unsigned_short _) <|
    Lay.last (Lay.map fun _ => Lay.throw _)

theorem Vector2Float.lay (o : Vector2Float) : Lay o.serialize o.wire := by
  unfold Vector2Float.serialize Vector2Float.wire
  exact Lay.bind (lay_float _) <|
    Lay.last (lay_float _)

theorem Environment.lay (o : Environment) : Lay o.serialize o.wire := by
  unfold Environment.serialize Environment.wire
  exact Lay.bind (lay_unsigned_int _) <|
    Lay.bind (lay_unsigned_short _) <|
    Lay.bind (lay_unsigned_byte _) <|
    Lay.last (Lay.attr lay_unsigned_byte _)

theorem AcousticEmitter.lay (o : AcousticEmitter) : Lay o.serialize o.wire := by
  unfold AcousticEmitter.serialize AcousticEmitter.wire
  exact Lay.bind (lay_unsigned_short _) <|
    Lay.bind (lay_unsigned_byte _) <|
    Lay.last (lay_unsigned_byte _)

theorem AngularVelocityVector.lay (o : AngularVelocityVector) : Lay o.serialize o.wire := by
  unfold AngularVelocityVector.serialize AngularVelocityVector.wire
  exact Lay.bind (lay_float _) <|
    Lay.bind (lay_float _) <|
    Lay.last (lay_float _)

theorem AggregateMarking.lay (o : AggregateMarking) : Lay o.serialize o.wire := by
  unfold AggregateMarking.serialize AggregateMarking.wire
  exact Lay.bind (lay_unsigned_byte _) <|
    Lay.last (Lay.range (fun i => Lay.index lay_unsigned_byte _ i) _)

theorem DataFilterRecord.lay (o : DataFilterRecord) : Lay o.serialize o.wire := by
  unfold DataFilterRecord.serialize DataFilterRecord.wire
  exact lay_unsigned_int _

theorem IntercomIdentifier.lay (o : IntercomIdentifier) : Lay o.serialize o.wire := by
  unfold IntercomIdentifier.serialize IntercomIdentifier.wire
  exact Lay.bind (lay_unsigned_short _) <|
    Lay.bind (lay_unsigned_short _) <|
    Lay.bind (lay_unsigned_short _) <|
    Lay.last (lay_unsigned_short _)

theorem StorageFuel.lay (o : StorageFuel) : Lay o.serialize o.wire := by
  unfold StorageFuel.serialize StorageFuel.wire
  exact Lay.bind (lay_unsigned_int _) <|
    Lay.bind (lay_unsigned_byte _) <|
    Lay.bind (lay_unsigned_byte _) <|
    Lay.bind (lay_unsigned_byte _) <|
    Lay.last (lay_unsigned_byte _)

theorem Sensor.lay (o : Sensor) : Lay o.serialize o.wire := by
  unfold Sensor.serialize Sensor.wire
  exact Lay.bind (lay_unsigned_byte _) <|
    Lay.bind (lay_unsigned_byte _) <|
    Lay.bind (lay_unsigned_short _) <|
    Lay.bind (lay_unsigned_int _) <|
    Lay.bind (lay_unsigned_short _) <|
    Lay.last (lay_unsigned_short _)

theorem MunitionReload.lay (o : MunitionReload) : Lay o.serialize o.wire := by
  unfold MunitionReload.serialize MunitionReload.wire
  exact Lay.bind (EntityType.lay _) <|
    Lay.bind (lay_unsigned_int _) <|
    Lay.bind (lay_unsigned_short _) <|
    Lay.bind (lay_unsigned_short _) <|
    Lay.bind (lay_unsigned_int _) <|
    Lay.last (lay_unsigned_int _)

theorem StorageFuelReload.lay (o : StorageFuelReload) : Lay o.serialize o.wire := by
  unfold StorageFuelReload.serialize StorageFuelReload.wire
  exact Lay.bind (lay_unsigned_int _) <|
    Lay.bind (lay_unsigned_int _) <|
    Lay.bind (lay_unsigned_byte _) <|
    Lay.bind (lay_unsigned_byte _) <|
    Lay.bind (lay_unsigned_byte _) <|
    Lay.bind (lay_unsigned_byte _) <|
    Lay.bind (lay_unsigned_byte _) <|
    Lay.last (lay_unsigned_byte _)

theorem ExpendableReload.lay (o : ExpendableReload) : Lay o.serialize o.wire := by
  unfold ExpendableReload.serialize ExpendableReload.wire
  exact Lay.bind (EntityType.lay _) <|
    Lay.bind (lay_unsigned_int _) <|
    Lay.bind (lay_unsigned_short _) <|
    Lay.bind (lay_unsigned_short _) <|
    Lay.bind (lay_unsigned_int _) <|
    Lay.last (lay_unsigned_int _)

theorem EngineFuelReload.lay (o : EngineFuelReload) : Lay o.serialize o.wire := by
  unfold EngineFuelReload.serialize EngineFuelReload.wire
  exact Lay.bind (lay_unsigned_int _) <|
    Lay.bind (lay_unsigned_int _) <|
    Lay.bind (lay_unsigned_int _) <|
    Lay.bind (lay_unsigned_int _) <|
    Lay.bind (lay_unsigned_byte _) <|
    Lay.bind (lay_unsigned_byte _) <|
    Lay.last (lay_unsigned_byte _)

theorem UnattachedIdentifier.lay (o : UnattachedIdentifier) : Lay o.serialize o.wire := by
  unfold UnattachedIdentifier.serialize UnattachedIdentifier.wire
  exact Lay.bind (SimulationAddress.lay _) <|
    Lay.last (lay_unsigned_short _)

theorem EntityTypeVP.lay (o : EntityTypeVP) : Lay o.serialize o.wire := by
  unfold EntityTypeVP.serialize EntityTypeVP.wire
  exact Lay.bind (lay_unsigned_byte _) <|
    Lay.bind (lay_unsigned_byte _) <|
    Lay.bind (EntityType.lay _) <|
    Lay.bind (lay_unsigned_short _) <|
    Lay.last (lay_unsigned_int _)

theorem BeamStatus.lay (o : BeamStatus) : Lay o.serialize o.wire := by
  unfold BeamStatus.serialize BeamStatus.wire
  exact lay_unsigned_byte _

end Dis
