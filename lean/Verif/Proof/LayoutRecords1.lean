import Verif.Spec.LayoutRecords1
import Verif.Proof.LayoutCommon

/-!
# `serialize` writes the layout: classes of `Verif.Model.Records1`

Generated by `tools/genlayout.py`.
-/

set_option linter.unusedVariables false

namespace Dis

theorem DataQueryDatumSpecification.lay (o : DataQueryDatumSpecification) : Lay o.serialize o.wire := by
  unfold DataQueryDatumSpecification.serialize DataQueryDatumSpecification.wire
  exact Lay.bind (lay_unsigned_int _) <|
    Lay.bind (lay_unsigned_int _) <|
    Lay.bind (Lay.map lay_unsigned_int) <|
    Lay.last (Lay.map lay_unsigned_int)

theorem RadioIdentifier.lay (o : RadioIdentifier) : Lay o.serialize o.wire := by
  unfold RadioIdentifier.serialize RadioIdentifier.wire
  exact Lay.bind (lay_unsigned_short _) <|
    Lay.bind (lay_unsigned_short _) <|
    Lay.bind (lay_unsigned_short _) <|
    Lay.last (lay_unsigned_short _)

theorem RequestID.lay (o : RequestID) : Lay o.serialize o.wire := by
  unfold RequestID.serialize RequestID.wire
  exact lay_unsigned_int _

theorem IFFData.lay (o : IFFData) : Lay o.serialize o.wire := by
  unfold IFFData.serialize IFFData.wire
  exact Lay.bind (lay_unsigned_int _) <|
    Lay.bind (lay_unsigned_short _) <|
    Lay.last (Lay.map lay_unsigned_byte)

theorem EntityType.lay (o : EntityType) : Lay o.serialize o.wire := by
  unfold EntityType.serialize EntityType.wire
  exact Lay.bind (lay_unsigned_byte _) <|
    Lay.bind (lay_unsigned_byte _) <|
    Lay.bind (lay_unsigned_short _) <|
    Lay.bind (lay_unsigned_byte _) <|
    Lay.bind (lay_unsigned_byte _) <|
    Lay.bind (lay_unsigned_byte _) <|
    Lay.last (lay_unsigned_byte _)

theorem MunitionDescriptor.lay (o : MunitionDescriptor) : Lay o.serialize o.wire := by
  unfold MunitionDescriptor.serialize MunitionDescriptor.wire
  exact Lay.bind (EntityType.lay _) <|
    Lay.bind (lay_unsigned_short _) <|
    Lay.bind (lay_unsigned_short _) <|
    Lay.bind (lay_unsigned_short _) <|
    Lay.last (lay_unsigned_short _)

theorem MinefieldSensorType.lay (o : MinefieldSensorType) : Lay o.serialize o.wire := by
  unfold MinefieldSensorType.serialize MinefieldSensorType.wire
  exact lay_unsigned_short _

theorem GroupID.lay (o : GroupID) : Lay o.serialize o.wire := by
  unfold GroupID.serialize GroupID.wire
  exact Lay.bind (SimulationAddress.lay _) <|
    Lay.last (lay_unsigned_short _)

theorem LayerHeader.lay (o : LayerHeader) : Lay o.serialize o.wire := by
  unfold LayerHeader.serialize LayerHeader.wire
  exact Lay.bind (lay_unsigned_byte _) <|
    Lay.bind (lay_unsigned_byte _) <|
    Lay.last (lay_unsigned_short _)

theorem UnsignedDISInteger.lay (o : UnsignedDISInteger) : Lay o.serialize o.wire := by
  unfold UnsignedDISInteger.serialize UnsignedDISInteger.wire
  exact lay_unsigned_int _

theorem DeadReckoningParameters.lay (o : DeadReckoningParameters) : Lay o.serialize o.wire := by
  unfold DeadReckoningParameters.serialize DeadReckoningParameters.wire
  exact Lay.bind (lay_unsigned_byte _) <|
    Lay.bind (Lay.range (fun i => Lay.index lay_unsigned_byte _ i) _) <|
    Lay.bind (Vector3Float.lay _) <|
    Lay.last (Vector3Float.lay _)

theorem ProtocolMode.lay (o : ProtocolMode) : Lay o.serialize o.wire := by
  unfold ProtocolMode.serialize ProtocolMode.wire
  exact lay_unsigned_short _

theorem AngleDeception.lay (o : AngleDeception) : Lay o.serialize o.wire := by
  unfold AngleDeception.serialize AngleDeception.wire
  exact Lay.bind (lay_unsigned_int _) <|
    Lay.bind (lay_unsigned_short _) <|
    Lay.bind (lay_unsigned_short _) <|
    Lay.bind (lay_unsigned_byte _) <|
    Lay.bind (lay_unsigned_byte _) <|
    Lay.bind (lay_unsigned_byte _) <|
    Lay.bind (lay_unsigned_byte _) <|
    Lay.bind (lay_float _) <|
    Lay.bind (lay_float _) <|
    Lay.bind (lay_float _) <|
    Lay.bind (lay_float _) <|
    Lay.bind (lay_float _) <|
    Lay.bind (lay_float _) <|
    Lay.bind (lay_float _) <|
    Lay.bind (lay_float _) <|
    Lay.last (lay_unsigned_int _)

theorem EntityAssociation.lay (o : EntityAssociation) : Lay o.serialize o.wire := by
  unfold EntityAssociation.serialize EntityAssociation.wire
  exact Lay.bind (lay_unsigned_byte _) <|
    Lay.bind (lay_unsigned_byte _) <|
    Lay.bind (lay_unsigned_byte _) <|
    Lay.bind (lay_unsigned_byte _) <|
    Lay.bind (EntityIdentifier.lay _) <|
    Lay.bind (lay_unsigned_short _) <|
    Lay.bind (lay_unsigned_byte _) <|
    Lay.bind (lay_unsigned_byte _) <|
    Lay.last (lay_unsigned_short _)

theorem VectoringNozzleSystem.lay (o : VectoringNozzleSystem) : Lay o.serialize o.wire := by
  unfold VectoringNozzleSystem.serialize VectoringNozzleSystem.wire
  exact Lay.bind (lay_float _) <|
    Lay.last (lay_float _)

theorem FalseTargetsAttribute.lay (o : FalseTargetsAttribute) : Lay o.serialize o.wire := by
  unfold FalseTargetsAttribute.serialize FalseTargetsAttribute.wire
  exact Lay.bind (lay_unsigned_int _) <|
    Lay.bind (lay_unsigned_short _) <|
    Lay.bind (lay_unsigned_short _) <|
    Lay.bind (lay_unsigned_byte _) <|
    Lay.bind (lay_unsigned_byte _) <|
    Lay.bind (lay_unsigned_byte _) <|
    Lay.bind (lay_unsigned_byte _) <|
    Lay.bind (lay_unsigned_short _) <|
    Lay.bind (lay_float _) <|
    Lay.bind (lay_float _) <|
    Lay.bind (lay_float _) <|
    Lay.bind (lay_float _) <|
    Lay.last (lay_float _)

theorem MinefieldIdentifier.lay (o : MinefieldIdentifier) : Lay o.serialize o.wire := by
  unfold MinefieldIdentifier.serialize MinefieldIdentifier.wire
  exact Lay.bind (SimulationAddress.lay _) <|
    Lay.last (lay_unsigned_short _)

theorem RadioType.lay (o : RadioType) : Lay o.serialize o.wire := by
  unfold RadioType.serialize RadioType.wire
  exact Lay.bind (lay_unsigned_byte _) <|
    Lay.bind (lay_unsigned_byte _) <|
    Lay.bind (lay_unsigned_short _) <|
    Lay.bind (lay_unsigned_byte _) <|
    Lay.bind (lay_unsigned_byte _) <|
    Lay.bind (lay_unsigned_byte _) <|
    Lay.last (lay_unsigned_byte _)

theorem NamedLocationIdentification.lay (o : NamedLocationIdentification) : Lay o.serialize o.wire := by
  unfold NamedLocationIdentification.serialize NamedLocationIdentification.wire
  exact Lay.bind (lay_unsigned_short _) <|
    Lay.last (lay_unsigned_short _)

theorem IFFDataSpecification.lay (o : IFFDataSpecification) : Lay o.serialize o.wire := by
  unfold IFFDataSpecification.serialize IFFDataSpecification.wire
  exact Lay.bind (lay_unsigned_short _) <|
    Lay.last (Lay.forEach IFFData.lay)

theorem OwnershipStatus.lay (o : OwnershipStatus) : Lay o.serialize o.wire := by
  unfold OwnershipStatus.serialize OwnershipStatus.wire
  exact Lay.bind (EntityIdentifier.lay _) <|
    Lay.bind (lay_unsigned_byte _) <|
    Lay.last (lay_unsigned_byte _)

theorem AttachedParts.lay (o : AttachedParts) : Lay o.serialize o.wire := by
  unfold AttachedParts.serialize AttachedParts.wire
  exact Lay.bind (lay_unsigned_byte _) <|
    Lay.bind (lay_unsigned_byte _) <|
    Lay.bind (lay_unsigned_short _) <|
    Lay.bind (lay_unsigned_int _) <|
    Lay.last (Lay.attr lay_long _)

end Dis
