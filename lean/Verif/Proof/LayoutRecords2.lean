import Verif.Spec.LayoutRecords2
import Verif.Proof.LayoutRecords1

/-!
# `serialize` writes the layout: classes of `Verif.Model.Records2`

Generated by `tools/genlayout.py`.
-/

set_option linter.unusedVariables false

namespace Dis

theorem Attribute.lay (o : Attribute) : Lay o.serialize o.wire := by
  unfold Attribute.serialize Attribute.wire
  exact Lay.bind (lay_unsigned_int _) <|
    Lay.bind (lay_unsigned_short _) <|
    Lay.last (lay_long _)

theorem RecordQuerySpecification.lay (o : RecordQuerySpecification) : Lay o.serialize o.wire := by
  unfold RecordQuerySpecification.serialize RecordQuerySpecification.wire
  exact Lay.bind (lay_unsigned_int _) <|
    Lay.last (Lay.map lay_unsigned_int)

theorem ArticulatedParts.lay (o : ArticulatedParts) : Lay o.serialize o.wire := by
  unfold ArticulatedParts.serialize ArticulatedParts.wire
  exact Lay.bind (lay_unsigned_byte _) <|
    Lay.bind (lay_unsigned_byte _) <|
    Lay.bind (lay_unsigned_short _) <|
    Lay.bind (lay_unsigned_int _) <|
    Lay.last (lay_long _)

theorem ObjectType.lay (o : ObjectType) : Lay o.serialize o.wire := by
  unfold ObjectType.serialize ObjectType.wire
  exact Lay.bind (lay_unsigned_byte _) <|
    Lay.bind (lay_unsigned_byte _) <|
    Lay.bind (lay_unsigned_byte _) <|
    Lay.last (lay_unsigned_byte _)

theorem Association.lay (o : Association) : Lay o.serialize o.wire := by
  unfold Association.serialize Association.wire
  exact Lay.bind (lay_unsigned_byte _) <|
    Lay.bind (lay_unsigned_byte _) <|
    Lay.bind (EntityIdentifier.lay _) <|
    Lay.last (WorldCoordinates.lay _)

theorem RecordSpecificationElement.lay (o : RecordSpecificationElement) : Lay o.serialize o.wire := by
  unfold RecordSpecificationElement.serialize RecordSpecificationElement.wire
  exact Lay.bind (lay_unsigned_int _) <|
    Lay.bind (lay_unsigned_int _) <|
    Lay.bind (lay_unsigned_short _) <|
    Lay.bind (lay_unsigned_short _) <|
    Lay.bind (lay_unsigned_short _) <|
    Lay.last (lay_unsigned_byte _)

theorem AntennaLocation.lay (o : AntennaLocation) : Lay o.serialize o.wire := by
  unfold AntennaLocation.serialize AntennaLocation.wire
  exact Lay.bind (WorldCoordinates.lay _) <|
    Lay.last (Vector3Float.lay _)

theorem ObjectIdentifier.lay (o : ObjectIdentifier) : Lay o.serialize o.wire := by
  unfold ObjectIdentifier.serialize ObjectIdentifier.wire
  exact Lay.bind (SimulationAddress.lay _) <|
    Lay.last (lay_unsigned_short _)

theorem AggregateIdentifier.lay (o : AggregateIdentifier) : Lay o.serialize o.wire := by
  unfold AggregateIdentifier.serialize AggregateIdentifier.wire
  exact Lay.bind (SimulationAddress.lay _) <|
    Lay.last (lay_unsigned_short _)

theorem FixedDatum.lay (o : FixedDatum) : Lay o.serialize o.wire := by
  unfold FixedDatum.serialize FixedDatum.wire
  exact Lay.bind (lay_unsigned_int _) <|
    Lay.last (lay_unsigned_int _)

theorem VariableParameter.lay (o : VariableParameter) : Lay o.serialize o.wire := by
  unfold VariableParameter.serialize VariableParameter.wire
  exact Lay.bind (lay_unsigned_byte _) <|
    Lay.bind (lay_double _) <|
    Lay.bind (lay_unsigned_int _) <|
    Lay.bind (lay_unsigned_short _) <|
    Lay.last (lay_unsigned_byte _)

theorem ChangeOptions.lay (o : ChangeOptions) : Lay o.serialize o.wire := by
  unfold ChangeOptions.serialize ChangeOptions.wire
  exact Lay.nil

theorem LiveSimulationAddress.lay (o : LiveSimulationAddress) : Lay o.serialize o.wire := by
  unfold LiveSimulationAddress.serialize LiveSimulationAddress.wire
  exact Lay.bind (lay_unsigned_byte _) <|
    Lay.last (lay_unsigned_byte _)

theorem EntityMarking.lay (o : EntityMarking) : Lay o.serialize o.wire := by
  unfold EntityMarking.serialize EntityMarking.wire
  exact Lay.bind (lay_unsigned_byte _) <|
    Lay.last (Lay.range (fun i => Lay.index lay_byte _ i) _)

theorem UAFundamentalParameter.lay (o : UAFundamentalParameter) : Lay o.serialize o.wire := by
  unfold UAFundamentalParameter.serialize UAFundamentalParameter.wire
  exact Lay.bind (lay_unsigned_short _) <|
    Lay.bind (lay_unsigned_short _) <|
    Lay.bind (lay_float _) <|
    Lay.bind (lay_float _) <|
    Lay.bind (lay_float _) <|
    Lay.last (lay_float _)

theorem ExplosionDescriptor.lay (o : ExplosionDescriptor) : Lay o.serialize o.wire := by
  unfold ExplosionDescriptor.serialize ExplosionDescriptor.wire
  exact Lay.bind (EntityType.lay _) <|
    Lay.bind (lay_unsigned_short _) <|
    Lay.bind (lay_unsigned_short _) <|
    Lay.last (lay_float _)

theorem ClockTime.lay (o : ClockTime) : Lay o.serialize o.wire := by
  unfold ClockTime.serialize ClockTime.wire
  exact Lay.bind (lay_unsigned_int _) <|
    Lay.last (lay_unsigned_int _)

theorem SecondaryOperationalData.lay (o : SecondaryOperationalData) : Lay o.serialize o.wire := by
  unfold SecondaryOperationalData.serialize SecondaryOperationalData.wire
  exact Lay.bind (lay_unsigned_byte _) <|
    Lay.bind (lay_unsigned_byte _) <|
    Lay.last (lay_unsigned_short _)

theorem EnvironmentType.lay (o : EnvironmentType) : Lay o.serialize o.wire := by
  unfold EnvironmentType.serialize EnvironmentType.wire
  exact Lay.bind (lay_unsigned_byte _) <|
    Lay.bind (lay_unsigned_byte _) <|
    Lay.bind (lay_unsigned_short _) <|
    Lay.bind (lay_unsigned_byte _) <|
    Lay.bind (lay_unsigned_byte _) <|
    Lay.bind (lay_unsigned_byte _) <|
    Lay.last (lay_unsigned_byte _)

theorem TotalRecordSets.lay (o : TotalRecordSets) : Lay o.serialize o.wire := by
  unfold TotalRecordSets.serialize TotalRecordSets.wire
  exact Lay.bind (lay_unsigned_short _) <|
    Lay.last (lay_unsigned_short _)

theorem MineEntityIdentifier.lay (o : MineEntityIdentifier) : Lay o.serialize o.wire := by
  unfold MineEntityIdentifier.serialize MineEntityIdentifier.wire
  exact Lay.bind (SimulationAddress.lay _) <|
    Lay.last (lay_unsigned_short _)

theorem Relationship.lay (o : Relationship) : Lay o.serialize o.wire := by
  unfold Relationship.serialize Relationship.wire
  exact Lay.bind (lay_unsigned_short _) <|
    Lay.last (lay_unsigned_short _)

end Dis
