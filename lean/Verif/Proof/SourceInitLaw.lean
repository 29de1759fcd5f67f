import Verif.Proof.SourceInit1
import Verif.Proof.SourceInit2
import Verif.Proof.SourceInit3
import Verif.Proof.SourceInit4
import Verif.Spec.SourceInit

/-!
# The catalogue of constructors (C77)

Written by `tools/gensourceinit.py`.
-/

namespace Dis.Src

/-- The constructor does in the source what it does in the model. -/
def Constructor.Lawful (e : Constructor) : Prop :=
  method program e.cls.cls I.__init__ = some (e.cls.cls, ⟨e.params, false, (method program e.cls.cls I.__init__).elim [] (·.2.body)⟩) ∧
  (∀ (n : Nat) (a : e.Args), MakesOf (run (n + 8)) e.cls.cls (e.values a) (.obj e.cls.cls (e.cls.fields (e.make a)))) ∧
    e.cls.Lawful

theorem DataQueryDatumSpecification.constructor : Constructor.DataQueryDatumSpecification.Lawful :=
  ⟨by kernel_rfl, fun n a => DataQueryDatumSpecification.makesOf (n + 7) a.1 a.2, DataQueryDatumSpecification.lawful⟩

theorem DatumSpecification.constructor : Constructor.DatumSpecification.Lawful :=
  ⟨by kernel_rfl, fun n a => DatumSpecification.makesOf (n + 7) a.1 a.2, DatumSpecification.lawful⟩

theorem SimulationAddress.constructor : Constructor.SimulationAddress.Lawful :=
  ⟨by kernel_rfl, fun n a => SimulationAddress.makesOf (n + 7) a.1 a.2, SimulationAddress.lawful⟩

theorem EntityIdentifier.constructor : Constructor.EntityIdentifier.Lawful :=
  ⟨by kernel_rfl, fun n a => EntityIdentifier.makesOf (n + 6) a.1 a.2, EntityIdentifier.lawful⟩

theorem EulerAngles.constructor : Constructor.EulerAngles.Lawful :=
  ⟨by kernel_rfl, fun n a => EulerAngles.makesOf (n + 7) a.1 a.2.1 a.2.2, EulerAngles.lawful⟩

theorem EventIdentifier.constructor : Constructor.EventIdentifier.Lawful :=
  ⟨by kernel_rfl, fun n a => EventIdentifier.makesOf (n + 6) a.1 a.2, EventIdentifier.lawful⟩

theorem Vector3Float.constructor : Constructor.Vector3Float.Lawful :=
  ⟨by kernel_rfl, fun n a => Vector3Float.makesOf (n + 7) a.1 a.2.1 a.2.2, Vector3Float.lawful⟩

theorem WorldCoordinates.constructor : Constructor.WorldCoordinates.Lawful :=
  ⟨by kernel_rfl, fun n a => WorldCoordinates.makesOf (n + 7) a.1 a.2.1 a.2.2, WorldCoordinates.lawful⟩

theorem RadioIdentifier.constructor : Constructor.RadioIdentifier.Lawful :=
  ⟨by kernel_rfl, fun n a => RadioIdentifier.makesOf (n + 7) a.1 a.2.1 a.2.2.1 a.2.2.2, RadioIdentifier.lawful⟩

theorem RequestID.constructor : Constructor.RequestID.Lawful :=
  ⟨by kernel_rfl, fun n a => RequestID.makesOf (n + 7) a, RequestID.lawful⟩

theorem IFFData.constructor : Constructor.IFFData.Lawful :=
  ⟨by kernel_rfl, fun n a => IFFData.makesOf (n + 7) a.1 a.2.1 a.2.2, IFFData.lawful⟩

theorem EntityType.constructor : Constructor.EntityType.Lawful :=
  ⟨by kernel_rfl, fun n a => EntityType.makesOf (n + 7) a.1 a.2.1 a.2.2.1 a.2.2.2.1 a.2.2.2.2.1 a.2.2.2.2.2.1 a.2.2.2.2.2.2, EntityType.lawful⟩

theorem MunitionDescriptor.constructor : Constructor.MunitionDescriptor.Lawful :=
  ⟨by kernel_rfl, fun n a => MunitionDescriptor.makesOf (n + 6) a.1 a.2.1 a.2.2.1 a.2.2.2.1 a.2.2.2.2, MunitionDescriptor.lawful⟩

theorem MinefieldSensorType.constructor : Constructor.MinefieldSensorType.Lawful :=
  ⟨by kernel_rfl, fun n a => MinefieldSensorType.makesOf (n + 7) a, MinefieldSensorType.lawful⟩

theorem GroupID.constructor : Constructor.GroupID.Lawful :=
  ⟨by kernel_rfl, fun n a => GroupID.makesOf (n + 6) a.1 a.2, GroupID.lawful⟩

theorem LayerHeader.constructor : Constructor.LayerHeader.Lawful :=
  ⟨by kernel_rfl, fun n a => LayerHeader.makesOf (n + 7) a.1 a.2.1 a.2.2, LayerHeader.lawful⟩

theorem UnsignedDISInteger.constructor : Constructor.UnsignedDISInteger.Lawful :=
  ⟨by kernel_rfl, fun n a => UnsignedDISInteger.makesOf (n + 7) a, UnsignedDISInteger.lawful⟩

theorem DeadReckoningParameters.constructor : Constructor.DeadReckoningParameters.Lawful :=
  ⟨by kernel_rfl, fun n a => DeadReckoningParameters.makesOf (n + 6) a.1 a.2.1 a.2.2.1 a.2.2.2, DeadReckoningParameters.lawful⟩

theorem ProtocolMode.constructor : Constructor.ProtocolMode.Lawful :=
  ⟨by kernel_rfl, fun n a => ProtocolMode.makesOf (n + 7) a, ProtocolMode.lawful⟩

theorem AngleDeception.constructor : Constructor.AngleDeception.Lawful :=
  ⟨by kernel_rfl, fun n a => AngleDeception.makesOf (n + 7) a.1 a.2.1 a.2.2.1 a.2.2.2.1 a.2.2.2.2.1 a.2.2.2.2.2.1 a.2.2.2.2.2.2.1 a.2.2.2.2.2.2.2.1 a.2.2.2.2.2.2.2.2.1 a.2.2.2.2.2.2.2.2.2.1 a.2.2.2.2.2.2.2.2.2.2, AngleDeception.lawful⟩

theorem EntityAssociation.constructor : Constructor.EntityAssociation.Lawful :=
  ⟨by kernel_rfl, fun n a => EntityAssociation.makesOf (n + 5) a.1 a.2.1 a.2.2.1 a.2.2.2.1 a.2.2.2.2.1 a.2.2.2.2.2.1 a.2.2.2.2.2.2.1 a.2.2.2.2.2.2.2, EntityAssociation.lawful⟩

theorem VectoringNozzleSystem.constructor : Constructor.VectoringNozzleSystem.Lawful :=
  ⟨by kernel_rfl, fun n a => VectoringNozzleSystem.makesOf (n + 7) a.1 a.2, VectoringNozzleSystem.lawful⟩

theorem FalseTargetsAttribute.constructor : Constructor.FalseTargetsAttribute.Lawful :=
  ⟨by kernel_rfl, fun n a => FalseTargetsAttribute.makesOf (n + 7) a.1 a.2.1 a.2.2.1 a.2.2.2.1 a.2.2.2.2.1 a.2.2.2.2.2.1 a.2.2.2.2.2.2.1 a.2.2.2.2.2.2.2.1 a.2.2.2.2.2.2.2.2, FalseTargetsAttribute.lawful⟩

theorem MinefieldIdentifier.constructor : Constructor.MinefieldIdentifier.Lawful :=
  ⟨by kernel_rfl, fun n a => MinefieldIdentifier.makesOf (n + 6) a.1 a.2, MinefieldIdentifier.lawful⟩

theorem RadioType.constructor : Constructor.RadioType.Lawful :=
  ⟨by kernel_rfl, fun n a => RadioType.makesOf (n + 7) a.1 a.2.1 a.2.2.1 a.2.2.2.1 a.2.2.2.2.1 a.2.2.2.2.2, RadioType.lawful⟩

theorem NamedLocationIdentification.constructor : Constructor.NamedLocationIdentification.Lawful :=
  ⟨by kernel_rfl, fun n a => NamedLocationIdentification.makesOf (n + 7) a.1 a.2, NamedLocationIdentification.lawful⟩

theorem IFFDataSpecification.constructor : Constructor.IFFDataSpecification.Lawful :=
  ⟨by kernel_rfl, fun n a => IFFDataSpecification.makesOf (n + 7) a, IFFDataSpecification.lawful⟩

theorem OwnershipStatus.constructor : Constructor.OwnershipStatus.Lawful :=
  ⟨by kernel_rfl, fun n a => OwnershipStatus.makesOf (n + 5) a.1 a.2, OwnershipStatus.lawful⟩

theorem Attribute.constructor : Constructor.Attribute.Lawful :=
  ⟨by kernel_rfl, fun n a => Attribute.makesOf (n + 7) a.1 a.2.1 a.2.2, Attribute.lawful⟩

theorem RecordQuerySpecification.constructor : Constructor.RecordQuerySpecification.Lawful :=
  ⟨by kernel_rfl, fun n a => RecordQuerySpecification.makesOf (n + 7) a, RecordQuerySpecification.lawful⟩

theorem ArticulatedParts.constructor : Constructor.ArticulatedParts.Lawful :=
  ⟨by kernel_rfl, fun n a => ArticulatedParts.makesOf (n + 7) a.1 a.2.1 a.2.2.1 a.2.2.2, ArticulatedParts.lawful⟩

theorem ObjectType.constructor : Constructor.ObjectType.Lawful :=
  ⟨by kernel_rfl, fun n a => ObjectType.makesOf (n + 7) a.1 a.2.1 a.2.2.1 a.2.2.2, ObjectType.lawful⟩

theorem Association.constructor : Constructor.Association.Lawful :=
  ⟨by kernel_rfl, fun n a => Association.makesOf (n + 5) a.1 a.2.1 a.2.2, Association.lawful⟩

theorem RecordSpecificationElement.constructor : Constructor.RecordSpecificationElement.Lawful :=
  ⟨by kernel_rfl, fun n a => RecordSpecificationElement.makesOf (n + 7) a.1 a.2.1 a.2.2.1 a.2.2.2.1 a.2.2.2.2, RecordSpecificationElement.lawful⟩

theorem AntennaLocation.constructor : Constructor.AntennaLocation.Lawful :=
  ⟨by kernel_rfl, fun n a => AntennaLocation.makesOf (n + 6) a.1 a.2, AntennaLocation.lawful⟩

theorem ObjectIdentifier.constructor : Constructor.ObjectIdentifier.Lawful :=
  ⟨by kernel_rfl, fun n a => ObjectIdentifier.makesOf (n + 6) a.1 a.2, ObjectIdentifier.lawful⟩

theorem AggregateIdentifier.constructor : Constructor.AggregateIdentifier.Lawful :=
  ⟨by kernel_rfl, fun n a => AggregateIdentifier.makesOf (n + 6) a.1 a.2, AggregateIdentifier.lawful⟩

theorem FixedDatum.constructor : Constructor.FixedDatum.Lawful :=
  ⟨by kernel_rfl, fun n a => FixedDatum.makesOf (n + 7) a.1 a.2, FixedDatum.lawful⟩

theorem VariableParameter.constructor : Constructor.VariableParameter.Lawful :=
  ⟨by kernel_rfl, fun n a => VariableParameter.makesOf (n + 7) a.1 a.2.1 a.2.2.1 a.2.2.2.1 a.2.2.2.2, VariableParameter.lawful⟩

theorem LiveSimulationAddress.constructor : Constructor.LiveSimulationAddress.Lawful :=
  ⟨by kernel_rfl, fun n a => LiveSimulationAddress.makesOf (n + 7) a.1 a.2, LiveSimulationAddress.lawful⟩

theorem EntityMarking.constructor : Constructor.EntityMarking.Lawful :=
  ⟨by kernel_rfl, fun n a => EntityMarking.makesOf (n + 7) a.1 a.2, EntityMarking.lawful⟩

theorem UAFundamentalParameter.constructor : Constructor.UAFundamentalParameter.Lawful :=
  ⟨by kernel_rfl, fun n a => UAFundamentalParameter.makesOf (n + 7) a.1 a.2.1 a.2.2.1 a.2.2.2.1 a.2.2.2.2.1 a.2.2.2.2.2, UAFundamentalParameter.lawful⟩

theorem ExplosionDescriptor.constructor : Constructor.ExplosionDescriptor.Lawful :=
  ⟨by kernel_rfl, fun n a => ExplosionDescriptor.makesOf (n + 6) a.1 a.2.1 a.2.2, ExplosionDescriptor.lawful⟩

theorem ClockTime.constructor : Constructor.ClockTime.Lawful :=
  ⟨by kernel_rfl, fun n a => ClockTime.makesOf (n + 7) a.1 a.2, ClockTime.lawful⟩

theorem SecondaryOperationalData.constructor : Constructor.SecondaryOperationalData.Lawful :=
  ⟨by kernel_rfl, fun n a => SecondaryOperationalData.makesOf (n + 7) a.1 a.2.1 a.2.2, SecondaryOperationalData.lawful⟩

theorem EnvironmentType.constructor : Constructor.EnvironmentType.Lawful :=
  ⟨by kernel_rfl, fun n a => EnvironmentType.makesOf (n + 7) a.1 a.2.1 a.2.2.1 a.2.2.2.1 a.2.2.2.2.1 a.2.2.2.2.2.1 a.2.2.2.2.2.2, EnvironmentType.lawful⟩

theorem TotalRecordSets.constructor : Constructor.TotalRecordSets.Lawful :=
  ⟨by kernel_rfl, fun n a => TotalRecordSets.makesOf (n + 7) a, TotalRecordSets.lawful⟩

theorem MineEntityIdentifier.constructor : Constructor.MineEntityIdentifier.Lawful :=
  ⟨by kernel_rfl, fun n a => MineEntityIdentifier.makesOf (n + 6) a.1 a.2, MineEntityIdentifier.lawful⟩

theorem Relationship.constructor : Constructor.Relationship.Lawful :=
  ⟨by kernel_rfl, fun n a => Relationship.makesOf (n + 7) a.1 a.2, Relationship.lawful⟩

theorem EEFundamentalParameterData.constructor : Constructor.EEFundamentalParameterData.Lawful :=
  ⟨by kernel_rfl, fun n a => EEFundamentalParameterData.makesOf (n + 7) a.1 a.2.1 a.2.2.1 a.2.2.2.1 a.2.2.2.2.1 a.2.2.2.2.2.1 a.2.2.2.2.2.2.1 a.2.2.2.2.2.2.2.1 a.2.2.2.2.2.2.2.2.1 a.2.2.2.2.2.2.2.2.2, EEFundamentalParameterData.lawful⟩

theorem JammingTechnique.constructor : Constructor.JammingTechnique.Lawful :=
  ⟨by kernel_rfl, fun n a => JammingTechnique.makesOf (n + 7) a.1 a.2.1 a.2.2.1 a.2.2.2, JammingTechnique.lawful⟩

theorem Expendable.constructor : Constructor.Expendable.Lawful :=
  ⟨by kernel_rfl, fun n a => Expendable.makesOf (n + 6) a.1 a.2.1 a.2.2.1 a.2.2.2, Expendable.lawful⟩

theorem CommunicationsNodeID.constructor : Constructor.CommunicationsNodeID.Lawful :=
  ⟨by kernel_rfl, fun n a => CommunicationsNodeID.makesOf (n + 5) a.1 a.2, CommunicationsNodeID.lawful⟩

theorem IOCommunicationsNode.constructor : Constructor.IOCommunicationsNode.Lawful :=
  ⟨by kernel_rfl, fun n a => IOCommunicationsNode.makesOf (n + 4) a.1 a.2, IOCommunicationsNode.lawful⟩

theorem LinearSegmentParameter.constructor : Constructor.LinearSegmentParameter.Lawful :=
  ⟨by kernel_rfl, fun n a => LinearSegmentParameter.makesOf (n + 6) a.1 a.2.1 a.2.2.1 a.2.2.2.1 a.2.2.2.2.1 a.2.2.2.2.2.1 a.2.2.2.2.2.2.1 a.2.2.2.2.2.2.2.1 a.2.2.2.2.2.2.2.2.1 a.2.2.2.2.2.2.2.2.2, LinearSegmentParameter.lawful⟩

theorem SystemIdentifier.constructor : Constructor.SystemIdentifier.Lawful :=
  ⟨by kernel_rfl, fun n a => SystemIdentifier.makesOf (n + 6) a.1 a.2.1 a.2.2.1 a.2.2.2, SystemIdentifier.lawful⟩

theorem TrackJamData.constructor : Constructor.TrackJamData.Lawful :=
  ⟨by kernel_rfl, fun n a => TrackJamData.makesOf (n + 5) a.1 a.2.1 a.2.2, TrackJamData.lawful⟩

theorem AggregateType.constructor : Constructor.AggregateType.Lawful :=
  ⟨by kernel_rfl, fun n a => AggregateType.makesOf (n + 7) a.1 a.2.1 a.2.2.1 a.2.2.2.1 a.2.2.2.2.1 a.2.2.2.2.2.1 a.2.2.2.2.2.2, AggregateType.lawful⟩

theorem SimulationIdentifier.constructor : Constructor.SimulationIdentifier.Lawful :=
  ⟨by kernel_rfl, fun n a => SimulationIdentifier.makesOf (n + 6) a.1 a.2, SimulationIdentifier.lawful⟩

theorem PduHeader.constructor : Constructor.PduHeader.Lawful :=
  ⟨by kernel_rfl, fun n a => PduHeader.makesOf (n + 7) a.1 a.2.1 a.2.2.1 a.2.2.2.1 a.2.2.2.2.1 a.2.2.2.2.2.1 a.2.2.2.2.2.2, PduHeader.lawful⟩

theorem SimulationManagementPduHeader.constructor : Constructor.SimulationManagementPduHeader.Lawful :=
  ⟨by kernel_rfl, fun n a => SimulationManagementPduHeader.makesOf (n + 5) a.1 a.2.1 a.2.2, SimulationManagementPduHeader.lawful⟩

theorem BeamData.constructor : Constructor.BeamData.Lawful :=
  ⟨by kernel_rfl, fun n a => BeamData.makesOf (n + 7) a.1 a.2.1 a.2.2.1 a.2.2.2.1 a.2.2.2.2, BeamData.lawful⟩

theorem EngineFuel.constructor : Constructor.EngineFuel.Lawful :=
  ⟨by kernel_rfl, fun n a => EngineFuel.makesOf (n + 7) a.1 a.2.1 a.2.2.1 a.2.2.2, EngineFuel.lawful⟩

theorem IOEffect.constructor : Constructor.IOEffect.Lawful :=
  ⟨by kernel_rfl, fun n a => IOEffect.makesOf (n + 7) a.1 a.2.1 a.2.2.1 a.2.2.2.1 a.2.2.2.2.1 a.2.2.2.2.2, IOEffect.lawful⟩

theorem GridAxisDescriptorVariable.constructor : Constructor.GridAxisDescriptorVariable.Lawful :=
  ⟨by kernel_rfl, fun n a => GridAxisDescriptorVariable.makesOf (n + 7) a.1 a.2.1 a.2.2.1 a.2.2.2.1 a.2.2.2.2.1 a.2.2.2.2.2.1 a.2.2.2.2.2.2.1 a.2.2.2.2.2.2.2.1 a.2.2.2.2.2.2.2.2.1 a.2.2.2.2.2.2.2.2.2, GridAxisDescriptorVariable.lawful⟩

theorem SupplyQuantity.constructor : Constructor.SupplyQuantity.Lawful :=
  ⟨by kernel_rfl, fun n a => SupplyQuantity.makesOf (n + 6) a.1 a.2, SupplyQuantity.lawful⟩

theorem SilentEntitySystem.constructor : Constructor.SilentEntitySystem.Lawful :=
  ⟨by kernel_rfl, fun n a => SilentEntitySystem.makesOf (n + 6) a.1 a.2.1 a.2.2, SilentEntitySystem.lawful⟩

theorem BlankingSector.constructor : Constructor.BlankingSector.Lawful :=
  ⟨by kernel_rfl, fun n a => BlankingSector.makesOf (n + 7) a.1 a.2.1 a.2.2.1 a.2.2.2.1 a.2.2.2.2.1 a.2.2.2.2.2.1 a.2.2.2.2.2.2.1 a.2.2.2.2.2.2.2, BlankingSector.lawful⟩

theorem LaunchedMunitionRecord.constructor : Constructor.LaunchedMunitionRecord.Lawful :=
  ⟨by kernel_rfl, fun n a => LaunchedMunitionRecord.makesOf (n + 5) a.1 a.2.1 a.2.2.1 a.2.2.2, LaunchedMunitionRecord.lawful⟩

theorem IFFFundamentalParameterData.constructor : Constructor.IFFFundamentalParameterData.Lawful :=
  ⟨by kernel_rfl, fun n a => IFFFundamentalParameterData.makesOf (n + 7) a.1 a.2.1 a.2.2.1 a.2.2.2.1 a.2.2.2.2.1 a.2.2.2.2.2.1 a.2.2.2.2.2.2, IFFFundamentalParameterData.lawful⟩

theorem FundamentalOperationalData.constructor : Constructor.FundamentalOperationalData.Lawful :=
  ⟨by kernel_rfl, fun n a => FundamentalOperationalData.makesOf (n + 7) a.1 a.2.1 a.2.2.1 a.2.2.2.1 a.2.2.2.2.1 a.2.2.2.2.2.1 a.2.2.2.2.2.2.1 a.2.2.2.2.2.2.2.1 a.2.2.2.2.2.2.2.2.1 a.2.2.2.2.2.2.2.2.2, FundamentalOperationalData.lawful⟩

theorem IntercomCommunicationsParameters.constructor : Constructor.IntercomCommunicationsParameters.Lawful :=
  ⟨by kernel_rfl, fun n a => IntercomCommunicationsParameters.makesOf (n + 7) a.1 a.2.1 a.2.2, IntercomCommunicationsParameters.lawful⟩

theorem Munition.constructor : Constructor.Munition.Lawful :=
  ⟨by kernel_rfl, fun n a => Munition.makesOf (n + 6) a.1 a.2.1 a.2.2.1 a.2.2.2, Munition.lawful⟩

theorem StandardVariableSpecification.constructor : Constructor.StandardVariableSpecification.Lawful :=
  ⟨by kernel_rfl, fun n a => StandardVariableSpecification.makesOf (n + 7) a, StandardVariableSpecification.lawful⟩

theorem Vector2Float.constructor : Constructor.Vector2Float.Lawful :=
  ⟨by kernel_rfl, fun n a => Vector2Float.makesOf (n + 7) a.1 a.2, Vector2Float.lawful⟩

theorem AcousticEmitter.constructor : Constructor.AcousticEmitter.Lawful :=
  ⟨by kernel_rfl, fun n a => AcousticEmitter.makesOf (n + 7) a.1 a.2.1 a.2.2, AcousticEmitter.lawful⟩

theorem AggregateMarking.constructor : Constructor.AggregateMarking.Lawful :=
  ⟨by kernel_rfl, fun n a => AggregateMarking.makesOf (n + 7) a.1 a.2, AggregateMarking.lawful⟩

theorem DataFilterRecord.constructor : Constructor.DataFilterRecord.Lawful :=
  ⟨by kernel_rfl, fun n a => DataFilterRecord.makesOf (n + 7) a, DataFilterRecord.lawful⟩

theorem IntercomIdentifier.constructor : Constructor.IntercomIdentifier.Lawful :=
  ⟨by kernel_rfl, fun n a => IntercomIdentifier.makesOf (n + 7) a.1 a.2.1 a.2.2.1 a.2.2.2, IntercomIdentifier.lawful⟩

theorem StorageFuel.constructor : Constructor.StorageFuel.Lawful :=
  ⟨by kernel_rfl, fun n a => StorageFuel.makesOf (n + 7) a.1 a.2.1 a.2.2.1 a.2.2.2, StorageFuel.lawful⟩

theorem Sensor.constructor : Constructor.Sensor.Lawful :=
  ⟨by kernel_rfl, fun n a => Sensor.makesOf (n + 7) a.1 a.2.1 a.2.2.1 a.2.2.2.1 a.2.2.2.2, Sensor.lawful⟩

theorem MunitionReload.constructor : Constructor.MunitionReload.Lawful :=
  ⟨by kernel_rfl, fun n a => MunitionReload.makesOf (n + 6) a.1 a.2.1 a.2.2.1 a.2.2.2.1 a.2.2.2.2.1 a.2.2.2.2.2, MunitionReload.lawful⟩

theorem StorageFuelReload.constructor : Constructor.StorageFuelReload.Lawful :=
  ⟨by kernel_rfl, fun n a => StorageFuelReload.makesOf (n + 7) a.1 a.2.1 a.2.2.1 a.2.2.2.1 a.2.2.2.2.1 a.2.2.2.2.2.1 a.2.2.2.2.2.2, StorageFuelReload.lawful⟩

theorem ExpendableReload.constructor : Constructor.ExpendableReload.Lawful :=
  ⟨by kernel_rfl, fun n a => ExpendableReload.makesOf (n + 6) a.1 a.2.1 a.2.2.1 a.2.2.2.1 a.2.2.2.2.1 a.2.2.2.2.2, ExpendableReload.lawful⟩

theorem EngineFuelReload.constructor : Constructor.EngineFuelReload.Lawful :=
  ⟨by kernel_rfl, fun n a => EngineFuelReload.makesOf (n + 7) a.1 a.2.1 a.2.2.1 a.2.2.2.1 a.2.2.2.2.1 a.2.2.2.2.2, EngineFuelReload.lawful⟩

theorem UnattachedIdentifier.constructor : Constructor.UnattachedIdentifier.Lawful :=
  ⟨by kernel_rfl, fun n a => UnattachedIdentifier.makesOf (n + 6) a.1 a.2, UnattachedIdentifier.lawful⟩

theorem EntityTypeVP.constructor : Constructor.EntityTypeVP.Lawful :=
  ⟨by kernel_rfl, fun n a => EntityTypeVP.makesOf (n + 6) a.1 a.2, EntityTypeVP.lawful⟩

theorem BeamStatus.constructor : Constructor.BeamStatus.Lawful :=
  ⟨by kernel_rfl, fun n a => BeamStatus.makesOf (n + 7) a, BeamStatus.lawful⟩

theorem GridAxis.constructor : Constructor.GridAxis.Lawful :=
  ⟨by kernel_rfl, fun n a => GridAxis.makesOf (n + 7) a.1 a.2.1 a.2.2.1 a.2.2.2.1 a.2.2.2.2.1 a.2.2.2.2.2.1 a.2.2.2.2.2.2, GridAxis.lawful⟩

theorem RecordSpecification.constructor : Constructor.RecordSpecification.Lawful :=
  ⟨by kernel_rfl, fun n a => RecordSpecification.makesOf (n + 7) a, RecordSpecification.lawful⟩

theorem EventIdentifierLiveEntity.constructor : Constructor.EventIdentifierLiveEntity.Lawful :=
  ⟨by kernel_rfl, fun n a => EventIdentifierLiveEntity.makesOf (n + 7) a.1 a.2.1 a.2.2, EventIdentifierLiveEntity.lawful⟩

theorem ExpendableDescriptor.constructor : Constructor.ExpendableDescriptor.Lawful :=
  ⟨by kernel_rfl, fun n a => ExpendableDescriptor.makesOf (n + 6) a, ExpendableDescriptor.lawful⟩

theorem PropulsionSystemData.constructor : Constructor.PropulsionSystemData.Lawful :=
  ⟨by kernel_rfl, fun n a => PropulsionSystemData.makesOf (n + 7) a.1 a.2, PropulsionSystemData.lawful⟩

theorem LiveEntityIdentifier.constructor : Constructor.LiveEntityIdentifier.Lawful :=
  ⟨by kernel_rfl, fun n a => LiveEntityIdentifier.makesOf (n + 6) a.1 a.2, LiveEntityIdentifier.lawful⟩

theorem EmitterSystem.constructor : Constructor.EmitterSystem.Lawful :=
  ⟨by kernel_rfl, fun n a => EmitterSystem.makesOf (n + 7) a.1 a.2.1 a.2.2, EmitterSystem.lawful⟩

theorem PduStatus.constructor : Constructor.PduStatus.Lawful :=
  ⟨by kernel_rfl, fun n a => PduStatus.makesOf (n + 7) a, PduStatus.lawful⟩

theorem EmissionSystemBeamRecord.constructor : Constructor.EmissionSystemBeamRecord.Lawful :=
  ⟨by kernel_rfl, fun n a => EmissionSystemBeamRecord.makesOf (n + 6) a.1 a.2.1 a.2.2.1 a.2.2.2.1 a.2.2.2.2.1 a.2.2.2.2.2.1 a.2.2.2.2.2.2.1 a.2.2.2.2.2.2.2.1 a.2.2.2.2.2.2.2.2, EmissionSystemBeamRecord.lawful⟩

theorem EmissionSystemRecord.constructor : Constructor.EmissionSystemRecord.Lawful :=
  ⟨by kernel_rfl, fun n a => EmissionSystemRecord.makesOf (n + 6) a.1 a.2.1 a.2.2.1 a.2.2.2, EmissionSystemRecord.lawful⟩

theorem EntityStateUpdatePdu.constructor : Constructor.EntityStateUpdatePdu.Lawful :=
  ⟨by kernel_rfl, fun n a => EntityStateUpdatePdu.makesOf (n + 4) a.1 a.2.1 a.2.2.1 a.2.2.2.1 a.2.2.2.2.1 a.2.2.2.2.2, EntityStateUpdatePdu.lawful⟩

theorem ServiceRequestPdu.constructor : Constructor.ServiceRequestPdu.Lawful :=
  ⟨by kernel_rfl, fun n a => ServiceRequestPdu.makesOf (n + 4) a.1 a.2.1 a.2.2.1 a.2.2.2, ServiceRequestPdu.lawful⟩

theorem RepairCompletePdu.constructor : Constructor.RepairCompletePdu.Lawful :=
  ⟨by kernel_rfl, fun n a => RepairCompletePdu.makesOf (n + 4) a.1 a.2.1 a.2.2, RepairCompletePdu.lawful⟩

theorem CollisionPdu.constructor : Constructor.CollisionPdu.Lawful :=
  ⟨by kernel_rfl, fun n a => CollisionPdu.makesOf (n + 4) a.1 a.2.1 a.2.2.1 a.2.2.2.1 a.2.2.2.2.1 a.2.2.2.2.2.1 a.2.2.2.2.2.2, CollisionPdu.lawful⟩

theorem RepairResponsePdu.constructor : Constructor.RepairResponsePdu.Lawful :=
  ⟨by kernel_rfl, fun n a => RepairResponsePdu.makesOf (n + 4) a.1 a.2.1 a.2.2, RepairResponsePdu.lawful⟩

theorem DataQueryPdu.constructor : Constructor.DataQueryPdu.Lawful :=
  ⟨by kernel_rfl, fun n a => DataQueryPdu.makesOf (n + 4) a.1 a.2.1 a.2.2.1 a.2.2.2, DataQueryPdu.lawful⟩

theorem CreateEntityPdu.constructor : Constructor.CreateEntityPdu.Lawful :=
  ⟨by kernel_rfl, fun n a => CreateEntityPdu.makesOf (n + 4) a, CreateEntityPdu.lawful⟩

theorem IntercomSignalPdu.constructor : Constructor.IntercomSignalPdu.Lawful :=
  ⟨by kernel_rfl, fun n a => IntercomSignalPdu.makesOf (n + 4) a.1 a.2.1 a.2.2.1 a.2.2.2.1 a.2.2.2.2.1 a.2.2.2.2.2.1 a.2.2.2.2.2.2, IntercomSignalPdu.lawful⟩

theorem RemoveEntityPdu.constructor : Constructor.RemoveEntityPdu.Lawful :=
  ⟨by kernel_rfl, fun n a => RemoveEntityPdu.makesOf (n + 4) a, RemoveEntityPdu.lawful⟩

theorem ResupplyReceivedPdu.constructor : Constructor.ResupplyReceivedPdu.Lawful :=
  ⟨by kernel_rfl, fun n a => ResupplyReceivedPdu.makesOf (n + 4) a.1 a.2.1 a.2.2, ResupplyReceivedPdu.lawful⟩

theorem CollisionElasticPdu.constructor : Constructor.CollisionElasticPdu.Lawful :=
  ⟨by kernel_rfl, fun n a => CollisionElasticPdu.makesOf (n + 4) a.1 a.2.1 a.2.2.1 a.2.2.2.1 a.2.2.2.2.1 a.2.2.2.2.2.1 a.2.2.2.2.2.2.1 a.2.2.2.2.2.2.2.1 a.2.2.2.2.2.2.2.2.1 a.2.2.2.2.2.2.2.2.2.1 a.2.2.2.2.2.2.2.2.2.2.1 a.2.2.2.2.2.2.2.2.2.2.2.1 a.2.2.2.2.2.2.2.2.2.2.2.2.1 a.2.2.2.2.2.2.2.2.2.2.2.2.2, CollisionElasticPdu.lawful⟩

theorem AcknowledgePdu.constructor : Constructor.AcknowledgePdu.Lawful :=
  ⟨by kernel_rfl, fun n a => AcknowledgePdu.makesOf (n + 4) a.1 a.2.1 a.2.2, AcknowledgePdu.lawful⟩

theorem DesignatorPdu.constructor : Constructor.DesignatorPdu.Lawful :=
  ⟨by kernel_rfl, fun n a => DesignatorPdu.makesOf (n + 4) a.1 a.2.1 a.2.2.1 a.2.2.2.1 a.2.2.2.2.1 a.2.2.2.2.2.1 a.2.2.2.2.2.2.1 a.2.2.2.2.2.2.2.1 a.2.2.2.2.2.2.2.2.1 a.2.2.2.2.2.2.2.2.2, DesignatorPdu.lawful⟩

theorem StopFreezePdu.constructor : Constructor.StopFreezePdu.Lawful :=
  ⟨by kernel_rfl, fun n a => StopFreezePdu.makesOf (n + 4) a.1 a.2.1 a.2.2.1 a.2.2.2, StopFreezePdu.lawful⟩

theorem EntityStatePdu.constructor : Constructor.EntityStatePdu.Lawful :=
  ⟨by kernel_rfl, fun n a => EntityStatePdu.makesOf (n + 4) a.1 a.2.1 a.2.2.1 a.2.2.2.1 a.2.2.2.2.1 a.2.2.2.2.2.1 a.2.2.2.2.2.2.1 a.2.2.2.2.2.2.2.1 a.2.2.2.2.2.2.2.2.1 a.2.2.2.2.2.2.2.2.2.1 a.2.2.2.2.2.2.2.2.2.2.1 a.2.2.2.2.2.2.2.2.2.2.2, EntityStatePdu.lawful⟩

theorem StartResumePdu.constructor : Constructor.StartResumePdu.Lawful :=
  ⟨by kernel_rfl, fun n a => StartResumePdu.makesOf (n + 4) a.1 a.2.1 a.2.2, StartResumePdu.lawful⟩

theorem ElectromagneticEmissionsPdu.constructor : Constructor.ElectromagneticEmissionsPdu.Lawful :=
  ⟨by kernel_rfl, fun n a => ElectromagneticEmissionsPdu.makesOf (n + 4) a.1 a.2.1 a.2.2.1 a.2.2.2, ElectromagneticEmissionsPdu.lawful⟩

theorem ResupplyOfferPdu.constructor : Constructor.ResupplyOfferPdu.Lawful :=
  ⟨by kernel_rfl, fun n a => ResupplyOfferPdu.makesOf (n + 4) a.1 a.2.1 a.2.2, ResupplyOfferPdu.lawful⟩

theorem PointObjectStatePdu.constructor : Constructor.PointObjectStatePdu.Lawful :=
  ⟨by kernel_rfl, fun n a => PointObjectStatePdu.makesOf (n + 4) a.1 a.2.1 a.2.2.1 a.2.2.2.1 a.2.2.2.2.1 a.2.2.2.2.2.1 a.2.2.2.2.2.2.1 a.2.2.2.2.2.2.2.1 a.2.2.2.2.2.2.2.2.1 a.2.2.2.2.2.2.2.2.2.1 a.2.2.2.2.2.2.2.2.2.2, PointObjectStatePdu.lawful⟩

theorem FastEntityStatePdu.constructor : Constructor.FastEntityStatePdu.Lawful :=
  ⟨by kernel_rfl, fun n a => FastEntityStatePdu.makesOf (n + 4) a.1 a.2.1 a.2.2.1 a.2.2.2.1 a.2.2.2.2.1 a.2.2.2.2.2.1 a.2.2.2.2.2.2.1 a.2.2.2.2.2.2.2.1 a.2.2.2.2.2.2.2.2.1 a.2.2.2.2.2.2.2.2.2.1 a.2.2.2.2.2.2.2.2.2.2.1 a.2.2.2.2.2.2.2.2.2.2.2.1 a.2.2.2.2.2.2.2.2.2.2.2.2.1 a.2.2.2.2.2.2.2.2.2.2.2.2.2.1 a.2.2.2.2.2.2.2.2.2.2.2.2.2.2.1 a.2.2.2.2.2.2.2.2.2.2.2.2.2.2.2.1 a.2.2.2.2.2.2.2.2.2.2.2.2.2.2.2.2.1 a.2.2.2.2.2.2.2.2.2.2.2.2.2.2.2.2.2.1 a.2.2.2.2.2.2.2.2.2.2.2.2.2.2.2.2.2.2.1 a.2.2.2.2.2.2.2.2.2.2.2.2.2.2.2.2.2.2.2.1 a.2.2.2.2.2.2.2.2.2.2.2.2.2.2.2.2.2.2.2.2.1 a.2.2.2.2.2.2.2.2.2.2.2.2.2.2.2.2.2.2.2.2.2.1 a.2.2.2.2.2.2.2.2.2.2.2.2.2.2.2.2.2.2.2.2.2.2.1 a.2.2.2.2.2.2.2.2.2.2.2.2.2.2.2.2.2.2.2.2.2.2.2.1 a.2.2.2.2.2.2.2.2.2.2.2.2.2.2.2.2.2.2.2.2.2.2.2.2.1 a.2.2.2.2.2.2.2.2.2.2.2.2.2.2.2.2.2.2.2.2.2.2.2.2.2.1 a.2.2.2.2.2.2.2.2.2.2.2.2.2.2.2.2.2.2.2.2.2.2.2.2.2.2.1 a.2.2.2.2.2.2.2.2.2.2.2.2.2.2.2.2.2.2.2.2.2.2.2.2.2.2.2.1 a.2.2.2.2.2.2.2.2.2.2.2.2.2.2.2.2.2.2.2.2.2.2.2.2.2.2.2.2.1 a.2.2.2.2.2.2.2.2.2.2.2.2.2.2.2.2.2.2.2.2.2.2.2.2.2.2.2.2.2.1 a.2.2.2.2.2.2.2.2.2.2.2.2.2.2.2.2.2.2.2.2.2.2.2.2.2.2.2.2.2.2.1 a.2.2.2.2.2.2.2.2.2.2.2.2.2.2.2.2.2.2.2.2.2.2.2.2.2.2.2.2.2.2.2.1 a.2.2.2.2.2.2.2.2.2.2.2.2.2.2.2.2.2.2.2.2.2.2.2.2.2.2.2.2.2.2.2.2.1 a.2.2.2.2.2.2.2.2.2.2.2.2.2.2.2.2.2.2.2.2.2.2.2.2.2.2.2.2.2.2.2.2.2.1 a.2.2.2.2.2.2.2.2.2.2.2.2.2.2.2.2.2.2.2.2.2.2.2.2.2.2.2.2.2.2.2.2.2.2.1 a.2.2.2.2.2.2.2.2.2.2.2.2.2.2.2.2.2.2.2.2.2.2.2.2.2.2.2.2.2.2.2.2.2.2.2.1 a.2.2.2.2.2.2.2.2.2.2.2.2.2.2.2.2.2.2.2.2.2.2.2.2.2.2.2.2.2.2.2.2.2.2.2.2.1 a.2.2.2.2.2.2.2.2.2.2.2.2.2.2.2.2.2.2.2.2.2.2.2.2.2.2.2.2.2.2.2.2.2.2.2.2.2.1 a.2.2.2.2.2.2.2.2.2.2.2.2.2.2.2.2.2.2.2.2.2.2.2.2.2.2.2.2.2.2.2.2.2.2.2.2.2.2.1 a.2.2.2.2.2.2.2.2.2.2.2.2.2.2.2.2.2.2.2.2.2.2.2.2.2.2.2.2.2.2.2.2.2.2.2.2.2.2.2, FastEntityStatePdu.lawful⟩

theorem AcknowledgeReliablePdu.constructor : Constructor.AcknowledgeReliablePdu.Lawful :=
  ⟨by kernel_rfl, fun n a => AcknowledgeReliablePdu.makesOf (n + 4) a.1 a.2.1 a.2.2, AcknowledgeReliablePdu.lawful⟩

theorem StartResumeReliablePdu.constructor : Constructor.StartResumeReliablePdu.Lawful :=
  ⟨by kernel_rfl, fun n a => StartResumeReliablePdu.makesOf (n + 4) a.1 a.2.1 a.2.2.1 a.2.2.2, StartResumeReliablePdu.lawful⟩

theorem ArealObjectStatePdu.constructor : Constructor.ArealObjectStatePdu.Lawful :=
  ⟨by kernel_rfl, fun n a => ArealObjectStatePdu.makesOf (n + 4) a.1 a.2.1 a.2.2.1 a.2.2.2.1 a.2.2.2.2.1 a.2.2.2.2.2.1 a.2.2.2.2.2.2.1 a.2.2.2.2.2.2.2.1 a.2.2.2.2.2.2.2.2.1 a.2.2.2.2.2.2.2.2.2.1 a.2.2.2.2.2.2.2.2.2.2, ArealObjectStatePdu.lawful⟩

theorem DataQueryReliablePdu.constructor : Constructor.DataQueryReliablePdu.Lawful :=
  ⟨by kernel_rfl, fun n a => DataQueryReliablePdu.makesOf (n + 4) a.1 a.2.1 a.2.2.1 a.2.2.2.1 a.2.2.2.2, DataQueryReliablePdu.lawful⟩

theorem MinefieldStatePdu.constructor : Constructor.MinefieldStatePdu.Lawful :=
  ⟨by kernel_rfl, fun n a => MinefieldStatePdu.makesOf (n + 4) a.1 a.2.1 a.2.2.1 a.2.2.2.1 a.2.2.2.2.1 a.2.2.2.2.2.1 a.2.2.2.2.2.2.1 a.2.2.2.2.2.2.2.1 a.2.2.2.2.2.2.2.2.1 a.2.2.2.2.2.2.2.2.2, MinefieldStatePdu.lawful⟩

theorem DetonationPdu.constructor : Constructor.DetonationPdu.Lawful :=
  ⟨by kernel_rfl, fun n a => DetonationPdu.makesOf (n + 4) a.1 a.2.1 a.2.2.1 a.2.2.2.1 a.2.2.2.2.1 a.2.2.2.2.2.1 a.2.2.2.2.2.2.1 a.2.2.2.2.2.2.2, DetonationPdu.lawful⟩

theorem RecordQueryReliablePdu.constructor : Constructor.RecordQueryReliablePdu.Lawful :=
  ⟨by kernel_rfl, fun n a => RecordQueryReliablePdu.makesOf (n + 4) a.1 a.2.1 a.2.2.1 a.2.2.2.1 a.2.2.2.2, RecordQueryReliablePdu.lawful⟩

theorem FirePdu.constructor : Constructor.FirePdu.Lawful :=
  ⟨by kernel_rfl, fun n a => FirePdu.makesOf (n + 4) a.1 a.2.1 a.2.2.1 a.2.2.2.1 a.2.2.2.2.1 a.2.2.2.2.2.1 a.2.2.2.2.2.2, FirePdu.lawful⟩

theorem ReceiverPdu.constructor : Constructor.ReceiverPdu.Lawful :=
  ⟨by kernel_rfl, fun n a => ReceiverPdu.makesOf (n + 4) a.1 a.2.1 a.2.2.1 a.2.2.2, ReceiverPdu.lawful⟩

theorem UaPdu.constructor : Constructor.UaPdu.Lawful :=
  ⟨by kernel_rfl, fun n a => UaPdu.makesOf (n + 4) a.1 a.2.1 a.2.2.1 a.2.2.2.1 a.2.2.2.2.1 a.2.2.2.2.2.1 a.2.2.2.2.2.2.1 a.2.2.2.2.2.2.2, UaPdu.lawful⟩

theorem SignalPdu.constructor : Constructor.SignalPdu.Lawful :=
  ⟨by kernel_rfl, fun n a => SignalPdu.makesOf (n + 4) a.1 a.2.1 a.2.2.1 a.2.2.2.1 a.2.2.2.2.1 a.2.2.2.2.2.1 a.2.2.2.2.2.2, SignalPdu.lawful⟩

theorem RemoveEntityReliablePdu.constructor : Constructor.RemoveEntityReliablePdu.Lawful :=
  ⟨by kernel_rfl, fun n a => RemoveEntityReliablePdu.makesOf (n + 4) a.1 a.2, RemoveEntityReliablePdu.lawful⟩

theorem SeesPdu.constructor : Constructor.SeesPdu.Lawful :=
  ⟨by kernel_rfl, fun n a => SeesPdu.makesOf (n + 4) a.1 a.2.1 a.2.2.1 a.2.2.2.1 a.2.2.2.2.1 a.2.2.2.2.2, SeesPdu.lawful⟩

theorem CreateEntityReliablePdu.constructor : Constructor.CreateEntityReliablePdu.Lawful :=
  ⟨by kernel_rfl, fun n a => CreateEntityReliablePdu.makesOf (n + 4) a.1 a.2, CreateEntityReliablePdu.lawful⟩

theorem StopFreezeReliablePdu.constructor : Constructor.StopFreezeReliablePdu.Lawful :=
  ⟨by kernel_rfl, fun n a => StopFreezeReliablePdu.makesOf (n + 4) a.1 a.2.1 a.2.2.1 a.2.2.2.1 a.2.2.2.2, StopFreezeReliablePdu.lawful⟩

theorem MinefieldResponseNackPdu.constructor : Constructor.MinefieldResponseNackPdu.Lawful :=
  ⟨by kernel_rfl, fun n a => MinefieldResponseNackPdu.makesOf (n + 4) a.1 a.2.1 a.2.2.1 a.2.2.2, MinefieldResponseNackPdu.lawful⟩

theorem IsPartOfPdu.constructor : Constructor.IsPartOfPdu.Lawful :=
  ⟨by kernel_rfl, fun n a => IsPartOfPdu.makesOf (n + 4) a.1 a.2.1 a.2.2.1 a.2.2.2.1 a.2.2.2.2.1 a.2.2.2.2.2, IsPartOfPdu.lawful⟩

theorem AttachedParts.constructor : Constructor.AttachedParts.Lawful :=
  ⟨by kernel_rfl, fun n a => AttachedParts.makesOf (n + 6) a.1 a.2.1 a.2.2.1 a.2.2.2, AttachedParts.lawful⟩

theorem VariableDatum.constructor : Constructor.VariableDatum.Lawful :=
  ⟨by kernel_rfl, fun n a => VariableDatum.makesOf (n + 7) a.1 a.2.1 a.2.2, VariableDatum.lawful⟩

theorem SilentAggregateSystem.constructor : Constructor.SilentAggregateSystem.Lawful :=
  ⟨by kernel_rfl, fun n a => SilentAggregateSystem.makesOf (n + 6) a.1 a.2, SilentAggregateSystem.lawful⟩

theorem Environment.constructor : Constructor.Environment.Lawful :=
  ⟨by kernel_rfl, fun n a => Environment.makesOf (n + 7) a.1 a.2.1 a.2.2, Environment.lawful⟩

theorem EnvironmentGeneral.constructor : Constructor.EnvironmentGeneral.Lawful :=
  ⟨by kernel_rfl, fun n a => EnvironmentGeneral.makesOf (n + 7) a.1 a.2.1 a.2.2.1 a.2.2.2, EnvironmentGeneral.lawful⟩

theorem SeparationVP.constructor : Constructor.SeparationVP.Lawful :=
  ⟨by kernel_rfl, fun n a => SeparationVP.makesOf (n + 5) a.1 a.2.1 a.2.2.1 a.2.2.2, SeparationVP.lawful⟩

theorem ActionRequestPdu.constructor : Constructor.ActionRequestPdu.Lawful :=
  ⟨by kernel_rfl, fun n a => ActionRequestPdu.makesOf (n + 4) a.1 a.2.1 a.2.2.1 a.2.2.2, ActionRequestPdu.lawful⟩

theorem ActionRequestReliablePdu.constructor : Constructor.ActionRequestReliablePdu.Lawful :=
  ⟨by kernel_rfl, fun n a => ActionRequestReliablePdu.makesOf (n + 4) a.1 a.2.1 a.2.2.1 a.2.2.2.1 a.2.2.2.2, ActionRequestReliablePdu.lawful⟩

theorem SetDataReliablePdu.constructor : Constructor.SetDataReliablePdu.Lawful :=
  ⟨by kernel_rfl, fun n a => SetDataReliablePdu.makesOf (n + 4) a.1 a.2.1 a.2.2.1 a.2.2.2, SetDataReliablePdu.lawful⟩

theorem EventReportPdu.constructor : Constructor.EventReportPdu.Lawful :=
  ⟨by kernel_rfl, fun n a => EventReportPdu.makesOf (n + 4) a.1 a.2.1 a.2.2, EventReportPdu.lawful⟩

theorem DataPdu.constructor : Constructor.DataPdu.Lawful :=
  ⟨by kernel_rfl, fun n a => DataPdu.makesOf (n + 4) a.1 a.2.1 a.2.2, DataPdu.lawful⟩

theorem DataReliablePdu.constructor : Constructor.DataReliablePdu.Lawful :=
  ⟨by kernel_rfl, fun n a => DataReliablePdu.makesOf (n + 4) a.1 a.2.1 a.2.2.1 a.2.2.2, DataReliablePdu.lawful⟩

theorem CommentPdu.constructor : Constructor.CommentPdu.Lawful :=
  ⟨by kernel_rfl, fun n a => CommentPdu.makesOf (n + 4) a.1 a.2, CommentPdu.lawful⟩

theorem CommentReliablePdu.constructor : Constructor.CommentReliablePdu.Lawful :=
  ⟨by kernel_rfl, fun n a => CommentReliablePdu.makesOf (n + 4) a.1 a.2, CommentReliablePdu.lawful⟩

theorem SetDataPdu.constructor : Constructor.SetDataPdu.Lawful :=
  ⟨by kernel_rfl, fun n a => SetDataPdu.makesOf (n + 4) a.1 a.2.1 a.2.2, SetDataPdu.lawful⟩

theorem ActionResponsePdu.constructor : Constructor.ActionResponsePdu.Lawful :=
  ⟨by kernel_rfl, fun n a => ActionResponsePdu.makesOf (n + 4) a.1 a.2.1 a.2.2.1 a.2.2.2, ActionResponsePdu.lawful⟩

theorem EventReportReliablePdu.constructor : Constructor.EventReportReliablePdu.Lawful :=
  ⟨by kernel_rfl, fun n a => EventReportReliablePdu.makesOf (n + 4) a.1 a.2.1 a.2.2, EventReportReliablePdu.lawful⟩

theorem ActionResponseReliablePdu.constructor : Constructor.ActionResponseReliablePdu.Lawful :=
  ⟨by kernel_rfl, fun n a => ActionResponseReliablePdu.makesOf (n + 4) a.1 a.2.1 a.2.2.1 a.2.2.2, ActionResponseReliablePdu.lawful⟩

theorem AggregateStatePdu.constructor : Constructor.AggregateStatePdu.Lawful :=
  ⟨by kernel_rfl, fun n a => AggregateStatePdu.makesOf (n + 4) a.1 a.2.1 a.2.2.1 a.2.2.2.1 a.2.2.2.2.1 a.2.2.2.2.2.1 a.2.2.2.2.2.2.1 a.2.2.2.2.2.2.2.1 a.2.2.2.2.2.2.2.2.1 a.2.2.2.2.2.2.2.2.2.1 a.2.2.2.2.2.2.2.2.2.2.1 a.2.2.2.2.2.2.2.2.2.2.2.1 a.2.2.2.2.2.2.2.2.2.2.2.2.1 a.2.2.2.2.2.2.2.2.2.2.2.2.2.1 a.2.2.2.2.2.2.2.2.2.2.2.2.2.2, AggregateStatePdu.lawful⟩

theorem SpreadSpectrum.constructor : Constructor.SpreadSpectrum.Lawful :=
  ⟨by kernel_rfl, fun n a => SpreadSpectrum.makesOf (n + 7) a.1 a.2.1 a.2.2.1 a.2.2.2, SpreadSpectrum.lawful⟩

theorem ModulationType.constructor : Constructor.ModulationType.Lawful :=
  ⟨by kernel_rfl, fun n a => ModulationType.makesOf (n + 6) a.1 a.2.1 a.2.2.1 a.2.2.2, ModulationType.lawful⟩

theorem NetId.constructor : Constructor.NetId.Lawful :=
  ⟨by kernel_rfl, fun n a => NetId.makesOf (n + 7) a.1 a.2.1 a.2.2.1 a.2.2.2, NetId.lawful⟩

theorem BeamAntennaPattern.constructor : Constructor.BeamAntennaPattern.Lawful :=
  ⟨by kernel_rfl, fun n a => BeamAntennaPattern.makesOf (n + 6) a.1 a.2.1 a.2.2.1 a.2.2.2.1 a.2.2.2.2.1 a.2.2.2.2.2.1 a.2.2.2.2.2.2, BeamAntennaPattern.lawful⟩

theorem BasicHaveQuickMP.constructor : Constructor.BasicHaveQuickMP.Lawful :=
  ⟨by kernel_rfl, fun n a => BasicHaveQuickMP.makesOf (n + 6) a.1 a.2.1 a.2.2.1 a.2.2.2.1 a.2.2.2.2.1 a.2.2.2.2.2.1 a.2.2.2.2.2.2, BasicHaveQuickMP.lawful⟩

theorem CCTTSincgarsMP.constructor : Constructor.CCTTSincgarsMP.Lawful :=
  ⟨by kernel_rfl, fun n a => CCTTSincgarsMP.makesOf (n + 7) a.1 a.2.1 a.2.2.1 a.2.2.2.1 a.2.2.2.2.1 a.2.2.2.2.2.1 a.2.2.2.2.2.2, CCTTSincgarsMP.lawful⟩

theorem DEFireFlags.constructor : Constructor.DEFireFlags.Lawful :=
  ⟨by kernel_rfl, fun n a => DEFireFlags.makesOf (n + 7) a.1 a.2, DEFireFlags.lawful⟩

theorem DirectedEnergyTargetEnergyDeposition.constructor : Constructor.DirectedEnergyTargetEnergyDeposition.Lawful :=
  ⟨by kernel_rfl, fun n a => DirectedEnergyTargetEnergyDeposition.makesOf (n + 5) a.1 a.2, DirectedEnergyTargetEnergyDeposition.lawful⟩

theorem DirectedEnergyFirePdu.constructor : Constructor.DirectedEnergyFirePdu.Lawful :=
  ⟨by kernel_rfl, fun n a => DirectedEnergyFirePdu.makesOf (n + 4) a.1 a.2.1 a.2.2.1 a.2.2.2.1 a.2.2.2.2.1 a.2.2.2.2.2.1 a.2.2.2.2.2.2.1 a.2.2.2.2.2.2.2.1 a.2.2.2.2.2.2.2.2.1 a.2.2.2.2.2.2.2.2.2.1 a.2.2.2.2.2.2.2.2.2.2, DirectedEnergyFirePdu.lawful⟩

theorem EntityDamageStatusPdu.constructor : Constructor.EntityDamageStatusPdu.Lawful :=
  ⟨by kernel_rfl, fun n a => EntityDamageStatusPdu.makesOf (n + 4) a.1 a.2, EntityDamageStatusPdu.lawful⟩

theorem constructors_lawful : ∀ e ∈ constructors, e.Lawful := by
  unfold constructors
  refine List.forall_mem_cons.2 ⟨DataQueryDatumSpecification.constructor, ?_⟩
  refine List.forall_mem_cons.2 ⟨DatumSpecification.constructor, ?_⟩
  refine List.forall_mem_cons.2 ⟨SimulationAddress.constructor, ?_⟩
  refine List.forall_mem_cons.2 ⟨EntityIdentifier.constructor, ?_⟩
  refine List.forall_mem_cons.2 ⟨EulerAngles.constructor, ?_⟩
  refine List.forall_mem_cons.2 ⟨EventIdentifier.constructor, ?_⟩
  refine List.forall_mem_cons.2 ⟨Vector3Float.constructor, ?_⟩
  refine List.forall_mem_cons.2 ⟨WorldCoordinates.constructor, ?_⟩
  refine List.forall_mem_cons.2 ⟨RadioIdentifier.constructor, ?_⟩
  refine List.forall_mem_cons.2 ⟨RequestID.constructor, ?_⟩
  refine List.forall_mem_cons.2 ⟨IFFData.constructor, ?_⟩
  refine List.forall_mem_cons.2 ⟨EntityType.constructor, ?_⟩
  refine List.forall_mem_cons.2 ⟨MunitionDescriptor.constructor, ?_⟩
  refine List.forall_mem_cons.2 ⟨MinefieldSensorType.constructor, ?_⟩
  refine List.forall_mem_cons.2 ⟨GroupID.constructor, ?_⟩
  refine List.forall_mem_cons.2 ⟨LayerHeader.constructor, ?_⟩
  refine List.forall_mem_cons.2 ⟨UnsignedDISInteger.constructor, ?_⟩
  refine List.forall_mem_cons.2 ⟨DeadReckoningParameters.constructor, ?_⟩
  refine List.forall_mem_cons.2 ⟨ProtocolMode.constructor, ?_⟩
  refine List.forall_mem_cons.2 ⟨AngleDeception.constructor, ?_⟩
  refine List.forall_mem_cons.2 ⟨EntityAssociation.constructor, ?_⟩
  refine List.forall_mem_cons.2 ⟨VectoringNozzleSystem.constructor, ?_⟩
  refine List.forall_mem_cons.2 ⟨FalseTargetsAttribute.constructor, ?_⟩
  refine List.forall_mem_cons.2 ⟨MinefieldIdentifier.constructor, ?_⟩
  refine List.forall_mem_cons.2 ⟨RadioType.constructor, ?_⟩
  refine List.forall_mem_cons.2 ⟨NamedLocationIdentification.constructor, ?_⟩
  refine List.forall_mem_cons.2 ⟨IFFDataSpecification.constructor, ?_⟩
  refine List.forall_mem_cons.2 ⟨OwnershipStatus.constructor, ?_⟩
  refine List.forall_mem_cons.2 ⟨Attribute.constructor, ?_⟩
  refine List.forall_mem_cons.2 ⟨RecordQuerySpecification.constructor, ?_⟩
  refine List.forall_mem_cons.2 ⟨ArticulatedParts.constructor, ?_⟩
  refine List.forall_mem_cons.2 ⟨ObjectType.constructor, ?_⟩
  refine List.forall_mem_cons.2 ⟨Association.constructor, ?_⟩
  refine List.forall_mem_cons.2 ⟨RecordSpecificationElement.constructor, ?_⟩
  refine List.forall_mem_cons.2 ⟨AntennaLocation.constructor, ?_⟩
  refine List.forall_mem_cons.2 ⟨ObjectIdentifier.constructor, ?_⟩
  refine List.forall_mem_cons.2 ⟨AggregateIdentifier.constructor, ?_⟩
  refine List.forall_mem_cons.2 ⟨FixedDatum.constructor, ?_⟩
  refine List.forall_mem_cons.2 ⟨VariableParameter.constructor, ?_⟩
  refine List.forall_mem_cons.2 ⟨LiveSimulationAddress.constructor, ?_⟩
  refine List.forall_mem_cons.2 ⟨EntityMarking.constructor, ?_⟩
  refine List.forall_mem_cons.2 ⟨UAFundamentalParameter.constructor, ?_⟩
  refine List.forall_mem_cons.2 ⟨ExplosionDescriptor.constructor, ?_⟩
  refine List.forall_mem_cons.2 ⟨ClockTime.constructor, ?_⟩
  refine List.forall_mem_cons.2 ⟨SecondaryOperationalData.constructor, ?_⟩
  refine List.forall_mem_cons.2 ⟨EnvironmentType.constructor, ?_⟩
  refine List.forall_mem_cons.2 ⟨TotalRecordSets.constructor, ?_⟩
  refine List.forall_mem_cons.2 ⟨MineEntityIdentifier.constructor, ?_⟩
  refine List.forall_mem_cons.2 ⟨Relationship.constructor, ?_⟩
  refine List.forall_mem_cons.2 ⟨EEFundamentalParameterData.constructor, ?_⟩
  refine List.forall_mem_cons.2 ⟨JammingTechnique.constructor, ?_⟩
  refine List.forall_mem_cons.2 ⟨Expendable.constructor, ?_⟩
  refine List.forall_mem_cons.2 ⟨CommunicationsNodeID.constructor, ?_⟩
  refine List.forall_mem_cons.2 ⟨IOCommunicationsNode.constructor, ?_⟩
  refine List.forall_mem_cons.2 ⟨LinearSegmentParameter.constructor, ?_⟩
  refine List.forall_mem_cons.2 ⟨SystemIdentifier.constructor, ?_⟩
  refine List.forall_mem_cons.2 ⟨TrackJamData.constructor, ?_⟩
  refine List.forall_mem_cons.2 ⟨AggregateType.constructor, ?_⟩
  refine List.forall_mem_cons.2 ⟨SimulationIdentifier.constructor, ?_⟩
  refine List.forall_mem_cons.2 ⟨PduHeader.constructor, ?_⟩
  refine List.forall_mem_cons.2 ⟨SimulationManagementPduHeader.constructor, ?_⟩
  refine List.forall_mem_cons.2 ⟨BeamData.constructor, ?_⟩
  refine List.forall_mem_cons.2 ⟨EngineFuel.constructor, ?_⟩
  refine List.forall_mem_cons.2 ⟨IOEffect.constructor, ?_⟩
  refine List.forall_mem_cons.2 ⟨GridAxisDescriptorVariable.constructor, ?_⟩
  refine List.forall_mem_cons.2 ⟨SupplyQuantity.constructor, ?_⟩
  refine List.forall_mem_cons.2 ⟨SilentEntitySystem.constructor, ?_⟩
  refine List.forall_mem_cons.2 ⟨BlankingSector.constructor, ?_⟩
  refine List.forall_mem_cons.2 ⟨LaunchedMunitionRecord.constructor, ?_⟩
  refine List.forall_mem_cons.2 ⟨IFFFundamentalParameterData.constructor, ?_⟩
  refine List.forall_mem_cons.2 ⟨FundamentalOperationalData.constructor, ?_⟩
  refine List.forall_mem_cons.2 ⟨IntercomCommunicationsParameters.constructor, ?_⟩
  refine List.forall_mem_cons.2 ⟨Munition.constructor, ?_⟩
  refine List.forall_mem_cons.2 ⟨StandardVariableSpecification.constructor, ?_⟩
  refine List.forall_mem_cons.2 ⟨Vector2Float.constructor, ?_⟩
  refine List.forall_mem_cons.2 ⟨AcousticEmitter.constructor, ?_⟩
  refine List.forall_mem_cons.2 ⟨AggregateMarking.constructor, ?_⟩
  refine List.forall_mem_cons.2 ⟨DataFilterRecord.constructor, ?_⟩
  refine List.forall_mem_cons.2 ⟨IntercomIdentifier.constructor, ?_⟩
  refine List.forall_mem_cons.2 ⟨StorageFuel.constructor, ?_⟩
  refine List.forall_mem_cons.2 ⟨Sensor.constructor, ?_⟩
  refine List.forall_mem_cons.2 ⟨MunitionReload.constructor, ?_⟩
  refine List.forall_mem_cons.2 ⟨StorageFuelReload.constructor, ?_⟩
  refine List.forall_mem_cons.2 ⟨ExpendableReload.constructor, ?_⟩
  refine List.forall_mem_cons.2 ⟨EngineFuelReload.constructor, ?_⟩
  refine List.forall_mem_cons.2 ⟨UnattachedIdentifier.constructor, ?_⟩
  refine List.forall_mem_cons.2 ⟨EntityTypeVP.constructor, ?_⟩
  refine List.forall_mem_cons.2 ⟨BeamStatus.constructor, ?_⟩
  refine List.forall_mem_cons.2 ⟨GridAxis.constructor, ?_⟩
  refine List.forall_mem_cons.2 ⟨RecordSpecification.constructor, ?_⟩
  refine List.forall_mem_cons.2 ⟨EventIdentifierLiveEntity.constructor, ?_⟩
  refine List.forall_mem_cons.2 ⟨ExpendableDescriptor.constructor, ?_⟩
  refine List.forall_mem_cons.2 ⟨PropulsionSystemData.constructor, ?_⟩
  refine List.forall_mem_cons.2 ⟨LiveEntityIdentifier.constructor, ?_⟩
  refine List.forall_mem_cons.2 ⟨EmitterSystem.constructor, ?_⟩
  refine List.forall_mem_cons.2 ⟨PduStatus.constructor, ?_⟩
  refine List.forall_mem_cons.2 ⟨EmissionSystemBeamRecord.constructor, ?_⟩
  refine List.forall_mem_cons.2 ⟨EmissionSystemRecord.constructor, ?_⟩
  refine List.forall_mem_cons.2 ⟨EntityStateUpdatePdu.constructor, ?_⟩
  refine List.forall_mem_cons.2 ⟨ServiceRequestPdu.constructor, ?_⟩
  refine List.forall_mem_cons.2 ⟨RepairCompletePdu.constructor, ?_⟩
  refine List.forall_mem_cons.2 ⟨CollisionPdu.constructor, ?_⟩
  refine List.forall_mem_cons.2 ⟨RepairResponsePdu.constructor, ?_⟩
  refine List.forall_mem_cons.2 ⟨DataQueryPdu.constructor, ?_⟩
  refine List.forall_mem_cons.2 ⟨CreateEntityPdu.constructor, ?_⟩
  refine List.forall_mem_cons.2 ⟨IntercomSignalPdu.constructor, ?_⟩
  refine List.forall_mem_cons.2 ⟨RemoveEntityPdu.constructor, ?_⟩
  refine List.forall_mem_cons.2 ⟨ResupplyReceivedPdu.constructor, ?_⟩
  refine List.forall_mem_cons.2 ⟨CollisionElasticPdu.constructor, ?_⟩
  refine List.forall_mem_cons.2 ⟨AcknowledgePdu.constructor, ?_⟩
  refine List.forall_mem_cons.2 ⟨DesignatorPdu.constructor, ?_⟩
  refine List.forall_mem_cons.2 ⟨StopFreezePdu.constructor, ?_⟩
  refine List.forall_mem_cons.2 ⟨EntityStatePdu.constructor, ?_⟩
  refine List.forall_mem_cons.2 ⟨StartResumePdu.constructor, ?_⟩
  refine List.forall_mem_cons.2 ⟨ElectromagneticEmissionsPdu.constructor, ?_⟩
  refine List.forall_mem_cons.2 ⟨ResupplyOfferPdu.constructor, ?_⟩
  refine List.forall_mem_cons.2 ⟨PointObjectStatePdu.constructor, ?_⟩
  refine List.forall_mem_cons.2 ⟨FastEntityStatePdu.constructor, ?_⟩
  refine List.forall_mem_cons.2 ⟨AcknowledgeReliablePdu.constructor, ?_⟩
  refine List.forall_mem_cons.2 ⟨StartResumeReliablePdu.constructor, ?_⟩
  refine List.forall_mem_cons.2 ⟨ArealObjectStatePdu.constructor, ?_⟩
  refine List.forall_mem_cons.2 ⟨DataQueryReliablePdu.constructor, ?_⟩
  refine List.forall_mem_cons.2 ⟨MinefieldStatePdu.constructor, ?_⟩
  refine List.forall_mem_cons.2 ⟨DetonationPdu.constructor, ?_⟩
  refine List.forall_mem_cons.2 ⟨RecordQueryReliablePdu.constructor, ?_⟩
  refine List.forall_mem_cons.2 ⟨FirePdu.constructor, ?_⟩
  refine List.forall_mem_cons.2 ⟨ReceiverPdu.constructor, ?_⟩
  refine List.forall_mem_cons.2 ⟨UaPdu.constructor, ?_⟩
  refine List.forall_mem_cons.2 ⟨SignalPdu.constructor, ?_⟩
  refine List.forall_mem_cons.2 ⟨RemoveEntityReliablePdu.constructor, ?_⟩
  refine List.forall_mem_cons.2 ⟨SeesPdu.constructor, ?_⟩
  refine List.forall_mem_cons.2 ⟨CreateEntityReliablePdu.constructor, ?_⟩
  refine List.forall_mem_cons.2 ⟨StopFreezeReliablePdu.constructor, ?_⟩
  refine List.forall_mem_cons.2 ⟨MinefieldResponseNackPdu.constructor, ?_⟩
  refine List.forall_mem_cons.2 ⟨IsPartOfPdu.constructor, ?_⟩
  refine List.forall_mem_cons.2 ⟨AttachedParts.constructor, ?_⟩
  refine List.forall_mem_cons.2 ⟨VariableDatum.constructor, ?_⟩
  refine List.forall_mem_cons.2 ⟨SilentAggregateSystem.constructor, ?_⟩
  refine List.forall_mem_cons.2 ⟨Environment.constructor, ?_⟩
  refine List.forall_mem_cons.2 ⟨EnvironmentGeneral.constructor, ?_⟩
  refine List.forall_mem_cons.2 ⟨SeparationVP.constructor, ?_⟩
  refine List.forall_mem_cons.2 ⟨ActionRequestPdu.constructor, ?_⟩
  refine List.forall_mem_cons.2 ⟨ActionRequestReliablePdu.constructor, ?_⟩
  refine List.forall_mem_cons.2 ⟨SetDataReliablePdu.constructor, ?_⟩
  refine List.forall_mem_cons.2 ⟨EventReportPdu.constructor, ?_⟩
  refine List.forall_mem_cons.2 ⟨DataPdu.constructor, ?_⟩
  refine List.forall_mem_cons.2 ⟨DataReliablePdu.constructor, ?_⟩
  refine List.forall_mem_cons.2 ⟨CommentPdu.constructor, ?_⟩
  refine List.forall_mem_cons.2 ⟨CommentReliablePdu.constructor, ?_⟩
  refine List.forall_mem_cons.2 ⟨SetDataPdu.constructor, ?_⟩
  refine List.forall_mem_cons.2 ⟨ActionResponsePdu.constructor, ?_⟩
  refine List.forall_mem_cons.2 ⟨EventReportReliablePdu.constructor, ?_⟩
  refine List.forall_mem_cons.2 ⟨ActionResponseReliablePdu.constructor, ?_⟩
  refine List.forall_mem_cons.2 ⟨AggregateStatePdu.constructor, ?_⟩
  refine List.forall_mem_cons.2 ⟨SpreadSpectrum.constructor, ?_⟩
  refine List.forall_mem_cons.2 ⟨ModulationType.constructor, ?_⟩
  refine List.forall_mem_cons.2 ⟨NetId.constructor, ?_⟩
  refine List.forall_mem_cons.2 ⟨BeamAntennaPattern.constructor, ?_⟩
  refine List.forall_mem_cons.2 ⟨BasicHaveQuickMP.constructor, ?_⟩
  refine List.forall_mem_cons.2 ⟨CCTTSincgarsMP.constructor, ?_⟩
  refine List.forall_mem_cons.2 ⟨DEFireFlags.constructor, ?_⟩
  refine List.forall_mem_cons.2 ⟨DirectedEnergyTargetEnergyDeposition.constructor, ?_⟩
  refine List.forall_mem_cons.2 ⟨DirectedEnergyFirePdu.constructor, ?_⟩
  refine List.forall_mem_cons.2 ⟨EntityDamageStatusPdu.constructor, ?_⟩
  exact fun _ h => nomatch h

end Dis.Src
