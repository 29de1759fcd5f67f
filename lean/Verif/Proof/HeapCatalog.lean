import Verif.Proof.HeapSpecial
import Verif.Spec.HeapCatalog

/-!
# Methods on a memory of objects, for the whole catalogue

Generated by `tools/genheap.py`.
-/

set_option linter.unusedVariables false
set_option linter.unusedSimpArgs false

namespace Dis

/-- What is proved of every entry. -/
structure HeapClass.Lawful (c : HeapClass) : Prop where
  makes : MakesNew c.new (.obj (c.members c.value.fresh))
  refines : Refines c.members c.value.parse c.parse
  shows : Shows c.members c.value.serialize c.serialize

theorem HeapClass.SimulationAddress.lawful : HeapClass.SimulationAddress.Lawful := ⟨Dis.SimulationAddress.makesNew, Dis.SimulationAddress.refines, Dis.SimulationAddress.shows⟩

theorem HeapClass.EntityIdentifier.lawful : HeapClass.EntityIdentifier.Lawful := ⟨Dis.EntityIdentifier.makesNew, Dis.EntityIdentifier.refines, Dis.EntityIdentifier.shows⟩

theorem HeapClass.EulerAngles.lawful : HeapClass.EulerAngles.Lawful := ⟨Dis.EulerAngles.makesNew, Dis.EulerAngles.refines, Dis.EulerAngles.shows⟩

theorem HeapClass.EventIdentifier.lawful : HeapClass.EventIdentifier.Lawful := ⟨Dis.EventIdentifier.makesNew, Dis.EventIdentifier.refines, Dis.EventIdentifier.shows⟩

theorem HeapClass.Vector3Float.lawful : HeapClass.Vector3Float.Lawful := ⟨Dis.Vector3Float.makesNew, Dis.Vector3Float.refines, Dis.Vector3Float.shows⟩

theorem HeapClass.WorldCoordinates.lawful : HeapClass.WorldCoordinates.Lawful := ⟨Dis.WorldCoordinates.makesNew, Dis.WorldCoordinates.refines, Dis.WorldCoordinates.shows⟩

theorem heapCommon_lawful : ∀ c ∈ heapCommon, c.Lawful := by
  intro c hc
  simp only [heapCommon, List.mem_cons, List.not_mem_nil, or_false] at hc
  rcases hc with rfl | rfl | rfl | rfl | rfl | rfl
  · exact HeapClass.SimulationAddress.lawful
  · exact HeapClass.EntityIdentifier.lawful
  · exact HeapClass.EulerAngles.lawful
  · exact HeapClass.EventIdentifier.lawful
  · exact HeapClass.Vector3Float.lawful
  · exact HeapClass.WorldCoordinates.lawful

theorem HeapClass.DataQueryDatumSpecification.lawful : HeapClass.DataQueryDatumSpecification.Lawful := ⟨Dis.DataQueryDatumSpecification.makesNew, Dis.DataQueryDatumSpecification.refines, Dis.DataQueryDatumSpecification.shows⟩

theorem HeapClass.RadioIdentifier.lawful : HeapClass.RadioIdentifier.Lawful := ⟨Dis.RadioIdentifier.makesNew, Dis.RadioIdentifier.refines, Dis.RadioIdentifier.shows⟩

theorem HeapClass.RequestID.lawful : HeapClass.RequestID.Lawful := ⟨Dis.RequestID.makesNew, Dis.RequestID.refines, Dis.RequestID.shows⟩

theorem HeapClass.IFFData.lawful : HeapClass.IFFData.Lawful := ⟨Dis.IFFData.makesNew, Dis.IFFData.refines, Dis.IFFData.shows⟩

theorem HeapClass.EntityType.lawful : HeapClass.EntityType.Lawful := ⟨Dis.EntityType.makesNew, Dis.EntityType.refines, Dis.EntityType.shows⟩

theorem HeapClass.MunitionDescriptor.lawful : HeapClass.MunitionDescriptor.Lawful := ⟨Dis.MunitionDescriptor.makesNew, Dis.MunitionDescriptor.refines, Dis.MunitionDescriptor.shows⟩

theorem HeapClass.MinefieldSensorType.lawful : HeapClass.MinefieldSensorType.Lawful := ⟨Dis.MinefieldSensorType.makesNew, Dis.MinefieldSensorType.refines, Dis.MinefieldSensorType.shows⟩

theorem HeapClass.GroupID.lawful : HeapClass.GroupID.Lawful := ⟨Dis.GroupID.makesNew, Dis.GroupID.refines, Dis.GroupID.shows⟩

theorem HeapClass.LayerHeader.lawful : HeapClass.LayerHeader.Lawful := ⟨Dis.LayerHeader.makesNew, Dis.LayerHeader.refines, Dis.LayerHeader.shows⟩

theorem HeapClass.UnsignedDISInteger.lawful : HeapClass.UnsignedDISInteger.Lawful := ⟨Dis.UnsignedDISInteger.makesNew, Dis.UnsignedDISInteger.refines, Dis.UnsignedDISInteger.shows⟩

theorem HeapClass.DeadReckoningParameters.lawful : HeapClass.DeadReckoningParameters.Lawful := ⟨Dis.DeadReckoningParameters.makesNew, Dis.DeadReckoningParameters.refines, Dis.DeadReckoningParameters.shows⟩

theorem HeapClass.ProtocolMode.lawful : HeapClass.ProtocolMode.Lawful := ⟨Dis.ProtocolMode.makesNew, Dis.ProtocolMode.refines, Dis.ProtocolMode.shows⟩

theorem HeapClass.AngleDeception.lawful : HeapClass.AngleDeception.Lawful := ⟨Dis.AngleDeception.makesNew, Dis.AngleDeception.refines, Dis.AngleDeception.shows⟩

theorem HeapClass.EntityAssociation.lawful : HeapClass.EntityAssociation.Lawful := ⟨Dis.EntityAssociation.makesNew, Dis.EntityAssociation.refines, Dis.EntityAssociation.shows⟩

theorem HeapClass.VectoringNozzleSystem.lawful : HeapClass.VectoringNozzleSystem.Lawful := ⟨Dis.VectoringNozzleSystem.makesNew, Dis.VectoringNozzleSystem.refines, Dis.VectoringNozzleSystem.shows⟩

theorem HeapClass.FalseTargetsAttribute.lawful : HeapClass.FalseTargetsAttribute.Lawful := ⟨Dis.FalseTargetsAttribute.makesNew, Dis.FalseTargetsAttribute.refines, Dis.FalseTargetsAttribute.shows⟩

theorem HeapClass.MinefieldIdentifier.lawful : HeapClass.MinefieldIdentifier.Lawful := ⟨Dis.MinefieldIdentifier.makesNew, Dis.MinefieldIdentifier.refines, Dis.MinefieldIdentifier.shows⟩

theorem HeapClass.RadioType.lawful : HeapClass.RadioType.Lawful := ⟨Dis.RadioType.makesNew, Dis.RadioType.refines, Dis.RadioType.shows⟩

theorem HeapClass.NamedLocationIdentification.lawful : HeapClass.NamedLocationIdentification.Lawful := ⟨Dis.NamedLocationIdentification.makesNew, Dis.NamedLocationIdentification.refines, Dis.NamedLocationIdentification.shows⟩

theorem HeapClass.IFFDataSpecification.lawful : HeapClass.IFFDataSpecification.Lawful := ⟨Dis.IFFDataSpecification.makesNew, Dis.IFFDataSpecification.refines, Dis.IFFDataSpecification.shows⟩

theorem HeapClass.OwnershipStatus.lawful : HeapClass.OwnershipStatus.Lawful := ⟨Dis.OwnershipStatus.makesNew, Dis.OwnershipStatus.refines, Dis.OwnershipStatus.shows⟩

theorem HeapClass.AttachedParts.lawful : HeapClass.AttachedParts.Lawful := ⟨Dis.AttachedParts.makesNew, Dis.AttachedParts.refines, Dis.AttachedParts.shows⟩

theorem heapRecords1_lawful : ∀ c ∈ heapRecords1, c.Lawful := by
  intro c hc
  simp only [heapRecords1, List.mem_cons, List.not_mem_nil, or_false] at hc
  rcases hc with rfl | rfl | rfl | rfl | rfl | rfl | rfl | rfl | rfl | rfl | rfl | rfl | rfl | rfl | rfl | rfl | rfl | rfl | rfl | rfl | rfl | rfl
  · exact HeapClass.DataQueryDatumSpecification.lawful
  · exact HeapClass.RadioIdentifier.lawful
  · exact HeapClass.RequestID.lawful
  · exact HeapClass.IFFData.lawful
  · exact HeapClass.EntityType.lawful
  · exact HeapClass.MunitionDescriptor.lawful
  · exact HeapClass.MinefieldSensorType.lawful
  · exact HeapClass.GroupID.lawful
  · exact HeapClass.LayerHeader.lawful
  · exact HeapClass.UnsignedDISInteger.lawful
  · exact HeapClass.DeadReckoningParameters.lawful
  · exact HeapClass.ProtocolMode.lawful
  · exact HeapClass.AngleDeception.lawful
  · exact HeapClass.EntityAssociation.lawful
  · exact HeapClass.VectoringNozzleSystem.lawful
  · exact HeapClass.FalseTargetsAttribute.lawful
  · exact HeapClass.MinefieldIdentifier.lawful
  · exact HeapClass.RadioType.lawful
  · exact HeapClass.NamedLocationIdentification.lawful
  · exact HeapClass.IFFDataSpecification.lawful
  · exact HeapClass.OwnershipStatus.lawful
  · exact HeapClass.AttachedParts.lawful

theorem HeapClass.Attribute.lawful : HeapClass.Attribute.Lawful := ⟨Dis.Attribute.makesNew, Dis.Attribute.refines, Dis.Attribute.shows⟩

theorem HeapClass.RecordQuerySpecification.lawful : HeapClass.RecordQuerySpecification.Lawful := ⟨Dis.RecordQuerySpecification.makesNew, Dis.RecordQuerySpecification.refines, Dis.RecordQuerySpecification.shows⟩

theorem HeapClass.ArticulatedParts.lawful : HeapClass.ArticulatedParts.Lawful := ⟨Dis.ArticulatedParts.makesNew, Dis.ArticulatedParts.refines, Dis.ArticulatedParts.shows⟩

theorem HeapClass.ObjectType.lawful : HeapClass.ObjectType.Lawful := ⟨Dis.ObjectType.makesNew, Dis.ObjectType.refines, Dis.ObjectType.shows⟩

theorem HeapClass.Association.lawful : HeapClass.Association.Lawful := ⟨Dis.Association.makesNew, Dis.Association.refines, Dis.Association.shows⟩

theorem HeapClass.RecordSpecificationElement.lawful : HeapClass.RecordSpecificationElement.Lawful := ⟨Dis.RecordSpecificationElement.makesNew, Dis.RecordSpecificationElement.refines, Dis.RecordSpecificationElement.shows⟩

theorem HeapClass.AntennaLocation.lawful : HeapClass.AntennaLocation.Lawful := ⟨Dis.AntennaLocation.makesNew, Dis.AntennaLocation.refines, Dis.AntennaLocation.shows⟩

theorem HeapClass.ObjectIdentifier.lawful : HeapClass.ObjectIdentifier.Lawful := ⟨Dis.ObjectIdentifier.makesNew, Dis.ObjectIdentifier.refines, Dis.ObjectIdentifier.shows⟩

theorem HeapClass.AggregateIdentifier.lawful : HeapClass.AggregateIdentifier.Lawful := ⟨Dis.AggregateIdentifier.makesNew, Dis.AggregateIdentifier.refines, Dis.AggregateIdentifier.shows⟩

theorem HeapClass.FixedDatum.lawful : HeapClass.FixedDatum.Lawful := ⟨Dis.FixedDatum.makesNew, Dis.FixedDatum.refines, Dis.FixedDatum.shows⟩

theorem HeapClass.VariableParameter.lawful : HeapClass.VariableParameter.Lawful := ⟨Dis.VariableParameter.makesNew, Dis.VariableParameter.refines, Dis.VariableParameter.shows⟩

theorem HeapClass.ChangeOptions.lawful : HeapClass.ChangeOptions.Lawful := ⟨Dis.ChangeOptions.makesNew, Dis.ChangeOptions.refines, Dis.ChangeOptions.shows⟩

theorem HeapClass.LiveSimulationAddress.lawful : HeapClass.LiveSimulationAddress.Lawful := ⟨Dis.LiveSimulationAddress.makesNew, Dis.LiveSimulationAddress.refines, Dis.LiveSimulationAddress.shows⟩

theorem HeapClass.EntityMarking.lawful : HeapClass.EntityMarking.Lawful := ⟨Dis.EntityMarking.makesNew, Dis.EntityMarking.refines, Dis.EntityMarking.shows⟩

theorem HeapClass.UAFundamentalParameter.lawful : HeapClass.UAFundamentalParameter.Lawful := ⟨Dis.UAFundamentalParameter.makesNew, Dis.UAFundamentalParameter.refines, Dis.UAFundamentalParameter.shows⟩

theorem HeapClass.ExplosionDescriptor.lawful : HeapClass.ExplosionDescriptor.Lawful := ⟨Dis.ExplosionDescriptor.makesNew, Dis.ExplosionDescriptor.refines, Dis.ExplosionDescriptor.shows⟩

theorem HeapClass.ClockTime.lawful : HeapClass.ClockTime.Lawful := ⟨Dis.ClockTime.makesNew, Dis.ClockTime.refines, Dis.ClockTime.shows⟩

theorem HeapClass.SecondaryOperationalData.lawful : HeapClass.SecondaryOperationalData.Lawful := ⟨Dis.SecondaryOperationalData.makesNew, Dis.SecondaryOperationalData.refines, Dis.SecondaryOperationalData.shows⟩

theorem HeapClass.EnvironmentType.lawful : HeapClass.EnvironmentType.Lawful := ⟨Dis.EnvironmentType.makesNew, Dis.EnvironmentType.refines, Dis.EnvironmentType.shows⟩

theorem HeapClass.TotalRecordSets.lawful : HeapClass.TotalRecordSets.Lawful := ⟨Dis.TotalRecordSets.makesNew, Dis.TotalRecordSets.refines, Dis.TotalRecordSets.shows⟩

theorem HeapClass.MineEntityIdentifier.lawful : HeapClass.MineEntityIdentifier.Lawful := ⟨Dis.MineEntityIdentifier.makesNew, Dis.MineEntityIdentifier.refines, Dis.MineEntityIdentifier.shows⟩

theorem HeapClass.Relationship.lawful : HeapClass.Relationship.Lawful := ⟨Dis.Relationship.makesNew, Dis.Relationship.refines, Dis.Relationship.shows⟩

theorem heapRecords2_lawful : ∀ c ∈ heapRecords2, c.Lawful := by
  intro c hc
  simp only [heapRecords2, List.mem_cons, List.not_mem_nil, or_false] at hc
  rcases hc with rfl | rfl | rfl | rfl | rfl | rfl | rfl | rfl | rfl | rfl | rfl | rfl | rfl | rfl | rfl | rfl | rfl | rfl | rfl | rfl | rfl | rfl
  · exact HeapClass.Attribute.lawful
  · exact HeapClass.RecordQuerySpecification.lawful
  · exact HeapClass.ArticulatedParts.lawful
  · exact HeapClass.ObjectType.lawful
  · exact HeapClass.Association.lawful
  · exact HeapClass.RecordSpecificationElement.lawful
  · exact HeapClass.AntennaLocation.lawful
  · exact HeapClass.ObjectIdentifier.lawful
  · exact HeapClass.AggregateIdentifier.lawful
  · exact HeapClass.FixedDatum.lawful
  · exact HeapClass.VariableParameter.lawful
  · exact HeapClass.ChangeOptions.lawful
  · exact HeapClass.LiveSimulationAddress.lawful
  · exact HeapClass.EntityMarking.lawful
  · exact HeapClass.UAFundamentalParameter.lawful
  · exact HeapClass.ExplosionDescriptor.lawful
  · exact HeapClass.ClockTime.lawful
  · exact HeapClass.SecondaryOperationalData.lawful
  · exact HeapClass.EnvironmentType.lawful
  · exact HeapClass.TotalRecordSets.lawful
  · exact HeapClass.MineEntityIdentifier.lawful
  · exact HeapClass.Relationship.lawful

theorem HeapClass.EEFundamentalParameterData.lawful : HeapClass.EEFundamentalParameterData.Lawful := ⟨Dis.EEFundamentalParameterData.makesNew, Dis.EEFundamentalParameterData.refines, Dis.EEFundamentalParameterData.shows⟩

theorem HeapClass.JammingTechnique.lawful : HeapClass.JammingTechnique.Lawful := ⟨Dis.JammingTechnique.makesNew, Dis.JammingTechnique.refines, Dis.JammingTechnique.shows⟩

theorem HeapClass.VariableDatum.lawful : HeapClass.VariableDatum.Lawful := ⟨Dis.VariableDatum.makesNew, Dis.VariableDatum.refines, Dis.VariableDatum.shows⟩

theorem HeapClass.DatumSpecification.lawful : HeapClass.DatumSpecification.Lawful := ⟨Dis.DatumSpecification.makesNew, Dis.DatumSpecification.refines, Dis.DatumSpecification.shows⟩

theorem HeapClass.Expendable.lawful : HeapClass.Expendable.Lawful := ⟨Dis.Expendable.makesNew, Dis.Expendable.refines, Dis.Expendable.shows⟩

theorem HeapClass.CommunicationsNodeID.lawful : HeapClass.CommunicationsNodeID.Lawful := ⟨Dis.CommunicationsNodeID.makesNew, Dis.CommunicationsNodeID.refines, Dis.CommunicationsNodeID.shows⟩

theorem HeapClass.IOCommunicationsNode.lawful : HeapClass.IOCommunicationsNode.Lawful := ⟨Dis.IOCommunicationsNode.makesNew, Dis.IOCommunicationsNode.refines, Dis.IOCommunicationsNode.shows⟩

theorem HeapClass.LinearSegmentParameter.lawful : HeapClass.LinearSegmentParameter.Lawful := ⟨Dis.LinearSegmentParameter.makesNew, Dis.LinearSegmentParameter.refines, Dis.LinearSegmentParameter.shows⟩

theorem HeapClass.SystemIdentifier.lawful : HeapClass.SystemIdentifier.Lawful := ⟨Dis.SystemIdentifier.makesNew, Dis.SystemIdentifier.refines, Dis.SystemIdentifier.shows⟩

theorem HeapClass.TrackJamData.lawful : HeapClass.TrackJamData.Lawful := ⟨Dis.TrackJamData.makesNew, Dis.TrackJamData.refines, Dis.TrackJamData.shows⟩

theorem HeapClass.AggregateType.lawful : HeapClass.AggregateType.Lawful := ⟨Dis.AggregateType.makesNew, Dis.AggregateType.refines, Dis.AggregateType.shows⟩

theorem HeapClass.SimulationIdentifier.lawful : HeapClass.SimulationIdentifier.Lawful := ⟨Dis.SimulationIdentifier.makesNew, Dis.SimulationIdentifier.refines, Dis.SimulationIdentifier.shows⟩

theorem HeapClass.PduHeader.lawful : HeapClass.PduHeader.Lawful := ⟨Dis.PduHeader.makesNew, Dis.PduHeader.refines, Dis.PduHeader.shows⟩

theorem HeapClass.SimulationManagementPduHeader.lawful : HeapClass.SimulationManagementPduHeader.Lawful := ⟨Dis.SimulationManagementPduHeader.makesNew, Dis.SimulationManagementPduHeader.refines, Dis.SimulationManagementPduHeader.shows⟩

theorem HeapClass.BeamData.lawful : HeapClass.BeamData.Lawful := ⟨Dis.BeamData.makesNew, Dis.BeamData.refines, Dis.BeamData.shows⟩

theorem HeapClass.EngineFuel.lawful : HeapClass.EngineFuel.Lawful := ⟨Dis.EngineFuel.makesNew, Dis.EngineFuel.refines, Dis.EngineFuel.shows⟩

theorem HeapClass.IOEffect.lawful : HeapClass.IOEffect.Lawful := ⟨Dis.IOEffect.makesNew, Dis.IOEffect.refines, Dis.IOEffect.shows⟩

theorem HeapClass.GridAxisDescriptorVariable.lawful : HeapClass.GridAxisDescriptorVariable.Lawful := ⟨Dis.GridAxisDescriptorVariable.makesNew, Dis.GridAxisDescriptorVariable.refines, Dis.GridAxisDescriptorVariable.shows⟩

theorem HeapClass.SupplyQuantity.lawful : HeapClass.SupplyQuantity.Lawful := ⟨Dis.SupplyQuantity.makesNew, Dis.SupplyQuantity.refines, Dis.SupplyQuantity.shows⟩

theorem HeapClass.SilentEntitySystem.lawful : HeapClass.SilentEntitySystem.Lawful := ⟨Dis.SilentEntitySystem.makesNew, Dis.SilentEntitySystem.refines, Dis.SilentEntitySystem.shows⟩

theorem HeapClass.SilentAggregateSystem.lawful : HeapClass.SilentAggregateSystem.Lawful := ⟨Dis.SilentAggregateSystem.makesNew, Dis.SilentAggregateSystem.refines, Dis.SilentAggregateSystem.shows⟩

theorem HeapClass.BlankingSector.lawful : HeapClass.BlankingSector.Lawful := ⟨Dis.BlankingSector.makesNew, Dis.BlankingSector.refines, Dis.BlankingSector.shows⟩

theorem heapRecords3_lawful : ∀ c ∈ heapRecords3, c.Lawful := by
  intro c hc
  simp only [heapRecords3, List.mem_cons, List.not_mem_nil, or_false] at hc
  rcases hc with rfl | rfl | rfl | rfl | rfl | rfl | rfl | rfl | rfl | rfl | rfl | rfl | rfl | rfl | rfl | rfl | rfl | rfl | rfl | rfl | rfl | rfl
  · exact HeapClass.EEFundamentalParameterData.lawful
  · exact HeapClass.JammingTechnique.lawful
  · exact HeapClass.VariableDatum.lawful
  · exact HeapClass.DatumSpecification.lawful
  · exact HeapClass.Expendable.lawful
  · exact HeapClass.CommunicationsNodeID.lawful
  · exact HeapClass.IOCommunicationsNode.lawful
  · exact HeapClass.LinearSegmentParameter.lawful
  · exact HeapClass.SystemIdentifier.lawful
  · exact HeapClass.TrackJamData.lawful
  · exact HeapClass.AggregateType.lawful
  · exact HeapClass.SimulationIdentifier.lawful
  · exact HeapClass.PduHeader.lawful
  · exact HeapClass.SimulationManagementPduHeader.lawful
  · exact HeapClass.BeamData.lawful
  · exact HeapClass.EngineFuel.lawful
  · exact HeapClass.IOEffect.lawful
  · exact HeapClass.GridAxisDescriptorVariable.lawful
  · exact HeapClass.SupplyQuantity.lawful
  · exact HeapClass.SilentEntitySystem.lawful
  · exact HeapClass.SilentAggregateSystem.lawful
  · exact HeapClass.BlankingSector.lawful

theorem HeapClass.LaunchedMunitionRecord.lawful : HeapClass.LaunchedMunitionRecord.Lawful := ⟨Dis.LaunchedMunitionRecord.makesNew, Dis.LaunchedMunitionRecord.refines, Dis.LaunchedMunitionRecord.shows⟩

theorem HeapClass.IFFFundamentalParameterData.lawful : HeapClass.IFFFundamentalParameterData.Lawful := ⟨Dis.IFFFundamentalParameterData.makesNew, Dis.IFFFundamentalParameterData.refines, Dis.IFFFundamentalParameterData.shows⟩

theorem HeapClass.FundamentalOperationalData.lawful : HeapClass.FundamentalOperationalData.Lawful := ⟨Dis.FundamentalOperationalData.makesNew, Dis.FundamentalOperationalData.refines, Dis.FundamentalOperationalData.shows⟩

theorem HeapClass.IntercomCommunicationsParameters.lawful : HeapClass.IntercomCommunicationsParameters.Lawful := ⟨Dis.IntercomCommunicationsParameters.makesNew, Dis.IntercomCommunicationsParameters.refines, Dis.IntercomCommunicationsParameters.shows⟩

theorem HeapClass.Munition.lawful : HeapClass.Munition.Lawful := ⟨Dis.Munition.makesNew, Dis.Munition.refines, Dis.Munition.shows⟩

theorem HeapClass.StandardVariableSpecification.lawful : HeapClass.StandardVariableSpecification.Lawful := ⟨Dis.StandardVariableSpecification.makesNew, Dis.StandardVariableSpecification.refines, Dis.StandardVariableSpecification.shows⟩

theorem HeapClass.Vector2Float.lawful : HeapClass.Vector2Float.Lawful := ⟨Dis.Vector2Float.makesNew, Dis.Vector2Float.refines, Dis.Vector2Float.shows⟩

theorem HeapClass.Environment.lawful : HeapClass.Environment.Lawful := ⟨Dis.Environment.makesNew, Dis.Environment.refines, Dis.Environment.shows⟩

theorem HeapClass.AcousticEmitter.lawful : HeapClass.AcousticEmitter.Lawful := ⟨Dis.AcousticEmitter.makesNew, Dis.AcousticEmitter.refines, Dis.AcousticEmitter.shows⟩

theorem HeapClass.AngularVelocityVector.lawful : HeapClass.AngularVelocityVector.Lawful := ⟨Dis.AngularVelocityVector.makesNew, Dis.AngularVelocityVector.refines, Dis.AngularVelocityVector.shows⟩

theorem HeapClass.AggregateMarking.lawful : HeapClass.AggregateMarking.Lawful := ⟨Dis.AggregateMarking.makesNew, Dis.AggregateMarking.refines, Dis.AggregateMarking.shows⟩

theorem HeapClass.DataFilterRecord.lawful : HeapClass.DataFilterRecord.Lawful := ⟨Dis.DataFilterRecord.makesNew, Dis.DataFilterRecord.refines, Dis.DataFilterRecord.shows⟩

theorem HeapClass.IntercomIdentifier.lawful : HeapClass.IntercomIdentifier.Lawful := ⟨Dis.IntercomIdentifier.makesNew, Dis.IntercomIdentifier.refines, Dis.IntercomIdentifier.shows⟩

theorem HeapClass.StorageFuel.lawful : HeapClass.StorageFuel.Lawful := ⟨Dis.StorageFuel.makesNew, Dis.StorageFuel.refines, Dis.StorageFuel.shows⟩

theorem HeapClass.Sensor.lawful : HeapClass.Sensor.Lawful := ⟨Dis.Sensor.makesNew, Dis.Sensor.refines, Dis.Sensor.shows⟩

theorem HeapClass.MunitionReload.lawful : HeapClass.MunitionReload.Lawful := ⟨Dis.MunitionReload.makesNew, Dis.MunitionReload.refines, Dis.MunitionReload.shows⟩

theorem HeapClass.StorageFuelReload.lawful : HeapClass.StorageFuelReload.Lawful := ⟨Dis.StorageFuelReload.makesNew, Dis.StorageFuelReload.refines, Dis.StorageFuelReload.shows⟩

theorem HeapClass.ExpendableReload.lawful : HeapClass.ExpendableReload.Lawful := ⟨Dis.ExpendableReload.makesNew, Dis.ExpendableReload.refines, Dis.ExpendableReload.shows⟩

theorem HeapClass.EngineFuelReload.lawful : HeapClass.EngineFuelReload.Lawful := ⟨Dis.EngineFuelReload.makesNew, Dis.EngineFuelReload.refines, Dis.EngineFuelReload.shows⟩

theorem HeapClass.UnattachedIdentifier.lawful : HeapClass.UnattachedIdentifier.Lawful := ⟨Dis.UnattachedIdentifier.makesNew, Dis.UnattachedIdentifier.refines, Dis.UnattachedIdentifier.shows⟩

theorem HeapClass.EntityTypeVP.lawful : HeapClass.EntityTypeVP.Lawful := ⟨Dis.EntityTypeVP.makesNew, Dis.EntityTypeVP.refines, Dis.EntityTypeVP.shows⟩

theorem HeapClass.BeamStatus.lawful : HeapClass.BeamStatus.Lawful := ⟨Dis.BeamStatus.makesNew, Dis.BeamStatus.refines, Dis.BeamStatus.shows⟩

theorem heapRecords4_lawful : ∀ c ∈ heapRecords4, c.Lawful := by
  intro c hc
  simp only [heapRecords4, List.mem_cons, List.not_mem_nil, or_false] at hc
  rcases hc with rfl | rfl | rfl | rfl | rfl | rfl | rfl | rfl | rfl | rfl | rfl | rfl | rfl | rfl | rfl | rfl | rfl | rfl | rfl | rfl | rfl | rfl
  · exact HeapClass.LaunchedMunitionRecord.lawful
  · exact HeapClass.IFFFundamentalParameterData.lawful
  · exact HeapClass.FundamentalOperationalData.lawful
  · exact HeapClass.IntercomCommunicationsParameters.lawful
  · exact HeapClass.Munition.lawful
  · exact HeapClass.StandardVariableSpecification.lawful
  · exact HeapClass.Vector2Float.lawful
  · exact HeapClass.Environment.lawful
  · exact HeapClass.AcousticEmitter.lawful
  · exact HeapClass.AngularVelocityVector.lawful
  · exact HeapClass.AggregateMarking.lawful
  · exact HeapClass.DataFilterRecord.lawful
  · exact HeapClass.IntercomIdentifier.lawful
  · exact HeapClass.StorageFuel.lawful
  · exact HeapClass.Sensor.lawful
  · exact HeapClass.MunitionReload.lawful
  · exact HeapClass.StorageFuelReload.lawful
  · exact HeapClass.ExpendableReload.lawful
  · exact HeapClass.EngineFuelReload.lawful
  · exact HeapClass.UnattachedIdentifier.lawful
  · exact HeapClass.EntityTypeVP.lawful
  · exact HeapClass.BeamStatus.lawful

theorem HeapClass.EnvironmentGeneral.lawful : HeapClass.EnvironmentGeneral.Lawful := ⟨Dis.EnvironmentGeneral.makesNew, Dis.EnvironmentGeneral.refines, Dis.EnvironmentGeneral.shows⟩

theorem HeapClass.GridAxis.lawful : HeapClass.GridAxis.Lawful := ⟨Dis.GridAxis.makesNew, Dis.GridAxis.refines, Dis.GridAxis.shows⟩

theorem HeapClass.RecordSpecification.lawful : HeapClass.RecordSpecification.Lawful := ⟨Dis.RecordSpecification.makesNew, Dis.RecordSpecification.refines, Dis.RecordSpecification.shows⟩

theorem HeapClass.EventIdentifierLiveEntity.lawful : HeapClass.EventIdentifierLiveEntity.Lawful := ⟨Dis.EventIdentifierLiveEntity.makesNew, Dis.EventIdentifierLiveEntity.refines, Dis.EventIdentifierLiveEntity.shows⟩

theorem HeapClass.ExpendableDescriptor.lawful : HeapClass.ExpendableDescriptor.Lawful := ⟨Dis.ExpendableDescriptor.makesNew, Dis.ExpendableDescriptor.refines, Dis.ExpendableDescriptor.shows⟩

theorem HeapClass.PropulsionSystemData.lawful : HeapClass.PropulsionSystemData.Lawful := ⟨Dis.PropulsionSystemData.makesNew, Dis.PropulsionSystemData.refines, Dis.PropulsionSystemData.shows⟩

theorem HeapClass.LiveEntityIdentifier.lawful : HeapClass.LiveEntityIdentifier.Lawful := ⟨Dis.LiveEntityIdentifier.makesNew, Dis.LiveEntityIdentifier.refines, Dis.LiveEntityIdentifier.shows⟩

theorem HeapClass.SeparationVP.lawful : HeapClass.SeparationVP.Lawful := ⟨Dis.SeparationVP.makesNew, Dis.SeparationVP.refines, Dis.SeparationVP.shows⟩

theorem HeapClass.EmitterSystem.lawful : HeapClass.EmitterSystem.Lawful := ⟨Dis.EmitterSystem.makesNew, Dis.EmitterSystem.refines, Dis.EmitterSystem.shows⟩

theorem HeapClass.PduStatus.lawful : HeapClass.PduStatus.Lawful := ⟨Dis.PduStatus.makesNew, Dis.PduStatus.refines, Dis.PduStatus.shows⟩

theorem HeapClass.EmissionSystemBeamRecord.lawful : HeapClass.EmissionSystemBeamRecord.Lawful := ⟨Dis.EmissionSystemBeamRecord.makesNew, Dis.EmissionSystemBeamRecord.refines, Dis.EmissionSystemBeamRecord.shows⟩

theorem HeapClass.EmissionSystemRecord.lawful : HeapClass.EmissionSystemRecord.Lawful := ⟨Dis.EmissionSystemRecord.makesNew, Dis.EmissionSystemRecord.refines, Dis.EmissionSystemRecord.shows⟩

theorem heapRecords5_lawful : ∀ c ∈ heapRecords5, c.Lawful := by
  intro c hc
  simp only [heapRecords5, List.mem_cons, List.not_mem_nil, or_false] at hc
  rcases hc with rfl | rfl | rfl | rfl | rfl | rfl | rfl | rfl | rfl | rfl | rfl | rfl
  · exact HeapClass.EnvironmentGeneral.lawful
  · exact HeapClass.GridAxis.lawful
  · exact HeapClass.RecordSpecification.lawful
  · exact HeapClass.EventIdentifierLiveEntity.lawful
  · exact HeapClass.ExpendableDescriptor.lawful
  · exact HeapClass.PropulsionSystemData.lawful
  · exact HeapClass.LiveEntityIdentifier.lawful
  · exact HeapClass.SeparationVP.lawful
  · exact HeapClass.EmitterSystem.lawful
  · exact HeapClass.PduStatus.lawful
  · exact HeapClass.EmissionSystemBeamRecord.lawful
  · exact HeapClass.EmissionSystemRecord.lawful

theorem HeapClass.EntityStateUpdatePdu.lawful : HeapClass.EntityStateUpdatePdu.Lawful := ⟨Dis.EntityStateUpdatePdu.makesNew, Dis.EntityStateUpdatePdu.refines, Dis.EntityStateUpdatePdu.shows⟩

theorem HeapClass.ServiceRequestPdu.lawful : HeapClass.ServiceRequestPdu.Lawful := ⟨Dis.ServiceRequestPdu.makesNew, Dis.ServiceRequestPdu.refines, Dis.ServiceRequestPdu.shows⟩

theorem HeapClass.RepairCompletePdu.lawful : HeapClass.RepairCompletePdu.Lawful := ⟨Dis.RepairCompletePdu.makesNew, Dis.RepairCompletePdu.refines, Dis.RepairCompletePdu.shows⟩

theorem HeapClass.CollisionPdu.lawful : HeapClass.CollisionPdu.Lawful := ⟨Dis.CollisionPdu.makesNew, Dis.CollisionPdu.refines, Dis.CollisionPdu.shows⟩

theorem HeapClass.RepairResponsePdu.lawful : HeapClass.RepairResponsePdu.Lawful := ⟨Dis.RepairResponsePdu.makesNew, Dis.RepairResponsePdu.refines, Dis.RepairResponsePdu.shows⟩

theorem HeapClass.DataQueryPdu.lawful : HeapClass.DataQueryPdu.Lawful := ⟨Dis.DataQueryPdu.makesNew, Dis.DataQueryPdu.refines, Dis.DataQueryPdu.shows⟩

theorem heapPdus1_lawful : ∀ c ∈ heapPdus1, c.Lawful := by
  intro c hc
  simp only [heapPdus1, List.mem_cons, List.not_mem_nil, or_false] at hc
  rcases hc with rfl | rfl | rfl | rfl | rfl | rfl
  · exact HeapClass.EntityStateUpdatePdu.lawful
  · exact HeapClass.ServiceRequestPdu.lawful
  · exact HeapClass.RepairCompletePdu.lawful
  · exact HeapClass.CollisionPdu.lawful
  · exact HeapClass.RepairResponsePdu.lawful
  · exact HeapClass.DataQueryPdu.lawful

theorem HeapClass.CreateEntityPdu.lawful : HeapClass.CreateEntityPdu.Lawful := ⟨Dis.CreateEntityPdu.makesNew, Dis.CreateEntityPdu.refines, Dis.CreateEntityPdu.shows⟩

theorem HeapClass.IntercomSignalPdu.lawful : HeapClass.IntercomSignalPdu.Lawful := ⟨Dis.IntercomSignalPdu.makesNew, Dis.IntercomSignalPdu.refines, Dis.IntercomSignalPdu.shows⟩

theorem HeapClass.RemoveEntityPdu.lawful : HeapClass.RemoveEntityPdu.Lawful := ⟨Dis.RemoveEntityPdu.makesNew, Dis.RemoveEntityPdu.refines, Dis.RemoveEntityPdu.shows⟩

theorem HeapClass.ResupplyReceivedPdu.lawful : HeapClass.ResupplyReceivedPdu.Lawful := ⟨Dis.ResupplyReceivedPdu.makesNew, Dis.ResupplyReceivedPdu.refines, Dis.ResupplyReceivedPdu.shows⟩

theorem HeapClass.CollisionElasticPdu.lawful : HeapClass.CollisionElasticPdu.Lawful := ⟨Dis.CollisionElasticPdu.makesNew, Dis.CollisionElasticPdu.refines, Dis.CollisionElasticPdu.shows⟩

theorem HeapClass.ActionRequestPdu.lawful : HeapClass.ActionRequestPdu.Lawful := ⟨Dis.ActionRequestPdu.makesNew, Dis.ActionRequestPdu.refines, Dis.ActionRequestPdu.shows⟩

theorem HeapClass.AcknowledgePdu.lawful : HeapClass.AcknowledgePdu.Lawful := ⟨Dis.AcknowledgePdu.makesNew, Dis.AcknowledgePdu.refines, Dis.AcknowledgePdu.shows⟩

theorem HeapClass.ActionRequestReliablePdu.lawful : HeapClass.ActionRequestReliablePdu.Lawful := ⟨Dis.ActionRequestReliablePdu.makesNew, Dis.ActionRequestReliablePdu.refines, Dis.ActionRequestReliablePdu.shows⟩

theorem heapPdus2_lawful : ∀ c ∈ heapPdus2, c.Lawful := by
  intro c hc
  simp only [heapPdus2, List.mem_cons, List.not_mem_nil, or_false] at hc
  rcases hc with rfl | rfl | rfl | rfl | rfl | rfl | rfl | rfl
  · exact HeapClass.CreateEntityPdu.lawful
  · exact HeapClass.IntercomSignalPdu.lawful
  · exact HeapClass.RemoveEntityPdu.lawful
  · exact HeapClass.ResupplyReceivedPdu.lawful
  · exact HeapClass.CollisionElasticPdu.lawful
  · exact HeapClass.ActionRequestPdu.lawful
  · exact HeapClass.AcknowledgePdu.lawful
  · exact HeapClass.ActionRequestReliablePdu.lawful

theorem HeapClass.DesignatorPdu.lawful : HeapClass.DesignatorPdu.Lawful := ⟨Dis.DesignatorPdu.makesNew, Dis.DesignatorPdu.refines, Dis.DesignatorPdu.shows⟩

theorem HeapClass.StopFreezePdu.lawful : HeapClass.StopFreezePdu.Lawful := ⟨Dis.StopFreezePdu.makesNew, Dis.StopFreezePdu.refines, Dis.StopFreezePdu.shows⟩

theorem HeapClass.EntityStatePdu.lawful : HeapClass.EntityStatePdu.Lawful := ⟨Dis.EntityStatePdu.makesNew, Dis.EntityStatePdu.refines, Dis.EntityStatePdu.shows⟩

theorem HeapClass.StartResumePdu.lawful : HeapClass.StartResumePdu.Lawful := ⟨Dis.StartResumePdu.makesNew, Dis.StartResumePdu.refines, Dis.StartResumePdu.shows⟩

theorem HeapClass.ElectromagneticEmissionsPdu.lawful : HeapClass.ElectromagneticEmissionsPdu.Lawful := ⟨Dis.ElectromagneticEmissionsPdu.makesNew, Dis.ElectromagneticEmissionsPdu.refines, Dis.ElectromagneticEmissionsPdu.shows⟩

theorem HeapClass.ResupplyOfferPdu.lawful : HeapClass.ResupplyOfferPdu.Lawful := ⟨Dis.ResupplyOfferPdu.makesNew, Dis.ResupplyOfferPdu.refines, Dis.ResupplyOfferPdu.shows⟩

theorem HeapClass.SetDataReliablePdu.lawful : HeapClass.SetDataReliablePdu.Lawful := ⟨Dis.SetDataReliablePdu.makesNew, Dis.SetDataReliablePdu.refines, Dis.SetDataReliablePdu.shows⟩

theorem HeapClass.EventReportPdu.lawful : HeapClass.EventReportPdu.Lawful := ⟨Dis.EventReportPdu.makesNew, Dis.EventReportPdu.refines, Dis.EventReportPdu.shows⟩

theorem HeapClass.PointObjectStatePdu.lawful : HeapClass.PointObjectStatePdu.Lawful := ⟨Dis.PointObjectStatePdu.makesNew, Dis.PointObjectStatePdu.refines, Dis.PointObjectStatePdu.shows⟩

theorem HeapClass.DataPdu.lawful : HeapClass.DataPdu.Lawful := ⟨Dis.DataPdu.makesNew, Dis.DataPdu.refines, Dis.DataPdu.shows⟩

theorem heapPdus3_lawful : ∀ c ∈ heapPdus3, c.Lawful := by
  intro c hc
  simp only [heapPdus3, List.mem_cons, List.not_mem_nil, or_false] at hc
  rcases hc with rfl | rfl | rfl | rfl | rfl | rfl | rfl | rfl | rfl | rfl
  · exact HeapClass.DesignatorPdu.lawful
  · exact HeapClass.StopFreezePdu.lawful
  · exact HeapClass.EntityStatePdu.lawful
  · exact HeapClass.StartResumePdu.lawful
  · exact HeapClass.ElectromagneticEmissionsPdu.lawful
  · exact HeapClass.ResupplyOfferPdu.lawful
  · exact HeapClass.SetDataReliablePdu.lawful
  · exact HeapClass.EventReportPdu.lawful
  · exact HeapClass.PointObjectStatePdu.lawful
  · exact HeapClass.DataPdu.lawful

theorem HeapClass.FastEntityStatePdu.lawful : HeapClass.FastEntityStatePdu.Lawful := ⟨Dis.FastEntityStatePdu.makesNew, Dis.FastEntityStatePdu.refines, Dis.FastEntityStatePdu.shows⟩

theorem HeapClass.AcknowledgeReliablePdu.lawful : HeapClass.AcknowledgeReliablePdu.Lawful := ⟨Dis.AcknowledgeReliablePdu.makesNew, Dis.AcknowledgeReliablePdu.refines, Dis.AcknowledgeReliablePdu.shows⟩

theorem HeapClass.StartResumeReliablePdu.lawful : HeapClass.StartResumeReliablePdu.Lawful := ⟨Dis.StartResumeReliablePdu.makesNew, Dis.StartResumeReliablePdu.refines, Dis.StartResumeReliablePdu.shows⟩

theorem HeapClass.ArealObjectStatePdu.lawful : HeapClass.ArealObjectStatePdu.Lawful := ⟨Dis.ArealObjectStatePdu.makesNew, Dis.ArealObjectStatePdu.refines, Dis.ArealObjectStatePdu.shows⟩

theorem HeapClass.DataQueryReliablePdu.lawful : HeapClass.DataQueryReliablePdu.Lawful := ⟨Dis.DataQueryReliablePdu.makesNew, Dis.DataQueryReliablePdu.refines, Dis.DataQueryReliablePdu.shows⟩

theorem HeapClass.MinefieldStatePdu.lawful : HeapClass.MinefieldStatePdu.Lawful := ⟨Dis.MinefieldStatePdu.makesNew, Dis.MinefieldStatePdu.refines, Dis.MinefieldStatePdu.shows⟩

theorem HeapClass.DataReliablePdu.lawful : HeapClass.DataReliablePdu.Lawful := ⟨Dis.DataReliablePdu.makesNew, Dis.DataReliablePdu.refines, Dis.DataReliablePdu.shows⟩

theorem HeapClass.CommentPdu.lawful : HeapClass.CommentPdu.Lawful := ⟨Dis.CommentPdu.makesNew, Dis.CommentPdu.refines, Dis.CommentPdu.shows⟩

theorem HeapClass.CommentReliablePdu.lawful : HeapClass.CommentReliablePdu.Lawful := ⟨Dis.CommentReliablePdu.makesNew, Dis.CommentReliablePdu.refines, Dis.CommentReliablePdu.shows⟩

theorem HeapClass.DetonationPdu.lawful : HeapClass.DetonationPdu.Lawful := ⟨Dis.DetonationPdu.makesNew, Dis.DetonationPdu.refines, Dis.DetonationPdu.shows⟩

theorem HeapClass.SetDataPdu.lawful : HeapClass.SetDataPdu.Lawful := ⟨Dis.SetDataPdu.makesNew, Dis.SetDataPdu.refines, Dis.SetDataPdu.shows⟩

theorem HeapClass.RecordQueryReliablePdu.lawful : HeapClass.RecordQueryReliablePdu.Lawful := ⟨Dis.RecordQueryReliablePdu.makesNew, Dis.RecordQueryReliablePdu.refines, Dis.RecordQueryReliablePdu.shows⟩

theorem HeapClass.ActionResponsePdu.lawful : HeapClass.ActionResponsePdu.Lawful := ⟨Dis.ActionResponsePdu.makesNew, Dis.ActionResponsePdu.refines, Dis.ActionResponsePdu.shows⟩

theorem heapPdus4_lawful : ∀ c ∈ heapPdus4, c.Lawful := by
  intro c hc
  simp only [heapPdus4, List.mem_cons, List.not_mem_nil, or_false] at hc
  rcases hc with rfl | rfl | rfl | rfl | rfl | rfl | rfl | rfl | rfl | rfl | rfl | rfl | rfl
  · exact HeapClass.FastEntityStatePdu.lawful
  · exact HeapClass.AcknowledgeReliablePdu.lawful
  · exact HeapClass.StartResumeReliablePdu.lawful
  · exact HeapClass.ArealObjectStatePdu.lawful
  · exact HeapClass.DataQueryReliablePdu.lawful
  · exact HeapClass.MinefieldStatePdu.lawful
  · exact HeapClass.DataReliablePdu.lawful
  · exact HeapClass.CommentPdu.lawful
  · exact HeapClass.CommentReliablePdu.lawful
  · exact HeapClass.DetonationPdu.lawful
  · exact HeapClass.SetDataPdu.lawful
  · exact HeapClass.RecordQueryReliablePdu.lawful
  · exact HeapClass.ActionResponsePdu.lawful

theorem HeapClass.FirePdu.lawful : HeapClass.FirePdu.Lawful := ⟨Dis.FirePdu.makesNew, Dis.FirePdu.refines, Dis.FirePdu.shows⟩

theorem HeapClass.ReceiverPdu.lawful : HeapClass.ReceiverPdu.Lawful := ⟨Dis.ReceiverPdu.makesNew, Dis.ReceiverPdu.refines, Dis.ReceiverPdu.shows⟩

theorem HeapClass.UaPdu.lawful : HeapClass.UaPdu.Lawful := ⟨Dis.UaPdu.makesNew, Dis.UaPdu.refines, Dis.UaPdu.shows⟩

theorem HeapClass.SignalPdu.lawful : HeapClass.SignalPdu.Lawful := ⟨Dis.SignalPdu.makesNew, Dis.SignalPdu.refines, Dis.SignalPdu.shows⟩

theorem HeapClass.RemoveEntityReliablePdu.lawful : HeapClass.RemoveEntityReliablePdu.Lawful := ⟨Dis.RemoveEntityReliablePdu.makesNew, Dis.RemoveEntityReliablePdu.refines, Dis.RemoveEntityReliablePdu.shows⟩

theorem HeapClass.SeesPdu.lawful : HeapClass.SeesPdu.Lawful := ⟨Dis.SeesPdu.makesNew, Dis.SeesPdu.refines, Dis.SeesPdu.shows⟩

theorem HeapClass.CreateEntityReliablePdu.lawful : HeapClass.CreateEntityReliablePdu.Lawful := ⟨Dis.CreateEntityReliablePdu.makesNew, Dis.CreateEntityReliablePdu.refines, Dis.CreateEntityReliablePdu.shows⟩

theorem HeapClass.StopFreezeReliablePdu.lawful : HeapClass.StopFreezeReliablePdu.Lawful := ⟨Dis.StopFreezeReliablePdu.makesNew, Dis.StopFreezeReliablePdu.refines, Dis.StopFreezeReliablePdu.shows⟩

theorem HeapClass.EventReportReliablePdu.lawful : HeapClass.EventReportReliablePdu.Lawful := ⟨Dis.EventReportReliablePdu.makesNew, Dis.EventReportReliablePdu.refines, Dis.EventReportReliablePdu.shows⟩

theorem HeapClass.MinefieldResponseNackPdu.lawful : HeapClass.MinefieldResponseNackPdu.Lawful := ⟨Dis.MinefieldResponseNackPdu.makesNew, Dis.MinefieldResponseNackPdu.refines, Dis.MinefieldResponseNackPdu.shows⟩

theorem HeapClass.ActionResponseReliablePdu.lawful : HeapClass.ActionResponseReliablePdu.Lawful := ⟨Dis.ActionResponseReliablePdu.makesNew, Dis.ActionResponseReliablePdu.refines, Dis.ActionResponseReliablePdu.shows⟩

theorem HeapClass.IsPartOfPdu.lawful : HeapClass.IsPartOfPdu.Lawful := ⟨Dis.IsPartOfPdu.makesNew, Dis.IsPartOfPdu.refines, Dis.IsPartOfPdu.shows⟩

theorem HeapClass.AggregateStatePdu.lawful : HeapClass.AggregateStatePdu.Lawful := ⟨Dis.AggregateStatePdu.makesNew, Dis.AggregateStatePdu.refines, Dis.AggregateStatePdu.shows⟩

theorem heapPdus5_lawful : ∀ c ∈ heapPdus5, c.Lawful := by
  intro c hc
  simp only [heapPdus5, List.mem_cons, List.not_mem_nil, or_false] at hc
  rcases hc with rfl | rfl | rfl | rfl | rfl | rfl | rfl | rfl | rfl | rfl | rfl | rfl | rfl
  · exact HeapClass.FirePdu.lawful
  · exact HeapClass.ReceiverPdu.lawful
  · exact HeapClass.UaPdu.lawful
  · exact HeapClass.SignalPdu.lawful
  · exact HeapClass.RemoveEntityReliablePdu.lawful
  · exact HeapClass.SeesPdu.lawful
  · exact HeapClass.CreateEntityReliablePdu.lawful
  · exact HeapClass.StopFreezeReliablePdu.lawful
  · exact HeapClass.EventReportReliablePdu.lawful
  · exact HeapClass.MinefieldResponseNackPdu.lawful
  · exact HeapClass.ActionResponseReliablePdu.lawful
  · exact HeapClass.IsPartOfPdu.lawful
  · exact HeapClass.AggregateStatePdu.lawful

theorem HeapClass.BeamAntennaPattern.lawful : HeapClass.BeamAntennaPattern.Lawful := ⟨Dis.BeamAntennaPattern.makesNew, Dis.BeamAntennaPattern.refines _, Dis.BeamAntennaPattern.shows⟩

theorem HeapClass.SpreadSpectrum.lawful : HeapClass.SpreadSpectrum.Lawful := ⟨Dis.SpreadSpectrum.makesNew, Dis.SpreadSpectrum.refines, Dis.SpreadSpectrum.shows⟩

theorem HeapClass.ModulationType.lawful : HeapClass.ModulationType.Lawful := ⟨Dis.ModulationType.makesNew, Dis.ModulationType.refines, Dis.ModulationType.shows⟩

theorem HeapClass.NetId.lawful : HeapClass.NetId.Lawful := ⟨Dis.NetId.makesNew, Dis.NetId.refines, Dis.NetId.shows⟩

theorem HeapClass.BasicHaveQuickMP.lawful : HeapClass.BasicHaveQuickMP.Lawful := ⟨Dis.BasicHaveQuickMP.makesNew, Dis.BasicHaveQuickMP.refines _, Dis.BasicHaveQuickMP.shows⟩

theorem HeapClass.CCTTSincgarsMP.lawful : HeapClass.CCTTSincgarsMP.Lawful := ⟨Dis.CCTTSincgarsMP.makesNew, Dis.CCTTSincgarsMP.refines _, Dis.CCTTSincgarsMP.shows⟩

theorem heapRadio_lawful : ∀ c ∈ heapRadio, c.Lawful := by
  intro c hc
  simp only [heapRadio, List.mem_cons, List.not_mem_nil, or_false] at hc
  rcases hc with rfl | rfl | rfl | rfl | rfl | rfl
  · exact HeapClass.BeamAntennaPattern.lawful
  · exact HeapClass.SpreadSpectrum.lawful
  · exact HeapClass.ModulationType.lawful
  · exact HeapClass.NetId.lawful
  · exact HeapClass.BasicHaveQuickMP.lawful
  · exact HeapClass.CCTTSincgarsMP.lawful

theorem HeapClass.DEFireFlags.lawful : HeapClass.DEFireFlags.Lawful := ⟨Dis.DEFireFlags.makesNew, Dis.DEFireFlags.refines, Dis.DEFireFlags.shows⟩

theorem HeapClass.DirectedEnergyTargetEnergyDeposition.lawful : HeapClass.DirectedEnergyTargetEnergyDeposition.Lawful := ⟨Dis.DirectedEnergyTargetEnergyDeposition.makesNew, Dis.DirectedEnergyTargetEnergyDeposition.refines, Dis.DirectedEnergyTargetEnergyDeposition.shows⟩

theorem heapWarfare_lawful : ∀ c ∈ heapWarfare, c.Lawful := by
  intro c hc
  simp only [heapWarfare, List.mem_cons, List.not_mem_nil, or_false] at hc
  rcases hc with rfl | rfl
  · exact HeapClass.DEFireFlags.lawful
  · exact HeapClass.DirectedEnergyTargetEnergyDeposition.lawful

theorem HeapClass.DirectedEnergyFirePdu.lawful : HeapClass.DirectedEnergyFirePdu.Lawful := ⟨Dis.DirectedEnergyFirePdu.makesNew, Dis.DirectedEnergyFirePdu.refines, Dis.DirectedEnergyFirePdu.shows⟩

theorem HeapClass.EntityDamageStatusPdu.lawful : HeapClass.EntityDamageStatusPdu.Lawful := ⟨Dis.EntityDamageStatusPdu.makesNew, Dis.EntityDamageStatusPdu.refines, Dis.EntityDamageStatusPdu.shows⟩

theorem heapSpecial_lawful : ∀ c ∈ heapSpecial, c.Lawful := by
  intro c hc
  simp only [heapSpecial, List.mem_cons, List.not_mem_nil, or_false] at hc
  rcases hc with rfl | rfl
  · exact HeapClass.DirectedEnergyFirePdu.lawful
  · exact HeapClass.EntityDamageStatusPdu.lawful

theorem HeapClass.TransmitterPdu.lawful : HeapClass.TransmitterPdu.Lawful := ⟨Dis.TransmitterPdu.makesNew, Dis.TransmitterPdu.refines, Dis.TransmitterPdu.shows⟩

theorem HeapClass.IntercomControlPdu.lawful : HeapClass.IntercomControlPdu.Lawful := ⟨Dis.IntercomControlPdu.makesNew, Dis.IntercomControlPdu.refines, Dis.IntercomControlPdu.shows⟩

theorem heapAlone_lawful : ∀ c ∈ heapAlone, c.Lawful := by
  intro c hc
  simp only [heapAlone, List.mem_cons, List.not_mem_nil, or_false] at hc
  rcases hc with rfl | rfl
  · exact HeapClass.TransmitterPdu.lawful
  · exact HeapClass.IntercomControlPdu.lawful

theorem heapClasses_lawful : ∀ c ∈ heapClasses, c.Lawful := by
  intro c hc
  simp only [heapClasses, List.mem_append] at hc
  rcases hc with ((((((((((((((h | h) | h) | h) | h) | h) | h) | h) | h) | h) | h) | h) | h) | h) | h)
  · exact heapCommon_lawful c h
  · exact heapRecords1_lawful c h
  · exact heapRecords2_lawful c h
  · exact heapRecords3_lawful c h
  · exact heapRecords4_lawful c h
  · exact heapRecords5_lawful c h
  · exact heapPdus1_lawful c h
  · exact heapPdus2_lawful c h
  · exact heapPdus3_lawful c h
  · exact heapPdus4_lawful c h
  · exact heapPdus5_lawful c h
  · exact heapRadio_lawful c h
  · exact heapWarfare_lawful c h
  · exact heapSpecial_lawful c h
  · exact heapAlone_lawful c h

end Dis
