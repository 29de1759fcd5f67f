import Verif.Proof.TakesSpecial
import Verif.Proof.Catalog

/-!
# Bytes consumed by every class of the catalogue

Generated by `tools/gencattakes.py`.
-/

set_option linter.unusedVariables false
set_option linter.unusedSimpArgs false

namespace Dis

theorem len_le_sum {α} (f : α → Nat) (h : ∀ x, 1 ≤ f x) (l : List α) : l.length ≤ (l.map f).sum := by
  induction l with
  | nil => exact Nat.le_refl _
  | cons x xs ih => have := h x; simp only [List.length_cons, List.map_cons, List.sum_cons]; omega

/-- A parse by `c` that succeeds consumed `m` bytes, at least one for each counted element. -/
structure Codec.Taken (c : Codec) (m : c.Obj → Nat) : Prop where
  takes : Takes (c.parse c.fresh) m
  counted : Post (c.parse c.fresh) fun _ o => (c.counts.map fun f => f.len o).sum ≤ m o

theorem Codec.SimulationAddress.taken : Codec.SimulationAddress.Taken (Codec.SimulationAddress.size) where
  takes := Dis.SimulationAddress.takes
  counted := (Dis.SimulationAddress.takes).mono fun _ _ _ => Nat.zero_le _

theorem Codec.EntityIdentifier.taken : Codec.EntityIdentifier.Taken (Codec.EntityIdentifier.size) where
  takes := Dis.EntityIdentifier.takes
  counted := (Dis.EntityIdentifier.takes).mono fun _ _ _ => Nat.zero_le _

theorem Codec.EulerAngles.taken : Codec.EulerAngles.Taken (Codec.EulerAngles.size) where
  takes := Dis.EulerAngles.takes
  counted := (Dis.EulerAngles.takes).mono fun _ _ _ => Nat.zero_le _

theorem Codec.EventIdentifier.taken : Codec.EventIdentifier.Taken (Codec.EventIdentifier.size) where
  takes := Dis.EventIdentifier.takes
  counted := (Dis.EventIdentifier.takes).mono fun _ _ _ => Nat.zero_le _

theorem Codec.Vector3Float.taken : Codec.Vector3Float.Taken (Codec.Vector3Float.size) where
  takes := Dis.Vector3Float.takes
  counted := (Dis.Vector3Float.takes).mono fun _ _ _ => Nat.zero_le _

theorem Codec.WorldCoordinates.taken : Codec.WorldCoordinates.Taken (Codec.WorldCoordinates.size) where
  takes := Dis.WorldCoordinates.takes
  counted := (Dis.WorldCoordinates.takes).mono fun _ _ _ => Nat.zero_le _

theorem catalogCommon_taken : ∀ c ∈ catalogCommon, ∃ m, c.Taken m ∧ (c.name ∉ ["DirectedEnergyFirePdu", "EntityDamageStatusPdu"] → m = c.size) := by
  intro c hc
  simp only [catalogCommon, List.mem_cons, List.not_mem_nil, or_false] at hc
  rcases hc with rfl | rfl | rfl | rfl | rfl | rfl
  · exact ⟨_, Codec.SimulationAddress.taken, fun _ => rfl⟩
  · exact ⟨_, Codec.EntityIdentifier.taken, fun _ => rfl⟩
  · exact ⟨_, Codec.EulerAngles.taken, fun _ => rfl⟩
  · exact ⟨_, Codec.EventIdentifier.taken, fun _ => rfl⟩
  · exact ⟨_, Codec.Vector3Float.taken, fun _ => rfl⟩
  · exact ⟨_, Codec.WorldCoordinates.taken, fun _ => rfl⟩

theorem Codec.DataQueryDatumSpecification.taken : Codec.DataQueryDatumSpecification.Taken (Codec.DataQueryDatumSpecification.size) where
  takes := Dis.DataQueryDatumSpecification.takes
  counted := (Dis.DataQueryDatumSpecification.takes).mono fun b (o : Dis.DataQueryDatumSpecification) he => by
    simp only [Codec.DataQueryDatumSpecification, List.map_cons, List.map_nil, List.sum_cons, List.sum_nil, Dis.DataQueryDatumSpecification.wireSize]
    try simp only [List.length_nil]
    omega

theorem Codec.RadioIdentifier.taken : Codec.RadioIdentifier.Taken (Codec.RadioIdentifier.size) where
  takes := Dis.RadioIdentifier.takes
  counted := (Dis.RadioIdentifier.takes).mono fun _ _ _ => Nat.zero_le _

theorem Codec.RequestID.taken : Codec.RequestID.Taken (Codec.RequestID.size) where
  takes := Dis.RequestID.takes
  counted := (Dis.RequestID.takes).mono fun _ _ _ => Nat.zero_le _

theorem Codec.IFFData.taken : Codec.IFFData.Taken (Codec.IFFData.size) where
  takes := Dis.IFFData.takes
  counted := (Dis.IFFData.takes).mono fun b (o : Dis.IFFData) he => by
    simp only [Codec.IFFData, List.map_cons, List.map_nil, List.sum_cons, List.sum_nil, Dis.IFFData.wireSize]
    try simp only [List.length_nil]
    omega

theorem Codec.EntityType.taken : Codec.EntityType.Taken (Codec.EntityType.size) where
  takes := Dis.EntityType.takes
  counted := (Dis.EntityType.takes).mono fun _ _ _ => Nat.zero_le _

theorem Codec.MunitionDescriptor.taken : Codec.MunitionDescriptor.Taken (Codec.MunitionDescriptor.size) where
  takes := Dis.MunitionDescriptor.takes
  counted := (Dis.MunitionDescriptor.takes).mono fun _ _ _ => Nat.zero_le _

theorem Codec.MinefieldSensorType.taken : Codec.MinefieldSensorType.Taken (Codec.MinefieldSensorType.size) where
  takes := Dis.MinefieldSensorType.takes
  counted := (Dis.MinefieldSensorType.takes).mono fun _ _ _ => Nat.zero_le _

theorem Codec.GroupID.taken : Codec.GroupID.Taken (Codec.GroupID.size) where
  takes := Dis.GroupID.takes
  counted := (Dis.GroupID.takes).mono fun _ _ _ => Nat.zero_le _

theorem Codec.LayerHeader.taken : Codec.LayerHeader.Taken (Codec.LayerHeader.size) where
  takes := Dis.LayerHeader.takes
  counted := (Dis.LayerHeader.takes).mono fun _ _ _ => Nat.zero_le _

theorem Codec.UnsignedDISInteger.taken : Codec.UnsignedDISInteger.Taken (Codec.UnsignedDISInteger.size) where
  takes := Dis.UnsignedDISInteger.takes
  counted := (Dis.UnsignedDISInteger.takes).mono fun _ _ _ => Nat.zero_le _

theorem Codec.DeadReckoningParameters.taken : Codec.DeadReckoningParameters.Taken (Codec.DeadReckoningParameters.size) where
  takes := Dis.DeadReckoningParameters.takes
  counted := (Dis.DeadReckoningParameters.takes).mono fun _ _ _ => Nat.zero_le _

theorem Codec.ProtocolMode.taken : Codec.ProtocolMode.Taken (Codec.ProtocolMode.size) where
  takes := Dis.ProtocolMode.takes
  counted := (Dis.ProtocolMode.takes).mono fun _ _ _ => Nat.zero_le _

theorem Codec.AngleDeception.taken : Codec.AngleDeception.Taken (Codec.AngleDeception.size) where
  takes := Dis.AngleDeception.takes
  counted := (Dis.AngleDeception.takes).mono fun _ _ _ => Nat.zero_le _

theorem Codec.EntityAssociation.taken : Codec.EntityAssociation.Taken (Codec.EntityAssociation.size) where
  takes := Dis.EntityAssociation.takes
  counted := (Dis.EntityAssociation.takes).mono fun _ _ _ => Nat.zero_le _

theorem Codec.VectoringNozzleSystem.taken : Codec.VectoringNozzleSystem.Taken (Codec.VectoringNozzleSystem.size) where
  takes := Dis.VectoringNozzleSystem.takes
  counted := (Dis.VectoringNozzleSystem.takes).mono fun _ _ _ => Nat.zero_le _

theorem Codec.FalseTargetsAttribute.taken : Codec.FalseTargetsAttribute.Taken (Codec.FalseTargetsAttribute.size) where
  takes := Dis.FalseTargetsAttribute.takes
  counted := (Dis.FalseTargetsAttribute.takes).mono fun _ _ _ => Nat.zero_le _

theorem Codec.MinefieldIdentifier.taken : Codec.MinefieldIdentifier.Taken (Codec.MinefieldIdentifier.size) where
  takes := Dis.MinefieldIdentifier.takes
  counted := (Dis.MinefieldIdentifier.takes).mono fun _ _ _ => Nat.zero_le _

theorem Codec.RadioType.taken : Codec.RadioType.Taken (Codec.RadioType.size) where
  takes := Dis.RadioType.takes
  counted := (Dis.RadioType.takes).mono fun _ _ _ => Nat.zero_le _

theorem Codec.NamedLocationIdentification.taken : Codec.NamedLocationIdentification.Taken (Codec.NamedLocationIdentification.size) where
  takes := Dis.NamedLocationIdentification.takes
  counted := (Dis.NamedLocationIdentification.takes).mono fun _ _ _ => Nat.zero_le _

theorem Codec.IFFDataSpecification.taken : Codec.IFFDataSpecification.Taken (Codec.IFFDataSpecification.size) where
  takes := Dis.IFFDataSpecification.takes
  counted := (Dis.IFFDataSpecification.takes).mono fun b (o : Dis.IFFDataSpecification) he => by
    have h0 := len_le_sum _ (fun x => by unfold Dis.IFFData.wireSize; omega : ∀ x : Dis.IFFData, 1 ≤ x.wireSize) o.iffDataRecords
    simp only [Codec.IFFDataSpecification, List.map_cons, List.map_nil, List.sum_cons, List.sum_nil, Dis.IFFDataSpecification.wireSize]
    try simp only [List.length_nil]
    omega

theorem Codec.OwnershipStatus.taken : Codec.OwnershipStatus.Taken (Codec.OwnershipStatus.size) where
  takes := Dis.OwnershipStatus.takes
  counted := (Dis.OwnershipStatus.takes).mono fun _ _ _ => Nat.zero_le _

theorem Codec.AttachedParts.taken : Codec.AttachedParts.Taken (Codec.AttachedParts.size) where
  takes := Dis.AttachedParts.takes
  counted := (Dis.AttachedParts.takes).mono fun _ _ _ => Nat.zero_le _

theorem catalogRecords1_taken : ∀ c ∈ catalogRecords1, ∃ m, c.Taken m ∧ (c.name ∉ ["DirectedEnergyFirePdu", "EntityDamageStatusPdu"] → m = c.size) := by
  intro c hc
  simp only [catalogRecords1, List.mem_cons, List.not_mem_nil, or_false] at hc
  rcases hc with rfl | rfl | rfl | rfl | rfl | rfl | rfl | rfl | rfl | rfl | rfl | rfl | rfl | rfl | rfl | rfl | rfl | rfl | rfl | rfl | rfl | rfl
  · exact ⟨_, Codec.DataQueryDatumSpecification.taken, fun _ => rfl⟩
  · exact ⟨_, Codec.RadioIdentifier.taken, fun _ => rfl⟩
  · exact ⟨_, Codec.RequestID.taken, fun _ => rfl⟩
  · exact ⟨_, Codec.IFFData.taken, fun _ => rfl⟩
  · exact ⟨_, Codec.EntityType.taken, fun _ => rfl⟩
  · exact ⟨_, Codec.MunitionDescriptor.taken, fun _ => rfl⟩
  · exact ⟨_, Codec.MinefieldSensorType.taken, fun _ => rfl⟩
  · exact ⟨_, Codec.GroupID.taken, fun _ => rfl⟩
  · exact ⟨_, Codec.LayerHeader.taken, fun _ => rfl⟩
  · exact ⟨_, Codec.UnsignedDISInteger.taken, fun _ => rfl⟩
  · exact ⟨_, Codec.DeadReckoningParameters.taken, fun _ => rfl⟩
  · exact ⟨_, Codec.ProtocolMode.taken, fun _ => rfl⟩
  · exact ⟨_, Codec.AngleDeception.taken, fun _ => rfl⟩
  · exact ⟨_, Codec.EntityAssociation.taken, fun _ => rfl⟩
  · exact ⟨_, Codec.VectoringNozzleSystem.taken, fun _ => rfl⟩
  · exact ⟨_, Codec.FalseTargetsAttribute.taken, fun _ => rfl⟩
  · exact ⟨_, Codec.MinefieldIdentifier.taken, fun _ => rfl⟩
  · exact ⟨_, Codec.RadioType.taken, fun _ => rfl⟩
  · exact ⟨_, Codec.NamedLocationIdentification.taken, fun _ => rfl⟩
  · exact ⟨_, Codec.IFFDataSpecification.taken, fun _ => rfl⟩
  · exact ⟨_, Codec.OwnershipStatus.taken, fun _ => rfl⟩
  · exact ⟨_, Codec.AttachedParts.taken, fun _ => rfl⟩

theorem Codec.Attribute.taken : Codec.Attribute.Taken (Codec.Attribute.size) where
  takes := Dis.Attribute.takes
  counted := (Dis.Attribute.takes).mono fun _ _ _ => Nat.zero_le _

theorem Codec.RecordQuerySpecification.taken : Codec.RecordQuerySpecification.Taken (Codec.RecordQuerySpecification.size) where
  takes := Dis.RecordQuerySpecification.takes
  counted := (Dis.RecordQuerySpecification.takes).mono fun b (o : Dis.RecordQuerySpecification) he => by
    simp only [Codec.RecordQuerySpecification, List.map_cons, List.map_nil, List.sum_cons, List.sum_nil, Dis.RecordQuerySpecification.wireSize]
    try simp only [List.length_nil]
    omega

theorem Codec.ArticulatedParts.taken : Codec.ArticulatedParts.Taken (Codec.ArticulatedParts.size) where
  takes := Dis.ArticulatedParts.takes
  counted := (Dis.ArticulatedParts.takes).mono fun _ _ _ => Nat.zero_le _

theorem Codec.ObjectType.taken : Codec.ObjectType.Taken (Codec.ObjectType.size) where
  takes := Dis.ObjectType.takes
  counted := (Dis.ObjectType.takes).mono fun _ _ _ => Nat.zero_le _

theorem Codec.Association.taken : Codec.Association.Taken (Codec.Association.size) where
  takes := Dis.Association.takes
  counted := (Dis.Association.takes).mono fun _ _ _ => Nat.zero_le _

theorem Codec.RecordSpecificationElement.taken : Codec.RecordSpecificationElement.Taken (Codec.RecordSpecificationElement.size) where
  takes := Dis.RecordSpecificationElement.takes
  counted := (Dis.RecordSpecificationElement.takes).mono fun _ _ _ => Nat.zero_le _

theorem Codec.AntennaLocation.taken : Codec.AntennaLocation.Taken (Codec.AntennaLocation.size) where
  takes := Dis.AntennaLocation.takes
  counted := (Dis.AntennaLocation.takes).mono fun _ _ _ => Nat.zero_le _

theorem Codec.ObjectIdentifier.taken : Codec.ObjectIdentifier.Taken (Codec.ObjectIdentifier.size) where
  takes := Dis.ObjectIdentifier.takes
  counted := (Dis.ObjectIdentifier.takes).mono fun _ _ _ => Nat.zero_le _

theorem Codec.AggregateIdentifier.taken : Codec.AggregateIdentifier.Taken (Codec.AggregateIdentifier.size) where
  takes := Dis.AggregateIdentifier.takes
  counted := (Dis.AggregateIdentifier.takes).mono fun _ _ _ => Nat.zero_le _

theorem Codec.FixedDatum.taken : Codec.FixedDatum.Taken (Codec.FixedDatum.size) where
  takes := Dis.FixedDatum.takes
  counted := (Dis.FixedDatum.takes).mono fun _ _ _ => Nat.zero_le _

theorem Codec.VariableParameter.taken : Codec.VariableParameter.Taken (Codec.VariableParameter.size) where
  takes := Dis.VariableParameter.takes
  counted := (Dis.VariableParameter.takes).mono fun _ _ _ => Nat.zero_le _

theorem Codec.ChangeOptions.taken : Codec.ChangeOptions.Taken (Codec.ChangeOptions.size) where
  takes := Dis.ChangeOptions.takes
  counted := (Dis.ChangeOptions.takes).mono fun _ _ _ => Nat.zero_le _

theorem Codec.LiveSimulationAddress.taken : Codec.LiveSimulationAddress.Taken (Codec.LiveSimulationAddress.size) where
  takes := Dis.LiveSimulationAddress.takes
  counted := (Dis.LiveSimulationAddress.takes).mono fun _ _ _ => Nat.zero_le _

theorem Codec.EntityMarking.taken : Codec.EntityMarking.Taken (Codec.EntityMarking.size) where
  takes := Dis.EntityMarking.takes
  counted := (Dis.EntityMarking.takes).mono fun _ _ _ => Nat.zero_le _

theorem Codec.UAFundamentalParameter.taken : Codec.UAFundamentalParameter.Taken (Codec.UAFundamentalParameter.size) where
  takes := Dis.UAFundamentalParameter.takes
  counted := (Dis.UAFundamentalParameter.takes).mono fun _ _ _ => Nat.zero_le _

theorem Codec.ExplosionDescriptor.taken : Codec.ExplosionDescriptor.Taken (Codec.ExplosionDescriptor.size) where
  takes := Dis.ExplosionDescriptor.takes
  counted := (Dis.ExplosionDescriptor.takes).mono fun _ _ _ => Nat.zero_le _

theorem Codec.ClockTime.taken : Codec.ClockTime.Taken (Codec.ClockTime.size) where
  takes := Dis.ClockTime.takes
  counted := (Dis.ClockTime.takes).mono fun _ _ _ => Nat.zero_le _

theorem Codec.SecondaryOperationalData.taken : Codec.SecondaryOperationalData.Taken (Codec.SecondaryOperationalData.size) where
  takes := Dis.SecondaryOperationalData.takes
  counted := (Dis.SecondaryOperationalData.takes).mono fun _ _ _ => Nat.zero_le _

theorem Codec.EnvironmentType.taken : Codec.EnvironmentType.Taken (Codec.EnvironmentType.size) where
  takes := Dis.EnvironmentType.takes
  counted := (Dis.EnvironmentType.takes).mono fun _ _ _ => Nat.zero_le _

theorem Codec.TotalRecordSets.taken : Codec.TotalRecordSets.Taken (Codec.TotalRecordSets.size) where
  takes := Dis.TotalRecordSets.takes
  counted := (Dis.TotalRecordSets.takes).mono fun _ _ _ => Nat.zero_le _

theorem Codec.MineEntityIdentifier.taken : Codec.MineEntityIdentifier.Taken (Codec.MineEntityIdentifier.size) where
  takes := Dis.MineEntityIdentifier.takes
  counted := (Dis.MineEntityIdentifier.takes).mono fun _ _ _ => Nat.zero_le _

theorem Codec.Relationship.taken : Codec.Relationship.Taken (Codec.Relationship.size) where
  takes := Dis.Relationship.takes
  counted := (Dis.Relationship.takes).mono fun _ _ _ => Nat.zero_le _

theorem catalogRecords2_taken : ∀ c ∈ catalogRecords2, ∃ m, c.Taken m ∧ (c.name ∉ ["DirectedEnergyFirePdu", "EntityDamageStatusPdu"] → m = c.size) := by
  intro c hc
  simp only [catalogRecords2, List.mem_cons, List.not_mem_nil, or_false] at hc
  rcases hc with rfl | rfl | rfl | rfl | rfl | rfl | rfl | rfl | rfl | rfl | rfl | rfl | rfl | rfl | rfl | rfl | rfl | rfl | rfl | rfl | rfl | rfl
  · exact ⟨_, Codec.Attribute.taken, fun _ => rfl⟩
  · exact ⟨_, Codec.RecordQuerySpecification.taken, fun _ => rfl⟩
  · exact ⟨_, Codec.ArticulatedParts.taken, fun _ => rfl⟩
  · exact ⟨_, Codec.ObjectType.taken, fun _ => rfl⟩
  · exact ⟨_, Codec.Association.taken, fun _ => rfl⟩
  · exact ⟨_, Codec.RecordSpecificationElement.taken, fun _ => rfl⟩
  · exact ⟨_, Codec.AntennaLocation.taken, fun _ => rfl⟩
  · exact ⟨_, Codec.ObjectIdentifier.taken, fun _ => rfl⟩
  · exact ⟨_, Codec.AggregateIdentifier.taken, fun _ => rfl⟩
  · exact ⟨_, Codec.FixedDatum.taken, fun _ => rfl⟩
  · exact ⟨_, Codec.VariableParameter.taken, fun _ => rfl⟩
  · exact ⟨_, Codec.ChangeOptions.taken, fun _ => rfl⟩
  · exact ⟨_, Codec.LiveSimulationAddress.taken, fun _ => rfl⟩
  · exact ⟨_, Codec.EntityMarking.taken, fun _ => rfl⟩
  · exact ⟨_, Codec.UAFundamentalParameter.taken, fun _ => rfl⟩
  · exact ⟨_, Codec.ExplosionDescriptor.taken, fun _ => rfl⟩
  · exact ⟨_, Codec.ClockTime.taken, fun _ => rfl⟩
  · exact ⟨_, Codec.SecondaryOperationalData.taken, fun _ => rfl⟩
  · exact ⟨_, Codec.EnvironmentType.taken, fun _ => rfl⟩
  · exact ⟨_, Codec.TotalRecordSets.taken, fun _ => rfl⟩
  · exact ⟨_, Codec.MineEntityIdentifier.taken, fun _ => rfl⟩
  · exact ⟨_, Codec.Relationship.taken, fun _ => rfl⟩

theorem Codec.EEFundamentalParameterData.taken : Codec.EEFundamentalParameterData.Taken (Codec.EEFundamentalParameterData.size) where
  takes := Dis.EEFundamentalParameterData.takes
  counted := (Dis.EEFundamentalParameterData.takes).mono fun _ _ _ => Nat.zero_le _

theorem Codec.JammingTechnique.taken : Codec.JammingTechnique.Taken (Codec.JammingTechnique.size) where
  takes := Dis.JammingTechnique.takes
  counted := (Dis.JammingTechnique.takes).mono fun _ _ _ => Nat.zero_le _

theorem Codec.VariableDatum.taken : Codec.VariableDatum.Taken (Codec.VariableDatum.size) where
  takes := Dis.VariableDatum.takes
  counted := (Dis.VariableDatum.takes).mono fun _ _ _ => Nat.zero_le _

theorem Codec.DatumSpecification.taken : Codec.DatumSpecification.Taken (Codec.DatumSpecification.size) where
  takes := Dis.DatumSpecification.takes
  counted := (Dis.DatumSpecification.takes).mono fun b (o : Dis.DatumSpecification) he => by
    have h0 := len_le_sum _ (fun x => by unfold Dis.VariableDatum.wireSize; omega : ∀ x : Dis.VariableDatum, 1 ≤ x.wireSize) o.variableDatumRecords
    simp only [Codec.DatumSpecification, List.map_cons, List.map_nil, List.sum_cons, List.sum_nil, Dis.DatumSpecification.wireSize]
    try simp only [List.length_nil]
    omega

theorem Codec.Expendable.taken : Codec.Expendable.Taken (Codec.Expendable.size) where
  takes := Dis.Expendable.takes
  counted := (Dis.Expendable.takes).mono fun _ _ _ => Nat.zero_le _

theorem Codec.CommunicationsNodeID.taken : Codec.CommunicationsNodeID.Taken (Codec.CommunicationsNodeID.size) where
  takes := Dis.CommunicationsNodeID.takes
  counted := (Dis.CommunicationsNodeID.takes).mono fun _ _ _ => Nat.zero_le _

theorem Codec.IOCommunicationsNode.taken : Codec.IOCommunicationsNode.Taken (Codec.IOCommunicationsNode.size) where
  takes := Dis.IOCommunicationsNode.takes
  counted := (Dis.IOCommunicationsNode.takes).mono fun _ _ _ => Nat.zero_le _

theorem Codec.LinearSegmentParameter.taken : Codec.LinearSegmentParameter.Taken (Codec.LinearSegmentParameter.size) where
  takes := Dis.LinearSegmentParameter.takes
  counted := (Dis.LinearSegmentParameter.takes).mono fun _ _ _ => Nat.zero_le _

theorem Codec.SystemIdentifier.taken : Codec.SystemIdentifier.Taken (Codec.SystemIdentifier.size) where
  takes := Dis.SystemIdentifier.takes
  counted := (Dis.SystemIdentifier.takes).mono fun _ _ _ => Nat.zero_le _

theorem Codec.TrackJamData.taken : Codec.TrackJamData.Taken (Codec.TrackJamData.size) where
  takes := Dis.TrackJamData.takes
  counted := (Dis.TrackJamData.takes).mono fun _ _ _ => Nat.zero_le _

theorem Codec.AggregateType.taken : Codec.AggregateType.Taken (Codec.AggregateType.size) where
  takes := Dis.AggregateType.takes
  counted := (Dis.AggregateType.takes).mono fun _ _ _ => Nat.zero_le _

theorem Codec.SimulationIdentifier.taken : Codec.SimulationIdentifier.Taken (Codec.SimulationIdentifier.size) where
  takes := Dis.SimulationIdentifier.takes
  counted := (Dis.SimulationIdentifier.takes).mono fun _ _ _ => Nat.zero_le _

theorem Codec.PduHeader.taken : Codec.PduHeader.Taken (Codec.PduHeader.size) where
  takes := Dis.PduHeader.takes
  counted := (Dis.PduHeader.takes).mono fun _ _ _ => Nat.zero_le _

theorem Codec.SimulationManagementPduHeader.taken : Codec.SimulationManagementPduHeader.Taken (Codec.SimulationManagementPduHeader.size) where
  takes := Dis.SimulationManagementPduHeader.takes
  counted := (Dis.SimulationManagementPduHeader.takes).mono fun _ _ _ => Nat.zero_le _

theorem Codec.BeamData.taken : Codec.BeamData.Taken (Codec.BeamData.size) where
  takes := Dis.BeamData.takes
  counted := (Dis.BeamData.takes).mono fun _ _ _ => Nat.zero_le _

theorem Codec.EngineFuel.taken : Codec.EngineFuel.Taken (Codec.EngineFuel.size) where
  takes := Dis.EngineFuel.takes
  counted := (Dis.EngineFuel.takes).mono fun _ _ _ => Nat.zero_le _

theorem Codec.IOEffect.taken : Codec.IOEffect.Taken (Codec.IOEffect.size) where
  takes := Dis.IOEffect.takes
  counted := (Dis.IOEffect.takes).mono fun _ _ _ => Nat.zero_le _

theorem Codec.GridAxisDescriptorVariable.taken : Codec.GridAxisDescriptorVariable.Taken (Codec.GridAxisDescriptorVariable.size) where
  takes := Dis.GridAxisDescriptorVariable.takes
  counted := (Dis.GridAxisDescriptorVariable.takes').mono fun b (o : Dis.GridAxisDescriptorVariable) he => by
    replace he := he.2
    simp only [Codec.GridAxisDescriptorVariable, List.map_cons, List.map_nil, List.sum_cons, List.sum_nil, Dis.GridAxisDescriptorVariable.wireSize, he]
    try simp only [List.length_nil]
    omega

theorem Codec.SupplyQuantity.taken : Codec.SupplyQuantity.Taken (Codec.SupplyQuantity.size) where
  takes := Dis.SupplyQuantity.takes
  counted := (Dis.SupplyQuantity.takes).mono fun _ _ _ => Nat.zero_le _

theorem Codec.SilentEntitySystem.taken : Codec.SilentEntitySystem.Taken (Codec.SilentEntitySystem.size) where
  takes := Dis.SilentEntitySystem.takes
  counted := (Dis.SilentEntitySystem.takes').mono fun b (o : Dis.SilentEntitySystem) he => by
    replace he := he.2
    simp only [Codec.SilentEntitySystem, List.map_cons, List.map_nil, List.sum_cons, List.sum_nil, Dis.SilentEntitySystem.wireSize, he]
    try simp only [List.length_nil]
    omega

theorem Codec.SilentAggregateSystem.taken : Codec.SilentAggregateSystem.Taken (Codec.SilentAggregateSystem.size) where
  takes := Dis.SilentAggregateSystem.takes
  counted := (Dis.SilentAggregateSystem.takes).mono fun _ _ _ => Nat.zero_le _

theorem Codec.BlankingSector.taken : Codec.BlankingSector.Taken (Codec.BlankingSector.size) where
  takes := Dis.BlankingSector.takes
  counted := (Dis.BlankingSector.takes).mono fun _ _ _ => Nat.zero_le _

theorem catalogRecords3_taken : ∀ c ∈ catalogRecords3, ∃ m, c.Taken m ∧ (c.name ∉ ["DirectedEnergyFirePdu", "EntityDamageStatusPdu"] → m = c.size) := by
  intro c hc
  simp only [catalogRecords3, List.mem_cons, List.not_mem_nil, or_false] at hc
  rcases hc with rfl | rfl | rfl | rfl | rfl | rfl | rfl | rfl | rfl | rfl | rfl | rfl | rfl | rfl | rfl | rfl | rfl | rfl | rfl | rfl | rfl | rfl
  · exact ⟨_, Codec.EEFundamentalParameterData.taken, fun _ => rfl⟩
  · exact ⟨_, Codec.JammingTechnique.taken, fun _ => rfl⟩
  · exact ⟨_, Codec.VariableDatum.taken, fun _ => rfl⟩
  · exact ⟨_, Codec.DatumSpecification.taken, fun _ => rfl⟩
  · exact ⟨_, Codec.Expendable.taken, fun _ => rfl⟩
  · exact ⟨_, Codec.CommunicationsNodeID.taken, fun _ => rfl⟩
  · exact ⟨_, Codec.IOCommunicationsNode.taken, fun _ => rfl⟩
  · exact ⟨_, Codec.LinearSegmentParameter.taken, fun _ => rfl⟩
  · exact ⟨_, Codec.SystemIdentifier.taken, fun _ => rfl⟩
  · exact ⟨_, Codec.TrackJamData.taken, fun _ => rfl⟩
  · exact ⟨_, Codec.AggregateType.taken, fun _ => rfl⟩
  · exact ⟨_, Codec.SimulationIdentifier.taken, fun _ => rfl⟩
  · exact ⟨_, Codec.PduHeader.taken, fun _ => rfl⟩
  · exact ⟨_, Codec.SimulationManagementPduHeader.taken, fun _ => rfl⟩
  · exact ⟨_, Codec.BeamData.taken, fun _ => rfl⟩
  · exact ⟨_, Codec.EngineFuel.taken, fun _ => rfl⟩
  · exact ⟨_, Codec.IOEffect.taken, fun _ => rfl⟩
  · exact ⟨_, Codec.GridAxisDescriptorVariable.taken, fun _ => rfl⟩
  · exact ⟨_, Codec.SupplyQuantity.taken, fun _ => rfl⟩
  · exact ⟨_, Codec.SilentEntitySystem.taken, fun _ => rfl⟩
  · exact ⟨_, Codec.SilentAggregateSystem.taken, fun _ => rfl⟩
  · exact ⟨_, Codec.BlankingSector.taken, fun _ => rfl⟩

theorem Codec.LaunchedMunitionRecord.taken : Codec.LaunchedMunitionRecord.Taken (Codec.LaunchedMunitionRecord.size) where
  takes := Dis.LaunchedMunitionRecord.takes
  counted := (Dis.LaunchedMunitionRecord.takes).mono fun _ _ _ => Nat.zero_le _

theorem Codec.IFFFundamentalParameterData.taken : Codec.IFFFundamentalParameterData.Taken (Codec.IFFFundamentalParameterData.size) where
  takes := Dis.IFFFundamentalParameterData.takes
  counted := (Dis.IFFFundamentalParameterData.takes).mono fun _ _ _ => Nat.zero_le _

theorem Codec.FundamentalOperationalData.taken : Codec.FundamentalOperationalData.Taken (Codec.FundamentalOperationalData.size) where
  takes := Dis.FundamentalOperationalData.takes
  counted := (Dis.FundamentalOperationalData.takes).mono fun _ _ _ => Nat.zero_le _

theorem Codec.IntercomCommunicationsParameters.taken : Codec.IntercomCommunicationsParameters.Taken (Codec.IntercomCommunicationsParameters.size) where
  takes := Dis.IntercomCommunicationsParameters.takes
  counted := (Dis.IntercomCommunicationsParameters.takes).mono fun _ _ _ => Nat.zero_le _

theorem Codec.Munition.taken : Codec.Munition.Taken (Codec.Munition.size) where
  takes := Dis.Munition.takes
  counted := (Dis.Munition.takes).mono fun _ _ _ => Nat.zero_le _

theorem Codec.StandardVariableSpecification.taken : Codec.StandardVariableSpecification.Taken (Codec.StandardVariableSpecification.size) where
  takes := Dis.StandardVariableSpecification.takes
  counted := (Dis.StandardVariableSpecification.takes').mono fun b (o : Dis.StandardVariableSpecification) he => by
    replace he := he.2
    simp only [Codec.StandardVariableSpecification, List.map_cons, List.map_nil, List.sum_cons, List.sum_nil, Dis.StandardVariableSpecification.wireSize, he]
    try simp only [List.length_nil]
    omega

theorem Codec.Vector2Float.taken : Codec.Vector2Float.Taken (Codec.Vector2Float.size) where
  takes := Dis.Vector2Float.takes
  counted := (Dis.Vector2Float.takes).mono fun _ _ _ => Nat.zero_le _

theorem Codec.Environment.taken : Codec.Environment.Taken (Codec.Environment.size) where
  takes := Dis.Environment.takes
  counted := (Dis.Environment.takes).mono fun _ _ _ => Nat.zero_le _

theorem Codec.AcousticEmitter.taken : Codec.AcousticEmitter.Taken (Codec.AcousticEmitter.size) where
  takes := Dis.AcousticEmitter.takes
  counted := (Dis.AcousticEmitter.takes).mono fun _ _ _ => Nat.zero_le _

theorem Codec.AngularVelocityVector.taken : Codec.AngularVelocityVector.Taken (Codec.AngularVelocityVector.size) where
  takes := Dis.AngularVelocityVector.takes
  counted := (Dis.AngularVelocityVector.takes).mono fun _ _ _ => Nat.zero_le _

theorem Codec.AggregateMarking.taken : Codec.AggregateMarking.Taken (Codec.AggregateMarking.size) where
  takes := Dis.AggregateMarking.takes
  counted := (Dis.AggregateMarking.takes).mono fun _ _ _ => Nat.zero_le _

theorem Codec.DataFilterRecord.taken : Codec.DataFilterRecord.Taken (Codec.DataFilterRecord.size) where
  takes := Dis.DataFilterRecord.takes
  counted := (Dis.DataFilterRecord.takes).mono fun _ _ _ => Nat.zero_le _

theorem Codec.IntercomIdentifier.taken : Codec.IntercomIdentifier.Taken (Codec.IntercomIdentifier.size) where
  takes := Dis.IntercomIdentifier.takes
  counted := (Dis.IntercomIdentifier.takes).mono fun _ _ _ => Nat.zero_le _

theorem Codec.StorageFuel.taken : Codec.StorageFuel.Taken (Codec.StorageFuel.size) where
  takes := Dis.StorageFuel.takes
  counted := (Dis.StorageFuel.takes).mono fun _ _ _ => Nat.zero_le _

theorem Codec.Sensor.taken : Codec.Sensor.Taken (Codec.Sensor.size) where
  takes := Dis.Sensor.takes
  counted := (Dis.Sensor.takes).mono fun _ _ _ => Nat.zero_le _

theorem Codec.MunitionReload.taken : Codec.MunitionReload.Taken (Codec.MunitionReload.size) where
  takes := Dis.MunitionReload.takes
  counted := (Dis.MunitionReload.takes).mono fun _ _ _ => Nat.zero_le _

theorem Codec.StorageFuelReload.taken : Codec.StorageFuelReload.Taken (Codec.StorageFuelReload.size) where
  takes := Dis.StorageFuelReload.takes
  counted := (Dis.StorageFuelReload.takes).mono fun _ _ _ => Nat.zero_le _

theorem Codec.ExpendableReload.taken : Codec.ExpendableReload.Taken (Codec.ExpendableReload.size) where
  takes := Dis.ExpendableReload.takes
  counted := (Dis.ExpendableReload.takes).mono fun _ _ _ => Nat.zero_le _

theorem Codec.EngineFuelReload.taken : Codec.EngineFuelReload.Taken (Codec.EngineFuelReload.size) where
  takes := Dis.EngineFuelReload.takes
  counted := (Dis.EngineFuelReload.takes).mono fun _ _ _ => Nat.zero_le _

theorem Codec.UnattachedIdentifier.taken : Codec.UnattachedIdentifier.Taken (Codec.UnattachedIdentifier.size) where
  takes := Dis.UnattachedIdentifier.takes
  counted := (Dis.UnattachedIdentifier.takes).mono fun _ _ _ => Nat.zero_le _

theorem Codec.EntityTypeVP.taken : Codec.EntityTypeVP.Taken (Codec.EntityTypeVP.size) where
  takes := Dis.EntityTypeVP.takes
  counted := (Dis.EntityTypeVP.takes).mono fun _ _ _ => Nat.zero_le _

theorem Codec.BeamStatus.taken : Codec.BeamStatus.Taken (Codec.BeamStatus.size) where
  takes := Dis.BeamStatus.takes
  counted := (Dis.BeamStatus.takes).mono fun _ _ _ => Nat.zero_le _

theorem catalogRecords4_taken : ∀ c ∈ catalogRecords4, ∃ m, c.Taken m ∧ (c.name ∉ ["DirectedEnergyFirePdu", "EntityDamageStatusPdu"] → m = c.size) := by
  intro c hc
  simp only [catalogRecords4, List.mem_cons, List.not_mem_nil, or_false] at hc
  rcases hc with rfl | rfl | rfl | rfl | rfl | rfl | rfl | rfl | rfl | rfl | rfl | rfl | rfl | rfl | rfl | rfl | rfl | rfl | rfl | rfl | rfl | rfl
  · exact ⟨_, Codec.LaunchedMunitionRecord.taken, fun _ => rfl⟩
  · exact ⟨_, Codec.IFFFundamentalParameterData.taken, fun _ => rfl⟩
  · exact ⟨_, Codec.FundamentalOperationalData.taken, fun _ => rfl⟩
  · exact ⟨_, Codec.IntercomCommunicationsParameters.taken, fun _ => rfl⟩
  · exact ⟨_, Codec.Munition.taken, fun _ => rfl⟩
  · exact ⟨_, Codec.StandardVariableSpecification.taken, fun _ => rfl⟩
  · exact ⟨_, Codec.Vector2Float.taken, fun _ => rfl⟩
  · exact ⟨_, Codec.Environment.taken, fun _ => rfl⟩
  · exact ⟨_, Codec.AcousticEmitter.taken, fun _ => rfl⟩
  · exact ⟨_, Codec.AngularVelocityVector.taken, fun _ => rfl⟩
  · exact ⟨_, Codec.AggregateMarking.taken, fun _ => rfl⟩
  · exact ⟨_, Codec.DataFilterRecord.taken, fun _ => rfl⟩
  · exact ⟨_, Codec.IntercomIdentifier.taken, fun _ => rfl⟩
  · exact ⟨_, Codec.StorageFuel.taken, fun _ => rfl⟩
  · exact ⟨_, Codec.Sensor.taken, fun _ => rfl⟩
  · exact ⟨_, Codec.MunitionReload.taken, fun _ => rfl⟩
  · exact ⟨_, Codec.StorageFuelReload.taken, fun _ => rfl⟩
  · exact ⟨_, Codec.ExpendableReload.taken, fun _ => rfl⟩
  · exact ⟨_, Codec.EngineFuelReload.taken, fun _ => rfl⟩
  · exact ⟨_, Codec.UnattachedIdentifier.taken, fun _ => rfl⟩
  · exact ⟨_, Codec.EntityTypeVP.taken, fun _ => rfl⟩
  · exact ⟨_, Codec.BeamStatus.taken, fun _ => rfl⟩

theorem Codec.EnvironmentGeneral.taken : Codec.EnvironmentGeneral.Taken (Codec.EnvironmentGeneral.size) where
  takes := Dis.EnvironmentGeneral.takes
  counted := (Dis.EnvironmentGeneral.takes).mono fun _ _ _ => Nat.zero_le _

theorem Codec.GridAxis.taken : Codec.GridAxis.Taken (Codec.GridAxis.size) where
  takes := Dis.GridAxis.takes
  counted := (Dis.GridAxis.takes).mono fun _ _ _ => Nat.zero_le _

theorem Codec.RecordSpecification.taken : Codec.RecordSpecification.Taken (Codec.RecordSpecification.size) where
  takes := Dis.RecordSpecification.takes
  counted := (Dis.RecordSpecification.takes').mono fun b (o : Dis.RecordSpecification) he => by
    replace he := he.2
    simp only [Codec.RecordSpecification, List.map_cons, List.map_nil, List.sum_cons, List.sum_nil, Dis.RecordSpecification.wireSize, he]
    try simp only [List.length_nil]
    omega

theorem Codec.EventIdentifierLiveEntity.taken : Codec.EventIdentifierLiveEntity.Taken (Codec.EventIdentifierLiveEntity.size) where
  takes := Dis.EventIdentifierLiveEntity.takes
  counted := (Dis.EventIdentifierLiveEntity.takes).mono fun _ _ _ => Nat.zero_le _

theorem Codec.ExpendableDescriptor.taken : Codec.ExpendableDescriptor.Taken (Codec.ExpendableDescriptor.size) where
  takes := Dis.ExpendableDescriptor.takes
  counted := (Dis.ExpendableDescriptor.takes).mono fun _ _ _ => Nat.zero_le _

theorem Codec.PropulsionSystemData.taken : Codec.PropulsionSystemData.Taken (Codec.PropulsionSystemData.size) where
  takes := Dis.PropulsionSystemData.takes
  counted := (Dis.PropulsionSystemData.takes).mono fun _ _ _ => Nat.zero_le _

theorem Codec.LiveEntityIdentifier.taken : Codec.LiveEntityIdentifier.Taken (Codec.LiveEntityIdentifier.size) where
  takes := Dis.LiveEntityIdentifier.takes
  counted := (Dis.LiveEntityIdentifier.takes).mono fun _ _ _ => Nat.zero_le _

theorem Codec.SeparationVP.taken : Codec.SeparationVP.Taken (Codec.SeparationVP.size) where
  takes := Dis.SeparationVP.takes
  counted := (Dis.SeparationVP.takes).mono fun _ _ _ => Nat.zero_le _

theorem Codec.EmitterSystem.taken : Codec.EmitterSystem.Taken (Codec.EmitterSystem.size) where
  takes := Dis.EmitterSystem.takes
  counted := (Dis.EmitterSystem.takes).mono fun _ _ _ => Nat.zero_le _

theorem Codec.PduStatus.taken : Codec.PduStatus.Taken (Codec.PduStatus.size) where
  takes := Dis.PduStatus.takes
  counted := (Dis.PduStatus.takes).mono fun _ _ _ => Nat.zero_le _

theorem Codec.EmissionSystemBeamRecord.taken : Codec.EmissionSystemBeamRecord.Taken (Codec.EmissionSystemBeamRecord.size) where
  takes := Dis.EmissionSystemBeamRecord.takes
  counted := (Dis.EmissionSystemBeamRecord.takes).mono fun b (o : Dis.EmissionSystemBeamRecord) he => by
    simp only [Codec.EmissionSystemBeamRecord, List.map_cons, List.map_nil, List.sum_cons, List.sum_nil, Dis.EmissionSystemBeamRecord.wireSize]
    try simp only [List.length_nil]
    omega

theorem Codec.EmissionSystemRecord.taken : Codec.EmissionSystemRecord.Taken (Codec.EmissionSystemRecord.size) where
  takes := Dis.EmissionSystemRecord.takes
  counted := (Dis.EmissionSystemRecord.takes).mono fun b (o : Dis.EmissionSystemRecord) he => by
    have h0 := len_le_sum _ (fun x => by unfold Dis.EmissionSystemBeamRecord.wireSize; omega : ∀ x : Dis.EmissionSystemBeamRecord, 1 ≤ x.wireSize) o.beamRecords
    simp only [Codec.EmissionSystemRecord, List.map_cons, List.map_nil, List.sum_cons, List.sum_nil, Dis.EmissionSystemRecord.wireSize]
    try simp only [List.length_nil]
    omega

theorem catalogRecords5_taken : ∀ c ∈ catalogRecords5, ∃ m, c.Taken m ∧ (c.name ∉ ["DirectedEnergyFirePdu", "EntityDamageStatusPdu"] → m = c.size) := by
  intro c hc
  simp only [catalogRecords5, List.mem_cons, List.not_mem_nil, or_false] at hc
  rcases hc with rfl | rfl | rfl | rfl | rfl | rfl | rfl | rfl | rfl | rfl | rfl | rfl
  · exact ⟨_, Codec.EnvironmentGeneral.taken, fun _ => rfl⟩
  · exact ⟨_, Codec.GridAxis.taken, fun _ => rfl⟩
  · exact ⟨_, Codec.RecordSpecification.taken, fun _ => rfl⟩
  · exact ⟨_, Codec.EventIdentifierLiveEntity.taken, fun _ => rfl⟩
  · exact ⟨_, Codec.ExpendableDescriptor.taken, fun _ => rfl⟩
  · exact ⟨_, Codec.PropulsionSystemData.taken, fun _ => rfl⟩
  · exact ⟨_, Codec.LiveEntityIdentifier.taken, fun _ => rfl⟩
  · exact ⟨_, Codec.SeparationVP.taken, fun _ => rfl⟩
  · exact ⟨_, Codec.EmitterSystem.taken, fun _ => rfl⟩
  · exact ⟨_, Codec.PduStatus.taken, fun _ => rfl⟩
  · exact ⟨_, Codec.EmissionSystemBeamRecord.taken, fun _ => rfl⟩
  · exact ⟨_, Codec.EmissionSystemRecord.taken, fun _ => rfl⟩

theorem Codec.EntityStateUpdatePdu.taken : Codec.EntityStateUpdatePdu.Taken (Codec.EntityStateUpdatePdu.size) where
  takes := Dis.EntityStateUpdatePdu.takes
  counted := (Dis.EntityStateUpdatePdu.takes).mono fun b (o : Dis.EntityStateUpdatePdu) he => by
    simp only [Codec.EntityStateUpdatePdu, List.map_cons, List.map_nil, List.sum_cons, List.sum_nil, Dis.EntityStateUpdatePdu.wireSize]
    try simp only [List.length_nil]
    omega

theorem Codec.ServiceRequestPdu.taken : Codec.ServiceRequestPdu.Taken (Codec.ServiceRequestPdu.size) where
  takes := Dis.ServiceRequestPdu.takes
  counted := (Dis.ServiceRequestPdu.takes).mono fun b (o : Dis.ServiceRequestPdu) he => by
    simp only [Codec.ServiceRequestPdu, List.map_cons, List.map_nil, List.sum_cons, List.sum_nil, Dis.ServiceRequestPdu.wireSize]
    try simp only [List.length_nil]
    omega

theorem Codec.RepairCompletePdu.taken : Codec.RepairCompletePdu.Taken (Codec.RepairCompletePdu.size) where
  takes := Dis.RepairCompletePdu.takes
  counted := (Dis.RepairCompletePdu.takes).mono fun _ _ _ => Nat.zero_le _

theorem Codec.CollisionPdu.taken : Codec.CollisionPdu.Taken (Codec.CollisionPdu.size) where
  takes := Dis.CollisionPdu.takes
  counted := (Dis.CollisionPdu.takes).mono fun _ _ _ => Nat.zero_le _

theorem Codec.RepairResponsePdu.taken : Codec.RepairResponsePdu.Taken (Codec.RepairResponsePdu.size) where
  takes := Dis.RepairResponsePdu.takes
  counted := (Dis.RepairResponsePdu.takes).mono fun _ _ _ => Nat.zero_le _

theorem Codec.DataQueryPdu.taken : Codec.DataQueryPdu.Taken (Codec.DataQueryPdu.size) where
  takes := Dis.DataQueryPdu.takes
  counted := (Dis.DataQueryPdu.takes).mono fun _ _ _ => Nat.zero_le _

theorem catalogPdus1_taken : ∀ c ∈ catalogPdus1, ∃ m, c.Taken m ∧ (c.name ∉ ["DirectedEnergyFirePdu", "EntityDamageStatusPdu"] → m = c.size) := by
  intro c hc
  simp only [catalogPdus1, List.mem_cons, List.not_mem_nil, or_false] at hc
  rcases hc with rfl | rfl | rfl | rfl | rfl | rfl
  · exact ⟨_, Codec.EntityStateUpdatePdu.taken, fun _ => rfl⟩
  · exact ⟨_, Codec.ServiceRequestPdu.taken, fun _ => rfl⟩
  · exact ⟨_, Codec.RepairCompletePdu.taken, fun _ => rfl⟩
  · exact ⟨_, Codec.CollisionPdu.taken, fun _ => rfl⟩
  · exact ⟨_, Codec.RepairResponsePdu.taken, fun _ => rfl⟩
  · exact ⟨_, Codec.DataQueryPdu.taken, fun _ => rfl⟩

theorem Codec.CreateEntityPdu.taken : Codec.CreateEntityPdu.Taken (Codec.CreateEntityPdu.size) where
  takes := Dis.CreateEntityPdu.takes
  counted := (Dis.CreateEntityPdu.takes).mono fun _ _ _ => Nat.zero_le _

theorem Codec.IntercomSignalPdu.taken : Codec.IntercomSignalPdu.Taken (Codec.IntercomSignalPdu.size) where
  takes := Dis.IntercomSignalPdu.takes
  counted := (Dis.IntercomSignalPdu.takes').mono fun b (o : Dis.IntercomSignalPdu) he => by
    replace he := he.2
    simp only [Codec.IntercomSignalPdu, List.map_cons, List.map_nil, List.sum_cons, List.sum_nil, Dis.IntercomSignalPdu.wireSize, he]
    try simp only [List.length_nil]
    omega

theorem Codec.RemoveEntityPdu.taken : Codec.RemoveEntityPdu.Taken (Codec.RemoveEntityPdu.size) where
  takes := Dis.RemoveEntityPdu.takes
  counted := (Dis.RemoveEntityPdu.takes).mono fun _ _ _ => Nat.zero_le _

theorem Codec.ResupplyReceivedPdu.taken : Codec.ResupplyReceivedPdu.Taken (Codec.ResupplyReceivedPdu.size) where
  takes := Dis.ResupplyReceivedPdu.takes
  counted := (Dis.ResupplyReceivedPdu.takes').mono fun b (o : Dis.ResupplyReceivedPdu) he => by
    replace he := he.2
    simp only [Codec.ResupplyReceivedPdu, List.map_cons, List.map_nil, List.sum_cons, List.sum_nil, Dis.ResupplyReceivedPdu.wireSize, he]
    try simp only [List.length_nil]
    omega

theorem Codec.CollisionElasticPdu.taken : Codec.CollisionElasticPdu.Taken (Codec.CollisionElasticPdu.size) where
  takes := Dis.CollisionElasticPdu.takes
  counted := (Dis.CollisionElasticPdu.takes).mono fun _ _ _ => Nat.zero_le _

theorem Codec.ActionRequestPdu.taken : Codec.ActionRequestPdu.Taken (Codec.ActionRequestPdu.size) where
  takes := Dis.ActionRequestPdu.takes
  counted := (Dis.ActionRequestPdu.takes).mono fun _ _ _ => Nat.zero_le _

theorem Codec.AcknowledgePdu.taken : Codec.AcknowledgePdu.Taken (Codec.AcknowledgePdu.size) where
  takes := Dis.AcknowledgePdu.takes
  counted := (Dis.AcknowledgePdu.takes).mono fun _ _ _ => Nat.zero_le _

theorem Codec.ActionRequestReliablePdu.taken : Codec.ActionRequestReliablePdu.Taken (Codec.ActionRequestReliablePdu.size) where
  takes := Dis.ActionRequestReliablePdu.takes
  counted := (Dis.ActionRequestReliablePdu.takes).mono fun _ _ _ => Nat.zero_le _

theorem catalogPdus2_taken : ∀ c ∈ catalogPdus2, ∃ m, c.Taken m ∧ (c.name ∉ ["DirectedEnergyFirePdu", "EntityDamageStatusPdu"] → m = c.size) := by
  intro c hc
  simp only [catalogPdus2, List.mem_cons, List.not_mem_nil, or_false] at hc
  rcases hc with rfl | rfl | rfl | rfl | rfl | rfl | rfl | rfl
  · exact ⟨_, Codec.CreateEntityPdu.taken, fun _ => rfl⟩
  · exact ⟨_, Codec.IntercomSignalPdu.taken, fun _ => rfl⟩
  · exact ⟨_, Codec.RemoveEntityPdu.taken, fun _ => rfl⟩
  · exact ⟨_, Codec.ResupplyReceivedPdu.taken, fun _ => rfl⟩
  · exact ⟨_, Codec.CollisionElasticPdu.taken, fun _ => rfl⟩
  · exact ⟨_, Codec.ActionRequestPdu.taken, fun _ => rfl⟩
  · exact ⟨_, Codec.AcknowledgePdu.taken, fun _ => rfl⟩
  · exact ⟨_, Codec.ActionRequestReliablePdu.taken, fun _ => rfl⟩

theorem Codec.DesignatorPdu.taken : Codec.DesignatorPdu.Taken (Codec.DesignatorPdu.size) where
  takes := Dis.DesignatorPdu.takes
  counted := (Dis.DesignatorPdu.takes).mono fun _ _ _ => Nat.zero_le _

theorem Codec.StopFreezePdu.taken : Codec.StopFreezePdu.Taken (Codec.StopFreezePdu.size) where
  takes := Dis.StopFreezePdu.takes
  counted := (Dis.StopFreezePdu.takes).mono fun _ _ _ => Nat.zero_le _

theorem Codec.EntityStatePdu.taken : Codec.EntityStatePdu.Taken (Codec.EntityStatePdu.size) where
  takes := Dis.EntityStatePdu.takes
  counted := (Dis.EntityStatePdu.takes).mono fun b (o : Dis.EntityStatePdu) he => by
    simp only [Codec.EntityStatePdu, List.map_cons, List.map_nil, List.sum_cons, List.sum_nil, Dis.EntityStatePdu.wireSize]
    try simp only [List.length_nil]
    omega

theorem Codec.StartResumePdu.taken : Codec.StartResumePdu.Taken (Codec.StartResumePdu.size) where
  takes := Dis.StartResumePdu.takes
  counted := (Dis.StartResumePdu.takes).mono fun _ _ _ => Nat.zero_le _

theorem Codec.ElectromagneticEmissionsPdu.taken : Codec.ElectromagneticEmissionsPdu.Taken (Codec.ElectromagneticEmissionsPdu.size) where
  takes := Dis.ElectromagneticEmissionsPdu.takes
  counted := (Dis.ElectromagneticEmissionsPdu.takes).mono fun b (o : Dis.ElectromagneticEmissionsPdu) he => by
    have h0 := len_le_sum _ (fun x => by unfold Dis.EmissionSystemRecord.wireSize; omega : ∀ x : Dis.EmissionSystemRecord, 1 ≤ x.wireSize) o.systems
    simp only [Codec.ElectromagneticEmissionsPdu, List.map_cons, List.map_nil, List.sum_cons, List.sum_nil, Dis.ElectromagneticEmissionsPdu.wireSize]
    try simp only [List.length_nil]
    omega

theorem Codec.ResupplyOfferPdu.taken : Codec.ResupplyOfferPdu.Taken (Codec.ResupplyOfferPdu.size) where
  takes := Dis.ResupplyOfferPdu.takes
  counted := (Dis.ResupplyOfferPdu.takes).mono fun b (o : Dis.ResupplyOfferPdu) he => by
    simp only [Codec.ResupplyOfferPdu, List.map_cons, List.map_nil, List.sum_cons, List.sum_nil, Dis.ResupplyOfferPdu.wireSize]
    try simp only [List.length_nil]
    omega

theorem Codec.SetDataReliablePdu.taken : Codec.SetDataReliablePdu.Taken (Codec.SetDataReliablePdu.size) where
  takes := Dis.SetDataReliablePdu.takes
  counted := (Dis.SetDataReliablePdu.takes).mono fun _ _ _ => Nat.zero_le _

theorem Codec.EventReportPdu.taken : Codec.EventReportPdu.Taken (Codec.EventReportPdu.size) where
  takes := Dis.EventReportPdu.takes
  counted := (Dis.EventReportPdu.takes).mono fun _ _ _ => Nat.zero_le _

theorem Codec.PointObjectStatePdu.taken : Codec.PointObjectStatePdu.Taken (Codec.PointObjectStatePdu.size) where
  takes := Dis.PointObjectStatePdu.takes
  counted := (Dis.PointObjectStatePdu.takes).mono fun _ _ _ => Nat.zero_le _

theorem Codec.DataPdu.taken : Codec.DataPdu.Taken (Codec.DataPdu.size) where
  takes := Dis.DataPdu.takes
  counted := (Dis.DataPdu.takes).mono fun _ _ _ => Nat.zero_le _

theorem catalogPdus3_taken : ∀ c ∈ catalogPdus3, ∃ m, c.Taken m ∧ (c.name ∉ ["DirectedEnergyFirePdu", "EntityDamageStatusPdu"] → m = c.size) := by
  intro c hc
  simp only [catalogPdus3, List.mem_cons, List.not_mem_nil, or_false] at hc
  rcases hc with rfl | rfl | rfl | rfl | rfl | rfl | rfl | rfl | rfl | rfl
  · exact ⟨_, Codec.DesignatorPdu.taken, fun _ => rfl⟩
  · exact ⟨_, Codec.StopFreezePdu.taken, fun _ => rfl⟩
  · exact ⟨_, Codec.EntityStatePdu.taken, fun _ => rfl⟩
  · exact ⟨_, Codec.StartResumePdu.taken, fun _ => rfl⟩
  · exact ⟨_, Codec.ElectromagneticEmissionsPdu.taken, fun _ => rfl⟩
  · exact ⟨_, Codec.ResupplyOfferPdu.taken, fun _ => rfl⟩
  · exact ⟨_, Codec.SetDataReliablePdu.taken, fun _ => rfl⟩
  · exact ⟨_, Codec.EventReportPdu.taken, fun _ => rfl⟩
  · exact ⟨_, Codec.PointObjectStatePdu.taken, fun _ => rfl⟩
  · exact ⟨_, Codec.DataPdu.taken, fun _ => rfl⟩

theorem Codec.FastEntityStatePdu.taken : Codec.FastEntityStatePdu.Taken (Codec.FastEntityStatePdu.size) where
  takes := Dis.FastEntityStatePdu.takes
  counted := (Dis.FastEntityStatePdu.takes).mono fun b (o : Dis.FastEntityStatePdu) he => by
    simp only [Codec.FastEntityStatePdu, List.map_cons, List.map_nil, List.sum_cons, List.sum_nil, Dis.FastEntityStatePdu.wireSize]
    try simp only [List.length_nil]
    omega

theorem Codec.AcknowledgeReliablePdu.taken : Codec.AcknowledgeReliablePdu.Taken (Codec.AcknowledgeReliablePdu.size) where
  takes := Dis.AcknowledgeReliablePdu.takes
  counted := (Dis.AcknowledgeReliablePdu.takes).mono fun _ _ _ => Nat.zero_le _

theorem Codec.StartResumeReliablePdu.taken : Codec.StartResumeReliablePdu.Taken (Codec.StartResumeReliablePdu.size) where
  takes := Dis.StartResumeReliablePdu.takes
  counted := (Dis.StartResumeReliablePdu.takes).mono fun _ _ _ => Nat.zero_le _

theorem Codec.ArealObjectStatePdu.taken : Codec.ArealObjectStatePdu.Taken (Codec.ArealObjectStatePdu.size) where
  takes := Dis.ArealObjectStatePdu.takes
  counted := (Dis.ArealObjectStatePdu.takes).mono fun b (o : Dis.ArealObjectStatePdu) he => by
    simp only [Codec.ArealObjectStatePdu, List.map_cons, List.map_nil, List.sum_cons, List.sum_nil, Dis.ArealObjectStatePdu.wireSize]
    try simp only [List.length_nil]
    omega

theorem Codec.DataQueryReliablePdu.taken : Codec.DataQueryReliablePdu.Taken (Codec.DataQueryReliablePdu.size) where
  takes := Dis.DataQueryReliablePdu.takes
  counted := (Dis.DataQueryReliablePdu.takes).mono fun _ _ _ => Nat.zero_le _

theorem Codec.MinefieldStatePdu.taken : Codec.MinefieldStatePdu.Taken (Codec.MinefieldStatePdu.size) where
  takes := Dis.MinefieldStatePdu.takes
  counted := (Dis.MinefieldStatePdu.takes).mono fun b (o : Dis.MinefieldStatePdu) he => by
    simp only [Codec.MinefieldStatePdu, List.map_cons, List.map_nil, List.sum_cons, List.sum_nil, Dis.MinefieldStatePdu.wireSize]
    try simp only [List.length_nil]
    omega

theorem Codec.DataReliablePdu.taken : Codec.DataReliablePdu.Taken (Codec.DataReliablePdu.size) where
  takes := Dis.DataReliablePdu.takes
  counted := (Dis.DataReliablePdu.takes).mono fun _ _ _ => Nat.zero_le _

theorem Codec.CommentPdu.taken : Codec.CommentPdu.Taken (Codec.CommentPdu.size) where
  takes := Dis.CommentPdu.takes
  counted := (Dis.CommentPdu.takes).mono fun _ _ _ => Nat.zero_le _

theorem Codec.CommentReliablePdu.taken : Codec.CommentReliablePdu.Taken (Codec.CommentReliablePdu.size) where
  takes := Dis.CommentReliablePdu.takes
  counted := (Dis.CommentReliablePdu.takes).mono fun _ _ _ => Nat.zero_le _

theorem Codec.DetonationPdu.taken : Codec.DetonationPdu.Taken (Codec.DetonationPdu.size) where
  takes := Dis.DetonationPdu.takes
  counted := (Dis.DetonationPdu.takes).mono fun b (o : Dis.DetonationPdu) he => by
    simp only [Codec.DetonationPdu, List.map_cons, List.map_nil, List.sum_cons, List.sum_nil, Dis.DetonationPdu.wireSize]
    try simp only [List.length_nil]
    omega

theorem Codec.SetDataPdu.taken : Codec.SetDataPdu.Taken (Codec.SetDataPdu.size) where
  takes := Dis.SetDataPdu.takes
  counted := (Dis.SetDataPdu.takes).mono fun _ _ _ => Nat.zero_le _

theorem Codec.RecordQueryReliablePdu.taken : Codec.RecordQueryReliablePdu.Taken (Codec.RecordQueryReliablePdu.size) where
  takes := Dis.RecordQueryReliablePdu.takes
  counted := (Dis.RecordQueryReliablePdu.takes').mono fun b (o : Dis.RecordQueryReliablePdu) he => by
    replace he := he.2
    simp only [Codec.RecordQueryReliablePdu, List.map_cons, List.map_nil, List.sum_cons, List.sum_nil, Dis.RecordQueryReliablePdu.wireSize, he]
    try simp only [List.length_nil]
    omega

theorem Codec.ActionResponsePdu.taken : Codec.ActionResponsePdu.Taken (Codec.ActionResponsePdu.size) where
  takes := Dis.ActionResponsePdu.takes
  counted := (Dis.ActionResponsePdu.takes).mono fun _ _ _ => Nat.zero_le _

theorem catalogPdus4_taken : ∀ c ∈ catalogPdus4, ∃ m, c.Taken m ∧ (c.name ∉ ["DirectedEnergyFirePdu", "EntityDamageStatusPdu"] → m = c.size) := by
  intro c hc
  simp only [catalogPdus4, List.mem_cons, List.not_mem_nil, or_false] at hc
  rcases hc with rfl | rfl | rfl | rfl | rfl | rfl | rfl | rfl | rfl | rfl | rfl | rfl | rfl
  · exact ⟨_, Codec.FastEntityStatePdu.taken, fun _ => rfl⟩
  · exact ⟨_, Codec.AcknowledgeReliablePdu.taken, fun _ => rfl⟩
  · exact ⟨_, Codec.StartResumeReliablePdu.taken, fun _ => rfl⟩
  · exact ⟨_, Codec.ArealObjectStatePdu.taken, fun _ => rfl⟩
  · exact ⟨_, Codec.DataQueryReliablePdu.taken, fun _ => rfl⟩
  · exact ⟨_, Codec.MinefieldStatePdu.taken, fun _ => rfl⟩
  · exact ⟨_, Codec.DataReliablePdu.taken, fun _ => rfl⟩
  · exact ⟨_, Codec.CommentPdu.taken, fun _ => rfl⟩
  · exact ⟨_, Codec.CommentReliablePdu.taken, fun _ => rfl⟩
  · exact ⟨_, Codec.DetonationPdu.taken, fun _ => rfl⟩
  · exact ⟨_, Codec.SetDataPdu.taken, fun _ => rfl⟩
  · exact ⟨_, Codec.RecordQueryReliablePdu.taken, fun _ => rfl⟩
  · exact ⟨_, Codec.ActionResponsePdu.taken, fun _ => rfl⟩

theorem Codec.FirePdu.taken : Codec.FirePdu.Taken (Codec.FirePdu.size) where
  takes := Dis.FirePdu.takes
  counted := (Dis.FirePdu.takes).mono fun _ _ _ => Nat.zero_le _

theorem Codec.ReceiverPdu.taken : Codec.ReceiverPdu.Taken (Codec.ReceiverPdu.size) where
  takes := Dis.ReceiverPdu.takes
  counted := (Dis.ReceiverPdu.takes).mono fun _ _ _ => Nat.zero_le _

theorem Codec.UaPdu.taken : Codec.UaPdu.Taken (Codec.UaPdu.size) where
  takes := Dis.UaPdu.takes
  counted := (Dis.UaPdu.takes').mono fun b (o : Dis.UaPdu) he => by
    replace he := he.2
    simp only [Codec.UaPdu, List.map_cons, List.map_nil, List.sum_cons, List.sum_nil, Dis.UaPdu.wireSize, he]
    try simp only [List.length_nil]
    omega

theorem Codec.SignalPdu.taken : Codec.SignalPdu.Taken (Codec.SignalPdu.size) where
  takes := Dis.SignalPdu.takes
  counted := (Dis.SignalPdu.takes).mono fun b (o : Dis.SignalPdu) he => by
    simp only [Codec.SignalPdu, List.map_cons, List.map_nil, List.sum_cons, List.sum_nil, Dis.SignalPdu.wireSize]
    try simp only [List.length_nil]
    omega

theorem Codec.RemoveEntityReliablePdu.taken : Codec.RemoveEntityReliablePdu.Taken (Codec.RemoveEntityReliablePdu.size) where
  takes := Dis.RemoveEntityReliablePdu.takes
  counted := (Dis.RemoveEntityReliablePdu.takes).mono fun _ _ _ => Nat.zero_le _

theorem Codec.SeesPdu.taken : Codec.SeesPdu.Taken (Codec.SeesPdu.size) where
  takes := Dis.SeesPdu.takes
  counted := (Dis.SeesPdu.takes').mono fun b (o : Dis.SeesPdu) he => by
    replace he := he.2
    simp only [Codec.SeesPdu, List.map_cons, List.map_nil, List.sum_cons, List.sum_nil, Dis.SeesPdu.wireSize, he]
    try simp only [List.length_nil]
    omega

theorem Codec.CreateEntityReliablePdu.taken : Codec.CreateEntityReliablePdu.Taken (Codec.CreateEntityReliablePdu.size) where
  takes := Dis.CreateEntityReliablePdu.takes
  counted := (Dis.CreateEntityReliablePdu.takes).mono fun _ _ _ => Nat.zero_le _

theorem Codec.StopFreezeReliablePdu.taken : Codec.StopFreezeReliablePdu.Taken (Codec.StopFreezeReliablePdu.size) where
  takes := Dis.StopFreezeReliablePdu.takes
  counted := (Dis.StopFreezeReliablePdu.takes).mono fun _ _ _ => Nat.zero_le _

theorem Codec.EventReportReliablePdu.taken : Codec.EventReportReliablePdu.Taken (Codec.EventReportReliablePdu.size) where
  takes := Dis.EventReportReliablePdu.takes
  counted := (Dis.EventReportReliablePdu.takes).mono fun _ _ _ => Nat.zero_le _

theorem Codec.MinefieldResponseNackPdu.taken : Codec.MinefieldResponseNackPdu.Taken (Codec.MinefieldResponseNackPdu.size) where
  takes := Dis.MinefieldResponseNackPdu.takes
  counted := (Dis.MinefieldResponseNackPdu.takes').mono fun b (o : Dis.MinefieldResponseNackPdu) he => by
    replace he := he.2
    simp only [Codec.MinefieldResponseNackPdu, List.map_cons, List.map_nil, List.sum_cons, List.sum_nil, Dis.MinefieldResponseNackPdu.wireSize, he]
    try simp only [List.length_nil]
    omega

theorem Codec.ActionResponseReliablePdu.taken : Codec.ActionResponseReliablePdu.Taken (Codec.ActionResponseReliablePdu.size) where
  takes := Dis.ActionResponseReliablePdu.takes
  counted := (Dis.ActionResponseReliablePdu.takes).mono fun _ _ _ => Nat.zero_le _

theorem Codec.IsPartOfPdu.taken : Codec.IsPartOfPdu.Taken (Codec.IsPartOfPdu.size) where
  takes := Dis.IsPartOfPdu.takes
  counted := (Dis.IsPartOfPdu.takes).mono fun _ _ _ => Nat.zero_le _

theorem Codec.AggregateStatePdu.taken : Codec.AggregateStatePdu.Taken (Codec.AggregateStatePdu.size) where
  takes := Dis.AggregateStatePdu.takes
  counted := (Dis.AggregateStatePdu.takes).mono fun b (o : Dis.AggregateStatePdu) he => by
    have h0 := len_le_sum _ (fun x => by unfold Dis.VariableDatum.wireSize; omega : ∀ x : Dis.VariableDatum, 1 ≤ x.wireSize) o.variableDatumRecords
    simp only [Codec.AggregateStatePdu, List.map_cons, List.map_nil, List.sum_cons, List.sum_nil, Dis.AggregateStatePdu.wireSize]
    try simp only [List.length_nil]
    omega

theorem catalogPdus5_taken : ∀ c ∈ catalogPdus5, ∃ m, c.Taken m ∧ (c.name ∉ ["DirectedEnergyFirePdu", "EntityDamageStatusPdu"] → m = c.size) := by
  intro c hc
  simp only [catalogPdus5, List.mem_cons, List.not_mem_nil, or_false] at hc
  rcases hc with rfl | rfl | rfl | rfl | rfl | rfl | rfl | rfl | rfl | rfl | rfl | rfl | rfl
  · exact ⟨_, Codec.FirePdu.taken, fun _ => rfl⟩
  · exact ⟨_, Codec.ReceiverPdu.taken, fun _ => rfl⟩
  · exact ⟨_, Codec.UaPdu.taken, fun _ => rfl⟩
  · exact ⟨_, Codec.SignalPdu.taken, fun _ => rfl⟩
  · exact ⟨_, Codec.RemoveEntityReliablePdu.taken, fun _ => rfl⟩
  · exact ⟨_, Codec.SeesPdu.taken, fun _ => rfl⟩
  · exact ⟨_, Codec.CreateEntityReliablePdu.taken, fun _ => rfl⟩
  · exact ⟨_, Codec.StopFreezeReliablePdu.taken, fun _ => rfl⟩
  · exact ⟨_, Codec.EventReportReliablePdu.taken, fun _ => rfl⟩
  · exact ⟨_, Codec.MinefieldResponseNackPdu.taken, fun _ => rfl⟩
  · exact ⟨_, Codec.ActionResponseReliablePdu.taken, fun _ => rfl⟩
  · exact ⟨_, Codec.IsPartOfPdu.taken, fun _ => rfl⟩
  · exact ⟨_, Codec.AggregateStatePdu.taken, fun _ => rfl⟩

theorem Codec.BeamAntennaPattern.taken : Codec.BeamAntennaPattern.Taken (Codec.BeamAntennaPattern.size) where
  takes := Dis.BeamAntennaPattern.takes (some 40)
  counted := (Dis.BeamAntennaPattern.takes (some 40)).mono fun _ _ _ => Nat.zero_le _

theorem Codec.SpreadSpectrum.taken : Codec.SpreadSpectrum.Taken (Codec.SpreadSpectrum.size) where
  takes := Dis.SpreadSpectrum.takes
  counted := (Dis.SpreadSpectrum.takes).mono fun _ _ _ => Nat.zero_le _

theorem Codec.ModulationType.taken : Codec.ModulationType.Taken (Codec.ModulationType.size) where
  takes := Dis.ModulationType.takes
  counted := (Dis.ModulationType.takes).mono fun _ _ _ => Nat.zero_le _

theorem Codec.NetId.taken : Codec.NetId.Taken (Codec.NetId.size) where
  takes := Dis.NetId.takes Dis.NetId.init
  counted := (Dis.NetId.takes Dis.NetId.init).mono fun _ _ _ => Nat.zero_le _

theorem Codec.BasicHaveQuickMP.taken : Codec.BasicHaveQuickMP.Taken (Codec.BasicHaveQuickMP.size) where
  takes := Dis.BasicHaveQuickMP.takes none
  counted := (Dis.BasicHaveQuickMP.takes none).mono fun _ _ _ => Nat.zero_le _

theorem Codec.CCTTSincgarsMP.taken : Codec.CCTTSincgarsMP.Taken (Codec.CCTTSincgarsMP.size) where
  takes := Dis.CCTTSincgarsMP.takes none
  counted := (Dis.CCTTSincgarsMP.takes none).mono fun _ _ _ => Nat.zero_le _

theorem catalogRadio_taken : ∀ c ∈ catalogRadio, ∃ m, c.Taken m ∧ (c.name ∉ ["DirectedEnergyFirePdu", "EntityDamageStatusPdu"] → m = c.size) := by
  intro c hc
  simp only [catalogRadio, List.mem_cons, List.not_mem_nil, or_false] at hc
  rcases hc with rfl | rfl | rfl | rfl | rfl | rfl
  · exact ⟨_, Codec.BeamAntennaPattern.taken, fun _ => rfl⟩
  · exact ⟨_, Codec.SpreadSpectrum.taken, fun _ => rfl⟩
  · exact ⟨_, Codec.ModulationType.taken, fun _ => rfl⟩
  · exact ⟨_, Codec.NetId.taken, fun _ => rfl⟩
  · exact ⟨_, Codec.BasicHaveQuickMP.taken, fun _ => rfl⟩
  · exact ⟨_, Codec.CCTTSincgarsMP.taken, fun _ => rfl⟩

theorem Codec.DEFireFlags.taken : Codec.DEFireFlags.Taken (Codec.DEFireFlags.size) where
  takes := Dis.DEFireFlags.takes Dis.DEFireFlags.init
  counted := (Dis.DEFireFlags.takes Dis.DEFireFlags.init).mono fun _ _ _ => Nat.zero_le _

theorem Codec.DirectedEnergyTargetEnergyDeposition.taken : Codec.DirectedEnergyTargetEnergyDeposition.Taken (Codec.DirectedEnergyTargetEnergyDeposition.size) where
  takes := Dis.DirectedEnergyTargetEnergyDeposition.takes
  counted := (Dis.DirectedEnergyTargetEnergyDeposition.takes).mono fun _ _ _ => Nat.zero_le _

theorem catalogWarfare_taken : ∀ c ∈ catalogWarfare, ∃ m, c.Taken m ∧ (c.name ∉ ["DirectedEnergyFirePdu", "EntityDamageStatusPdu"] → m = c.size) := by
  intro c hc
  simp only [catalogWarfare, List.mem_cons, List.not_mem_nil, or_false] at hc
  rcases hc with rfl | rfl
  · exact ⟨_, Codec.DEFireFlags.taken, fun _ => rfl⟩
  · exact ⟨_, Codec.DirectedEnergyTargetEnergyDeposition.taken, fun _ => rfl⟩

theorem Codec.DirectedEnergyFirePdu.taken : Codec.DirectedEnergyFirePdu.Taken (Dis.DirectedEnergyFirePdu.receivedSize) where
  takes := Dis.DirectedEnergyFirePdu.takes
  counted := (Dis.DirectedEnergyFirePdu.takes).mono fun b (o : Dis.DirectedEnergyFirePdu) he => by
    have h0 := len_le_sum _ (fun x => by omega : ∀ x : SVRecord, 1 ≤ 6 + x.contentsSize) o.dERecords
    simp only [Codec.DirectedEnergyFirePdu, List.map_cons, List.map_nil, List.sum_cons, List.sum_nil, Dis.DirectedEnergyFirePdu.receivedSize]
    try simp only [List.length_nil]
    omega

theorem Codec.EntityDamageStatusPdu.taken : Codec.EntityDamageStatusPdu.Taken (Dis.EntityDamageStatusPdu.receivedSize) where
  takes := Dis.EntityDamageStatusPdu.takes
  counted := (Dis.EntityDamageStatusPdu.takes).mono fun b (o : Dis.EntityDamageStatusPdu) he => by
    have h0 := len_le_sum _ (fun x => by omega : ∀ x : SVRecord, 1 ≤ 6 + x.contentsSize) o.damageDescriptions
    simp only [Codec.EntityDamageStatusPdu, List.map_cons, List.map_nil, List.sum_cons, List.sum_nil, Dis.EntityDamageStatusPdu.receivedSize]
    try simp only [List.length_nil]
    omega

theorem catalogSpecial_taken : ∀ c ∈ catalogSpecial, ∃ m, c.Taken m ∧ (c.name ∉ ["DirectedEnergyFirePdu", "EntityDamageStatusPdu"] → m = c.size) := by
  intro c hc
  simp only [catalogSpecial, List.mem_cons, List.not_mem_nil, or_false] at hc
  rcases hc with rfl | rfl
  · exact ⟨_, Codec.DirectedEnergyFirePdu.taken, fun h => absurd (by decide) h⟩
  · exact ⟨_, Codec.EntityDamageStatusPdu.taken, fun h => absurd (by decide) h⟩

theorem catalog_taken : ∀ c ∈ catalog, ∃ m, c.Taken m ∧ (c.name ∉ ["DirectedEnergyFirePdu", "EntityDamageStatusPdu"] → m = c.size) := by
  intro c hc
  simp only [catalog, List.mem_append] at hc
  rcases hc with (((((((((((((h | h) | h) | h) | h) | h) | h) | h) | h) | h) | h) | h) | h) | h)
  · exact catalogCommon_taken c h
  · exact catalogRecords1_taken c h
  · exact catalogRecords2_taken c h
  · exact catalogRecords3_taken c h
  · exact catalogRecords4_taken c h
  · exact catalogRecords5_taken c h
  · exact catalogPdus1_taken c h
  · exact catalogPdus2_taken c h
  · exact catalogPdus3_taken c h
  · exact catalogPdus4_taken c h
  · exact catalogPdus5_taken c h
  · exact catalogRadio_taken c h
  · exact catalogWarfare_taken c h
  · exact catalogSpecial_taken c h

end Dis
