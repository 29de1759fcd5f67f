import Verif.Proof.HeapCtors1
import Verif.Proof.HeapCtors2
import Verif.Proof.HeapCtors3

/-!
# Constructors with arguments, all of them

Generated by `tools/genheapargs.py`.
-/

set_option linter.unusedVariables false
set_option linter.unusedSimpArgs false

namespace Dis

theorem ctorsCommon_lawful : ∀ c ∈ ctorsCommon, c.Lawful := by
  intro c hc
  simp only [ctorsCommon, List.mem_cons, List.not_mem_nil, or_false] at hc
  rcases hc with rfl | rfl | rfl | rfl | rfl | rfl
  · exact Ctor.SimulationAddress.lawful
  · exact Ctor.EntityIdentifier.lawful
  · exact Ctor.EulerAngles.lawful
  · exact Ctor.EventIdentifier.lawful
  · exact Ctor.Vector3Float.lawful
  · exact Ctor.WorldCoordinates.lawful

theorem ctorsRecords1_lawful : ∀ c ∈ ctorsRecords1, c.Lawful := by
  intro c hc
  simp only [ctorsRecords1, List.mem_cons, List.not_mem_nil, or_false] at hc
  rcases hc with rfl | rfl | rfl | rfl | rfl | rfl | rfl | rfl | rfl | rfl | rfl | rfl | rfl | rfl | rfl | rfl | rfl | rfl | rfl | rfl | rfl | rfl
  · exact Ctor.DataQueryDatumSpecification.lawful
  · exact Ctor.RadioIdentifier.lawful
  · exact Ctor.RequestID.lawful
  · exact Ctor.IFFData.lawful
  · exact Ctor.EntityType.lawful
  · exact Ctor.MunitionDescriptor.lawful
  · exact Ctor.MinefieldSensorType.lawful
  · exact Ctor.GroupID.lawful
  · exact Ctor.LayerHeader.lawful
  · exact Ctor.UnsignedDISInteger.lawful
  · exact Ctor.DeadReckoningParameters.lawful
  · exact Ctor.ProtocolMode.lawful
  · exact Ctor.AngleDeception.lawful
  · exact Ctor.EntityAssociation.lawful
  · exact Ctor.VectoringNozzleSystem.lawful
  · exact Ctor.FalseTargetsAttribute.lawful
  · exact Ctor.MinefieldIdentifier.lawful
  · exact Ctor.RadioType.lawful
  · exact Ctor.NamedLocationIdentification.lawful
  · exact Ctor.IFFDataSpecification.lawful
  · exact Ctor.OwnershipStatus.lawful
  · exact Ctor.AttachedParts.lawful

theorem ctorsRecords2_lawful : ∀ c ∈ ctorsRecords2, c.Lawful := by
  intro c hc
  simp only [ctorsRecords2, List.mem_cons, List.not_mem_nil, or_false] at hc
  rcases hc with rfl | rfl | rfl | rfl | rfl | rfl | rfl | rfl | rfl | rfl | rfl | rfl | rfl | rfl | rfl | rfl | rfl | rfl | rfl | rfl | rfl | rfl
  · exact Ctor.Attribute.lawful
  · exact Ctor.RecordQuerySpecification.lawful
  · exact Ctor.ArticulatedParts.lawful
  · exact Ctor.ObjectType.lawful
  · exact Ctor.Association.lawful
  · exact Ctor.RecordSpecificationElement.lawful
  · exact Ctor.AntennaLocation.lawful
  · exact Ctor.ObjectIdentifier.lawful
  · exact Ctor.AggregateIdentifier.lawful
  · exact Ctor.FixedDatum.lawful
  · exact Ctor.VariableParameter.lawful
  · exact Ctor.ChangeOptions.lawful
  · exact Ctor.LiveSimulationAddress.lawful
  · exact Ctor.EntityMarking.lawful
  · exact Ctor.UAFundamentalParameter.lawful
  · exact Ctor.ExplosionDescriptor.lawful
  · exact Ctor.ClockTime.lawful
  · exact Ctor.SecondaryOperationalData.lawful
  · exact Ctor.EnvironmentType.lawful
  · exact Ctor.TotalRecordSets.lawful
  · exact Ctor.MineEntityIdentifier.lawful
  · exact Ctor.Relationship.lawful

theorem ctorsRecords3_lawful : ∀ c ∈ ctorsRecords3, c.Lawful := by
  intro c hc
  simp only [ctorsRecords3, List.mem_cons, List.not_mem_nil, or_false] at hc
  rcases hc with rfl | rfl | rfl | rfl | rfl | rfl | rfl | rfl | rfl | rfl | rfl | rfl | rfl | rfl | rfl | rfl | rfl | rfl | rfl | rfl | rfl | rfl
  · exact Ctor.EEFundamentalParameterData.lawful
  · exact Ctor.JammingTechnique.lawful
  · exact Ctor.VariableDatum.lawful
  · exact Ctor.DatumSpecification.lawful
  · exact Ctor.Expendable.lawful
  · exact Ctor.CommunicationsNodeID.lawful
  · exact Ctor.IOCommunicationsNode.lawful
  · exact Ctor.LinearSegmentParameter.lawful
  · exact Ctor.SystemIdentifier.lawful
  · exact Ctor.TrackJamData.lawful
  · exact Ctor.AggregateType.lawful
  · exact Ctor.SimulationIdentifier.lawful
  · exact Ctor.PduHeader.lawful
  · exact Ctor.SimulationManagementPduHeader.lawful
  · exact Ctor.BeamData.lawful
  · exact Ctor.EngineFuel.lawful
  · exact Ctor.IOEffect.lawful
  · exact Ctor.GridAxisDescriptorVariable.lawful
  · exact Ctor.SupplyQuantity.lawful
  · exact Ctor.SilentEntitySystem.lawful
  · exact Ctor.SilentAggregateSystem.lawful
  · exact Ctor.BlankingSector.lawful

theorem ctorsRecords4_lawful : ∀ c ∈ ctorsRecords4, c.Lawful := by
  intro c hc
  simp only [ctorsRecords4, List.mem_cons, List.not_mem_nil, or_false] at hc
  rcases hc with rfl | rfl | rfl | rfl | rfl | rfl | rfl | rfl | rfl | rfl | rfl | rfl | rfl | rfl | rfl | rfl | rfl | rfl | rfl | rfl | rfl | rfl
  · exact Ctor.LaunchedMunitionRecord.lawful
  · exact Ctor.IFFFundamentalParameterData.lawful
  · exact Ctor.FundamentalOperationalData.lawful
  · exact Ctor.IntercomCommunicationsParameters.lawful
  · exact Ctor.Munition.lawful
  · exact Ctor.StandardVariableSpecification.lawful
  · exact Ctor.Vector2Float.lawful
  · exact Ctor.Environment.lawful
  · exact Ctor.AcousticEmitter.lawful
  · exact Ctor.AngularVelocityVector.lawful
  · exact Ctor.AggregateMarking.lawful
  · exact Ctor.DataFilterRecord.lawful
  · exact Ctor.IntercomIdentifier.lawful
  · exact Ctor.StorageFuel.lawful
  · exact Ctor.Sensor.lawful
  · exact Ctor.MunitionReload.lawful
  · exact Ctor.StorageFuelReload.lawful
  · exact Ctor.ExpendableReload.lawful
  · exact Ctor.EngineFuelReload.lawful
  · exact Ctor.UnattachedIdentifier.lawful
  · exact Ctor.EntityTypeVP.lawful
  · exact Ctor.BeamStatus.lawful

theorem ctorsRecords5_lawful : ∀ c ∈ ctorsRecords5, c.Lawful := by
  intro c hc
  simp only [ctorsRecords5, List.mem_cons, List.not_mem_nil, or_false] at hc
  rcases hc with rfl | rfl | rfl | rfl | rfl | rfl | rfl | rfl | rfl | rfl | rfl | rfl
  · exact Ctor.EnvironmentGeneral.lawful
  · exact Ctor.GridAxis.lawful
  · exact Ctor.RecordSpecification.lawful
  · exact Ctor.EventIdentifierLiveEntity.lawful
  · exact Ctor.ExpendableDescriptor.lawful
  · exact Ctor.PropulsionSystemData.lawful
  · exact Ctor.LiveEntityIdentifier.lawful
  · exact Ctor.SeparationVP.lawful
  · exact Ctor.EmitterSystem.lawful
  · exact Ctor.PduStatus.lawful
  · exact Ctor.EmissionSystemBeamRecord.lawful
  · exact Ctor.EmissionSystemRecord.lawful

theorem ctorsPdus1_lawful : ∀ c ∈ ctorsPdus1, c.Lawful := by
  intro c hc
  simp only [ctorsPdus1, List.mem_cons, List.not_mem_nil, or_false] at hc
  rcases hc with rfl | rfl | rfl | rfl | rfl | rfl
  · exact Ctor.EntityStateUpdatePdu.lawful
  · exact Ctor.ServiceRequestPdu.lawful
  · exact Ctor.RepairCompletePdu.lawful
  · exact Ctor.CollisionPdu.lawful
  · exact Ctor.RepairResponsePdu.lawful
  · exact Ctor.DataQueryPdu.lawful

theorem ctorsPdus2_lawful : ∀ c ∈ ctorsPdus2, c.Lawful := by
  intro c hc
  simp only [ctorsPdus2, List.mem_cons, List.not_mem_nil, or_false] at hc
  rcases hc with rfl | rfl | rfl | rfl | rfl | rfl | rfl | rfl
  · exact Ctor.CreateEntityPdu.lawful
  · exact Ctor.IntercomSignalPdu.lawful
  · exact Ctor.RemoveEntityPdu.lawful
  · exact Ctor.ResupplyReceivedPdu.lawful
  · exact Ctor.CollisionElasticPdu.lawful
  · exact Ctor.ActionRequestPdu.lawful
  · exact Ctor.AcknowledgePdu.lawful
  · exact Ctor.ActionRequestReliablePdu.lawful

theorem ctorsPdus3_lawful : ∀ c ∈ ctorsPdus3, c.Lawful := by
  intro c hc
  simp only [ctorsPdus3, List.mem_cons, List.not_mem_nil, or_false] at hc
  rcases hc with rfl | rfl | rfl | rfl | rfl | rfl | rfl | rfl | rfl | rfl
  · exact Ctor.DesignatorPdu.lawful
  · exact Ctor.StopFreezePdu.lawful
  · exact Ctor.EntityStatePdu.lawful
  · exact Ctor.StartResumePdu.lawful
  · exact Ctor.ElectromagneticEmissionsPdu.lawful
  · exact Ctor.ResupplyOfferPdu.lawful
  · exact Ctor.SetDataReliablePdu.lawful
  · exact Ctor.EventReportPdu.lawful
  · exact Ctor.PointObjectStatePdu.lawful
  · exact Ctor.DataPdu.lawful

theorem ctorsPdus4_lawful : ∀ c ∈ ctorsPdus4, c.Lawful := by
  intro c hc
  simp only [ctorsPdus4, List.mem_cons, List.not_mem_nil, or_false] at hc
  rcases hc with rfl | rfl | rfl | rfl | rfl | rfl | rfl | rfl | rfl | rfl | rfl | rfl | rfl
  · exact Ctor.FastEntityStatePdu.lawful
  · exact Ctor.AcknowledgeReliablePdu.lawful
  · exact Ctor.StartResumeReliablePdu.lawful
  · exact Ctor.ArealObjectStatePdu.lawful
  · exact Ctor.DataQueryReliablePdu.lawful
  · exact Ctor.MinefieldStatePdu.lawful
  · exact Ctor.DataReliablePdu.lawful
  · exact Ctor.CommentPdu.lawful
  · exact Ctor.CommentReliablePdu.lawful
  · exact Ctor.DetonationPdu.lawful
  · exact Ctor.SetDataPdu.lawful
  · exact Ctor.RecordQueryReliablePdu.lawful
  · exact Ctor.ActionResponsePdu.lawful

theorem ctorsPdus5_lawful : ∀ c ∈ ctorsPdus5, c.Lawful := by
  intro c hc
  simp only [ctorsPdus5, List.mem_cons, List.not_mem_nil, or_false] at hc
  rcases hc with rfl | rfl | rfl | rfl | rfl | rfl | rfl | rfl | rfl | rfl | rfl | rfl | rfl
  · exact Ctor.FirePdu.lawful
  · exact Ctor.ReceiverPdu.lawful
  · exact Ctor.UaPdu.lawful
  · exact Ctor.SignalPdu.lawful
  · exact Ctor.RemoveEntityReliablePdu.lawful
  · exact Ctor.SeesPdu.lawful
  · exact Ctor.CreateEntityReliablePdu.lawful
  · exact Ctor.StopFreezeReliablePdu.lawful
  · exact Ctor.EventReportReliablePdu.lawful
  · exact Ctor.MinefieldResponseNackPdu.lawful
  · exact Ctor.ActionResponseReliablePdu.lawful
  · exact Ctor.IsPartOfPdu.lawful
  · exact Ctor.AggregateStatePdu.lawful

theorem ctorsRadio_lawful : ∀ c ∈ ctorsRadio, c.Lawful := by
  intro c hc
  simp only [ctorsRadio, List.mem_cons, List.not_mem_nil, or_false] at hc
  rcases hc with rfl | rfl | rfl | rfl | rfl | rfl
  · exact Ctor.BeamAntennaPattern.lawful
  · exact Ctor.SpreadSpectrum.lawful
  · exact Ctor.ModulationType.lawful
  · exact Ctor.NetId.lawful
  · exact Ctor.BasicHaveQuickMP.lawful
  · exact Ctor.CCTTSincgarsMP.lawful

theorem ctorsWarfare_lawful : ∀ c ∈ ctorsWarfare, c.Lawful := by
  intro c hc
  simp only [ctorsWarfare, List.mem_cons, List.not_mem_nil, or_false] at hc
  rcases hc with rfl | rfl
  · exact Ctor.DEFireFlags.lawful
  · exact Ctor.DirectedEnergyTargetEnergyDeposition.lawful

theorem ctorsSpecial_lawful : ∀ c ∈ ctorsSpecial, c.Lawful := by
  intro c hc
  simp only [ctorsSpecial, List.mem_cons, List.not_mem_nil, or_false] at hc
  rcases hc with rfl | rfl
  · exact Ctor.DirectedEnergyFirePdu.lawful
  · exact Ctor.EntityDamageStatusPdu.lawful

theorem ctorsAlone_lawful : ∀ c ∈ ctorsAlone, c.Lawful := by
  intro c hc
  simp only [ctorsAlone, List.mem_cons, List.not_mem_nil, or_false] at hc
  rcases hc with rfl | rfl
  · exact Ctor.TransmitterPdu.lawful
  · exact Ctor.IntercomControlPdu.lawful

theorem heapCtors_lawful : ∀ c ∈ heapCtors, c.Lawful := by
  intro c hc
  simp only [heapCtors, List.mem_append] at hc
  rcases hc with ((((((((((((((h | h) | h) | h) | h) | h) | h) | h) | h) | h) | h) | h) | h) | h) | h)
  · exact ctorsCommon_lawful c h
  · exact ctorsRecords1_lawful c h
  · exact ctorsRecords2_lawful c h
  · exact ctorsRecords3_lawful c h
  · exact ctorsRecords4_lawful c h
  · exact ctorsRecords5_lawful c h
  · exact ctorsPdus1_lawful c h
  · exact ctorsPdus2_lawful c h
  · exact ctorsPdus3_lawful c h
  · exact ctorsPdus4_lawful c h
  · exact ctorsPdus5_lawful c h
  · exact ctorsRadio_lawful c h
  · exact ctorsWarfare_lawful c h
  · exact ctorsSpecial_lawful c h
  · exact ctorsAlone_lawful c h

end Dis
