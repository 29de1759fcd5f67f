import Verif.Proof.Factory
import Verif.Proof.InPlaceSpecial

/-!
# The header of a decoded message

Generated by `tools/genheader.py`.
-/

set_option linter.unusedVariables false

namespace Dis

/-- A successful run has a result with the property. -/
def Ends {α : Type} (φ : α → Prop) (r : R α) : Prop := ∀ s x s', r s = (.ok x, s') → φ x

theorem Ends.pure {α} {φ : α → Prop} {a : α} (h : φ a) : Ends φ (Pure.pure a : R α) := by
  intro s x s' e
  cases e
  exact h

theorem Ends.bind {α β} {φ : β → Prop} {r : R α} {k : α → R β} (h : ∀ a, Ends φ (k a)) : Ends φ (r >>= k) := by
  intro s x s' e
  obtain ⟨a, s1, -, e2⟩ := R.bind_inv e
  exact h a _ _ _ e2

/-- A successful run begins with the header of its result. -/
def Heads {α : Type} (hd : α → Pdu) (r : R α) : Prop :=
  ∀ s x s', r s = (.ok x, s') → ∃ s1, Pdu.parse { pduType := 0, protocolFamily := 0 } s = (.ok (hd x), s1)

theorem Heads.first {α β} {hd : α → Pdu} {hd' : β → Pdu} {r : R α} {k : α → R β} (h : Heads hd r)
    (hk : ∀ a, Ends (fun x => hd' x = hd a) (k a)) : Heads hd' (r >>= k) := by
  intro s x s' e
  obtain ⟨a, s1, e1, e2⟩ := R.bind_inv e
  obtain ⟨s2, h2⟩ := h _ _ _ e1
  exact ⟨s2, by rw [hk a _ _ _ e2, h2]⟩

theorem Pdu.heads (o : Pdu) : Heads id (Pdu.parse o) := fun s x s' e =>
  ⟨s', by rw [Pdu.again (o := o) (x := { pduType := 0, protocolFamily := 0 }) trivial, e]; rfl⟩

theorem EntityInformationFamilyPdu.heads (o : EntityInformationFamilyPdu) : Heads (·.toPdu) (EntityInformationFamilyPdu.parse o) := by
  unfold EntityInformationFamilyPdu.parse
  refine Heads.first (Pdu.heads _) fun _ => ?_
  exact Ends.pure rfl

theorem EntityStateUpdatePdu.heads (o : EntityStateUpdatePdu) : Heads (·.toPdu) (EntityStateUpdatePdu.parse o) := by
  unfold EntityStateUpdatePdu.parse
  refine Heads.first (EntityInformationFamilyPdu.heads _) fun _ => ?_
  iterate 8 refine Ends.bind fun _ => ?_
  exact Ends.pure rfl

theorem LogisticsFamilyPdu.heads (o : LogisticsFamilyPdu) : Heads (·.toPdu) (LogisticsFamilyPdu.parse o) := by
  unfold LogisticsFamilyPdu.parse
  refine Heads.first (Pdu.heads _) fun _ => ?_
  exact Ends.pure rfl

theorem ServiceRequestPdu.heads (o : ServiceRequestPdu) : Heads (·.toPdu) (ServiceRequestPdu.parse o) := by
  unfold ServiceRequestPdu.parse
  refine Heads.first (LogisticsFamilyPdu.heads _) fun _ => ?_
  iterate 6 refine Ends.bind fun _ => ?_
  exact Ends.pure rfl

theorem RepairCompletePdu.heads (o : RepairCompletePdu) : Heads (·.toPdu) (RepairCompletePdu.parse o) := by
  unfold RepairCompletePdu.parse
  refine Heads.first (LogisticsFamilyPdu.heads _) fun _ => ?_
  iterate 4 refine Ends.bind fun _ => ?_
  exact Ends.pure rfl

theorem CollisionPdu.heads (o : CollisionPdu) : Heads (·.toPdu) (CollisionPdu.parse o) := by
  unfold CollisionPdu.parse
  refine Heads.first (EntityInformationFamilyPdu.heads _) fun _ => ?_
  iterate 8 refine Ends.bind fun _ => ?_
  exact Ends.pure rfl

theorem RepairResponsePdu.heads (o : RepairResponsePdu) : Heads (·.toPdu) (RepairResponsePdu.parse o) := by
  unfold RepairResponsePdu.parse
  refine Heads.first (LogisticsFamilyPdu.heads _) fun _ => ?_
  iterate 5 refine Ends.bind fun _ => ?_
  exact Ends.pure rfl

theorem SimulationManagementFamilyPdu.heads (o : SimulationManagementFamilyPdu) : Heads (·.toPdu) (SimulationManagementFamilyPdu.parse o) := by
  unfold SimulationManagementFamilyPdu.parse
  refine Heads.first (Pdu.heads _) fun _ => ?_
  iterate 2 refine Ends.bind fun _ => ?_
  exact Ends.pure rfl

theorem DataQueryPdu.heads (o : DataQueryPdu) : Heads (·.toPdu) (DataQueryPdu.parse o) := by
  unfold DataQueryPdu.parse
  refine Heads.first (SimulationManagementFamilyPdu.heads _) fun _ => ?_
  iterate 3 refine Ends.bind fun _ => ?_
  exact Ends.pure rfl

theorem SyntheticEnvironmentFamilyPdu.heads (o : SyntheticEnvironmentFamilyPdu) : Heads (·.toPdu) (SyntheticEnvironmentFamilyPdu.parse o) := by
  unfold SyntheticEnvironmentFamilyPdu.parse
  refine Heads.first (Pdu.heads _) fun _ => ?_
  exact Ends.pure rfl

theorem LinearObjectStatePdu.heads (o : LinearObjectStatePdu) : Heads (·.toPdu) (LinearObjectStatePdu.parse o) := by
  unfold LinearObjectStatePdu.parse
  refine Heads.first (SyntheticEnvironmentFamilyPdu.heads _) fun _ => ?_
  iterate 9 refine Ends.bind fun _ => ?_
  exact Ends.pure rfl

theorem CreateEntityPdu.heads (o : CreateEntityPdu) : Heads (·.toPdu) (CreateEntityPdu.parse o) := by
  unfold CreateEntityPdu.parse
  refine Heads.first (SimulationManagementFamilyPdu.heads _) fun _ => ?_
  iterate 1 refine Ends.bind fun _ => ?_
  exact Ends.pure rfl

theorem RadioCommunicationsFamilyPdu.heads (o : RadioCommunicationsFamilyPdu) : Heads (·.toPdu) (RadioCommunicationsFamilyPdu.parse o) := by
  unfold RadioCommunicationsFamilyPdu.parse
  refine Heads.first (Pdu.heads _) fun _ => ?_
  exact Ends.pure rfl

theorem IntercomSignalPdu.heads (o : IntercomSignalPdu) : Heads (·.toPdu) (IntercomSignalPdu.parse o) := by
  unfold IntercomSignalPdu.parse
  refine Heads.first (RadioCommunicationsFamilyPdu.heads _) fun _ => ?_
  iterate 8 refine Ends.bind fun _ => ?_
  exact Ends.pure rfl

theorem RemoveEntityPdu.heads (o : RemoveEntityPdu) : Heads (·.toPdu) (RemoveEntityPdu.parse o) := by
  unfold RemoveEntityPdu.parse
  refine Heads.first (SimulationManagementFamilyPdu.heads _) fun _ => ?_
  iterate 1 refine Ends.bind fun _ => ?_
  exact Ends.pure rfl

theorem ResupplyReceivedPdu.heads (o : ResupplyReceivedPdu) : Heads (·.toPdu) (ResupplyReceivedPdu.parse o) := by
  unfold ResupplyReceivedPdu.parse
  refine Heads.first (LogisticsFamilyPdu.heads _) fun _ => ?_
  iterate 6 refine Ends.bind fun _ => ?_
  exact Ends.pure rfl

theorem CollisionElasticPdu.heads (o : CollisionElasticPdu) : Heads (·.toPdu) (CollisionElasticPdu.parse o) := by
  unfold CollisionElasticPdu.parse
  refine Heads.first (EntityInformationFamilyPdu.heads _) fun _ => ?_
  iterate 15 refine Ends.bind fun _ => ?_
  exact Ends.pure rfl

theorem ActionRequestPdu.heads (o : ActionRequestPdu) : Heads (·.toPdu) (ActionRequestPdu.parse o) := by
  unfold ActionRequestPdu.parse
  refine Heads.first (SimulationManagementFamilyPdu.heads _) fun _ => ?_
  iterate 3 refine Ends.bind fun _ => ?_
  exact Ends.pure rfl

theorem AcknowledgePdu.heads (o : AcknowledgePdu) : Heads (·.toPdu) (AcknowledgePdu.parse o) := by
  unfold AcknowledgePdu.parse
  refine Heads.first (SimulationManagementFamilyPdu.heads _) fun _ => ?_
  iterate 3 refine Ends.bind fun _ => ?_
  exact Ends.pure rfl

theorem SimulationManagementWithReliabilityFamilyPdu.heads (o : SimulationManagementWithReliabilityFamilyPdu) : Heads (·.toPdu) (SimulationManagementWithReliabilityFamilyPdu.parse o) := by
  unfold SimulationManagementWithReliabilityFamilyPdu.parse
  refine Heads.first (Pdu.heads _) fun _ => ?_
  iterate 2 refine Ends.bind fun _ => ?_
  exact Ends.pure rfl

theorem ActionRequestReliablePdu.heads (o : ActionRequestReliablePdu) : Heads (·.toPdu) (ActionRequestReliablePdu.parse o) := by
  unfold ActionRequestReliablePdu.parse
  refine Heads.first (SimulationManagementWithReliabilityFamilyPdu.heads _) fun _ => ?_
  iterate 7 refine Ends.bind fun _ => ?_
  exact Ends.pure rfl

theorem DistributedEmissionsFamilyPdu.heads (o : DistributedEmissionsFamilyPdu) : Heads (·.toPdu) (DistributedEmissionsFamilyPdu.parse o) := by
  unfold DistributedEmissionsFamilyPdu.parse
  refine Heads.first (Pdu.heads _) fun _ => ?_
  exact Ends.pure rfl

theorem DesignatorPdu.heads (o : DesignatorPdu) : Heads (·.toPdu) (DesignatorPdu.parse o) := by
  unfold DesignatorPdu.parse
  refine Heads.first (DistributedEmissionsFamilyPdu.heads _) fun _ => ?_
  iterate 12 refine Ends.bind fun _ => ?_
  exact Ends.pure rfl

theorem StopFreezePdu.heads (o : StopFreezePdu) : Heads (·.toPdu) (StopFreezePdu.parse o) := by
  unfold StopFreezePdu.parse
  refine Heads.first (SimulationManagementFamilyPdu.heads _) fun _ => ?_
  iterate 5 refine Ends.bind fun _ => ?_
  exact Ends.pure rfl

theorem EntityStatePdu.heads (o : EntityStatePdu) : Heads (·.toPdu) (EntityStatePdu.parse o) := by
  unfold EntityStatePdu.parse
  refine Heads.first (EntityInformationFamilyPdu.heads _) fun _ => ?_
  iterate 13 refine Ends.bind fun _ => ?_
  exact Ends.pure rfl

theorem StartResumePdu.heads (o : StartResumePdu) : Heads (·.toPdu) (StartResumePdu.parse o) := by
  unfold StartResumePdu.parse
  refine Heads.first (SimulationManagementFamilyPdu.heads _) fun _ => ?_
  iterate 3 refine Ends.bind fun _ => ?_
  exact Ends.pure rfl

theorem TransmitterPdu.heads (o : TransmitterPdu) : Heads (·.toPdu) (TransmitterPdu.parse o) := by
  unfold TransmitterPdu.parse
  refine Heads.first (RadioCommunicationsFamilyPdu.heads _) fun _ => ?_
  iterate 22 refine Ends.bind fun _ => ?_
  exact Ends.pure rfl

theorem ElectromagneticEmissionsPdu.heads (o : ElectromagneticEmissionsPdu) : Heads (·.toPdu) (ElectromagneticEmissionsPdu.parse o) := by
  unfold ElectromagneticEmissionsPdu.parse
  refine Heads.first (DistributedEmissionsFamilyPdu.heads _) fun _ => ?_
  iterate 6 refine Ends.bind fun _ => ?_
  exact Ends.pure rfl

theorem ResupplyOfferPdu.heads (o : ResupplyOfferPdu) : Heads (·.toPdu) (ResupplyOfferPdu.parse o) := by
  unfold ResupplyOfferPdu.parse
  refine Heads.first (LogisticsFamilyPdu.heads _) fun _ => ?_
  iterate 6 refine Ends.bind fun _ => ?_
  exact Ends.pure rfl

theorem SetDataReliablePdu.heads (o : SetDataReliablePdu) : Heads (·.toPdu) (SetDataReliablePdu.parse o) := by
  unfold SetDataReliablePdu.parse
  refine Heads.first (SimulationManagementWithReliabilityFamilyPdu.heads _) fun _ => ?_
  iterate 5 refine Ends.bind fun _ => ?_
  exact Ends.pure rfl

theorem EventReportPdu.heads (o : EventReportPdu) : Heads (·.toPdu) (EventReportPdu.parse o) := by
  unfold EventReportPdu.parse
  refine Heads.first (SimulationManagementFamilyPdu.heads _) fun _ => ?_
  iterate 3 refine Ends.bind fun _ => ?_
  exact Ends.pure rfl

theorem PointObjectStatePdu.heads (o : PointObjectStatePdu) : Heads (·.toPdu) (PointObjectStatePdu.parse o) := by
  unfold PointObjectStatePdu.parse
  refine Heads.first (SyntheticEnvironmentFamilyPdu.heads _) fun _ => ?_
  iterate 12 refine Ends.bind fun _ => ?_
  exact Ends.pure rfl

theorem DataPdu.heads (o : DataPdu) : Heads (·.toPdu) (DataPdu.parse o) := by
  unfold DataPdu.parse
  refine Heads.first (SimulationManagementFamilyPdu.heads _) fun _ => ?_
  iterate 3 refine Ends.bind fun _ => ?_
  exact Ends.pure rfl

theorem FastEntityStatePdu.heads (o : FastEntityStatePdu) : Heads (·.toPdu) (FastEntityStatePdu.parse o) := by
  unfold FastEntityStatePdu.parse
  refine Heads.first (EntityInformationFamilyPdu.heads _) fun _ => ?_
  iterate 40 refine Ends.bind fun _ => ?_
  exact Ends.pure rfl

theorem AcknowledgeReliablePdu.heads (o : AcknowledgeReliablePdu) : Heads (·.toPdu) (AcknowledgeReliablePdu.parse o) := by
  unfold AcknowledgeReliablePdu.parse
  refine Heads.first (SimulationManagementWithReliabilityFamilyPdu.heads _) fun _ => ?_
  iterate 3 refine Ends.bind fun _ => ?_
  exact Ends.pure rfl

theorem StartResumeReliablePdu.heads (o : StartResumeReliablePdu) : Heads (·.toPdu) (StartResumeReliablePdu.parse o) := by
  unfold StartResumeReliablePdu.parse
  refine Heads.first (SimulationManagementWithReliabilityFamilyPdu.heads _) fun _ => ?_
  iterate 6 refine Ends.bind fun _ => ?_
  exact Ends.pure rfl

theorem ArealObjectStatePdu.heads (o : ArealObjectStatePdu) : Heads (·.toPdu) (ArealObjectStatePdu.parse o) := by
  unfold ArealObjectStatePdu.parse
  refine Heads.first (SyntheticEnvironmentFamilyPdu.heads _) fun _ => ?_
  iterate 12 refine Ends.bind fun _ => ?_
  exact Ends.pure rfl

theorem DataQueryReliablePdu.heads (o : DataQueryReliablePdu) : Heads (·.toPdu) (DataQueryReliablePdu.parse o) := by
  unfold DataQueryReliablePdu.parse
  refine Heads.first (SimulationManagementWithReliabilityFamilyPdu.heads _) fun _ => ?_
  iterate 6 refine Ends.bind fun _ => ?_
  exact Ends.pure rfl

theorem MinefieldFamilyPdu.heads (o : MinefieldFamilyPdu) : Heads (·.toPdu) (MinefieldFamilyPdu.parse o) := by
  unfold MinefieldFamilyPdu.parse
  refine Heads.first (Pdu.heads _) fun _ => ?_
  exact Ends.pure rfl

theorem MinefieldStatePdu.heads (o : MinefieldStatePdu) : Heads (·.toPdu) (MinefieldStatePdu.parse o) := by
  unfold MinefieldStatePdu.parse
  refine Heads.first (MinefieldFamilyPdu.heads _) fun _ => ?_
  iterate 12 refine Ends.bind fun _ => ?_
  exact Ends.pure rfl

theorem DataReliablePdu.heads (o : DataReliablePdu) : Heads (·.toPdu) (DataReliablePdu.parse o) := by
  unfold DataReliablePdu.parse
  refine Heads.first (SimulationManagementWithReliabilityFamilyPdu.heads _) fun _ => ?_
  iterate 5 refine Ends.bind fun _ => ?_
  exact Ends.pure rfl

theorem CommentPdu.heads (o : CommentPdu) : Heads (·.toPdu) (CommentPdu.parse o) := by
  unfold CommentPdu.parse
  refine Heads.first (SimulationManagementFamilyPdu.heads _) fun _ => ?_
  iterate 1 refine Ends.bind fun _ => ?_
  exact Ends.pure rfl

theorem CommentReliablePdu.heads (o : CommentReliablePdu) : Heads (·.toPdu) (CommentReliablePdu.parse o) := by
  unfold CommentReliablePdu.parse
  refine Heads.first (SimulationManagementWithReliabilityFamilyPdu.heads _) fun _ => ?_
  iterate 1 refine Ends.bind fun _ => ?_
  exact Ends.pure rfl

theorem WarfareFamilyPdu.heads (o : WarfareFamilyPdu) : Heads (·.toPdu) (WarfareFamilyPdu.parse o) := by
  unfold WarfareFamilyPdu.parse
  refine Heads.first (Pdu.heads _) fun _ => ?_
  iterate 2 refine Ends.bind fun _ => ?_
  exact Ends.pure rfl

theorem DirectedEnergyFirePdu.heads (o : DirectedEnergyFirePdu) : Heads (·.toPdu) (DirectedEnergyFirePdu.parse o) := by
  unfold DirectedEnergyFirePdu.parse
  refine Heads.first (WarfareFamilyPdu.heads _) fun _ => ?_
  iterate 16 refine Ends.bind fun _ => ?_
  exact Ends.pure rfl

theorem DetonationPdu.heads (o : DetonationPdu) : Heads (·.toPdu) (DetonationPdu.parse o) := by
  unfold DetonationPdu.parse
  refine Heads.first (WarfareFamilyPdu.heads _) fun _ => ?_
  iterate 10 refine Ends.bind fun _ => ?_
  exact Ends.pure rfl

theorem SetDataPdu.heads (o : SetDataPdu) : Heads (·.toPdu) (SetDataPdu.parse o) := by
  unfold SetDataPdu.parse
  refine Heads.first (SimulationManagementFamilyPdu.heads _) fun _ => ?_
  iterate 3 refine Ends.bind fun _ => ?_
  exact Ends.pure rfl

theorem RecordQueryReliablePdu.heads (o : RecordQueryReliablePdu) : Heads (·.toPdu) (RecordQueryReliablePdu.parse o) := by
  unfold RecordQueryReliablePdu.parse
  refine Heads.first (SimulationManagementWithReliabilityFamilyPdu.heads _) fun _ => ?_
  iterate 8 refine Ends.bind fun _ => ?_
  exact Ends.pure rfl

theorem ActionResponsePdu.heads (o : ActionResponsePdu) : Heads (·.toPdu) (ActionResponsePdu.parse o) := by
  unfold ActionResponsePdu.parse
  refine Heads.first (SimulationManagementFamilyPdu.heads _) fun _ => ?_
  iterate 3 refine Ends.bind fun _ => ?_
  exact Ends.pure rfl

theorem EntityDamageStatusPdu.heads (o : EntityDamageStatusPdu) : Heads (·.toPdu) (EntityDamageStatusPdu.parse o) := by
  unfold EntityDamageStatusPdu.parse
  refine Heads.first (WarfareFamilyPdu.heads _) fun _ => ?_
  iterate 5 refine Ends.bind fun _ => ?_
  exact Ends.pure rfl

theorem FirePdu.heads (o : FirePdu) : Heads (·.toPdu) (FirePdu.parse o) := by
  unfold FirePdu.parse
  refine Heads.first (WarfareFamilyPdu.heads _) fun _ => ?_
  iterate 7 refine Ends.bind fun _ => ?_
  exact Ends.pure rfl

theorem ReceiverPdu.heads (o : ReceiverPdu) : Heads (·.toPdu) (ReceiverPdu.parse o) := by
  unfold ReceiverPdu.parse
  refine Heads.first (RadioCommunicationsFamilyPdu.heads _) fun _ => ?_
  iterate 5 refine Ends.bind fun _ => ?_
  exact Ends.pure rfl

theorem UaPdu.heads (o : UaPdu) : Heads (·.toPdu) (UaPdu.parse o) := by
  unfold UaPdu.parse
  refine Heads.first (DistributedEmissionsFamilyPdu.heads _) fun _ => ?_
  iterate 12 refine Ends.bind fun _ => ?_
  exact Ends.pure rfl

theorem IntercomControlPdu.heads (o : IntercomControlPdu) : Heads (·.toPdu) (IntercomControlPdu.parse o) := by
  unfold IntercomControlPdu.parse
  refine Heads.first (RadioCommunicationsFamilyPdu.heads _) fun _ => ?_
  iterate 12 refine Ends.bind fun _ => ?_
  exact Ends.pure rfl

theorem SignalPdu.heads (o : SignalPdu) : Heads (·.toPdu) (SignalPdu.parse o) := by
  unfold SignalPdu.parse
  refine Heads.first (RadioCommunicationsFamilyPdu.heads _) fun _ => ?_
  iterate 8 refine Ends.bind fun _ => ?_
  exact Ends.pure rfl

theorem RemoveEntityReliablePdu.heads (o : RemoveEntityReliablePdu) : Heads (·.toPdu) (RemoveEntityReliablePdu.parse o) := by
  unfold RemoveEntityReliablePdu.parse
  refine Heads.first (SimulationManagementWithReliabilityFamilyPdu.heads _) fun _ => ?_
  iterate 4 refine Ends.bind fun _ => ?_
  exact Ends.pure rfl

theorem SeesPdu.heads (o : SeesPdu) : Heads (·.toPdu) (SeesPdu.parse o) := by
  unfold SeesPdu.parse
  refine Heads.first (DistributedEmissionsFamilyPdu.heads _) fun _ => ?_
  iterate 8 refine Ends.bind fun _ => ?_
  exact Ends.pure rfl

theorem CreateEntityReliablePdu.heads (o : CreateEntityReliablePdu) : Heads (·.toPdu) (CreateEntityReliablePdu.parse o) := by
  unfold CreateEntityReliablePdu.parse
  refine Heads.first (SimulationManagementWithReliabilityFamilyPdu.heads _) fun _ => ?_
  iterate 4 refine Ends.bind fun _ => ?_
  exact Ends.pure rfl

theorem StopFreezeReliablePdu.heads (o : StopFreezeReliablePdu) : Heads (·.toPdu) (StopFreezeReliablePdu.parse o) := by
  unfold StopFreezeReliablePdu.parse
  refine Heads.first (SimulationManagementWithReliabilityFamilyPdu.heads _) fun _ => ?_
  iterate 6 refine Ends.bind fun _ => ?_
  exact Ends.pure rfl

theorem EventReportReliablePdu.heads (o : EventReportReliablePdu) : Heads (·.toPdu) (EventReportReliablePdu.parse o) := by
  unfold EventReportReliablePdu.parse
  refine Heads.first (SimulationManagementWithReliabilityFamilyPdu.heads _) fun _ => ?_
  iterate 3 refine Ends.bind fun _ => ?_
  exact Ends.pure rfl

theorem MinefieldResponseNackPdu.heads (o : MinefieldResponseNackPdu) : Heads (·.toPdu) (MinefieldResponseNackPdu.parse o) := by
  unfold MinefieldResponseNackPdu.parse
  refine Heads.first (MinefieldFamilyPdu.heads _) fun _ => ?_
  iterate 5 refine Ends.bind fun _ => ?_
  exact Ends.pure rfl

theorem ActionResponseReliablePdu.heads (o : ActionResponseReliablePdu) : Heads (·.toPdu) (ActionResponseReliablePdu.parse o) := by
  unfold ActionResponseReliablePdu.parse
  refine Heads.first (SimulationManagementWithReliabilityFamilyPdu.heads _) fun _ => ?_
  iterate 3 refine Ends.bind fun _ => ?_
  exact Ends.pure rfl

theorem EntityManagementFamilyPdu.heads (o : EntityManagementFamilyPdu) : Heads (·.toPdu) (EntityManagementFamilyPdu.parse o) := by
  unfold EntityManagementFamilyPdu.parse
  refine Heads.first (Pdu.heads _) fun _ => ?_
  exact Ends.pure rfl

theorem IsPartOfPdu.heads (o : IsPartOfPdu) : Heads (·.toPdu) (IsPartOfPdu.parse o) := by
  unfold IsPartOfPdu.parse
  refine Heads.first (EntityManagementFamilyPdu.heads _) fun _ => ?_
  iterate 6 refine Ends.bind fun _ => ?_
  exact Ends.pure rfl

theorem AggregateStatePdu.heads (o : AggregateStatePdu) : Heads (·.toPdu) (AggregateStatePdu.parse o) := by
  unfold AggregateStatePdu.parse
  refine Heads.first (EntityManagementFamilyPdu.heads _) fun _ => ?_
  iterate 20 refine Ends.bind fun _ => ?_
  exact Ends.pure rfl

theorem PduClass.heads : ∀ c : PduClass, Heads (·.toPdu) c.decode
  | .EntityStateUpdatePdu => Heads.first (Dis.EntityStateUpdatePdu.heads _) fun _ => Ends.pure rfl
  | .ServiceRequestPdu => Heads.first (Dis.ServiceRequestPdu.heads _) fun _ => Ends.pure rfl
  | .RepairCompletePdu => Heads.first (Dis.RepairCompletePdu.heads _) fun _ => Ends.pure rfl
  | .CollisionPdu => Heads.first (Dis.CollisionPdu.heads _) fun _ => Ends.pure rfl
  | .RepairResponsePdu => Heads.first (Dis.RepairResponsePdu.heads _) fun _ => Ends.pure rfl
  | .DataQueryPdu => Heads.first (Dis.DataQueryPdu.heads _) fun _ => Ends.pure rfl
  | .LinearObjectStatePdu => fun _ _ _ h => nomatch h
  | .CreateEntityPdu => Heads.first (Dis.CreateEntityPdu.heads _) fun _ => Ends.pure rfl
  | .IntercomSignalPdu => Heads.first (Dis.IntercomSignalPdu.heads _) fun _ => Ends.pure rfl
  | .RemoveEntityPdu => Heads.first (Dis.RemoveEntityPdu.heads _) fun _ => Ends.pure rfl
  | .ResupplyReceivedPdu => Heads.first (Dis.ResupplyReceivedPdu.heads _) fun _ => Ends.pure rfl
  | .CollisionElasticPdu => Heads.first (Dis.CollisionElasticPdu.heads _) fun _ => Ends.pure rfl
  | .ActionRequestPdu => Heads.first (Dis.ActionRequestPdu.heads _) fun _ => Ends.pure rfl
  | .AcknowledgePdu => Heads.first (Dis.AcknowledgePdu.heads _) fun _ => Ends.pure rfl
  | .ActionRequestReliablePdu => Heads.first (Dis.ActionRequestReliablePdu.heads _) fun _ => Ends.pure rfl
  | .DesignatorPdu => Heads.first (Dis.DesignatorPdu.heads _) fun _ => Ends.pure rfl
  | .StopFreezePdu => Heads.first (Dis.StopFreezePdu.heads _) fun _ => Ends.pure rfl
  | .EntityStatePdu => Heads.first (Dis.EntityStatePdu.heads _) fun _ => Ends.pure rfl
  | .StartResumePdu => Heads.first (Dis.StartResumePdu.heads _) fun _ => Ends.pure rfl
  | .TransmitterPdu => Heads.first (Dis.TransmitterPdu.heads _) fun _ => Ends.pure rfl
  | .ElectromagneticEmissionsPdu => Heads.first (Dis.ElectromagneticEmissionsPdu.heads _) fun _ => Ends.pure rfl
  | .ResupplyOfferPdu => Heads.first (Dis.ResupplyOfferPdu.heads _) fun _ => Ends.pure rfl
  | .SetDataReliablePdu => Heads.first (Dis.SetDataReliablePdu.heads _) fun _ => Ends.pure rfl
  | .EventReportPdu => Heads.first (Dis.EventReportPdu.heads _) fun _ => Ends.pure rfl
  | .PointObjectStatePdu => Heads.first (Dis.PointObjectStatePdu.heads _) fun _ => Ends.pure rfl
  | .DataPdu => Heads.first (Dis.DataPdu.heads _) fun _ => Ends.pure rfl
  | .FastEntityStatePdu => Heads.first (Dis.FastEntityStatePdu.heads _) fun _ => Ends.pure rfl
  | .AcknowledgeReliablePdu => Heads.first (Dis.AcknowledgeReliablePdu.heads _) fun _ => Ends.pure rfl
  | .StartResumeReliablePdu => Heads.first (Dis.StartResumeReliablePdu.heads _) fun _ => Ends.pure rfl
  | .ArealObjectStatePdu => Heads.first (Dis.ArealObjectStatePdu.heads _) fun _ => Ends.pure rfl
  | .DataQueryReliablePdu => Heads.first (Dis.DataQueryReliablePdu.heads _) fun _ => Ends.pure rfl
  | .MinefieldStatePdu => Heads.first (Dis.MinefieldStatePdu.heads _) fun _ => Ends.pure rfl
  | .DataReliablePdu => Heads.first (Dis.DataReliablePdu.heads _) fun _ => Ends.pure rfl
  | .CommentPdu => Heads.first (Dis.CommentPdu.heads _) fun _ => Ends.pure rfl
  | .CommentReliablePdu => Heads.first (Dis.CommentReliablePdu.heads _) fun _ => Ends.pure rfl
  | .DirectedEnergyFirePdu => Heads.first (Dis.DirectedEnergyFirePdu.heads _) fun _ => Ends.pure rfl
  | .DetonationPdu => Heads.first (Dis.DetonationPdu.heads _) fun _ => Ends.pure rfl
  | .SetDataPdu => Heads.first (Dis.SetDataPdu.heads _) fun _ => Ends.pure rfl
  | .RecordQueryReliablePdu => Heads.first (Dis.RecordQueryReliablePdu.heads _) fun _ => Ends.pure rfl
  | .ActionResponsePdu => Heads.first (Dis.ActionResponsePdu.heads _) fun _ => Ends.pure rfl
  | .EntityDamageStatusPdu => Heads.first (Dis.EntityDamageStatusPdu.heads _) fun _ => Ends.pure rfl
  | .FirePdu => Heads.first (Dis.FirePdu.heads _) fun _ => Ends.pure rfl
  | .ReceiverPdu => Heads.first (Dis.ReceiverPdu.heads _) fun _ => Ends.pure rfl
  | .UaPdu => Heads.first (Dis.UaPdu.heads _) fun _ => Ends.pure rfl
  | .IntercomControlPdu => Heads.first (Dis.IntercomControlPdu.heads _) fun _ => Ends.pure rfl
  | .SignalPdu => Heads.first (Dis.SignalPdu.heads _) fun _ => Ends.pure rfl
  | .RemoveEntityReliablePdu => Heads.first (Dis.RemoveEntityReliablePdu.heads _) fun _ => Ends.pure rfl
  | .SeesPdu => Heads.first (Dis.SeesPdu.heads _) fun _ => Ends.pure rfl
  | .CreateEntityReliablePdu => Heads.first (Dis.CreateEntityReliablePdu.heads _) fun _ => Ends.pure rfl
  | .StopFreezeReliablePdu => Heads.first (Dis.StopFreezeReliablePdu.heads _) fun _ => Ends.pure rfl
  | .EventReportReliablePdu => Heads.first (Dis.EventReportReliablePdu.heads _) fun _ => Ends.pure rfl
  | .MinefieldResponseNackPdu => Heads.first (Dis.MinefieldResponseNackPdu.heads _) fun _ => Ends.pure rfl
  | .ActionResponseReliablePdu => Heads.first (Dis.ActionResponseReliablePdu.heads _) fun _ => Ends.pure rfl
  | .IsPartOfPdu => Heads.first (Dis.IsPartOfPdu.heads _) fun _ => Ends.pure rfl
  | .AggregateStatePdu => Heads.first (Dis.AggregateStatePdu.heads _) fun _ => Ends.pure rfl

end Dis
