import Verif.Spec.Pdus2
import Verif.Proof.Pdus1

/-!
# Proofs for: PDUs of `opendis/dis7.py`, part 2

Generated by `tools/genproof.py`.
-/

set_option linter.unusedVariables false
set_option linter.unusedSimpArgs false

namespace Dis

theorem LinearObjectStatePdu.rt (s o : LinearObjectStatePdu) : RT (LinearObjectStatePdu.serialize o) (LinearObjectStatePdu.parse s) (LinearObjectStatePdu.after s o) := by
  unfold LinearObjectStatePdu.serialize LinearObjectStatePdu.parse
  exact RT.bind (SyntheticEnvironmentFamilyPdu.rt s.toSyntheticEnvironmentFamilyPdu o.toSyntheticEnvironmentFamilyPdu) <|
    RT.bind (EntityIdentifier.rt s.objectID o.objectID) <|
    RT.bind (EntityIdentifier.rt s.referencedObjectID o.referencedObjectID) <|
    RT.bind (rt_unsigned_short o.updateNumber) <|
    RT.bind (rt_unsigned_byte o.forceID) <|
    RT.bind (rt_unsigned_byte ((o.linearSegmentParameters.length : Int))) <|
    RT.bind (SimulationAddress.rt s.requesterID o.requesterID) <|
    RT.bind (SimulationAddress.rt s.receivingID o.receivingID) <|
    RT.bind (ObjectType.rt s.objectType o.objectType) <|
    RT.last (rt_list fun x _ => LinearSegmentParameter.rt _ x)

theorem LinearObjectStatePdu.loc (s : LinearObjectStatePdu) : Local (LinearObjectStatePdu.parse s) := by
  unfold LinearObjectStatePdu.parse
  exact Local.bind (SyntheticEnvironmentFamilyPdu.loc _) fun _ =>
    Local.bind (EntityIdentifier.loc _) fun _ =>
    Local.bind (EntityIdentifier.loc _) fun _ =>
    Local.bind (loc_unsigned_short) fun _ =>
    Local.bind (loc_unsigned_byte) fun _ =>
    Local.bind (loc_unsigned_byte) fun _ =>
    Local.bind (SimulationAddress.loc _) fun _ =>
    Local.bind (SimulationAddress.loc _) fun _ =>
    Local.bind (ObjectType.loc _) fun _ =>
    Local.bind (Local.times (LinearSegmentParameter.loc _) _) fun _ =>
    Local.pure _

theorem LinearObjectStatePdu.only (s : LinearObjectStatePdu) : OnlyStruct (LinearObjectStatePdu.parse s) := by
  unfold LinearObjectStatePdu.parse
  exact OnlyStruct.bind (SyntheticEnvironmentFamilyPdu.only _) fun _ =>
    OnlyStruct.bind (EntityIdentifier.only _) fun _ =>
    OnlyStruct.bind (EntityIdentifier.only _) fun _ =>
    OnlyStruct.bind (only_unsigned_short) fun _ =>
    OnlyStruct.bind (only_unsigned_byte) fun _ =>
    OnlyStruct.bind (only_unsigned_byte) fun _ =>
    OnlyStruct.bind (SimulationAddress.only _) fun _ =>
    OnlyStruct.bind (SimulationAddress.only _) fun _ =>
    OnlyStruct.bind (ObjectType.only _) fun _ =>
    OnlyStruct.bind (OnlyStruct.times (LinearSegmentParameter.only _) _) fun _ =>
    OnlyStruct.pure _

theorem LinearObjectStatePdu.sized (o : LinearObjectStatePdu) : Sized (LinearObjectStatePdu.serialize o) (LinearObjectStatePdu.wireSize o) := by
  unfold LinearObjectStatePdu.serialize
  refine Sized.of_eq (Sized.bind (SyntheticEnvironmentFamilyPdu.sized o.toSyntheticEnvironmentFamilyPdu) <|
    Sized.bind (EntityIdentifier.sized o.objectID) <|
    Sized.bind (EntityIdentifier.sized o.referencedObjectID) <|
    Sized.bind (sized_unsigned_short o.updateNumber) <|
    Sized.bind (sized_unsigned_byte o.forceID) <|
    Sized.bind (sized_unsigned_byte _) <|
    Sized.bind (SimulationAddress.sized o.requesterID) <|
    Sized.bind (SimulationAddress.sized o.receivingID) <|
    Sized.bind (ObjectType.sized o.objectType) <|
    Sized.forEach_const LinearSegmentParameter.sized) ?_
  simp only [LinearObjectStatePdu.wireSize, SyntheticEnvironmentFamilyPdu.wireSize, Pdu.wireSize, PduSuperclass.wireSize, EntityIdentifier.wireSize, SimulationAddress.wireSize, ObjectType.wireSize]; try omega

theorem LinearObjectStatePdu.ok_iff (o : LinearObjectStatePdu) : (LinearObjectStatePdu.serialize o).Ok ↔ LinearObjectStatePdu.WireOk o := by
  unfold LinearObjectStatePdu.serialize LinearObjectStatePdu.WireOk
  exact ok_bind_iff (SyntheticEnvironmentFamilyPdu.ok_iff o.toSyntheticEnvironmentFamilyPdu) <|
    ok_bind_iff (EntityIdentifier.ok_iff o.objectID) <|
    ok_bind_iff (EntityIdentifier.ok_iff o.referencedObjectID) <|
    ok_bind_iff (ok_unsigned_short) <|
    ok_bind_iff (ok_unsigned_byte) <|
    ok_bind_iff (ok_unsigned_byte) <|
    ok_bind_iff (SimulationAddress.ok_iff o.requesterID) <|
    ok_bind_iff (SimulationAddress.ok_iff o.receivingID) <|
    ok_bind_iff (ObjectType.ok_iff o.objectType) <|
    ok_list LinearSegmentParameter.ok_iff

theorem CreateEntityPdu.rt (s o : CreateEntityPdu) : RT (CreateEntityPdu.serialize o) (CreateEntityPdu.parse s) (CreateEntityPdu.after s o) := by
  unfold CreateEntityPdu.serialize CreateEntityPdu.parse
  exact RT.bind (SimulationManagementFamilyPdu.rt s.toSimulationManagementFamilyPdu o.toSimulationManagementFamilyPdu) <|
    RT.last (rt_unsigned_int o.requestID)

theorem CreateEntityPdu.loc (s : CreateEntityPdu) : Local (CreateEntityPdu.parse s) := by
  unfold CreateEntityPdu.parse
  exact Local.bind (SimulationManagementFamilyPdu.loc _) fun _ =>
    Local.bind (loc_unsigned_int) fun _ =>
    Local.pure _

theorem CreateEntityPdu.only (s : CreateEntityPdu) : OnlyStruct (CreateEntityPdu.parse s) := by
  unfold CreateEntityPdu.parse
  exact OnlyStruct.bind (SimulationManagementFamilyPdu.only _) fun _ =>
    OnlyStruct.bind (only_unsigned_int) fun _ =>
    OnlyStruct.pure _

theorem CreateEntityPdu.sized (o : CreateEntityPdu) : Sized (CreateEntityPdu.serialize o) (CreateEntityPdu.wireSize o) := by
  unfold CreateEntityPdu.serialize
  refine Sized.of_eq (Sized.bind (SimulationManagementFamilyPdu.sized o.toSimulationManagementFamilyPdu) <|
    sized_unsigned_int o.requestID) ?_
  simp only [CreateEntityPdu.wireSize, SimulationManagementFamilyPdu.wireSize, Pdu.wireSize, PduSuperclass.wireSize, EntityIdentifier.wireSize, SimulationAddress.wireSize]; try omega

theorem CreateEntityPdu.ok_iff (o : CreateEntityPdu) : (CreateEntityPdu.serialize o).Ok ↔ CreateEntityPdu.WireOk o := by
  unfold CreateEntityPdu.serialize CreateEntityPdu.WireOk
  exact ok_bind_iff (SimulationManagementFamilyPdu.ok_iff o.toSimulationManagementFamilyPdu) <|
    ok_unsigned_int

theorem CreateEntityPdu.after_canon {o : CreateEntityPdu} (h : CreateEntityPdu.Canon o) : CreateEntityPdu.after CreateEntityPdu.init o = o := by
  cases o
  exact (CreateEntityPdu.mk.injEq ..).mpr ⟨SimulationManagementFamilyPdu.after_canon trivial,
    rfl⟩

theorem CreateEntityPdu.post : Post (CreateEntityPdu.parse CreateEntityPdu.init) (fun b o => (CreateEntityPdu.WireOk o ∧ CreateEntityPdu.Canon o) ∧ (CreateEntityPdu.NoNaN o → (CreateEntityPdu.serialize o).Emits b)) := by
  unfold CreateEntityPdu.parse
  refine Post.bind (SimulationManagementFamilyPdu.post _) fun a0 b0 h0 => ?_
  refine Post.last (post_unsigned_int) fun a1 b1 h1 => ?_
  refine ⟨⟨⟨h0.1.1, h1.1⟩,
    trivial⟩, fun _ => ?_⟩
  exact W.Emits.bind (h0.2 trivial) <|
      h1.2

theorem RadioCommunicationsFamilyPdu.rt (s o : RadioCommunicationsFamilyPdu) : RT (RadioCommunicationsFamilyPdu.serialize o) (RadioCommunicationsFamilyPdu.parse s) (RadioCommunicationsFamilyPdu.after s o) := by
  unfold RadioCommunicationsFamilyPdu.serialize RadioCommunicationsFamilyPdu.parse
  exact RT.last (Pdu.rt s.toPdu o.toPdu)

theorem RadioCommunicationsFamilyPdu.loc (s : RadioCommunicationsFamilyPdu) : Local (RadioCommunicationsFamilyPdu.parse s) := by
  unfold RadioCommunicationsFamilyPdu.parse
  exact Local.bind (Pdu.loc _) fun _ =>
    Local.pure _

theorem RadioCommunicationsFamilyPdu.only (s : RadioCommunicationsFamilyPdu) : OnlyStruct (RadioCommunicationsFamilyPdu.parse s) := by
  unfold RadioCommunicationsFamilyPdu.parse
  exact OnlyStruct.bind (Pdu.only _) fun _ =>
    OnlyStruct.pure _

theorem RadioCommunicationsFamilyPdu.sized (o : RadioCommunicationsFamilyPdu) : Sized (RadioCommunicationsFamilyPdu.serialize o) (RadioCommunicationsFamilyPdu.wireSize o) := by
  unfold RadioCommunicationsFamilyPdu.serialize
  exact (Pdu.sized o.toPdu).of_eq (by simp only [RadioCommunicationsFamilyPdu.wireSize, Pdu.wireSize, PduSuperclass.wireSize]; try omega)

theorem RadioCommunicationsFamilyPdu.ok_iff (o : RadioCommunicationsFamilyPdu) : (RadioCommunicationsFamilyPdu.serialize o).Ok ↔ RadioCommunicationsFamilyPdu.WireOk o := by
  unfold RadioCommunicationsFamilyPdu.serialize RadioCommunicationsFamilyPdu.WireOk
  exact Pdu.ok_iff o.toPdu

theorem RadioCommunicationsFamilyPdu.after_canon {s o : RadioCommunicationsFamilyPdu} (h : RadioCommunicationsFamilyPdu.Canon o) : RadioCommunicationsFamilyPdu.after s o = o := by
  cases o; exact (RadioCommunicationsFamilyPdu.mk.injEq ..).mpr (Pdu.after_canon trivial)

theorem RadioCommunicationsFamilyPdu.post (s : RadioCommunicationsFamilyPdu) : Post (RadioCommunicationsFamilyPdu.parse s) (fun b o => (RadioCommunicationsFamilyPdu.WireOk o ∧ RadioCommunicationsFamilyPdu.Canon o) ∧ (RadioCommunicationsFamilyPdu.NoNaN o → (RadioCommunicationsFamilyPdu.serialize o).Emits b)) := by
  unfold RadioCommunicationsFamilyPdu.parse
  refine Post.last (Pdu.post _) fun a0 b0 h0 => ?_
  refine ⟨⟨h0.1.1,
    trivial⟩, fun _ => ?_⟩
  exact h0.2 trivial

theorem IntercomSignalPdu.rt (s o : IntercomSignalPdu) : RT (IntercomSignalPdu.serialize o) (IntercomSignalPdu.parse s) (IntercomSignalPdu.after s o) := by
  unfold IntercomSignalPdu.serialize IntercomSignalPdu.parse
  exact RT.bind (RadioCommunicationsFamilyPdu.rt s.toRadioCommunicationsFamilyPdu o.toRadioCommunicationsFamilyPdu) <|
    RT.bind (EntityIdentifier.rt s.entityID o.entityID) <|
    RT.bind (rt_unsigned_short o.communicationsDeviceID) <|
    RT.bind (rt_unsigned_short o.encodingScheme) <|
    RT.bind (rt_unsigned_short o.tdlType) <|
    RT.bind (rt_unsigned_int o.sampleRate) <|
    RT.bind (rt_unsigned_short ((o.data.length : Int) * 8)) <|
    RT.bind (rt_unsigned_short o.samples) <|
    RT.last (rt_list_throw8)

theorem IntercomSignalPdu.loc (s : IntercomSignalPdu) : Local (IntercomSignalPdu.parse s) := by
  unfold IntercomSignalPdu.parse
  exact Local.bind (RadioCommunicationsFamilyPdu.loc _) fun _ =>
    Local.bind (EntityIdentifier.loc _) fun _ =>
    Local.bind (loc_unsigned_short) fun _ =>
    Local.bind (loc_unsigned_short) fun _ =>
    Local.bind (loc_unsigned_short) fun _ =>
    Local.bind (loc_unsigned_int) fun _ =>
    Local.bind (loc_unsigned_short) fun _ =>
    Local.bind (loc_unsigned_short) fun _ =>
    Local.bind (local_throw_times _ _) fun _ =>
    Local.pure _

theorem IntercomSignalPdu.sized (o : IntercomSignalPdu) : Sized (IntercomSignalPdu.serialize o) (IntercomSignalPdu.wireSize o) := by
  unfold IntercomSignalPdu.serialize
  refine Sized.of_eq (Sized.bind (RadioCommunicationsFamilyPdu.sized o.toRadioCommunicationsFamilyPdu) <|
    Sized.bind (EntityIdentifier.sized o.entityID) <|
    Sized.bind (sized_unsigned_short o.communicationsDeviceID) <|
    Sized.bind (sized_unsigned_short o.encodingScheme) <|
    Sized.bind (sized_unsigned_short o.tdlType) <|
    Sized.bind (sized_unsigned_int o.sampleRate) <|
    Sized.bind (sized_unsigned_short _) <|
    Sized.bind (sized_unsigned_short o.samples) <|
    sized_list_throw) ?_
  simp only [IntercomSignalPdu.wireSize, RadioCommunicationsFamilyPdu.wireSize, Pdu.wireSize, PduSuperclass.wireSize, EntityIdentifier.wireSize, SimulationAddress.wireSize]; try omega

theorem IntercomSignalPdu.ok_iff (o : IntercomSignalPdu) : (IntercomSignalPdu.serialize o).Ok ↔ IntercomSignalPdu.WireOk o := by
  unfold IntercomSignalPdu.serialize IntercomSignalPdu.WireOk
  exact ok_bind_iff (RadioCommunicationsFamilyPdu.ok_iff o.toRadioCommunicationsFamilyPdu) <|
    ok_bind_iff (EntityIdentifier.ok_iff o.entityID) <|
    ok_bind_iff (ok_unsigned_short) <|
    ok_bind_iff (ok_unsigned_short) <|
    ok_bind_iff (ok_unsigned_short) <|
    ok_bind_iff (ok_unsigned_int) <|
    ok_bind_iff (ok_unsigned_short) <|
    ok_bind_iff (ok_unsigned_short) <|
    ok_list_throw

theorem IntercomSignalPdu.after_canon {o : IntercomSignalPdu} (h : IntercomSignalPdu.Canon o) : IntercomSignalPdu.after IntercomSignalPdu.init o = o := by
  have h_data := h
  cases o
  exact (IntercomSignalPdu.mk.injEq ..).mpr ⟨RadioCommunicationsFamilyPdu.after_canon trivial,
    EntityIdentifier.after_canon trivial,
    rfl,
    rfl,
    rfl,
    rfl,
    rfl,
    h_data.symm⟩

theorem IntercomSignalPdu.post : Post (IntercomSignalPdu.parse IntercomSignalPdu.init) (fun _ o => IntercomSignalPdu.WireOk o ∧ IntercomSignalPdu.Canon o) := by
  unfold IntercomSignalPdu.parse
  refine Post.bind (RadioCommunicationsFamilyPdu.post _) fun a0 b0 h0 => ?_
  refine Post.bind (EntityIdentifier.post) fun a1 b1 h1 => ?_
  refine Post.bind (post_unsigned_short) fun a2 b2 h2 => ?_
  refine Post.bind (post_unsigned_short) fun a3 b3 h3 => ?_
  refine Post.bind (post_unsigned_short) fun a4 b4 h4 => ?_
  refine Post.bind (post_unsigned_int) fun a5 b5 h5 => ?_
  refine Post.bind (post_unsigned_short) fun a6 b6 h6 => ?_
  refine Post.bind (post_unsigned_short) fun a7 b7 h7 => ?_
  refine Post.last (Post.times_throw _ _) fun a8 b8 h8 => ?_
  obtain ⟨-, rfl, rfl⟩ := h8
  exact ⟨⟨h0.1.1, h1.1.1, h2.1, h3.1, h4.1, h5.1, U16_zero, h7.1, rfl⟩,
    rfl⟩

theorem RemoveEntityPdu.rt (s o : RemoveEntityPdu) : RT (RemoveEntityPdu.serialize o) (RemoveEntityPdu.parse s) (RemoveEntityPdu.after s o) := by
  unfold RemoveEntityPdu.serialize RemoveEntityPdu.parse
  exact RT.bind (SimulationManagementFamilyPdu.rt s.toSimulationManagementFamilyPdu o.toSimulationManagementFamilyPdu) <|
    RT.last (rt_unsigned_int o.requestID)

theorem RemoveEntityPdu.loc (s : RemoveEntityPdu) : Local (RemoveEntityPdu.parse s) := by
  unfold RemoveEntityPdu.parse
  exact Local.bind (SimulationManagementFamilyPdu.loc _) fun _ =>
    Local.bind (loc_unsigned_int) fun _ =>
    Local.pure _

theorem RemoveEntityPdu.only (s : RemoveEntityPdu) : OnlyStruct (RemoveEntityPdu.parse s) := by
  unfold RemoveEntityPdu.parse
  exact OnlyStruct.bind (SimulationManagementFamilyPdu.only _) fun _ =>
    OnlyStruct.bind (only_unsigned_int) fun _ =>
    OnlyStruct.pure _

theorem RemoveEntityPdu.sized (o : RemoveEntityPdu) : Sized (RemoveEntityPdu.serialize o) (RemoveEntityPdu.wireSize o) := by
  unfold RemoveEntityPdu.serialize
  refine Sized.of_eq (Sized.bind (SimulationManagementFamilyPdu.sized o.toSimulationManagementFamilyPdu) <|
    sized_unsigned_int o.requestID) ?_
  simp only [RemoveEntityPdu.wireSize, SimulationManagementFamilyPdu.wireSize, Pdu.wireSize, PduSuperclass.wireSize, EntityIdentifier.wireSize, SimulationAddress.wireSize]; try omega

theorem RemoveEntityPdu.ok_iff (o : RemoveEntityPdu) : (RemoveEntityPdu.serialize o).Ok ↔ RemoveEntityPdu.WireOk o := by
  unfold RemoveEntityPdu.serialize RemoveEntityPdu.WireOk
  exact ok_bind_iff (SimulationManagementFamilyPdu.ok_iff o.toSimulationManagementFamilyPdu) <|
    ok_unsigned_int

theorem RemoveEntityPdu.after_canon {o : RemoveEntityPdu} (h : RemoveEntityPdu.Canon o) : RemoveEntityPdu.after RemoveEntityPdu.init o = o := by
  cases o
  exact (RemoveEntityPdu.mk.injEq ..).mpr ⟨SimulationManagementFamilyPdu.after_canon trivial,
    rfl⟩

theorem RemoveEntityPdu.post : Post (RemoveEntityPdu.parse RemoveEntityPdu.init) (fun b o => (RemoveEntityPdu.WireOk o ∧ RemoveEntityPdu.Canon o) ∧ (RemoveEntityPdu.NoNaN o → (RemoveEntityPdu.serialize o).Emits b)) := by
  unfold RemoveEntityPdu.parse
  refine Post.bind (SimulationManagementFamilyPdu.post _) fun a0 b0 h0 => ?_
  refine Post.last (post_unsigned_int) fun a1 b1 h1 => ?_
  refine ⟨⟨⟨h0.1.1, h1.1⟩,
    trivial⟩, fun _ => ?_⟩
  exact W.Emits.bind (h0.2 trivial) <|
      h1.2

theorem ResupplyReceivedPdu.rt (s o : ResupplyReceivedPdu) (hd : ResupplyReceivedPdu.Decodable o) : RT (ResupplyReceivedPdu.serialize o) (ResupplyReceivedPdu.parse s) (ResupplyReceivedPdu.after s o) := by
  have d0 := hd
  unfold ResupplyReceivedPdu.serialize ResupplyReceivedPdu.parse
  exact RT.bind (LogisticsFamilyPdu.rt s.toLogisticsFamilyPdu o.toLogisticsFamilyPdu) <|
    RT.bind (EntityIdentifier.rt s.receivingEntityID o.receivingEntityID) <|
    RT.bind (EntityIdentifier.rt s.supplyingEntityID o.supplyingEntityID) <|
    RT.bind (rt_unsigned_byte ((o.supplies.length : Int))) <|
    RT.bind (rt_short o.padding1) <|
    RT.bind (rt_byte o.padding2) <|
    RT.last (rt_list_null d0)

theorem ResupplyReceivedPdu.loc (s : ResupplyReceivedPdu) : Local (ResupplyReceivedPdu.parse s) := by
  unfold ResupplyReceivedPdu.parse
  exact Local.bind (LogisticsFamilyPdu.loc _) fun _ =>
    Local.bind (EntityIdentifier.loc _) fun _ =>
    Local.bind (EntityIdentifier.loc _) fun _ =>
    Local.bind (loc_unsigned_byte) fun _ =>
    Local.bind (loc_short) fun _ =>
    Local.bind (loc_byte) fun _ =>
    Local.bind (local_throw_times _ _) fun _ =>
    Local.pure _

theorem ResupplyReceivedPdu.sized (o : ResupplyReceivedPdu) : Sized (ResupplyReceivedPdu.serialize o) (ResupplyReceivedPdu.wireSize o) := by
  unfold ResupplyReceivedPdu.serialize
  refine Sized.of_eq (Sized.bind (LogisticsFamilyPdu.sized o.toLogisticsFamilyPdu) <|
    Sized.bind (EntityIdentifier.sized o.receivingEntityID) <|
    Sized.bind (EntityIdentifier.sized o.supplyingEntityID) <|
    Sized.bind (sized_unsigned_byte _) <|
    Sized.bind (sized_short o.padding1) <|
    Sized.bind (sized_byte o.padding2) <|
    Sized.forEach_const SupplyQuantity.sized) ?_
  simp only [ResupplyReceivedPdu.wireSize, LogisticsFamilyPdu.wireSize, Pdu.wireSize, PduSuperclass.wireSize, EntityIdentifier.wireSize, SimulationAddress.wireSize]; try omega

theorem ResupplyReceivedPdu.ok_iff (o : ResupplyReceivedPdu) : (ResupplyReceivedPdu.serialize o).Ok ↔ ResupplyReceivedPdu.WireOk o := by
  unfold ResupplyReceivedPdu.serialize ResupplyReceivedPdu.WireOk
  exact ok_bind_iff (LogisticsFamilyPdu.ok_iff o.toLogisticsFamilyPdu) <|
    ok_bind_iff (EntityIdentifier.ok_iff o.receivingEntityID) <|
    ok_bind_iff (EntityIdentifier.ok_iff o.supplyingEntityID) <|
    ok_bind_iff (ok_unsigned_byte) <|
    ok_bind_iff (ok_short) <|
    ok_bind_iff (ok_byte) <|
    ok_list SupplyQuantity.ok_iff

theorem ResupplyReceivedPdu.after_canon {o : ResupplyReceivedPdu} (h : ResupplyReceivedPdu.Canon o) : ResupplyReceivedPdu.after ResupplyReceivedPdu.init o = o := by
  have h_supplies := h
  cases o
  exact (ResupplyReceivedPdu.mk.injEq ..).mpr ⟨LogisticsFamilyPdu.after_canon trivial,
    EntityIdentifier.after_canon trivial,
    EntityIdentifier.after_canon trivial,
    rfl,
    rfl,
    h_supplies.symm⟩

theorem ResupplyReceivedPdu.post : Post (ResupplyReceivedPdu.parse ResupplyReceivedPdu.init) (fun b o => (ResupplyReceivedPdu.WireOk o ∧ ResupplyReceivedPdu.Canon o) ∧ (ResupplyReceivedPdu.NoNaN o → (ResupplyReceivedPdu.serialize o).Emits b)) := by
  unfold ResupplyReceivedPdu.parse
  refine Post.bind (LogisticsFamilyPdu.post _) fun a0 b0 h0 => ?_
  refine Post.bind (EntityIdentifier.post) fun a1 b1 h1 => ?_
  refine Post.bind (EntityIdentifier.post) fun a2 b2 h2 => ?_
  refine Post.bind (post_unsigned_byte) fun a3 b3 h3 => ?_
  refine Post.bind (post_short) fun a4 b4 h4 => ?_
  refine Post.bind (post_byte) fun a5 b5 h5 => ?_
  refine Post.last (Post.times_throw _ _) fun a6 b6 h6 => ?_
  obtain rfl : a3 = 0 := zero_eq h3.1.1 h6.1
  obtain ⟨-, rfl, rfl⟩ := h6
  refine ⟨⟨⟨h0.1.1, h1.1.1, h2.1.1, h3.1, h4.1, h5.1, (fun _ hx => nomatch hx)⟩,
    rfl⟩, fun _ => ?_⟩
  exact W.Emits.bind (h0.2 trivial) <|
      W.Emits.bind (h1.2 trivial) <|
      W.Emits.bind (h2.2 trivial) <|
      W.Emits.bind (h3.2) <|
      W.Emits.bind (h4.2) <|
      W.Emits.bind (h5.2) <|
      W.emits_pure ()

theorem WarfareFamilyPdu.rt (s o : WarfareFamilyPdu) : RT (WarfareFamilyPdu.serialize o) (WarfareFamilyPdu.parse s) (WarfareFamilyPdu.after s o) := by
  unfold WarfareFamilyPdu.serialize WarfareFamilyPdu.parse
  exact RT.bind (Pdu.rt s.toPdu o.toPdu) <|
    RT.bind (EntityIdentifier.rt s.firingEntityID o.firingEntityID) <|
    RT.last (EntityIdentifier.rt s.targetEntityID o.targetEntityID)

theorem WarfareFamilyPdu.loc (s : WarfareFamilyPdu) : Local (WarfareFamilyPdu.parse s) := by
  unfold WarfareFamilyPdu.parse
  exact Local.bind (Pdu.loc _) fun _ =>
    Local.bind (EntityIdentifier.loc _) fun _ =>
    Local.bind (EntityIdentifier.loc _) fun _ =>
    Local.pure _

theorem WarfareFamilyPdu.only (s : WarfareFamilyPdu) : OnlyStruct (WarfareFamilyPdu.parse s) := by
  unfold WarfareFamilyPdu.parse
  exact OnlyStruct.bind (Pdu.only _) fun _ =>
    OnlyStruct.bind (EntityIdentifier.only _) fun _ =>
    OnlyStruct.bind (EntityIdentifier.only _) fun _ =>
    OnlyStruct.pure _

theorem WarfareFamilyPdu.sized (o : WarfareFamilyPdu) : Sized (WarfareFamilyPdu.serialize o) (WarfareFamilyPdu.wireSize o) := by
  unfold WarfareFamilyPdu.serialize
  refine Sized.of_eq (Sized.bind (Pdu.sized o.toPdu) <|
    Sized.bind (EntityIdentifier.sized o.firingEntityID) <|
    EntityIdentifier.sized o.targetEntityID) ?_
  simp only [WarfareFamilyPdu.wireSize, Pdu.wireSize, PduSuperclass.wireSize, EntityIdentifier.wireSize, SimulationAddress.wireSize]; try omega

theorem WarfareFamilyPdu.ok_iff (o : WarfareFamilyPdu) : (WarfareFamilyPdu.serialize o).Ok ↔ WarfareFamilyPdu.WireOk o := by
  unfold WarfareFamilyPdu.serialize WarfareFamilyPdu.WireOk
  exact ok_bind_iff (Pdu.ok_iff o.toPdu) <|
    ok_bind_iff (EntityIdentifier.ok_iff o.firingEntityID) <|
    EntityIdentifier.ok_iff o.targetEntityID

theorem WarfareFamilyPdu.after_canon {s o : WarfareFamilyPdu} (h : WarfareFamilyPdu.Canon o) : WarfareFamilyPdu.after s o = o := by
  cases o
  exact (WarfareFamilyPdu.mk.injEq ..).mpr ⟨Pdu.after_canon trivial,
    EntityIdentifier.after_canon trivial,
    EntityIdentifier.after_canon trivial⟩

theorem WarfareFamilyPdu.post (s : WarfareFamilyPdu) : Post (WarfareFamilyPdu.parse s) (fun b o => (WarfareFamilyPdu.WireOk o ∧ WarfareFamilyPdu.Canon o) ∧ (WarfareFamilyPdu.NoNaN o → (WarfareFamilyPdu.serialize o).Emits b)) := by
  unfold WarfareFamilyPdu.parse
  refine Post.bind (Pdu.post _) fun a0 b0 h0 => ?_
  refine Post.bind (EntityIdentifier.post) fun a1 b1 h1 => ?_
  refine Post.last (EntityIdentifier.post) fun a2 b2 h2 => ?_
  refine ⟨⟨⟨h0.1.1, h1.1.1, h2.1.1⟩,
    trivial⟩, fun _ => ?_⟩
  exact W.Emits.bind (h0.2 trivial) <|
      W.Emits.bind (h1.2 trivial) <|
      h2.2 trivial

theorem CollisionElasticPdu.rt (s o : CollisionElasticPdu) : RT (CollisionElasticPdu.serialize o) (CollisionElasticPdu.parse s) (CollisionElasticPdu.after s o) := by
  unfold CollisionElasticPdu.serialize CollisionElasticPdu.parse
  exact RT.bind (EntityInformationFamilyPdu.rt s.toEntityInformationFamilyPdu o.toEntityInformationFamilyPdu) <|
    RT.bind (EntityIdentifier.rt s.issuingEntityID o.issuingEntityID) <|
    RT.bind (EntityIdentifier.rt s.collidingEntityID o.collidingEntityID) <|
    RT.bind (EventIdentifier.rt s.collisionEventID o.collisionEventID) <|
    RT.bind (rt_short o.pad) <|
    RT.bind (Vector3Float.rt s.contactVelocity o.contactVelocity) <|
    RT.bind (rt_float o.mass) <|
    RT.bind (Vector3Float.rt s.locationOfImpact o.locationOfImpact) <|
    RT.bind (rt_float o.collisionIntermediateResultXX) <|
    RT.bind (rt_float o.collisionIntermediateResultXY) <|
    RT.bind (rt_float o.collisionIntermediateResultXZ) <|
    RT.bind (rt_float o.collisionIntermediateResultYY) <|
    RT.bind (rt_float o.collisionIntermediateResultYZ) <|
    RT.bind (rt_float o.collisionIntermediateResultZZ) <|
    RT.bind (Vector3Float.rt s.unitSurfaceNormal o.unitSurfaceNormal) <|
    RT.last (rt_float o.coefficientOfRestitution)

theorem CollisionElasticPdu.loc (s : CollisionElasticPdu) : Local (CollisionElasticPdu.parse s) := by
  unfold CollisionElasticPdu.parse
  exact Local.bind (EntityInformationFamilyPdu.loc _) fun _ =>
    Local.bind (EntityIdentifier.loc _) fun _ =>
    Local.bind (EntityIdentifier.loc _) fun _ =>
    Local.bind (EventIdentifier.loc _) fun _ =>
    Local.bind (loc_short) fun _ =>
    Local.bind (Vector3Float.loc _) fun _ =>
    Local.bind (loc_float) fun _ =>
    Local.bind (Vector3Float.loc _) fun _ =>
    Local.bind (loc_float) fun _ =>
    Local.bind (loc_float) fun _ =>
    Local.bind (loc_float) fun _ =>
    Local.bind (loc_float) fun _ =>
    Local.bind (loc_float) fun _ =>
    Local.bind (loc_float) fun _ =>
    Local.bind (Vector3Float.loc _) fun _ =>
    Local.bind (loc_float) fun _ =>
    Local.pure _

theorem CollisionElasticPdu.only (s : CollisionElasticPdu) : OnlyStruct (CollisionElasticPdu.parse s) := by
  unfold CollisionElasticPdu.parse
  exact OnlyStruct.bind (EntityInformationFamilyPdu.only _) fun _ =>
    OnlyStruct.bind (EntityIdentifier.only _) fun _ =>
    OnlyStruct.bind (EntityIdentifier.only _) fun _ =>
    OnlyStruct.bind (EventIdentifier.only _) fun _ =>
    OnlyStruct.bind (only_short) fun _ =>
    OnlyStruct.bind (Vector3Float.only _) fun _ =>
    OnlyStruct.bind (only_float) fun _ =>
    OnlyStruct.bind (Vector3Float.only _) fun _ =>
    OnlyStruct.bind (only_float) fun _ =>
    OnlyStruct.bind (only_float) fun _ =>
    OnlyStruct.bind (only_float) fun _ =>
    OnlyStruct.bind (only_float) fun _ =>
    OnlyStruct.bind (only_float) fun _ =>
    OnlyStruct.bind (only_float) fun _ =>
    OnlyStruct.bind (Vector3Float.only _) fun _ =>
    OnlyStruct.bind (only_float) fun _ =>
    OnlyStruct.pure _

theorem CollisionElasticPdu.sized (o : CollisionElasticPdu) : Sized (CollisionElasticPdu.serialize o) (CollisionElasticPdu.wireSize o) := by
  unfold CollisionElasticPdu.serialize
  refine Sized.of_eq (Sized.bind (EntityInformationFamilyPdu.sized o.toEntityInformationFamilyPdu) <|
    Sized.bind (EntityIdentifier.sized o.issuingEntityID) <|
    Sized.bind (EntityIdentifier.sized o.collidingEntityID) <|
    Sized.bind (EventIdentifier.sized o.collisionEventID) <|
    Sized.bind (sized_short o.pad) <|
    Sized.bind (Vector3Float.sized o.contactVelocity) <|
    Sized.bind (sized_float o.mass) <|
    Sized.bind (Vector3Float.sized o.locationOfImpact) <|
    Sized.bind (sized_float o.collisionIntermediateResultXX) <|
    Sized.bind (sized_float o.collisionIntermediateResultXY) <|
    Sized.bind (sized_float o.collisionIntermediateResultXZ) <|
    Sized.bind (sized_float o.collisionIntermediateResultYY) <|
    Sized.bind (sized_float o.collisionIntermediateResultYZ) <|
    Sized.bind (sized_float o.collisionIntermediateResultZZ) <|
    Sized.bind (Vector3Float.sized o.unitSurfaceNormal) <|
    sized_float o.coefficientOfRestitution) ?_
  simp only [CollisionElasticPdu.wireSize, EntityInformationFamilyPdu.wireSize, Pdu.wireSize, PduSuperclass.wireSize, EntityIdentifier.wireSize, SimulationAddress.wireSize, EventIdentifier.wireSize, Vector3Float.wireSize]; try omega

theorem CollisionElasticPdu.ok_iff (o : CollisionElasticPdu) : (CollisionElasticPdu.serialize o).Ok ↔ CollisionElasticPdu.WireOk o := by
  unfold CollisionElasticPdu.serialize CollisionElasticPdu.WireOk
  exact ok_bind_iff (EntityInformationFamilyPdu.ok_iff o.toEntityInformationFamilyPdu) <|
    ok_bind_iff (EntityIdentifier.ok_iff o.issuingEntityID) <|
    ok_bind_iff (EntityIdentifier.ok_iff o.collidingEntityID) <|
    ok_bind_iff (EventIdentifier.ok_iff o.collisionEventID) <|
    ok_bind_iff (ok_short) <|
    ok_bind_iff (Vector3Float.ok_iff o.contactVelocity) <|
    ok_bind_iff (ok_float) <|
    ok_bind_iff (Vector3Float.ok_iff o.locationOfImpact) <|
    ok_bind_iff (ok_float) <|
    ok_bind_iff (ok_float) <|
    ok_bind_iff (ok_float) <|
    ok_bind_iff (ok_float) <|
    ok_bind_iff (ok_float) <|
    ok_bind_iff (ok_float) <|
    ok_bind_iff (Vector3Float.ok_iff o.unitSurfaceNormal) <|
    ok_float

theorem CollisionElasticPdu.after_canon {o : CollisionElasticPdu} (h : CollisionElasticPdu.Canon o) : CollisionElasticPdu.after CollisionElasticPdu.init o = o := by
  obtain ⟨h_contactVelocity, h_mass, h_locationOfImpact, h_collisionIntermediateResultXX, h_collisionIntermediateResultXY, h_collisionIntermediateResultXZ, h_collisionIntermediateResultYY, h_collisionIntermediateResultYZ, h_collisionIntermediateResultZZ, h_unitSurfaceNormal, h_coefficientOfRestitution⟩ := h
  cases o
  exact (CollisionElasticPdu.mk.injEq ..).mpr ⟨EntityInformationFamilyPdu.after_canon trivial,
    EntityIdentifier.after_canon trivial,
    EntityIdentifier.after_canon trivial,
    EventIdentifier.after_canon trivial,
    rfl,
    Vector3Float.after_canon h_contactVelocity,
    h_mass,
    Vector3Float.after_canon h_locationOfImpact,
    h_collisionIntermediateResultXX,
    h_collisionIntermediateResultXY,
    h_collisionIntermediateResultXZ,
    h_collisionIntermediateResultYY,
    h_collisionIntermediateResultYZ,
    h_collisionIntermediateResultZZ,
    Vector3Float.after_canon h_unitSurfaceNormal,
    h_coefficientOfRestitution⟩

theorem CollisionElasticPdu.post : Post (CollisionElasticPdu.parse CollisionElasticPdu.init) (fun b o => (CollisionElasticPdu.WireOk o ∧ CollisionElasticPdu.Canon o) ∧ (CollisionElasticPdu.NoNaN o → (CollisionElasticPdu.serialize o).Emits b)) := by
  unfold CollisionElasticPdu.parse
  refine Post.bind (EntityInformationFamilyPdu.post _) fun a0 b0 h0 => ?_
  refine Post.bind (EntityIdentifier.post) fun a1 b1 h1 => ?_
  refine Post.bind (EntityIdentifier.post) fun a2 b2 h2 => ?_
  refine Post.bind (EventIdentifier.post) fun a3 b3 h3 => ?_
  refine Post.bind (post_short) fun a4 b4 h4 => ?_
  refine Post.bind (Vector3Float.post) fun a5 b5 h5 => ?_
  refine Post.bind (post_float) fun a6 b6 h6 => ?_
  refine Post.bind (Vector3Float.post) fun a7 b7 h7 => ?_
  refine Post.bind (post_float) fun a8 b8 h8 => ?_
  refine Post.bind (post_float) fun a9 b9 h9 => ?_
  refine Post.bind (post_float) fun a10 b10 h10 => ?_
  refine Post.bind (post_float) fun a11 b11 h11 => ?_
  refine Post.bind (post_float) fun a12 b12 h12 => ?_
  refine Post.bind (post_float) fun a13 b13 h13 => ?_
  refine Post.bind (Vector3Float.post) fun a14 b14 h14 => ?_
  refine Post.last (post_float) fun a15 b15 h15 => ?_
  refine ⟨⟨⟨h0.1.1, h1.1.1, h2.1.1, h3.1.1, h4.1, h5.1.1, h6.1.1, h7.1.1, h8.1.1, h9.1.1, h10.1.1, h11.1.1, h12.1.1, h13.1.1, h14.1.1, h15.1.1⟩,
    ⟨h5.1.2, h6.1.2, h7.1.2, h8.1.2, h9.1.2, h10.1.2, h11.1.2, h12.1.2, h13.1.2, h14.1.2, h15.1.2⟩⟩, fun hn => ?_⟩
  obtain ⟨n0, n1, n2, n3, n4, n5, n6, n7, n8, n9, n10⟩ := hn
  exact W.Emits.bind (h0.2 trivial) <|
      W.Emits.bind (h1.2 trivial) <|
      W.Emits.bind (h2.2 trivial) <|
      W.Emits.bind (h3.2 trivial) <|
      W.Emits.bind (h4.2) <|
      W.Emits.bind (h5.2 n0) <|
      W.Emits.bind (h6.2 n1) <|
      W.Emits.bind (h7.2 n2) <|
      W.Emits.bind (h8.2 n3) <|
      W.Emits.bind (h9.2 n4) <|
      W.Emits.bind (h10.2 n5) <|
      W.Emits.bind (h11.2 n6) <|
      W.Emits.bind (h12.2 n7) <|
      W.Emits.bind (h13.2 n8) <|
      W.Emits.bind (h14.2 n9) <|
      h15.2 n10

theorem ActionRequestPdu.rt (s o : ActionRequestPdu) : RT (ActionRequestPdu.serialize o) (ActionRequestPdu.parse s) (ActionRequestPdu.after s o) := by
  unfold ActionRequestPdu.serialize ActionRequestPdu.parse
  exact RT.bind (SimulationManagementFamilyPdu.rt s.toSimulationManagementFamilyPdu o.toSimulationManagementFamilyPdu) <|
    RT.bind (rt_unsigned_int o.requestID) <|
    RT.bind (rt_unsigned_int o.actionID) <|
    RT.last (DatumSpecification.rt s._datums o._datums)

theorem ActionRequestPdu.loc (s : ActionRequestPdu) : Local (ActionRequestPdu.parse s) := by
  unfold ActionRequestPdu.parse
  exact Local.bind (SimulationManagementFamilyPdu.loc _) fun _ =>
    Local.bind (loc_unsigned_int) fun _ =>
    Local.bind (loc_unsigned_int) fun _ =>
    Local.bind (DatumSpecification.loc _) fun _ =>
    Local.pure _

theorem ActionRequestPdu.only (s : ActionRequestPdu) : OnlyStruct (ActionRequestPdu.parse s) := by
  unfold ActionRequestPdu.parse
  exact OnlyStruct.bind (SimulationManagementFamilyPdu.only _) fun _ =>
    OnlyStruct.bind (only_unsigned_int) fun _ =>
    OnlyStruct.bind (only_unsigned_int) fun _ =>
    OnlyStruct.bind (DatumSpecification.only _) fun _ =>
    OnlyStruct.pure _

theorem ActionRequestPdu.sized (o : ActionRequestPdu) : Sized (ActionRequestPdu.serialize o) (ActionRequestPdu.wireSize o) := by
  unfold ActionRequestPdu.serialize
  refine Sized.of_eq (Sized.bind (SimulationManagementFamilyPdu.sized o.toSimulationManagementFamilyPdu) <|
    Sized.bind (sized_unsigned_int o.requestID) <|
    Sized.bind (sized_unsigned_int o.actionID) <|
    DatumSpecification.sized o._datums) ?_
  simp only [ActionRequestPdu.wireSize, SimulationManagementFamilyPdu.wireSize, Pdu.wireSize, PduSuperclass.wireSize, EntityIdentifier.wireSize, SimulationAddress.wireSize, DatumSpecification.wireSize]; try omega

theorem ActionRequestPdu.ok_iff (o : ActionRequestPdu) : (ActionRequestPdu.serialize o).Ok ↔ ActionRequestPdu.WireOk o := by
  unfold ActionRequestPdu.serialize ActionRequestPdu.WireOk
  exact ok_bind_iff (SimulationManagementFamilyPdu.ok_iff o.toSimulationManagementFamilyPdu) <|
    ok_bind_iff (ok_unsigned_int) <|
    ok_bind_iff (ok_unsigned_int) <|
    DatumSpecification.ok_iff o._datums

theorem ActionRequestPdu.after_canon {o : ActionRequestPdu} (h : ActionRequestPdu.Canon o) : ActionRequestPdu.after ActionRequestPdu.init o = o := by
  have h__datums := h
  cases o
  exact (ActionRequestPdu.mk.injEq ..).mpr ⟨SimulationManagementFamilyPdu.after_canon trivial,
    rfl,
    rfl,
    DatumSpecification.after_canon h__datums⟩

theorem ActionRequestPdu.post : Post (ActionRequestPdu.parse ActionRequestPdu.init) (fun _ o => ActionRequestPdu.WireOk o ∧ ActionRequestPdu.Canon o) := by
  unfold ActionRequestPdu.parse
  refine Post.bind (SimulationManagementFamilyPdu.post _) fun a0 b0 h0 => ?_
  refine Post.bind (post_unsigned_int) fun a1 b1 h1 => ?_
  refine Post.bind (post_unsigned_int) fun a2 b2 h2 => ?_
  refine Post.last (DatumSpecification.post) fun a3 b3 h3 => ?_
  exact ⟨⟨h0.1.1, h1.1, h2.1, h3.1⟩,
    h3.2⟩

theorem AcknowledgePdu.rt (s o : AcknowledgePdu) : RT (AcknowledgePdu.serialize o) (AcknowledgePdu.parse s) (AcknowledgePdu.after s o) := by
  unfold AcknowledgePdu.serialize AcknowledgePdu.parse
  exact RT.bind (SimulationManagementFamilyPdu.rt s.toSimulationManagementFamilyPdu o.toSimulationManagementFamilyPdu) <|
    RT.bind (rt_unsigned_short o.acknowledgeFlag) <|
    RT.bind (rt_unsigned_short o.responseFlag) <|
    RT.last (rt_unsigned_int o.requestID)

theorem AcknowledgePdu.loc (s : AcknowledgePdu) : Local (AcknowledgePdu.parse s) := by
  unfold AcknowledgePdu.parse
  exact Local.bind (SimulationManagementFamilyPdu.loc _) fun _ =>
    Local.bind (loc_unsigned_short) fun _ =>
    Local.bind (loc_unsigned_short) fun _ =>
    Local.bind (loc_unsigned_int) fun _ =>
    Local.pure _

theorem AcknowledgePdu.only (s : AcknowledgePdu) : OnlyStruct (AcknowledgePdu.parse s) := by
  unfold AcknowledgePdu.parse
  exact OnlyStruct.bind (SimulationManagementFamilyPdu.only _) fun _ =>
    OnlyStruct.bind (only_unsigned_short) fun _ =>
    OnlyStruct.bind (only_unsigned_short) fun _ =>
    OnlyStruct.bind (only_unsigned_int) fun _ =>
    OnlyStruct.pure _

theorem AcknowledgePdu.sized (o : AcknowledgePdu) : Sized (AcknowledgePdu.serialize o) (AcknowledgePdu.wireSize o) := by
  unfold AcknowledgePdu.serialize
  refine Sized.of_eq (Sized.bind (SimulationManagementFamilyPdu.sized o.toSimulationManagementFamilyPdu) <|
    Sized.bind (sized_unsigned_short o.acknowledgeFlag) <|
    Sized.bind (sized_unsigned_short o.responseFlag) <|
    sized_unsigned_int o.requestID) ?_
  simp only [AcknowledgePdu.wireSize, SimulationManagementFamilyPdu.wireSize, Pdu.wireSize, PduSuperclass.wireSize, EntityIdentifier.wireSize, SimulationAddress.wireSize]; try omega

theorem AcknowledgePdu.ok_iff (o : AcknowledgePdu) : (AcknowledgePdu.serialize o).Ok ↔ AcknowledgePdu.WireOk o := by
  unfold AcknowledgePdu.serialize AcknowledgePdu.WireOk
  exact ok_bind_iff (SimulationManagementFamilyPdu.ok_iff o.toSimulationManagementFamilyPdu) <|
    ok_bind_iff (ok_unsigned_short) <|
    ok_bind_iff (ok_unsigned_short) <|
    ok_unsigned_int

theorem AcknowledgePdu.after_canon {o : AcknowledgePdu} (h : AcknowledgePdu.Canon o) : AcknowledgePdu.after AcknowledgePdu.init o = o := by
  cases o
  exact (AcknowledgePdu.mk.injEq ..).mpr ⟨SimulationManagementFamilyPdu.after_canon trivial,
    rfl,
    rfl,
    rfl⟩

theorem AcknowledgePdu.post : Post (AcknowledgePdu.parse AcknowledgePdu.init) (fun b o => (AcknowledgePdu.WireOk o ∧ AcknowledgePdu.Canon o) ∧ (AcknowledgePdu.NoNaN o → (AcknowledgePdu.serialize o).Emits b)) := by
  unfold AcknowledgePdu.parse
  refine Post.bind (SimulationManagementFamilyPdu.post _) fun a0 b0 h0 => ?_
  refine Post.bind (post_unsigned_short) fun a1 b1 h1 => ?_
  refine Post.bind (post_unsigned_short) fun a2 b2 h2 => ?_
  refine Post.last (post_unsigned_int) fun a3 b3 h3 => ?_
  refine ⟨⟨⟨h0.1.1, h1.1, h2.1, h3.1⟩,
    trivial⟩, fun _ => ?_⟩
  exact W.Emits.bind (h0.2 trivial) <|
      W.Emits.bind (h1.2) <|
      W.Emits.bind (h2.2) <|
      h3.2

theorem DistributedEmissionsFamilyPdu.rt (s o : DistributedEmissionsFamilyPdu) : RT (DistributedEmissionsFamilyPdu.serialize o) (DistributedEmissionsFamilyPdu.parse s) (DistributedEmissionsFamilyPdu.after s o) := by
  unfold DistributedEmissionsFamilyPdu.serialize DistributedEmissionsFamilyPdu.parse
  exact RT.last (Pdu.rt s.toPdu o.toPdu)

theorem DistributedEmissionsFamilyPdu.loc (s : DistributedEmissionsFamilyPdu) : Local (DistributedEmissionsFamilyPdu.parse s) := by
  unfold DistributedEmissionsFamilyPdu.parse
  exact Local.bind (Pdu.loc _) fun _ =>
    Local.pure _

theorem DistributedEmissionsFamilyPdu.only (s : DistributedEmissionsFamilyPdu) : OnlyStruct (DistributedEmissionsFamilyPdu.parse s) := by
  unfold DistributedEmissionsFamilyPdu.parse
  exact OnlyStruct.bind (Pdu.only _) fun _ =>
    OnlyStruct.pure _

theorem DistributedEmissionsFamilyPdu.sized (o : DistributedEmissionsFamilyPdu) : Sized (DistributedEmissionsFamilyPdu.serialize o) (DistributedEmissionsFamilyPdu.wireSize o) := by
  unfold DistributedEmissionsFamilyPdu.serialize
  exact (Pdu.sized o.toPdu).of_eq (by simp only [DistributedEmissionsFamilyPdu.wireSize, Pdu.wireSize, PduSuperclass.wireSize]; try omega)

theorem DistributedEmissionsFamilyPdu.ok_iff (o : DistributedEmissionsFamilyPdu) : (DistributedEmissionsFamilyPdu.serialize o).Ok ↔ DistributedEmissionsFamilyPdu.WireOk o := by
  unfold DistributedEmissionsFamilyPdu.serialize DistributedEmissionsFamilyPdu.WireOk
  exact Pdu.ok_iff o.toPdu

theorem DistributedEmissionsFamilyPdu.after_canon {s o : DistributedEmissionsFamilyPdu} (h : DistributedEmissionsFamilyPdu.Canon o) : DistributedEmissionsFamilyPdu.after s o = o := by
  cases o; exact (DistributedEmissionsFamilyPdu.mk.injEq ..).mpr (Pdu.after_canon trivial)

theorem DistributedEmissionsFamilyPdu.post (s : DistributedEmissionsFamilyPdu) : Post (DistributedEmissionsFamilyPdu.parse s) (fun b o => (DistributedEmissionsFamilyPdu.WireOk o ∧ DistributedEmissionsFamilyPdu.Canon o) ∧ (DistributedEmissionsFamilyPdu.NoNaN o → (DistributedEmissionsFamilyPdu.serialize o).Emits b)) := by
  unfold DistributedEmissionsFamilyPdu.parse
  refine Post.last (Pdu.post _) fun a0 b0 h0 => ?_
  refine ⟨⟨h0.1.1,
    trivial⟩, fun _ => ?_⟩
  exact h0.2 trivial

theorem SimulationManagementWithReliabilityFamilyPdu.rt (s o : SimulationManagementWithReliabilityFamilyPdu) : RT (SimulationManagementWithReliabilityFamilyPdu.serialize o) (SimulationManagementWithReliabilityFamilyPdu.parse s) (SimulationManagementWithReliabilityFamilyPdu.after s o) := by
  unfold SimulationManagementWithReliabilityFamilyPdu.serialize SimulationManagementWithReliabilityFamilyPdu.parse
  exact RT.bind (Pdu.rt s.toPdu o.toPdu) <|
    RT.bind (EntityIdentifier.rt s.originatingEntityID o.originatingEntityID) <|
    RT.last (EntityIdentifier.rt s.receivingEntityID o.receivingEntityID)

theorem SimulationManagementWithReliabilityFamilyPdu.loc (s : SimulationManagementWithReliabilityFamilyPdu) : Local (SimulationManagementWithReliabilityFamilyPdu.parse s) := by
  unfold SimulationManagementWithReliabilityFamilyPdu.parse
  exact Local.bind (Pdu.loc _) fun _ =>
    Local.bind (EntityIdentifier.loc _) fun _ =>
    Local.bind (EntityIdentifier.loc _) fun _ =>
    Local.pure _

theorem SimulationManagementWithReliabilityFamilyPdu.only (s : SimulationManagementWithReliabilityFamilyPdu) : OnlyStruct (SimulationManagementWithReliabilityFamilyPdu.parse s) := by
  unfold SimulationManagementWithReliabilityFamilyPdu.parse
  exact OnlyStruct.bind (Pdu.only _) fun _ =>
    OnlyStruct.bind (EntityIdentifier.only _) fun _ =>
    OnlyStruct.bind (EntityIdentifier.only _) fun _ =>
    OnlyStruct.pure _

theorem SimulationManagementWithReliabilityFamilyPdu.sized (o : SimulationManagementWithReliabilityFamilyPdu) : Sized (SimulationManagementWithReliabilityFamilyPdu.serialize o) (SimulationManagementWithReliabilityFamilyPdu.wireSize o) := by
  unfold SimulationManagementWithReliabilityFamilyPdu.serialize
  refine Sized.of_eq (Sized.bind (Pdu.sized o.toPdu) <|
    Sized.bind (EntityIdentifier.sized o.originatingEntityID) <|
    EntityIdentifier.sized o.receivingEntityID) ?_
  simp only [SimulationManagementWithReliabilityFamilyPdu.wireSize, Pdu.wireSize, PduSuperclass.wireSize, EntityIdentifier.wireSize, SimulationAddress.wireSize]; try omega

theorem SimulationManagementWithReliabilityFamilyPdu.ok_iff (o : SimulationManagementWithReliabilityFamilyPdu) : (SimulationManagementWithReliabilityFamilyPdu.serialize o).Ok ↔ SimulationManagementWithReliabilityFamilyPdu.WireOk o := by
  unfold SimulationManagementWithReliabilityFamilyPdu.serialize SimulationManagementWithReliabilityFamilyPdu.WireOk
  exact ok_bind_iff (Pdu.ok_iff o.toPdu) <|
    ok_bind_iff (EntityIdentifier.ok_iff o.originatingEntityID) <|
    EntityIdentifier.ok_iff o.receivingEntityID

theorem SimulationManagementWithReliabilityFamilyPdu.after_canon {s o : SimulationManagementWithReliabilityFamilyPdu} (h : SimulationManagementWithReliabilityFamilyPdu.Canon o) : SimulationManagementWithReliabilityFamilyPdu.after s o = o := by
  cases o
  exact (SimulationManagementWithReliabilityFamilyPdu.mk.injEq ..).mpr ⟨Pdu.after_canon trivial,
    EntityIdentifier.after_canon trivial,
    EntityIdentifier.after_canon trivial⟩

theorem SimulationManagementWithReliabilityFamilyPdu.post (s : SimulationManagementWithReliabilityFamilyPdu) : Post (SimulationManagementWithReliabilityFamilyPdu.parse s) (fun b o => (SimulationManagementWithReliabilityFamilyPdu.WireOk o ∧ SimulationManagementWithReliabilityFamilyPdu.Canon o) ∧ (SimulationManagementWithReliabilityFamilyPdu.NoNaN o → (SimulationManagementWithReliabilityFamilyPdu.serialize o).Emits b)) := by
  unfold SimulationManagementWithReliabilityFamilyPdu.parse
  refine Post.bind (Pdu.post _) fun a0 b0 h0 => ?_
  refine Post.bind (EntityIdentifier.post) fun a1 b1 h1 => ?_
  refine Post.last (EntityIdentifier.post) fun a2 b2 h2 => ?_
  refine ⟨⟨⟨h0.1.1, h1.1.1, h2.1.1⟩,
    trivial⟩, fun _ => ?_⟩
  exact W.Emits.bind (h0.2 trivial) <|
      W.Emits.bind (h1.2 trivial) <|
      h2.2 trivial

theorem ActionRequestReliablePdu.rt (s o : ActionRequestReliablePdu) : RT (ActionRequestReliablePdu.serialize o) (ActionRequestReliablePdu.parse s) (ActionRequestReliablePdu.after s o) := by
  unfold ActionRequestReliablePdu.serialize ActionRequestReliablePdu.parse
  exact RT.bind (SimulationManagementWithReliabilityFamilyPdu.rt s.toSimulationManagementWithReliabilityFamilyPdu o.toSimulationManagementWithReliabilityFamilyPdu) <|
    RT.bind (rt_unsigned_byte o.requiredReliabilityService) <|
    RT.bind (rt_unsigned_short o.pad1) <|
    RT.bind (rt_unsigned_byte o.pad2) <|
    RT.bind (rt_unsigned_int o.requestID) <|
    RT.bind (rt_unsigned_int o.actionID) <|
    RT.bind (rt_int o.pad3) <|
    RT.last (DatumSpecification.rt s._datums o._datums)

theorem ActionRequestReliablePdu.loc (s : ActionRequestReliablePdu) : Local (ActionRequestReliablePdu.parse s) := by
  unfold ActionRequestReliablePdu.parse
  exact Local.bind (SimulationManagementWithReliabilityFamilyPdu.loc _) fun _ =>
    Local.bind (loc_unsigned_byte) fun _ =>
    Local.bind (loc_unsigned_short) fun _ =>
    Local.bind (loc_unsigned_byte) fun _ =>
    Local.bind (loc_unsigned_int) fun _ =>
    Local.bind (loc_unsigned_int) fun _ =>
    Local.bind (loc_int) fun _ =>
    Local.bind (DatumSpecification.loc _) fun _ =>
    Local.pure _

theorem ActionRequestReliablePdu.only (s : ActionRequestReliablePdu) : OnlyStruct (ActionRequestReliablePdu.parse s) := by
  unfold ActionRequestReliablePdu.parse
  exact OnlyStruct.bind (SimulationManagementWithReliabilityFamilyPdu.only _) fun _ =>
    OnlyStruct.bind (only_unsigned_byte) fun _ =>
    OnlyStruct.bind (only_unsigned_short) fun _ =>
    OnlyStruct.bind (only_unsigned_byte) fun _ =>
    OnlyStruct.bind (only_unsigned_int) fun _ =>
    OnlyStruct.bind (only_unsigned_int) fun _ =>
    OnlyStruct.bind (only_int) fun _ =>
    OnlyStruct.bind (DatumSpecification.only _) fun _ =>
    OnlyStruct.pure _

theorem ActionRequestReliablePdu.sized (o : ActionRequestReliablePdu) : Sized (ActionRequestReliablePdu.serialize o) (ActionRequestReliablePdu.wireSize o) := by
  unfold ActionRequestReliablePdu.serialize
  refine Sized.of_eq (Sized.bind (SimulationManagementWithReliabilityFamilyPdu.sized o.toSimulationManagementWithReliabilityFamilyPdu) <|
    Sized.bind (sized_unsigned_byte o.requiredReliabilityService) <|
    Sized.bind (sized_unsigned_short o.pad1) <|
    Sized.bind (sized_unsigned_byte o.pad2) <|
    Sized.bind (sized_unsigned_int o.requestID) <|
    Sized.bind (sized_unsigned_int o.actionID) <|
    Sized.bind (sized_int o.pad3) <|
    DatumSpecification.sized o._datums) ?_
  simp only [ActionRequestReliablePdu.wireSize, SimulationManagementWithReliabilityFamilyPdu.wireSize, Pdu.wireSize, PduSuperclass.wireSize, EntityIdentifier.wireSize, SimulationAddress.wireSize, DatumSpecification.wireSize]; try omega

theorem ActionRequestReliablePdu.ok_iff (o : ActionRequestReliablePdu) : (ActionRequestReliablePdu.serialize o).Ok ↔ ActionRequestReliablePdu.WireOk o := by
  unfold ActionRequestReliablePdu.serialize ActionRequestReliablePdu.WireOk
  exact ok_bind_iff (SimulationManagementWithReliabilityFamilyPdu.ok_iff o.toSimulationManagementWithReliabilityFamilyPdu) <|
    ok_bind_iff (ok_unsigned_byte) <|
    ok_bind_iff (ok_unsigned_short) <|
    ok_bind_iff (ok_unsigned_byte) <|
    ok_bind_iff (ok_unsigned_int) <|
    ok_bind_iff (ok_unsigned_int) <|
    ok_bind_iff (ok_int) <|
    DatumSpecification.ok_iff o._datums

theorem ActionRequestReliablePdu.after_canon {o : ActionRequestReliablePdu} (h : ActionRequestReliablePdu.Canon o) : ActionRequestReliablePdu.after ActionRequestReliablePdu.init o = o := by
  have h__datums := h
  cases o
  exact (ActionRequestReliablePdu.mk.injEq ..).mpr ⟨SimulationManagementWithReliabilityFamilyPdu.after_canon trivial,
    rfl,
    rfl,
    rfl,
    rfl,
    rfl,
    rfl,
    DatumSpecification.after_canon h__datums⟩

theorem ActionRequestReliablePdu.post : Post (ActionRequestReliablePdu.parse ActionRequestReliablePdu.init) (fun _ o => ActionRequestReliablePdu.WireOk o ∧ ActionRequestReliablePdu.Canon o) := by
  unfold ActionRequestReliablePdu.parse
  refine Post.bind (SimulationManagementWithReliabilityFamilyPdu.post _) fun a0 b0 h0 => ?_
  refine Post.bind (post_unsigned_byte) fun a1 b1 h1 => ?_
  refine Post.bind (post_unsigned_short) fun a2 b2 h2 => ?_
  refine Post.bind (post_unsigned_byte) fun a3 b3 h3 => ?_
  refine Post.bind (post_unsigned_int) fun a4 b4 h4 => ?_
  refine Post.bind (post_unsigned_int) fun a5 b5 h5 => ?_
  refine Post.bind (post_int) fun a6 b6 h6 => ?_
  refine Post.last (DatumSpecification.post) fun a7 b7 h7 => ?_
  exact ⟨⟨h0.1.1, h1.1, h2.1, h3.1, h4.1, h5.1, h6.1, h7.1⟩,
    h7.2⟩

end Dis
