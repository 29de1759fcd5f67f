import Verif.Spec.Pdus5
import Verif.Proof.Pdus4

/-!
# Proofs for: PDUs of `opendis/dis7.py`, part 5

Generated by `tools/genproof.py`.
-/

set_option linter.unusedVariables false
set_option linter.unusedSimpArgs false

namespace Dis

theorem FirePdu.rt (s o : FirePdu) : RT (FirePdu.serialize o) (FirePdu.parse s) (FirePdu.after s o) := by
  unfold FirePdu.serialize FirePdu.parse
  exact RT.bind (WarfareFamilyPdu.rt s.toWarfareFamilyPdu o.toWarfareFamilyPdu) <|
    RT.bind (EntityIdentifier.rt s.munitionExpendableID o.munitionExpendableID) <|
    RT.bind (EventIdentifier.rt s.eventID o.eventID) <|
    RT.bind (rt_unsigned_int o.fireMissionIndex) <|
    RT.bind (WorldCoordinates.rt s.location o.location) <|
    RT.bind (MunitionDescriptor.rt s.descriptor o.descriptor) <|
    RT.bind (Vector3Float.rt s.velocity o.velocity) <|
    RT.last (rt_float o.range)

theorem FirePdu.loc (s : FirePdu) : Local (FirePdu.parse s) := by
  unfold FirePdu.parse
  exact Local.bind (WarfareFamilyPdu.loc _) fun _ =>
    Local.bind (EntityIdentifier.loc _) fun _ =>
    Local.bind (EventIdentifier.loc _) fun _ =>
    Local.bind (loc_unsigned_int) fun _ =>
    Local.bind (WorldCoordinates.loc _) fun _ =>
    Local.bind (MunitionDescriptor.loc _) fun _ =>
    Local.bind (Vector3Float.loc _) fun _ =>
    Local.bind (loc_float) fun _ =>
    Local.pure _

theorem FirePdu.only (s : FirePdu) : OnlyStruct (FirePdu.parse s) := by
  unfold FirePdu.parse
  exact OnlyStruct.bind (WarfareFamilyPdu.only _) fun _ =>
    OnlyStruct.bind (EntityIdentifier.only _) fun _ =>
    OnlyStruct.bind (EventIdentifier.only _) fun _ =>
    OnlyStruct.bind (only_unsigned_int) fun _ =>
    OnlyStruct.bind (WorldCoordinates.only _) fun _ =>
    OnlyStruct.bind (MunitionDescriptor.only _) fun _ =>
    OnlyStruct.bind (Vector3Float.only _) fun _ =>
    OnlyStruct.bind (only_float) fun _ =>
    OnlyStruct.pure _

theorem FirePdu.sized (o : FirePdu) : Sized (FirePdu.serialize o) (FirePdu.wireSize o) := by
  unfold FirePdu.serialize
  refine Sized.of_eq (Sized.bind (WarfareFamilyPdu.sized o.toWarfareFamilyPdu) <|
    Sized.bind (EntityIdentifier.sized o.munitionExpendableID) <|
    Sized.bind (EventIdentifier.sized o.eventID) <|
    Sized.bind (sized_unsigned_int o.fireMissionIndex) <|
    Sized.bind (WorldCoordinates.sized o.location) <|
    Sized.bind (MunitionDescriptor.sized o.descriptor) <|
    Sized.bind (Vector3Float.sized o.velocity) <|
    sized_float o.range) ?_
  simp only [FirePdu.wireSize, WarfareFamilyPdu.wireSize, Pdu.wireSize, PduSuperclass.wireSize, EntityIdentifier.wireSize, SimulationAddress.wireSize, EventIdentifier.wireSize, WorldCoordinates.wireSize, MunitionDescriptor.wireSize, EntityType.wireSize, Vector3Float.wireSize]; try omega

theorem FirePdu.ok_iff (o : FirePdu) : (FirePdu.serialize o).Ok ↔ FirePdu.WireOk o := by
  unfold FirePdu.serialize FirePdu.WireOk
  exact ok_bind_iff (WarfareFamilyPdu.ok_iff o.toWarfareFamilyPdu) <|
    ok_bind_iff (EntityIdentifier.ok_iff o.munitionExpendableID) <|
    ok_bind_iff (EventIdentifier.ok_iff o.eventID) <|
    ok_bind_iff (ok_unsigned_int) <|
    ok_bind_tl (WorldCoordinates.ok_iff o.location) <|
    ok_bind_iff (MunitionDescriptor.ok_iff o.descriptor) <|
    ok_bind_iff (Vector3Float.ok_iff o.velocity) <|
    ok_float

theorem FirePdu.after_canon {o : FirePdu} (h : FirePdu.Canon o) : FirePdu.after FirePdu.init o = o := by
  obtain ⟨h_velocity, h_range⟩ := h
  cases o
  exact (FirePdu.mk.injEq ..).mpr ⟨WarfareFamilyPdu.after_canon trivial,
    EntityIdentifier.after_canon trivial,
    EventIdentifier.after_canon trivial,
    rfl,
    WorldCoordinates.after_canon trivial,
    MunitionDescriptor.after_canon trivial,
    Vector3Float.after_canon h_velocity,
    h_range⟩

theorem FirePdu.post : Post (FirePdu.parse FirePdu.init) (fun b o => (FirePdu.WireOk o ∧ FirePdu.Canon o) ∧ (FirePdu.NoNaN o → (FirePdu.serialize o).Emits b)) := by
  unfold FirePdu.parse
  refine Post.bind (WarfareFamilyPdu.post _) fun a0 b0 h0 => ?_
  refine Post.bind (EntityIdentifier.post) fun a1 b1 h1 => ?_
  refine Post.bind (EventIdentifier.post) fun a2 b2 h2 => ?_
  refine Post.bind (post_unsigned_int) fun a3 b3 h3 => ?_
  refine Post.bind (WorldCoordinates.post) fun a4 b4 h4 => ?_
  refine Post.bind (MunitionDescriptor.post) fun a5 b5 h5 => ?_
  refine Post.bind (Vector3Float.post) fun a6 b6 h6 => ?_
  refine Post.last (post_float) fun a7 b7 h7 => ?_
  refine ⟨⟨⟨h0.1.1, h1.1.1, h2.1.1, h3.1, h5.1.1, h6.1.1, h7.1.1⟩,
    ⟨h6.1.2, h7.1.2⟩⟩, fun hn => ?_⟩
  obtain ⟨n0, n1⟩ := hn
  exact W.Emits.bind (h0.2 trivial) <|
      W.Emits.bind (h1.2 trivial) <|
      W.Emits.bind (h2.2 trivial) <|
      W.Emits.bind (h3.2) <|
      W.Emits.bind (h4.2 trivial) <|
      W.Emits.bind (h5.2 trivial) <|
      W.Emits.bind (h6.2 n0) <|
      h7.2 n1

theorem ReceiverPdu.rt (s o : ReceiverPdu) : RT (ReceiverPdu.serialize o) (ReceiverPdu.parse s) (ReceiverPdu.after s o) := by
  unfold ReceiverPdu.serialize ReceiverPdu.parse
  exact RT.bind (RadioCommunicationsFamilyPdu.rt s.toRadioCommunicationsFamilyPdu o.toRadioCommunicationsFamilyPdu) <|
    RT.bind (rt_unsigned_short o.receiverState) <|
    RT.bind (rt_unsigned_short o.padding1) <|
    RT.bind (rt_float o.receivedPower) <|
    RT.bind (EntityIdentifier.rt s.transmitterEntityID o.transmitterEntityID) <|
    RT.last (rt_unsigned_short o.transmitterRadioId)

theorem ReceiverPdu.loc (s : ReceiverPdu) : Local (ReceiverPdu.parse s) := by
  unfold ReceiverPdu.parse
  exact Local.bind (RadioCommunicationsFamilyPdu.loc _) fun _ =>
    Local.bind (loc_unsigned_short) fun _ =>
    Local.bind (loc_unsigned_short) fun _ =>
    Local.bind (loc_float) fun _ =>
    Local.bind (EntityIdentifier.loc _) fun _ =>
    Local.bind (loc_unsigned_short) fun _ =>
    Local.pure _

theorem ReceiverPdu.only (s : ReceiverPdu) : OnlyStruct (ReceiverPdu.parse s) := by
  unfold ReceiverPdu.parse
  exact OnlyStruct.bind (RadioCommunicationsFamilyPdu.only _) fun _ =>
    OnlyStruct.bind (only_unsigned_short) fun _ =>
    OnlyStruct.bind (only_unsigned_short) fun _ =>
    OnlyStruct.bind (only_float) fun _ =>
    OnlyStruct.bind (EntityIdentifier.only _) fun _ =>
    OnlyStruct.bind (only_unsigned_short) fun _ =>
    OnlyStruct.pure _

theorem ReceiverPdu.sized (o : ReceiverPdu) : Sized (ReceiverPdu.serialize o) (ReceiverPdu.wireSize o) := by
  unfold ReceiverPdu.serialize
  refine Sized.of_eq (Sized.bind (RadioCommunicationsFamilyPdu.sized o.toRadioCommunicationsFamilyPdu) <|
    Sized.bind (sized_unsigned_short o.receiverState) <|
    Sized.bind (sized_unsigned_short o.padding1) <|
    Sized.bind (sized_float o.receivedPower) <|
    Sized.bind (EntityIdentifier.sized o.transmitterEntityID) <|
    sized_unsigned_short o.transmitterRadioId) ?_
  simp only [ReceiverPdu.wireSize, RadioCommunicationsFamilyPdu.wireSize, Pdu.wireSize, PduSuperclass.wireSize, EntityIdentifier.wireSize, SimulationAddress.wireSize]; try omega

theorem ReceiverPdu.ok_iff (o : ReceiverPdu) : (ReceiverPdu.serialize o).Ok ↔ ReceiverPdu.WireOk o := by
  unfold ReceiverPdu.serialize ReceiverPdu.WireOk
  exact ok_bind_iff (RadioCommunicationsFamilyPdu.ok_iff o.toRadioCommunicationsFamilyPdu) <|
    ok_bind_iff (ok_unsigned_short) <|
    ok_bind_iff (ok_unsigned_short) <|
    ok_bind_iff (ok_float) <|
    ok_bind_iff (EntityIdentifier.ok_iff o.transmitterEntityID) <|
    ok_unsigned_short

theorem ReceiverPdu.after_canon {o : ReceiverPdu} (h : ReceiverPdu.Canon o) : ReceiverPdu.after ReceiverPdu.init o = o := by
  have h_receivedPower := h
  cases o
  exact (ReceiverPdu.mk.injEq ..).mpr ⟨RadioCommunicationsFamilyPdu.after_canon trivial,
    rfl,
    rfl,
    h_receivedPower,
    EntityIdentifier.after_canon trivial,
    rfl⟩

theorem ReceiverPdu.post : Post (ReceiverPdu.parse ReceiverPdu.init) (fun b o => (ReceiverPdu.WireOk o ∧ ReceiverPdu.Canon o) ∧ (ReceiverPdu.NoNaN o → (ReceiverPdu.serialize o).Emits b)) := by
  unfold ReceiverPdu.parse
  refine Post.bind (RadioCommunicationsFamilyPdu.post _) fun a0 b0 h0 => ?_
  refine Post.bind (post_unsigned_short) fun a1 b1 h1 => ?_
  refine Post.bind (post_unsigned_short) fun a2 b2 h2 => ?_
  refine Post.bind (post_float) fun a3 b3 h3 => ?_
  refine Post.bind (EntityIdentifier.post) fun a4 b4 h4 => ?_
  refine Post.last (post_unsigned_short) fun a5 b5 h5 => ?_
  refine ⟨⟨⟨h0.1.1, h1.1, h2.1, h3.1.1, h4.1.1, h5.1⟩,
    h3.1.2⟩, fun n0 => ?_⟩
  exact W.Emits.bind (h0.2 trivial) <|
      W.Emits.bind (h1.2) <|
      W.Emits.bind (h2.2) <|
      W.Emits.bind (h3.2 n0) <|
      W.Emits.bind (h4.2 trivial) <|
      h5.2

theorem UaPdu.rt (s o : UaPdu) : RT (UaPdu.serialize o) (UaPdu.parse s) (UaPdu.after s o) := by
  unfold UaPdu.serialize UaPdu.parse
  exact RT.bind (DistributedEmissionsFamilyPdu.rt s.toDistributedEmissionsFamilyPdu o.toDistributedEmissionsFamilyPdu) <|
    RT.bind (EntityIdentifier.rt s.emittingEntityID o.emittingEntityID) <|
    RT.bind (EventIdentifier.rt s.eventID o.eventID) <|
    RT.bind (rt_byte o.stateChangeIndicator) <|
    RT.bind (rt_byte o.pad) <|
    RT.bind (rt_unsigned_short o.passiveParameterIndex) <|
    RT.bind (rt_unsigned_byte o.propulsionPlantConfiguration) <|
    RT.bind (rt_unsigned_byte ((o.shaftRPMs.length : Int))) <|
    RT.bind (rt_unsigned_byte ((o.apaData.length : Int))) <|
    RT.bind (rt_unsigned_byte ((o.emitterSystems.length : Int))) <|
    RT.bind (rt_list_throw) <|
    RT.bind (rt_list_throw) <|
    RT.last (rt_list_throw)

theorem UaPdu.loc (s : UaPdu) : Local (UaPdu.parse s) := by
  unfold UaPdu.parse
  exact Local.bind (DistributedEmissionsFamilyPdu.loc _) fun _ =>
    Local.bind (EntityIdentifier.loc _) fun _ =>
    Local.bind (EventIdentifier.loc _) fun _ =>
    Local.bind (loc_byte) fun _ =>
    Local.bind (loc_byte) fun _ =>
    Local.bind (loc_unsigned_short) fun _ =>
    Local.bind (loc_unsigned_byte) fun _ =>
    Local.bind (loc_unsigned_byte) fun _ =>
    Local.bind (loc_unsigned_byte) fun _ =>
    Local.bind (loc_unsigned_byte) fun _ =>
    Local.bind (local_throw_times _ _) fun _ =>
    Local.bind (local_throw_times _ _) fun _ =>
    Local.bind (local_throw_times _ _) fun _ =>
    Local.pure _

theorem UaPdu.sized (o : UaPdu) : Sized (UaPdu.serialize o) (UaPdu.wireSize o) := by
  unfold UaPdu.serialize
  refine Sized.of_eq (Sized.bind (DistributedEmissionsFamilyPdu.sized o.toDistributedEmissionsFamilyPdu) <|
    Sized.bind (EntityIdentifier.sized o.emittingEntityID) <|
    Sized.bind (EventIdentifier.sized o.eventID) <|
    Sized.bind (sized_byte o.stateChangeIndicator) <|
    Sized.bind (sized_byte o.pad) <|
    Sized.bind (sized_unsigned_short o.passiveParameterIndex) <|
    Sized.bind (sized_unsigned_byte o.propulsionPlantConfiguration) <|
    Sized.bind (sized_unsigned_byte _) <|
    Sized.bind (sized_unsigned_byte _) <|
    Sized.bind (sized_unsigned_byte _) <|
    Sized.bind (sized_list_throw) <|
    Sized.bind (sized_list_throw) <|
    sized_list_throw) ?_
  simp only [UaPdu.wireSize, DistributedEmissionsFamilyPdu.wireSize, Pdu.wireSize, PduSuperclass.wireSize, EntityIdentifier.wireSize, SimulationAddress.wireSize, EventIdentifier.wireSize]; try omega

theorem UaPdu.ok_iff (o : UaPdu) : (UaPdu.serialize o).Ok ↔ UaPdu.WireOk o := by
  unfold UaPdu.serialize UaPdu.WireOk
  exact ok_bind_iff (DistributedEmissionsFamilyPdu.ok_iff o.toDistributedEmissionsFamilyPdu) <|
    ok_bind_iff (EntityIdentifier.ok_iff o.emittingEntityID) <|
    ok_bind_iff (EventIdentifier.ok_iff o.eventID) <|
    ok_bind_iff (ok_byte) <|
    ok_bind_iff (ok_byte) <|
    ok_bind_iff (ok_unsigned_short) <|
    ok_bind_iff (ok_unsigned_byte) <|
    ok_bind_iff (ok_unsigned_byte) <|
    ok_bind_iff (ok_unsigned_byte) <|
    ok_bind_iff (ok_unsigned_byte) <|
    ok_bind_iff (ok_list_throw) <|
    ok_bind_iff (ok_list_throw) <|
    ok_list_throw

theorem UaPdu.after_canon {o : UaPdu} (h : UaPdu.Canon o) : UaPdu.after UaPdu.init o = o := by
  obtain ⟨h_shaftRPMs, h_apaData, h_emitterSystems⟩ := h
  cases o
  exact (UaPdu.mk.injEq ..).mpr ⟨DistributedEmissionsFamilyPdu.after_canon trivial,
    EntityIdentifier.after_canon trivial,
    EventIdentifier.after_canon trivial,
    rfl,
    rfl,
    rfl,
    rfl,
    h_shaftRPMs.symm,
    h_apaData.symm,
    h_emitterSystems.symm⟩

theorem UaPdu.post : Post (UaPdu.parse UaPdu.init) (fun b o => (UaPdu.WireOk o ∧ UaPdu.Canon o) ∧ (UaPdu.NoNaN o → (UaPdu.serialize o).Emits b)) := by
  unfold UaPdu.parse
  refine Post.bind (DistributedEmissionsFamilyPdu.post _) fun a0 b0 h0 => ?_
  refine Post.bind (EntityIdentifier.post) fun a1 b1 h1 => ?_
  refine Post.bind (EventIdentifier.post) fun a2 b2 h2 => ?_
  refine Post.bind (post_byte) fun a3 b3 h3 => ?_
  refine Post.bind (post_byte) fun a4 b4 h4 => ?_
  refine Post.bind (post_unsigned_short) fun a5 b5 h5 => ?_
  refine Post.bind (post_unsigned_byte) fun a6 b6 h6 => ?_
  refine Post.bind (post_unsigned_byte) fun a7 b7 h7 => ?_
  refine Post.bind (post_unsigned_byte) fun a8 b8 h8 => ?_
  refine Post.bind (post_unsigned_byte) fun a9 b9 h9 => ?_
  refine Post.bind (Post.times_throw _ _) fun a10 b10 h10 => ?_
  refine Post.bind (Post.times_throw _ _) fun a11 b11 h11 => ?_
  refine Post.last (Post.times_throw _ _) fun a12 b12 h12 => ?_
  obtain rfl : a7 = 0 := zero_eq h7.1.1 h10.1
  obtain rfl : a8 = 0 := zero_eq h8.1.1 h11.1
  obtain rfl : a9 = 0 := zero_eq h9.1.1 h12.1
  obtain ⟨-, rfl, rfl⟩ := h10
  obtain ⟨-, rfl, rfl⟩ := h11
  obtain ⟨-, rfl, rfl⟩ := h12
  refine ⟨⟨⟨h0.1.1, h1.1.1, h2.1.1, h3.1, h4.1, h5.1, h6.1, h7.1, h8.1, h9.1, rfl, rfl, rfl⟩,
    ⟨rfl, rfl, rfl⟩⟩, fun _ => ?_⟩
  exact W.Emits.bind (h0.2 trivial) <|
      W.Emits.bind (h1.2 trivial) <|
      W.Emits.bind (h2.2 trivial) <|
      W.Emits.bind (h3.2) <|
      W.Emits.bind (h4.2) <|
      W.Emits.bind (h5.2) <|
      W.Emits.bind (h6.2) <|
      W.Emits.bind (h7.2) <|
      W.Emits.bind (h8.2) <|
      W.Emits.bind (h9.2) <|
      W.Emits.bind (W.emits_pure ()) <|
      W.Emits.bind (W.emits_pure ()) <|
      W.emits_pure ()

theorem SignalPdu.rt (s o : SignalPdu) : RT (SignalPdu.serialize o) (SignalPdu.parse s) (SignalPdu.after s o) := by
  unfold SignalPdu.serialize SignalPdu.parse
  exact RT.bind (RadioCommunicationsFamilyPdu.rt s.toRadioCommunicationsFamilyPdu o.toRadioCommunicationsFamilyPdu) <|
    RT.bind (EntityIdentifier.rt s.entityID o.entityID) <|
    RT.bind (rt_unsigned_short o.radioID) <|
    RT.bind (rt_unsigned_short o.encodingScheme) <|
    RT.bind (rt_unsigned_short o.tdlType) <|
    RT.bind (rt_unsigned_int o.sampleRate) <|
    RT.bind (rt_unsigned_short ((o.data.length : Int) * 8)) <|
    RT.bind (rt_unsigned_short o.samples) <|
    RT.last (rt_list_id8 rt_unsigned_byte)

theorem SignalPdu.loc (s : SignalPdu) : Local (SignalPdu.parse s) := by
  unfold SignalPdu.parse
  exact Local.bind (RadioCommunicationsFamilyPdu.loc _) fun _ =>
    Local.bind (EntityIdentifier.loc _) fun _ =>
    Local.bind (loc_unsigned_short) fun _ =>
    Local.bind (loc_unsigned_short) fun _ =>
    Local.bind (loc_unsigned_short) fun _ =>
    Local.bind (loc_unsigned_int) fun _ =>
    Local.bind (loc_unsigned_short) fun _ =>
    Local.bind (loc_unsigned_short) fun _ =>
    Local.bind (Local.times loc_unsigned_byte _) fun _ =>
    Local.pure _

theorem SignalPdu.only (s : SignalPdu) : OnlyStruct (SignalPdu.parse s) := by
  unfold SignalPdu.parse
  exact OnlyStruct.bind (RadioCommunicationsFamilyPdu.only _) fun _ =>
    OnlyStruct.bind (EntityIdentifier.only _) fun _ =>
    OnlyStruct.bind (only_unsigned_short) fun _ =>
    OnlyStruct.bind (only_unsigned_short) fun _ =>
    OnlyStruct.bind (only_unsigned_short) fun _ =>
    OnlyStruct.bind (only_unsigned_int) fun _ =>
    OnlyStruct.bind (only_unsigned_short) fun _ =>
    OnlyStruct.bind (only_unsigned_short) fun _ =>
    OnlyStruct.bind (OnlyStruct.times only_unsigned_byte _) fun _ =>
    OnlyStruct.pure _

theorem SignalPdu.sized (o : SignalPdu) : Sized (SignalPdu.serialize o) (SignalPdu.wireSize o) := by
  unfold SignalPdu.serialize
  refine Sized.of_eq (Sized.bind (RadioCommunicationsFamilyPdu.sized o.toRadioCommunicationsFamilyPdu) <|
    Sized.bind (EntityIdentifier.sized o.entityID) <|
    Sized.bind (sized_unsigned_short o.radioID) <|
    Sized.bind (sized_unsigned_short o.encodingScheme) <|
    Sized.bind (sized_unsigned_short o.tdlType) <|
    Sized.bind (sized_unsigned_int o.sampleRate) <|
    Sized.bind (sized_unsigned_short _) <|
    Sized.bind (sized_unsigned_short o.samples) <|
    Sized.forEach_const sized_unsigned_byte) ?_
  simp only [SignalPdu.wireSize, RadioCommunicationsFamilyPdu.wireSize, Pdu.wireSize, PduSuperclass.wireSize, EntityIdentifier.wireSize, SimulationAddress.wireSize]; try omega

theorem SignalPdu.ok_iff (o : SignalPdu) : (SignalPdu.serialize o).Ok ↔ SignalPdu.WireOk o := by
  unfold SignalPdu.serialize SignalPdu.WireOk
  exact ok_bind_iff (RadioCommunicationsFamilyPdu.ok_iff o.toRadioCommunicationsFamilyPdu) <|
    ok_bind_iff (EntityIdentifier.ok_iff o.entityID) <|
    ok_bind_iff (ok_unsigned_short) <|
    ok_bind_iff (ok_unsigned_short) <|
    ok_bind_iff (ok_unsigned_short) <|
    ok_bind_iff (ok_unsigned_int) <|
    ok_bind_iff (ok_unsigned_short) <|
    ok_bind_iff (ok_unsigned_short) <|
    ok_list fun _ => ok_unsigned_byte

theorem SignalPdu.after_canon {o : SignalPdu} (h : SignalPdu.Canon o) : SignalPdu.after SignalPdu.init o = o := by
  cases o
  exact (SignalPdu.mk.injEq ..).mpr ⟨RadioCommunicationsFamilyPdu.after_canon trivial,
    EntityIdentifier.after_canon trivial,
    rfl,
    rfl,
    rfl,
    rfl,
    rfl,
    rfl⟩

theorem SignalPdu.post : Post (SignalPdu.parse SignalPdu.init) (fun _ o => SignalPdu.WireOk o ∧ SignalPdu.Canon o) := by
  unfold SignalPdu.parse
  refine Post.bind (RadioCommunicationsFamilyPdu.post _) fun a0 b0 h0 => ?_
  refine Post.bind (EntityIdentifier.post) fun a1 b1 h1 => ?_
  refine Post.bind (post_unsigned_short) fun a2 b2 h2 => ?_
  refine Post.bind (post_unsigned_short) fun a3 b3 h3 => ?_
  refine Post.bind (post_unsigned_short) fun a4 b4 h4 => ?_
  refine Post.bind (post_unsigned_int) fun a5 b5 h5 => ?_
  refine Post.bind (post_unsigned_short) fun a6 b6 h6 => ?_
  refine Post.bind (post_unsigned_short) fun a7 b7 h7 => ?_
  refine Post.last (Post.times_all post_unsigned_byte _) fun a8 b8 h8 => ?_
  exact ⟨⟨h0.1.1, h1.1.1, h2.1, h3.1, h4.1, h5.1, count8_ok h6.1 h8.1, h7.1, h8.2.1⟩,
    trivial⟩

theorem RemoveEntityReliablePdu.rt (s o : RemoveEntityReliablePdu) : RT (RemoveEntityReliablePdu.serialize o) (RemoveEntityReliablePdu.parse s) (RemoveEntityReliablePdu.after s o) := by
  unfold RemoveEntityReliablePdu.serialize RemoveEntityReliablePdu.parse
  exact RT.bind (SimulationManagementWithReliabilityFamilyPdu.rt s.toSimulationManagementWithReliabilityFamilyPdu o.toSimulationManagementWithReliabilityFamilyPdu) <|
    RT.bind (rt_unsigned_byte o.requiredReliabilityService) <|
    RT.bind (rt_unsigned_short o.pad1) <|
    RT.bind (rt_unsigned_byte o.pad2) <|
    RT.last (rt_unsigned_int o.requestID)

theorem RemoveEntityReliablePdu.loc (s : RemoveEntityReliablePdu) : Local (RemoveEntityReliablePdu.parse s) := by
  unfold RemoveEntityReliablePdu.parse
  exact Local.bind (SimulationManagementWithReliabilityFamilyPdu.loc _) fun _ =>
    Local.bind (loc_unsigned_byte) fun _ =>
    Local.bind (loc_unsigned_short) fun _ =>
    Local.bind (loc_unsigned_byte) fun _ =>
    Local.bind (loc_unsigned_int) fun _ =>
    Local.pure _

theorem RemoveEntityReliablePdu.only (s : RemoveEntityReliablePdu) : OnlyStruct (RemoveEntityReliablePdu.parse s) := by
  unfold RemoveEntityReliablePdu.parse
  exact OnlyStruct.bind (SimulationManagementWithReliabilityFamilyPdu.only _) fun _ =>
    OnlyStruct.bind (only_unsigned_byte) fun _ =>
    OnlyStruct.bind (only_unsigned_short) fun _ =>
    OnlyStruct.bind (only_unsigned_byte) fun _ =>
    OnlyStruct.bind (only_unsigned_int) fun _ =>
    OnlyStruct.pure _

theorem RemoveEntityReliablePdu.sized (o : RemoveEntityReliablePdu) : Sized (RemoveEntityReliablePdu.serialize o) (RemoveEntityReliablePdu.wireSize o) := by
  unfold RemoveEntityReliablePdu.serialize
  refine Sized.of_eq (Sized.bind (SimulationManagementWithReliabilityFamilyPdu.sized o.toSimulationManagementWithReliabilityFamilyPdu) <|
    Sized.bind (sized_unsigned_byte o.requiredReliabilityService) <|
    Sized.bind (sized_unsigned_short o.pad1) <|
    Sized.bind (sized_unsigned_byte o.pad2) <|
    sized_unsigned_int o.requestID) ?_
  simp only [RemoveEntityReliablePdu.wireSize, SimulationManagementWithReliabilityFamilyPdu.wireSize, Pdu.wireSize, PduSuperclass.wireSize, EntityIdentifier.wireSize, SimulationAddress.wireSize]; try omega

theorem RemoveEntityReliablePdu.ok_iff (o : RemoveEntityReliablePdu) : (RemoveEntityReliablePdu.serialize o).Ok ↔ RemoveEntityReliablePdu.WireOk o := by
  unfold RemoveEntityReliablePdu.serialize RemoveEntityReliablePdu.WireOk
  exact ok_bind_iff (SimulationManagementWithReliabilityFamilyPdu.ok_iff o.toSimulationManagementWithReliabilityFamilyPdu) <|
    ok_bind_iff (ok_unsigned_byte) <|
    ok_bind_iff (ok_unsigned_short) <|
    ok_bind_iff (ok_unsigned_byte) <|
    ok_unsigned_int

theorem RemoveEntityReliablePdu.after_canon {o : RemoveEntityReliablePdu} (h : RemoveEntityReliablePdu.Canon o) : RemoveEntityReliablePdu.after RemoveEntityReliablePdu.init o = o := by
  cases o
  exact (RemoveEntityReliablePdu.mk.injEq ..).mpr ⟨SimulationManagementWithReliabilityFamilyPdu.after_canon trivial,
    rfl,
    rfl,
    rfl,
    rfl⟩

theorem RemoveEntityReliablePdu.post : Post (RemoveEntityReliablePdu.parse RemoveEntityReliablePdu.init) (fun b o => (RemoveEntityReliablePdu.WireOk o ∧ RemoveEntityReliablePdu.Canon o) ∧ (RemoveEntityReliablePdu.NoNaN o → (RemoveEntityReliablePdu.serialize o).Emits b)) := by
  unfold RemoveEntityReliablePdu.parse
  refine Post.bind (SimulationManagementWithReliabilityFamilyPdu.post _) fun a0 b0 h0 => ?_
  refine Post.bind (post_unsigned_byte) fun a1 b1 h1 => ?_
  refine Post.bind (post_unsigned_short) fun a2 b2 h2 => ?_
  refine Post.bind (post_unsigned_byte) fun a3 b3 h3 => ?_
  refine Post.last (post_unsigned_int) fun a4 b4 h4 => ?_
  refine ⟨⟨⟨h0.1.1, h1.1, h2.1, h3.1, h4.1⟩,
    trivial⟩, fun _ => ?_⟩
  exact W.Emits.bind (h0.2 trivial) <|
      W.Emits.bind (h1.2) <|
      W.Emits.bind (h2.2) <|
      W.Emits.bind (h3.2) <|
      h4.2

theorem SeesPdu.rt (s o : SeesPdu) (hd : SeesPdu.Decodable o) : RT (SeesPdu.serialize o) (SeesPdu.parse s) (SeesPdu.after s o) := by
  obtain ⟨d0, d1⟩ := hd
  unfold SeesPdu.serialize SeesPdu.parse
  exact RT.bind (DistributedEmissionsFamilyPdu.rt s.toDistributedEmissionsFamilyPdu o.toDistributedEmissionsFamilyPdu) <|
    RT.bind (EntityIdentifier.rt s.orginatingEntityID o.orginatingEntityID) <|
    RT.bind (rt_unsigned_short o.infraredSignatureRepresentationIndex) <|
    RT.bind (rt_unsigned_short o.acousticSignatureRepresentationIndex) <|
    RT.bind (rt_unsigned_short o.radarCrossSectionSignatureRepresentationIndex) <|
    RT.bind (rt_unsigned_short ((o.propulsionSystemData.length : Int))) <|
    RT.bind (rt_unsigned_short ((o.vectoringSystemData.length : Int))) <|
    RT.bind (rt_list_null d0) <|
    RT.last (rt_list_null d1)

theorem SeesPdu.loc (s : SeesPdu) : Local (SeesPdu.parse s) := by
  unfold SeesPdu.parse
  exact Local.bind (DistributedEmissionsFamilyPdu.loc _) fun _ =>
    Local.bind (EntityIdentifier.loc _) fun _ =>
    Local.bind (loc_unsigned_short) fun _ =>
    Local.bind (loc_unsigned_short) fun _ =>
    Local.bind (loc_unsigned_short) fun _ =>
    Local.bind (loc_unsigned_short) fun _ =>
    Local.bind (loc_unsigned_short) fun _ =>
    Local.bind (local_throw_times _ _) fun _ =>
    Local.bind (local_throw_times _ _) fun _ =>
    Local.pure _

theorem SeesPdu.sized (o : SeesPdu) : Sized (SeesPdu.serialize o) (SeesPdu.wireSize o) := by
  unfold SeesPdu.serialize
  refine Sized.of_eq (Sized.bind (DistributedEmissionsFamilyPdu.sized o.toDistributedEmissionsFamilyPdu) <|
    Sized.bind (EntityIdentifier.sized o.orginatingEntityID) <|
    Sized.bind (sized_unsigned_short o.infraredSignatureRepresentationIndex) <|
    Sized.bind (sized_unsigned_short o.acousticSignatureRepresentationIndex) <|
    Sized.bind (sized_unsigned_short o.radarCrossSectionSignatureRepresentationIndex) <|
    Sized.bind (sized_unsigned_short _) <|
    Sized.bind (sized_unsigned_short _) <|
    Sized.bind (Sized.forEach_const PropulsionSystemData.sized) <|
    Sized.forEach_const VectoringNozzleSystem.sized) ?_
  simp only [SeesPdu.wireSize, DistributedEmissionsFamilyPdu.wireSize, Pdu.wireSize, PduSuperclass.wireSize, EntityIdentifier.wireSize, SimulationAddress.wireSize]; try omega

theorem SeesPdu.ok_iff (o : SeesPdu) : (SeesPdu.serialize o).Ok ↔ SeesPdu.WireOk o := by
  unfold SeesPdu.serialize SeesPdu.WireOk
  exact ok_bind_iff (DistributedEmissionsFamilyPdu.ok_iff o.toDistributedEmissionsFamilyPdu) <|
    ok_bind_iff (EntityIdentifier.ok_iff o.orginatingEntityID) <|
    ok_bind_iff (ok_unsigned_short) <|
    ok_bind_iff (ok_unsigned_short) <|
    ok_bind_iff (ok_unsigned_short) <|
    ok_bind_iff (ok_unsigned_short) <|
    ok_bind_iff (ok_unsigned_short) <|
    ok_bind_iff (ok_list PropulsionSystemData.ok_iff) <|
    ok_list VectoringNozzleSystem.ok_iff

theorem SeesPdu.after_canon {o : SeesPdu} (h : SeesPdu.Canon o) : SeesPdu.after SeesPdu.init o = o := by
  obtain ⟨h_propulsionSystemData, h_vectoringSystemData⟩ := h
  cases o
  exact (SeesPdu.mk.injEq ..).mpr ⟨DistributedEmissionsFamilyPdu.after_canon trivial,
    EntityIdentifier.after_canon trivial,
    rfl,
    rfl,
    rfl,
    h_propulsionSystemData.symm,
    h_vectoringSystemData.symm⟩

theorem SeesPdu.post : Post (SeesPdu.parse SeesPdu.init) (fun b o => (SeesPdu.WireOk o ∧ SeesPdu.Canon o) ∧ (SeesPdu.NoNaN o → (SeesPdu.serialize o).Emits b)) := by
  unfold SeesPdu.parse
  refine Post.bind (DistributedEmissionsFamilyPdu.post _) fun a0 b0 h0 => ?_
  refine Post.bind (EntityIdentifier.post) fun a1 b1 h1 => ?_
  refine Post.bind (post_unsigned_short) fun a2 b2 h2 => ?_
  refine Post.bind (post_unsigned_short) fun a3 b3 h3 => ?_
  refine Post.bind (post_unsigned_short) fun a4 b4 h4 => ?_
  refine Post.bind (post_unsigned_short) fun a5 b5 h5 => ?_
  refine Post.bind (post_unsigned_short) fun a6 b6 h6 => ?_
  refine Post.bind (Post.times_throw _ _) fun a7 b7 h7 => ?_
  refine Post.last (Post.times_throw _ _) fun a8 b8 h8 => ?_
  obtain rfl : a5 = 0 := zero_eq h5.1.1 h7.1
  obtain rfl : a6 = 0 := zero_eq h6.1.1 h8.1
  obtain ⟨-, rfl, rfl⟩ := h7
  obtain ⟨-, rfl, rfl⟩ := h8
  refine ⟨⟨⟨h0.1.1, h1.1.1, h2.1, h3.1, h4.1, h5.1, h6.1, (fun _ hx => nomatch hx), (fun _ hx => nomatch hx)⟩,
    ⟨rfl, rfl⟩⟩, fun _ => ?_⟩
  exact W.Emits.bind (h0.2 trivial) <|
      W.Emits.bind (h1.2 trivial) <|
      W.Emits.bind (h2.2) <|
      W.Emits.bind (h3.2) <|
      W.Emits.bind (h4.2) <|
      W.Emits.bind (h5.2) <|
      W.Emits.bind (h6.2) <|
      W.Emits.bind (W.emits_pure ()) <|
      W.emits_pure ()

theorem CreateEntityReliablePdu.rt (s o : CreateEntityReliablePdu) : RT (CreateEntityReliablePdu.serialize o) (CreateEntityReliablePdu.parse s) (CreateEntityReliablePdu.after s o) := by
  unfold CreateEntityReliablePdu.serialize CreateEntityReliablePdu.parse
  exact RT.bind (SimulationManagementWithReliabilityFamilyPdu.rt s.toSimulationManagementWithReliabilityFamilyPdu o.toSimulationManagementWithReliabilityFamilyPdu) <|
    RT.bind (rt_unsigned_byte o.requiredReliabilityService) <|
    RT.bind (rt_unsigned_short o.pad1) <|
    RT.bind (rt_unsigned_byte o.pad2) <|
    RT.last (rt_unsigned_int o.requestID)

theorem CreateEntityReliablePdu.loc (s : CreateEntityReliablePdu) : Local (CreateEntityReliablePdu.parse s) := by
  unfold CreateEntityReliablePdu.parse
  exact Local.bind (SimulationManagementWithReliabilityFamilyPdu.loc _) fun _ =>
    Local.bind (loc_unsigned_byte) fun _ =>
    Local.bind (loc_unsigned_short) fun _ =>
    Local.bind (loc_unsigned_byte) fun _ =>
    Local.bind (loc_unsigned_int) fun _ =>
    Local.pure _

theorem CreateEntityReliablePdu.only (s : CreateEntityReliablePdu) : OnlyStruct (CreateEntityReliablePdu.parse s) := by
  unfold CreateEntityReliablePdu.parse
  exact OnlyStruct.bind (SimulationManagementWithReliabilityFamilyPdu.only _) fun _ =>
    OnlyStruct.bind (only_unsigned_byte) fun _ =>
    OnlyStruct.bind (only_unsigned_short) fun _ =>
    OnlyStruct.bind (only_unsigned_byte) fun _ =>
    OnlyStruct.bind (only_unsigned_int) fun _ =>
    OnlyStruct.pure _

theorem CreateEntityReliablePdu.sized (o : CreateEntityReliablePdu) : Sized (CreateEntityReliablePdu.serialize o) (CreateEntityReliablePdu.wireSize o) := by
  unfold CreateEntityReliablePdu.serialize
  refine Sized.of_eq (Sized.bind (SimulationManagementWithReliabilityFamilyPdu.sized o.toSimulationManagementWithReliabilityFamilyPdu) <|
    Sized.bind (sized_unsigned_byte o.requiredReliabilityService) <|
    Sized.bind (sized_unsigned_short o.pad1) <|
    Sized.bind (sized_unsigned_byte o.pad2) <|
    sized_unsigned_int o.requestID) ?_
  simp only [CreateEntityReliablePdu.wireSize, SimulationManagementWithReliabilityFamilyPdu.wireSize, Pdu.wireSize, PduSuperclass.wireSize, EntityIdentifier.wireSize, SimulationAddress.wireSize]; try omega

theorem CreateEntityReliablePdu.ok_iff (o : CreateEntityReliablePdu) : (CreateEntityReliablePdu.serialize o).Ok ↔ CreateEntityReliablePdu.WireOk o := by
  unfold CreateEntityReliablePdu.serialize CreateEntityReliablePdu.WireOk
  exact ok_bind_iff (SimulationManagementWithReliabilityFamilyPdu.ok_iff o.toSimulationManagementWithReliabilityFamilyPdu) <|
    ok_bind_iff (ok_unsigned_byte) <|
    ok_bind_iff (ok_unsigned_short) <|
    ok_bind_iff (ok_unsigned_byte) <|
    ok_unsigned_int

theorem CreateEntityReliablePdu.after_canon {o : CreateEntityReliablePdu} (h : CreateEntityReliablePdu.Canon o) : CreateEntityReliablePdu.after CreateEntityReliablePdu.init o = o := by
  cases o
  exact (CreateEntityReliablePdu.mk.injEq ..).mpr ⟨SimulationManagementWithReliabilityFamilyPdu.after_canon trivial,
    rfl,
    rfl,
    rfl,
    rfl⟩

theorem CreateEntityReliablePdu.post : Post (CreateEntityReliablePdu.parse CreateEntityReliablePdu.init) (fun b o => (CreateEntityReliablePdu.WireOk o ∧ CreateEntityReliablePdu.Canon o) ∧ (CreateEntityReliablePdu.NoNaN o → (CreateEntityReliablePdu.serialize o).Emits b)) := by
  unfold CreateEntityReliablePdu.parse
  refine Post.bind (SimulationManagementWithReliabilityFamilyPdu.post _) fun a0 b0 h0 => ?_
  refine Post.bind (post_unsigned_byte) fun a1 b1 h1 => ?_
  refine Post.bind (post_unsigned_short) fun a2 b2 h2 => ?_
  refine Post.bind (post_unsigned_byte) fun a3 b3 h3 => ?_
  refine Post.last (post_unsigned_int) fun a4 b4 h4 => ?_
  refine ⟨⟨⟨h0.1.1, h1.1, h2.1, h3.1, h4.1⟩,
    trivial⟩, fun _ => ?_⟩
  exact W.Emits.bind (h0.2 trivial) <|
      W.Emits.bind (h1.2) <|
      W.Emits.bind (h2.2) <|
      W.Emits.bind (h3.2) <|
      h4.2

theorem StopFreezeReliablePdu.rt (s o : StopFreezeReliablePdu) : RT (StopFreezeReliablePdu.serialize o) (StopFreezeReliablePdu.parse s) (StopFreezeReliablePdu.after s o) := by
  unfold StopFreezeReliablePdu.serialize StopFreezeReliablePdu.parse
  exact RT.bind (SimulationManagementWithReliabilityFamilyPdu.rt s.toSimulationManagementWithReliabilityFamilyPdu o.toSimulationManagementWithReliabilityFamilyPdu) <|
    RT.bind (ClockTime.rt s.realWorldTime o.realWorldTime) <|
    RT.bind (rt_unsigned_byte o.reason) <|
    RT.bind (rt_unsigned_byte o.frozenBehavior) <|
    RT.bind (rt_unsigned_byte o.requiredReliablityService) <|
    RT.bind (rt_unsigned_byte o.pad1) <|
    RT.last (rt_unsigned_int o.requestID)

theorem StopFreezeReliablePdu.loc (s : StopFreezeReliablePdu) : Local (StopFreezeReliablePdu.parse s) := by
  unfold StopFreezeReliablePdu.parse
  exact Local.bind (SimulationManagementWithReliabilityFamilyPdu.loc _) fun _ =>
    Local.bind (ClockTime.loc _) fun _ =>
    Local.bind (loc_unsigned_byte) fun _ =>
    Local.bind (loc_unsigned_byte) fun _ =>
    Local.bind (loc_unsigned_byte) fun _ =>
    Local.bind (loc_unsigned_byte) fun _ =>
    Local.bind (loc_unsigned_int) fun _ =>
    Local.pure _

theorem StopFreezeReliablePdu.only (s : StopFreezeReliablePdu) : OnlyStruct (StopFreezeReliablePdu.parse s) := by
  unfold StopFreezeReliablePdu.parse
  exact OnlyStruct.bind (SimulationManagementWithReliabilityFamilyPdu.only _) fun _ =>
    OnlyStruct.bind (ClockTime.only _) fun _ =>
    OnlyStruct.bind (only_unsigned_byte) fun _ =>
    OnlyStruct.bind (only_unsigned_byte) fun _ =>
    OnlyStruct.bind (only_unsigned_byte) fun _ =>
    OnlyStruct.bind (only_unsigned_byte) fun _ =>
    OnlyStruct.bind (only_unsigned_int) fun _ =>
    OnlyStruct.pure _

theorem StopFreezeReliablePdu.sized (o : StopFreezeReliablePdu) : Sized (StopFreezeReliablePdu.serialize o) (StopFreezeReliablePdu.wireSize o) := by
  unfold StopFreezeReliablePdu.serialize
  refine Sized.of_eq (Sized.bind (SimulationManagementWithReliabilityFamilyPdu.sized o.toSimulationManagementWithReliabilityFamilyPdu) <|
    Sized.bind (ClockTime.sized o.realWorldTime) <|
    Sized.bind (sized_unsigned_byte o.reason) <|
    Sized.bind (sized_unsigned_byte o.frozenBehavior) <|
    Sized.bind (sized_unsigned_byte o.requiredReliablityService) <|
    Sized.bind (sized_unsigned_byte o.pad1) <|
    sized_unsigned_int o.requestID) ?_
  simp only [StopFreezeReliablePdu.wireSize, SimulationManagementWithReliabilityFamilyPdu.wireSize, Pdu.wireSize, PduSuperclass.wireSize, EntityIdentifier.wireSize, SimulationAddress.wireSize, ClockTime.wireSize]; try omega

theorem StopFreezeReliablePdu.ok_iff (o : StopFreezeReliablePdu) : (StopFreezeReliablePdu.serialize o).Ok ↔ StopFreezeReliablePdu.WireOk o := by
  unfold StopFreezeReliablePdu.serialize StopFreezeReliablePdu.WireOk
  exact ok_bind_iff (SimulationManagementWithReliabilityFamilyPdu.ok_iff o.toSimulationManagementWithReliabilityFamilyPdu) <|
    ok_bind_iff (ClockTime.ok_iff o.realWorldTime) <|
    ok_bind_iff (ok_unsigned_byte) <|
    ok_bind_iff (ok_unsigned_byte) <|
    ok_bind_iff (ok_unsigned_byte) <|
    ok_bind_iff (ok_unsigned_byte) <|
    ok_unsigned_int

theorem StopFreezeReliablePdu.after_canon {o : StopFreezeReliablePdu} (h : StopFreezeReliablePdu.Canon o) : StopFreezeReliablePdu.after StopFreezeReliablePdu.init o = o := by
  cases o
  exact (StopFreezeReliablePdu.mk.injEq ..).mpr ⟨SimulationManagementWithReliabilityFamilyPdu.after_canon trivial,
    ClockTime.after_canon trivial,
    rfl,
    rfl,
    rfl,
    rfl,
    rfl⟩

theorem StopFreezeReliablePdu.post : Post (StopFreezeReliablePdu.parse StopFreezeReliablePdu.init) (fun b o => (StopFreezeReliablePdu.WireOk o ∧ StopFreezeReliablePdu.Canon o) ∧ (StopFreezeReliablePdu.NoNaN o → (StopFreezeReliablePdu.serialize o).Emits b)) := by
  unfold StopFreezeReliablePdu.parse
  refine Post.bind (SimulationManagementWithReliabilityFamilyPdu.post _) fun a0 b0 h0 => ?_
  refine Post.bind (ClockTime.post) fun a1 b1 h1 => ?_
  refine Post.bind (post_unsigned_byte) fun a2 b2 h2 => ?_
  refine Post.bind (post_unsigned_byte) fun a3 b3 h3 => ?_
  refine Post.bind (post_unsigned_byte) fun a4 b4 h4 => ?_
  refine Post.bind (post_unsigned_byte) fun a5 b5 h5 => ?_
  refine Post.last (post_unsigned_int) fun a6 b6 h6 => ?_
  refine ⟨⟨⟨h0.1.1, h1.1.1, h2.1, h3.1, h4.1, h5.1, h6.1⟩,
    trivial⟩, fun _ => ?_⟩
  exact W.Emits.bind (h0.2 trivial) <|
      W.Emits.bind (h1.2 trivial) <|
      W.Emits.bind (h2.2) <|
      W.Emits.bind (h3.2) <|
      W.Emits.bind (h4.2) <|
      W.Emits.bind (h5.2) <|
      h6.2

theorem EventReportReliablePdu.rt (s o : EventReportReliablePdu) : RT (EventReportReliablePdu.serialize o) (EventReportReliablePdu.parse s) (EventReportReliablePdu.after s o) := by
  unfold EventReportReliablePdu.serialize EventReportReliablePdu.parse
  exact RT.bind (SimulationManagementWithReliabilityFamilyPdu.rt s.toSimulationManagementWithReliabilityFamilyPdu o.toSimulationManagementWithReliabilityFamilyPdu) <|
    RT.bind (rt_unsigned_short o.eventType) <|
    RT.bind (rt_unsigned_int o.pad1) <|
    RT.last (DatumSpecification.rt s._datums o._datums)

theorem EventReportReliablePdu.loc (s : EventReportReliablePdu) : Local (EventReportReliablePdu.parse s) := by
  unfold EventReportReliablePdu.parse
  exact Local.bind (SimulationManagementWithReliabilityFamilyPdu.loc _) fun _ =>
    Local.bind (loc_unsigned_short) fun _ =>
    Local.bind (loc_unsigned_int) fun _ =>
    Local.bind (DatumSpecification.loc _) fun _ =>
    Local.pure _

theorem EventReportReliablePdu.only (s : EventReportReliablePdu) : OnlyStruct (EventReportReliablePdu.parse s) := by
  unfold EventReportReliablePdu.parse
  exact OnlyStruct.bind (SimulationManagementWithReliabilityFamilyPdu.only _) fun _ =>
    OnlyStruct.bind (only_unsigned_short) fun _ =>
    OnlyStruct.bind (only_unsigned_int) fun _ =>
    OnlyStruct.bind (DatumSpecification.only _) fun _ =>
    OnlyStruct.pure _

theorem EventReportReliablePdu.sized (o : EventReportReliablePdu) : Sized (EventReportReliablePdu.serialize o) (EventReportReliablePdu.wireSize o) := by
  unfold EventReportReliablePdu.serialize
  refine Sized.of_eq (Sized.bind (SimulationManagementWithReliabilityFamilyPdu.sized o.toSimulationManagementWithReliabilityFamilyPdu) <|
    Sized.bind (sized_unsigned_short o.eventType) <|
    Sized.bind (sized_unsigned_int o.pad1) <|
    DatumSpecification.sized o._datums) ?_
  simp only [EventReportReliablePdu.wireSize, SimulationManagementWithReliabilityFamilyPdu.wireSize, Pdu.wireSize, PduSuperclass.wireSize, EntityIdentifier.wireSize, SimulationAddress.wireSize, DatumSpecification.wireSize]; try omega

theorem EventReportReliablePdu.ok_iff (o : EventReportReliablePdu) : (EventReportReliablePdu.serialize o).Ok ↔ EventReportReliablePdu.WireOk o := by
  unfold EventReportReliablePdu.serialize EventReportReliablePdu.WireOk
  exact ok_bind_iff (SimulationManagementWithReliabilityFamilyPdu.ok_iff o.toSimulationManagementWithReliabilityFamilyPdu) <|
    ok_bind_iff (ok_unsigned_short) <|
    ok_bind_iff (ok_unsigned_int) <|
    DatumSpecification.ok_iff o._datums

theorem EventReportReliablePdu.after_canon {o : EventReportReliablePdu} (h : EventReportReliablePdu.Canon o) : EventReportReliablePdu.after EventReportReliablePdu.init o = o := by
  have h__datums := h
  cases o
  exact (EventReportReliablePdu.mk.injEq ..).mpr ⟨SimulationManagementWithReliabilityFamilyPdu.after_canon trivial,
    rfl,
    rfl,
    DatumSpecification.after_canon h__datums⟩

theorem EventReportReliablePdu.post : Post (EventReportReliablePdu.parse EventReportReliablePdu.init) (fun _ o => EventReportReliablePdu.WireOk o ∧ EventReportReliablePdu.Canon o) := by
  unfold EventReportReliablePdu.parse
  refine Post.bind (SimulationManagementWithReliabilityFamilyPdu.post _) fun a0 b0 h0 => ?_
  refine Post.bind (post_unsigned_short) fun a1 b1 h1 => ?_
  refine Post.bind (post_unsigned_int) fun a2 b2 h2 => ?_
  refine Post.last (DatumSpecification.post) fun a3 b3 h3 => ?_
  exact ⟨⟨h0.1.1, h1.1, h2.1, h3.1⟩,
    h3.2⟩

theorem MinefieldResponseNackPdu.rt (s o : MinefieldResponseNackPdu) : RT (MinefieldResponseNackPdu.serialize o) (MinefieldResponseNackPdu.parse s) (MinefieldResponseNackPdu.after s o) := by
  unfold MinefieldResponseNackPdu.serialize MinefieldResponseNackPdu.parse
  exact RT.bind (MinefieldFamilyPdu.rt s.toMinefieldFamilyPdu o.toMinefieldFamilyPdu) <|
    RT.bind (EntityIdentifier.rt s.minefieldID o.minefieldID) <|
    RT.bind (EntityIdentifier.rt s.requestingEntityID o.requestingEntityID) <|
    RT.bind (rt_unsigned_byte o.requestID) <|
    RT.bind (rt_unsigned_byte ((o.missingPduSequenceNumbers.length : Int))) <|
    RT.last (rt_list_throw)

theorem MinefieldResponseNackPdu.loc (s : MinefieldResponseNackPdu) : Local (MinefieldResponseNackPdu.parse s) := by
  unfold MinefieldResponseNackPdu.parse
  exact Local.bind (MinefieldFamilyPdu.loc _) fun _ =>
    Local.bind (EntityIdentifier.loc _) fun _ =>
    Local.bind (EntityIdentifier.loc _) fun _ =>
    Local.bind (loc_unsigned_byte) fun _ =>
    Local.bind (loc_unsigned_byte) fun _ =>
    Local.bind (local_throw_times _ _) fun _ =>
    Local.pure _

theorem MinefieldResponseNackPdu.sized (o : MinefieldResponseNackPdu) : Sized (MinefieldResponseNackPdu.serialize o) (MinefieldResponseNackPdu.wireSize o) := by
  unfold MinefieldResponseNackPdu.serialize
  refine Sized.of_eq (Sized.bind (MinefieldFamilyPdu.sized o.toMinefieldFamilyPdu) <|
    Sized.bind (EntityIdentifier.sized o.minefieldID) <|
    Sized.bind (EntityIdentifier.sized o.requestingEntityID) <|
    Sized.bind (sized_unsigned_byte o.requestID) <|
    Sized.bind (sized_unsigned_byte _) <|
    sized_list_throw) ?_
  simp only [MinefieldResponseNackPdu.wireSize, MinefieldFamilyPdu.wireSize, Pdu.wireSize, PduSuperclass.wireSize, EntityIdentifier.wireSize, SimulationAddress.wireSize]; try omega

theorem MinefieldResponseNackPdu.ok_iff (o : MinefieldResponseNackPdu) : (MinefieldResponseNackPdu.serialize o).Ok ↔ MinefieldResponseNackPdu.WireOk o := by
  unfold MinefieldResponseNackPdu.serialize MinefieldResponseNackPdu.WireOk
  exact ok_bind_iff (MinefieldFamilyPdu.ok_iff o.toMinefieldFamilyPdu) <|
    ok_bind_iff (EntityIdentifier.ok_iff o.minefieldID) <|
    ok_bind_iff (EntityIdentifier.ok_iff o.requestingEntityID) <|
    ok_bind_iff (ok_unsigned_byte) <|
    ok_bind_iff (ok_unsigned_byte) <|
    ok_list_throw

theorem MinefieldResponseNackPdu.after_canon {o : MinefieldResponseNackPdu} (h : MinefieldResponseNackPdu.Canon o) : MinefieldResponseNackPdu.after MinefieldResponseNackPdu.init o = o := by
  have h_missingPduSequenceNumbers := h
  cases o
  exact (MinefieldResponseNackPdu.mk.injEq ..).mpr ⟨MinefieldFamilyPdu.after_canon trivial,
    EntityIdentifier.after_canon trivial,
    EntityIdentifier.after_canon trivial,
    rfl,
    h_missingPduSequenceNumbers.symm⟩

theorem MinefieldResponseNackPdu.post : Post (MinefieldResponseNackPdu.parse MinefieldResponseNackPdu.init) (fun b o => (MinefieldResponseNackPdu.WireOk o ∧ MinefieldResponseNackPdu.Canon o) ∧ (MinefieldResponseNackPdu.NoNaN o → (MinefieldResponseNackPdu.serialize o).Emits b)) := by
  unfold MinefieldResponseNackPdu.parse
  refine Post.bind (MinefieldFamilyPdu.post _) fun a0 b0 h0 => ?_
  refine Post.bind (EntityIdentifier.post) fun a1 b1 h1 => ?_
  refine Post.bind (EntityIdentifier.post) fun a2 b2 h2 => ?_
  refine Post.bind (post_unsigned_byte) fun a3 b3 h3 => ?_
  refine Post.bind (post_unsigned_byte) fun a4 b4 h4 => ?_
  refine Post.last (Post.times_throw _ _) fun a5 b5 h5 => ?_
  obtain rfl : a4 = 0 := zero_eq h4.1.1 h5.1
  obtain ⟨-, rfl, rfl⟩ := h5
  refine ⟨⟨⟨h0.1.1, h1.1.1, h2.1.1, h3.1, h4.1, rfl⟩,
    rfl⟩, fun _ => ?_⟩
  exact W.Emits.bind (h0.2 trivial) <|
      W.Emits.bind (h1.2 trivial) <|
      W.Emits.bind (h2.2 trivial) <|
      W.Emits.bind (h3.2) <|
      W.Emits.bind (h4.2) <|
      W.emits_pure ()

theorem ActionResponseReliablePdu.rt (s o : ActionResponseReliablePdu) : RT (ActionResponseReliablePdu.serialize o) (ActionResponseReliablePdu.parse s) (ActionResponseReliablePdu.after s o) := by
  unfold ActionResponseReliablePdu.serialize ActionResponseReliablePdu.parse
  exact RT.bind (SimulationManagementWithReliabilityFamilyPdu.rt s.toSimulationManagementWithReliabilityFamilyPdu o.toSimulationManagementWithReliabilityFamilyPdu) <|
    RT.bind (rt_unsigned_int o.requestID) <|
    RT.bind (rt_unsigned_int o.responseStatus) <|
    RT.last (DatumSpecification.rt s._datums o._datums)

theorem ActionResponseReliablePdu.loc (s : ActionResponseReliablePdu) : Local (ActionResponseReliablePdu.parse s) := by
  unfold ActionResponseReliablePdu.parse
  exact Local.bind (SimulationManagementWithReliabilityFamilyPdu.loc _) fun _ =>
    Local.bind (loc_unsigned_int) fun _ =>
    Local.bind (loc_unsigned_int) fun _ =>
    Local.bind (DatumSpecification.loc _) fun _ =>
    Local.pure _

theorem ActionResponseReliablePdu.only (s : ActionResponseReliablePdu) : OnlyStruct (ActionResponseReliablePdu.parse s) := by
  unfold ActionResponseReliablePdu.parse
  exact OnlyStruct.bind (SimulationManagementWithReliabilityFamilyPdu.only _) fun _ =>
    OnlyStruct.bind (only_unsigned_int) fun _ =>
    OnlyStruct.bind (only_unsigned_int) fun _ =>
    OnlyStruct.bind (DatumSpecification.only _) fun _ =>
    OnlyStruct.pure _

theorem ActionResponseReliablePdu.sized (o : ActionResponseReliablePdu) : Sized (ActionResponseReliablePdu.serialize o) (ActionResponseReliablePdu.wireSize o) := by
  unfold ActionResponseReliablePdu.serialize
  refine Sized.of_eq (Sized.bind (SimulationManagementWithReliabilityFamilyPdu.sized o.toSimulationManagementWithReliabilityFamilyPdu) <|
    Sized.bind (sized_unsigned_int o.requestID) <|
    Sized.bind (sized_unsigned_int o.responseStatus) <|
    DatumSpecification.sized o._datums) ?_
  simp only [ActionResponseReliablePdu.wireSize, SimulationManagementWithReliabilityFamilyPdu.wireSize, Pdu.wireSize, PduSuperclass.wireSize, EntityIdentifier.wireSize, SimulationAddress.wireSize, DatumSpecification.wireSize]; try omega

theorem ActionResponseReliablePdu.ok_iff (o : ActionResponseReliablePdu) : (ActionResponseReliablePdu.serialize o).Ok ↔ ActionResponseReliablePdu.WireOk o := by
  unfold ActionResponseReliablePdu.serialize ActionResponseReliablePdu.WireOk
  exact ok_bind_iff (SimulationManagementWithReliabilityFamilyPdu.ok_iff o.toSimulationManagementWithReliabilityFamilyPdu) <|
    ok_bind_iff (ok_unsigned_int) <|
    ok_bind_iff (ok_unsigned_int) <|
    DatumSpecification.ok_iff o._datums

theorem ActionResponseReliablePdu.after_canon {o : ActionResponseReliablePdu} (h : ActionResponseReliablePdu.Canon o) : ActionResponseReliablePdu.after ActionResponseReliablePdu.init o = o := by
  have h__datums := h
  cases o
  exact (ActionResponseReliablePdu.mk.injEq ..).mpr ⟨SimulationManagementWithReliabilityFamilyPdu.after_canon trivial,
    rfl,
    rfl,
    DatumSpecification.after_canon h__datums⟩

theorem ActionResponseReliablePdu.post : Post (ActionResponseReliablePdu.parse ActionResponseReliablePdu.init) (fun _ o => ActionResponseReliablePdu.WireOk o ∧ ActionResponseReliablePdu.Canon o) := by
  unfold ActionResponseReliablePdu.parse
  refine Post.bind (SimulationManagementWithReliabilityFamilyPdu.post _) fun a0 b0 h0 => ?_
  refine Post.bind (post_unsigned_int) fun a1 b1 h1 => ?_
  refine Post.bind (post_unsigned_int) fun a2 b2 h2 => ?_
  refine Post.last (DatumSpecification.post) fun a3 b3 h3 => ?_
  exact ⟨⟨h0.1.1, h1.1, h2.1, h3.1⟩,
    h3.2⟩

theorem IsPartOfPdu.rt (s o : IsPartOfPdu) : RT (IsPartOfPdu.serialize o) (IsPartOfPdu.parse s) (IsPartOfPdu.after s o) := by
  unfold IsPartOfPdu.serialize IsPartOfPdu.parse
  exact RT.bind (EntityManagementFamilyPdu.rt s.toEntityManagementFamilyPdu o.toEntityManagementFamilyPdu) <|
    RT.bind (EntityIdentifier.rt s.orginatingEntityID o.orginatingEntityID) <|
    RT.bind (EntityIdentifier.rt s.receivingEntityID o.receivingEntityID) <|
    RT.bind (Relationship.rt s.relationship o.relationship) <|
    RT.bind (Vector3Float.rt s.partLocation o.partLocation) <|
    RT.bind (NamedLocationIdentification.rt s.namedLocationID o.namedLocationID) <|
    RT.last (EntityType.rt s.partEntityType o.partEntityType)

theorem IsPartOfPdu.loc (s : IsPartOfPdu) : Local (IsPartOfPdu.parse s) := by
  unfold IsPartOfPdu.parse
  exact Local.bind (EntityManagementFamilyPdu.loc _) fun _ =>
    Local.bind (EntityIdentifier.loc _) fun _ =>
    Local.bind (EntityIdentifier.loc _) fun _ =>
    Local.bind (Relationship.loc _) fun _ =>
    Local.bind (Vector3Float.loc _) fun _ =>
    Local.bind (NamedLocationIdentification.loc _) fun _ =>
    Local.bind (EntityType.loc _) fun _ =>
    Local.pure _

theorem IsPartOfPdu.only (s : IsPartOfPdu) : OnlyStruct (IsPartOfPdu.parse s) := by
  unfold IsPartOfPdu.parse
  exact OnlyStruct.bind (EntityManagementFamilyPdu.only _) fun _ =>
    OnlyStruct.bind (EntityIdentifier.only _) fun _ =>
    OnlyStruct.bind (EntityIdentifier.only _) fun _ =>
    OnlyStruct.bind (Relationship.only _) fun _ =>
    OnlyStruct.bind (Vector3Float.only _) fun _ =>
    OnlyStruct.bind (NamedLocationIdentification.only _) fun _ =>
    OnlyStruct.bind (EntityType.only _) fun _ =>
    OnlyStruct.pure _

theorem IsPartOfPdu.sized (o : IsPartOfPdu) : Sized (IsPartOfPdu.serialize o) (IsPartOfPdu.wireSize o) := by
  unfold IsPartOfPdu.serialize
  refine Sized.of_eq (Sized.bind (EntityManagementFamilyPdu.sized o.toEntityManagementFamilyPdu) <|
    Sized.bind (EntityIdentifier.sized o.orginatingEntityID) <|
    Sized.bind (EntityIdentifier.sized o.receivingEntityID) <|
    Sized.bind (Relationship.sized o.relationship) <|
    Sized.bind (Vector3Float.sized o.partLocation) <|
    Sized.bind (NamedLocationIdentification.sized o.namedLocationID) <|
    EntityType.sized o.partEntityType) ?_
  simp only [IsPartOfPdu.wireSize, EntityManagementFamilyPdu.wireSize, Pdu.wireSize, PduSuperclass.wireSize, EntityIdentifier.wireSize, SimulationAddress.wireSize, Relationship.wireSize, Vector3Float.wireSize, NamedLocationIdentification.wireSize, EntityType.wireSize]; try omega

theorem IsPartOfPdu.ok_iff (o : IsPartOfPdu) : (IsPartOfPdu.serialize o).Ok ↔ IsPartOfPdu.WireOk o := by
  unfold IsPartOfPdu.serialize IsPartOfPdu.WireOk
  exact ok_bind_iff (EntityManagementFamilyPdu.ok_iff o.toEntityManagementFamilyPdu) <|
    ok_bind_iff (EntityIdentifier.ok_iff o.orginatingEntityID) <|
    ok_bind_iff (EntityIdentifier.ok_iff o.receivingEntityID) <|
    ok_bind_iff (Relationship.ok_iff o.relationship) <|
    ok_bind_iff (Vector3Float.ok_iff o.partLocation) <|
    ok_bind_iff (NamedLocationIdentification.ok_iff o.namedLocationID) <|
    EntityType.ok_iff o.partEntityType

theorem IsPartOfPdu.after_canon {o : IsPartOfPdu} (h : IsPartOfPdu.Canon o) : IsPartOfPdu.after IsPartOfPdu.init o = o := by
  have h_partLocation := h
  cases o
  exact (IsPartOfPdu.mk.injEq ..).mpr ⟨EntityManagementFamilyPdu.after_canon trivial,
    EntityIdentifier.after_canon trivial,
    EntityIdentifier.after_canon trivial,
    Relationship.after_canon trivial,
    Vector3Float.after_canon h_partLocation,
    NamedLocationIdentification.after_canon trivial,
    EntityType.after_canon trivial⟩

theorem IsPartOfPdu.post : Post (IsPartOfPdu.parse IsPartOfPdu.init) (fun b o => (IsPartOfPdu.WireOk o ∧ IsPartOfPdu.Canon o) ∧ (IsPartOfPdu.NoNaN o → (IsPartOfPdu.serialize o).Emits b)) := by
  unfold IsPartOfPdu.parse
  refine Post.bind (EntityManagementFamilyPdu.post _) fun a0 b0 h0 => ?_
  refine Post.bind (EntityIdentifier.post) fun a1 b1 h1 => ?_
  refine Post.bind (EntityIdentifier.post) fun a2 b2 h2 => ?_
  refine Post.bind (Relationship.post) fun a3 b3 h3 => ?_
  refine Post.bind (Vector3Float.post) fun a4 b4 h4 => ?_
  refine Post.bind (NamedLocationIdentification.post) fun a5 b5 h5 => ?_
  refine Post.last (EntityType.post) fun a6 b6 h6 => ?_
  refine ⟨⟨⟨h0.1.1, h1.1.1, h2.1.1, h3.1.1, h4.1.1, h5.1.1, h6.1.1⟩,
    h4.1.2⟩, fun n0 => ?_⟩
  exact W.Emits.bind (h0.2 trivial) <|
      W.Emits.bind (h1.2 trivial) <|
      W.Emits.bind (h2.2 trivial) <|
      W.Emits.bind (h3.2 trivial) <|
      W.Emits.bind (h4.2 n0) <|
      W.Emits.bind (h5.2 trivial) <|
      h6.2 trivial

theorem AggregateStatePdu.rt (s o : AggregateStatePdu) : RT (AggregateStatePdu.serialize o) (AggregateStatePdu.parse s) (AggregateStatePdu.after s o) := by
  unfold AggregateStatePdu.serialize AggregateStatePdu.parse
  exact RT.bind (EntityManagementFamilyPdu.rt s.toEntityManagementFamilyPdu o.toEntityManagementFamilyPdu) <|
    RT.bind (AggregateIdentifier.rt s.aggregateID o.aggregateID) <|
    RT.bind (rt_unsigned_byte o.forceID) <|
    RT.bind (rt_unsigned_byte o.aggregateState) <|
    RT.bind (AggregateType.rt s.aggregateType o.aggregateType) <|
    RT.bind (rt_unsigned_int o.formation) <|
    RT.bind (AggregateMarking.rt s.aggregateMarking o.aggregateMarking) <|
    RT.bind (Vector3Float.rt s.dimensions o.dimensions) <|
    RT.bind (EulerAngles.rt s.orientation o.orientation) <|
    RT.bind (Vector3Float.rt s.centerOfMass o.centerOfMass) <|
    RT.bind (WorldCoordinates.rt s.velocity o.velocity) <|
    RT.bind (rt_unsigned_short ((o.aggregateIDs.length : Int))) <|
    RT.bind (rt_unsigned_short ((o.entityIDs.length : Int))) <|
    RT.bind (rt_unsigned_short ((o.silentAggregateSystems.length : Int))) <|
    RT.bind (rt_unsigned_short ((o.silentEntitySystems.length : Int))) <|
    RT.bind (rt_list fun x _ => AggregateIdentifier.rt _ x) <|
    RT.bind (rt_list fun x _ => EntityIdentifier.rt _ x) <|
    RT.bind (rt_list fun x _ => SilentAggregateSystem.rt _ x) <|
    RT.bind (rt_list fun x _ => SilentEntitySystem.rt _ x) <|
    RT.bind (rt_unsigned_int ((o.variableDatumRecords.length : Int))) <|
    RT.last (rt_list fun x _ => VariableDatum.rt _ x)

theorem AggregateStatePdu.loc (s : AggregateStatePdu) : Local (AggregateStatePdu.parse s) := by
  unfold AggregateStatePdu.parse
  exact Local.bind (EntityManagementFamilyPdu.loc _) fun _ =>
    Local.bind (AggregateIdentifier.loc _) fun _ =>
    Local.bind (loc_unsigned_byte) fun _ =>
    Local.bind (loc_unsigned_byte) fun _ =>
    Local.bind (AggregateType.loc _) fun _ =>
    Local.bind (loc_unsigned_int) fun _ =>
    Local.bind (AggregateMarking.loc _) fun _ =>
    Local.bind (Vector3Float.loc _) fun _ =>
    Local.bind (EulerAngles.loc _) fun _ =>
    Local.bind (Vector3Float.loc _) fun _ =>
    Local.bind (WorldCoordinates.loc _) fun _ =>
    Local.bind (loc_unsigned_short) fun _ =>
    Local.bind (loc_unsigned_short) fun _ =>
    Local.bind (loc_unsigned_short) fun _ =>
    Local.bind (loc_unsigned_short) fun _ =>
    Local.bind (Local.times (AggregateIdentifier.loc _) _) fun _ =>
    Local.bind (Local.times (EntityIdentifier.loc _) _) fun _ =>
    Local.bind (Local.times (SilentAggregateSystem.loc _) _) fun _ =>
    Local.bind (Local.times (SilentEntitySystem.loc _) _) fun _ =>
    Local.bind (loc_unsigned_int) fun _ =>
    Local.bind (Local.times (VariableDatum.loc _) _) fun _ =>
    Local.pure _

theorem AggregateStatePdu.sized (o : AggregateStatePdu) : Sized (AggregateStatePdu.serialize o) (AggregateStatePdu.wireSize o) := by
  unfold AggregateStatePdu.serialize
  refine Sized.of_eq (Sized.bind (EntityManagementFamilyPdu.sized o.toEntityManagementFamilyPdu) <|
    Sized.bind (AggregateIdentifier.sized o.aggregateID) <|
    Sized.bind (sized_unsigned_byte o.forceID) <|
    Sized.bind (sized_unsigned_byte o.aggregateState) <|
    Sized.bind (AggregateType.sized o.aggregateType) <|
    Sized.bind (sized_unsigned_int o.formation) <|
    Sized.bind (AggregateMarking.sized o.aggregateMarking) <|
    Sized.bind (Vector3Float.sized o.dimensions) <|
    Sized.bind (EulerAngles.sized o.orientation) <|
    Sized.bind (Vector3Float.sized o.centerOfMass) <|
    Sized.bind (WorldCoordinates.sized o.velocity) <|
    Sized.bind (sized_unsigned_short _) <|
    Sized.bind (sized_unsigned_short _) <|
    Sized.bind (sized_unsigned_short _) <|
    Sized.bind (sized_unsigned_short _) <|
    Sized.bind (Sized.forEach_const AggregateIdentifier.sized) <|
    Sized.bind (Sized.forEach_const EntityIdentifier.sized) <|
    Sized.bind (Sized.forEach_const SilentAggregateSystem.sized) <|
    Sized.bind (Sized.forEach_const SilentEntitySystem.sized) <|
    Sized.bind (sized_unsigned_int _) <|
    Sized.forEach VariableDatum.sized) ?_
  simp only [AggregateStatePdu.wireSize, EntityManagementFamilyPdu.wireSize, Pdu.wireSize, PduSuperclass.wireSize, AggregateIdentifier.wireSize, SimulationAddress.wireSize, AggregateType.wireSize, AggregateMarking.wireSize, Vector3Float.wireSize, EulerAngles.wireSize, WorldCoordinates.wireSize]; try omega

theorem AggregateStatePdu.ok_iff (o : AggregateStatePdu) : (AggregateStatePdu.serialize o).Ok ↔ AggregateStatePdu.WireOk o := by
  unfold AggregateStatePdu.serialize AggregateStatePdu.WireOk
  exact ok_bind_iff (EntityManagementFamilyPdu.ok_iff o.toEntityManagementFamilyPdu) <|
    ok_bind_iff (AggregateIdentifier.ok_iff o.aggregateID) <|
    ok_bind_iff (ok_unsigned_byte) <|
    ok_bind_iff (ok_unsigned_byte) <|
    ok_bind_iff (AggregateType.ok_iff o.aggregateType) <|
    ok_bind_iff (ok_unsigned_int) <|
    ok_bind_iff (AggregateMarking.ok_iff o.aggregateMarking) <|
    ok_bind_iff (Vector3Float.ok_iff o.dimensions) <|
    ok_bind_iff (EulerAngles.ok_iff o.orientation) <|
    ok_bind_iff (Vector3Float.ok_iff o.centerOfMass) <|
    ok_bind_tl (WorldCoordinates.ok_iff o.velocity) <|
    ok_bind_iff (ok_unsigned_short) <|
    ok_bind_iff (ok_unsigned_short) <|
    ok_bind_iff (ok_unsigned_short) <|
    ok_bind_iff (ok_unsigned_short) <|
    ok_bind_iff (ok_list AggregateIdentifier.ok_iff) <|
    ok_bind_iff (ok_list EntityIdentifier.ok_iff) <|
    ok_bind_iff (ok_list SilentAggregateSystem.ok_iff) <|
    ok_bind_iff (ok_list SilentEntitySystem.ok_iff) <|
    ok_bind_iff (ok_unsigned_int) <|
    ok_list VariableDatum.ok_iff

theorem AggregateStatePdu.after_canon {o : AggregateStatePdu} (h : AggregateStatePdu.Canon o) : AggregateStatePdu.after AggregateStatePdu.init o = o := by
  obtain ⟨h_aggregateMarking, h_dimensions, h_orientation, h_centerOfMass, h_silentAggregateSystems, h_silentEntitySystems, h_variableDatumRecords⟩ := h
  cases o
  exact (AggregateStatePdu.mk.injEq ..).mpr ⟨EntityManagementFamilyPdu.after_canon trivial,
    AggregateIdentifier.after_canon trivial,
    rfl,
    rfl,
    AggregateType.after_canon trivial,
    rfl,
    AggregateMarking.after_canon h_aggregateMarking,
    Vector3Float.after_canon h_dimensions,
    EulerAngles.after_canon h_orientation,
    Vector3Float.after_canon h_centerOfMass,
    WorldCoordinates.after_canon trivial,
    canon_list fun x hx => AggregateIdentifier.after_canon trivial,
    canon_list fun x hx => EntityIdentifier.after_canon trivial,
    canon_list fun x hx => SilentAggregateSystem.after_canon (h_silentAggregateSystems x hx),
    canon_list fun x hx => SilentEntitySystem.after_canon (h_silentEntitySystems x hx),
    canon_list fun x hx => VariableDatum.after_canon (h_variableDatumRecords x hx)⟩

theorem AggregateStatePdu.post : Post (AggregateStatePdu.parse AggregateStatePdu.init) (fun _ o => AggregateStatePdu.Live o → AggregateStatePdu.WireOk o ∧ AggregateStatePdu.Canon o) := by
  unfold AggregateStatePdu.parse
  refine Post.bind (EntityManagementFamilyPdu.post _) fun a0 b0 h0 => ?_
  refine Post.bind (AggregateIdentifier.post) fun a1 b1 h1 => ?_
  refine Post.bind (post_unsigned_byte) fun a2 b2 h2 => ?_
  refine Post.bind (post_unsigned_byte) fun a3 b3 h3 => ?_
  refine Post.bind (AggregateType.post) fun a4 b4 h4 => ?_
  refine Post.bind (post_unsigned_int) fun a5 b5 h5 => ?_
  refine Post.bind (AggregateMarking.post) fun a6 b6 h6 => ?_
  refine Post.bind (Vector3Float.post) fun a7 b7 h7 => ?_
  refine Post.bind (EulerAngles.post) fun a8 b8 h8 => ?_
  refine Post.bind (Vector3Float.post) fun a9 b9 h9 => ?_
  refine Post.bind (WorldCoordinates.post) fun a10 b10 h10 => ?_
  refine Post.bind (post_unsigned_short) fun a11 b11 h11 => ?_
  refine Post.bind (post_unsigned_short) fun a12 b12 h12 => ?_
  refine Post.bind (post_unsigned_short) fun a13 b13 h13 => ?_
  refine Post.bind (post_unsigned_short) fun a14 b14 h14 => ?_
  refine Post.bind (Post.times AggregateIdentifier.post _) fun a15 b15 h15 => ?_
  refine Post.bind (Post.times EntityIdentifier.post _) fun a16 b16 h16 => ?_
  refine Post.bind (Post.times_live SilentAggregateSystem.post _) fun a17 b17 h17 => ?_
  refine Post.bind (Post.times SilentEntitySystem.post _) fun a18 b18 h18 => ?_
  refine Post.bind (post_unsigned_int) fun a19 b19 h19 => ?_
  refine Post.last (Post.times' VariableDatum.post _) fun a20 b20 h20 => ?_
  intro hlive
  have l0 := hlive
  obtain rfl : a11 = (a15.length : Int) := count_eq h11.1.1 h15.1
  obtain rfl : a12 = (a16.length : Int) := count_eq h12.1.1 h16.1
  obtain rfl : a13 = (a17.length : Int) := count_eq h13.1.1 h17.1
  obtain rfl : a14 = (a18.length : Int) := count_eq h14.1.1 h18.1
  obtain rfl : a19 = (a20.length : Int) := count_eq h19.1.1 h20.1
  exact ⟨⟨h0.1.1, h1.1.1, h2.1, h3.1, h4.1.1, h5.1, h6.1.1, h7.1.1, h8.1.1, h9.1.1, h11.1, h12.1, h13.1, h14.1, fun x hx => (h15.2.1 x hx).1, fun x hx => (h16.2.1 x hx).1, fun x hx => ((h17.2 l0).1 x hx).1, fun x hx => (h18.2.1 x hx).1, h19.1, fun x hx => (h20.2 x hx).1⟩,
    ⟨h6.1.2, h7.1.2, h8.1.2, h9.1.2, fun x hx => ((h17.2 l0).1 x hx).2, fun x hx => (h18.2.1 x hx).2, fun x hx => (h20.2 x hx).2⟩⟩

end Dis
