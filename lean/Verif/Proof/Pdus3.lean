import Verif.Spec.Pdus3
import Verif.Proof.Pdus2

/-!
# Proofs for: PDUs of `opendis/dis7.py`, part 3

Generated by `tools/genproof.py`.
-/

set_option linter.unusedVariables false
set_option linter.unusedSimpArgs false

namespace Dis

theorem DesignatorPdu.rt (s o : DesignatorPdu) : RT (DesignatorPdu.serialize o) (DesignatorPdu.parse s) (DesignatorPdu.after s o) := by
  unfold DesignatorPdu.serialize DesignatorPdu.parse
  exact RT.bind (DistributedEmissionsFamilyPdu.rt s.toDistributedEmissionsFamilyPdu o.toDistributedEmissionsFamilyPdu) <|
    RT.bind (EntityIdentifier.rt s.designatingEntityID o.designatingEntityID) <|
    RT.bind (rt_unsigned_short o.codeName) <|
    RT.bind (EntityIdentifier.rt s.designatedEntityID o.designatedEntityID) <|
    RT.bind (rt_unsigned_short o.designatorCode) <|
    RT.bind (rt_float o.designatorPower) <|
    RT.bind (rt_float o.designatorWavelength) <|
    RT.bind (Vector3Float.rt s.designatorSpotWrtDesignated o.designatorSpotWrtDesignated) <|
    RT.bind (WorldCoordinates.rt s.designatorSpotLocation o.designatorSpotLocation) <|
    RT.bind (rt_byte o.deadReckoningAlgorithm) <|
    RT.bind (rt_unsigned_short o.padding1) <|
    RT.bind (rt_byte o.padding2) <|
    RT.last (Vector3Float.rt s.entityLinearAcceleration o.entityLinearAcceleration)

theorem DesignatorPdu.loc (s : DesignatorPdu) : Local (DesignatorPdu.parse s) := by
  unfold DesignatorPdu.parse
  exact Local.bind (DistributedEmissionsFamilyPdu.loc _) fun _ =>
    Local.bind (EntityIdentifier.loc _) fun _ =>
    Local.bind (loc_unsigned_short) fun _ =>
    Local.bind (EntityIdentifier.loc _) fun _ =>
    Local.bind (loc_unsigned_short) fun _ =>
    Local.bind (loc_float) fun _ =>
    Local.bind (loc_float) fun _ =>
    Local.bind (Vector3Float.loc _) fun _ =>
    Local.bind (WorldCoordinates.loc _) fun _ =>
    Local.bind (loc_byte) fun _ =>
    Local.bind (loc_unsigned_short) fun _ =>
    Local.bind (loc_byte) fun _ =>
    Local.bind (Vector3Float.loc _) fun _ =>
    Local.pure _

theorem DesignatorPdu.only (s : DesignatorPdu) : OnlyStruct (DesignatorPdu.parse s) := by
  unfold DesignatorPdu.parse
  exact OnlyStruct.bind (DistributedEmissionsFamilyPdu.only _) fun _ =>
    OnlyStruct.bind (EntityIdentifier.only _) fun _ =>
    OnlyStruct.bind (only_unsigned_short) fun _ =>
    OnlyStruct.bind (EntityIdentifier.only _) fun _ =>
    OnlyStruct.bind (only_unsigned_short) fun _ =>
    OnlyStruct.bind (only_float) fun _ =>
    OnlyStruct.bind (only_float) fun _ =>
    OnlyStruct.bind (Vector3Float.only _) fun _ =>
    OnlyStruct.bind (WorldCoordinates.only _) fun _ =>
    OnlyStruct.bind (only_byte) fun _ =>
    OnlyStruct.bind (only_unsigned_short) fun _ =>
    OnlyStruct.bind (only_byte) fun _ =>
    OnlyStruct.bind (Vector3Float.only _) fun _ =>
    OnlyStruct.pure _

theorem DesignatorPdu.sized (o : DesignatorPdu) : Sized (DesignatorPdu.serialize o) (DesignatorPdu.wireSize o) := by
  unfold DesignatorPdu.serialize
  refine Sized.of_eq (Sized.bind (DistributedEmissionsFamilyPdu.sized o.toDistributedEmissionsFamilyPdu) <|
    Sized.bind (EntityIdentifier.sized o.designatingEntityID) <|
    Sized.bind (sized_unsigned_short o.codeName) <|
    Sized.bind (EntityIdentifier.sized o.designatedEntityID) <|
    Sized.bind (sized_unsigned_short o.designatorCode) <|
    Sized.bind (sized_float o.designatorPower) <|
    Sized.bind (sized_float o.designatorWavelength) <|
    Sized.bind (Vector3Float.sized o.designatorSpotWrtDesignated) <|
    Sized.bind (WorldCoordinates.sized o.designatorSpotLocation) <|
    Sized.bind (sized_byte o.deadReckoningAlgorithm) <|
    Sized.bind (sized_unsigned_short o.padding1) <|
    Sized.bind (sized_byte o.padding2) <|
    Vector3Float.sized o.entityLinearAcceleration) ?_
  simp only [DesignatorPdu.wireSize, DistributedEmissionsFamilyPdu.wireSize, Pdu.wireSize, PduSuperclass.wireSize, EntityIdentifier.wireSize, SimulationAddress.wireSize, Vector3Float.wireSize, WorldCoordinates.wireSize]; try omega

theorem DesignatorPdu.ok_iff (o : DesignatorPdu) : (DesignatorPdu.serialize o).Ok ↔ DesignatorPdu.WireOk o := by
  unfold DesignatorPdu.serialize DesignatorPdu.WireOk
  exact ok_bind_iff (DistributedEmissionsFamilyPdu.ok_iff o.toDistributedEmissionsFamilyPdu) <|
    ok_bind_iff (EntityIdentifier.ok_iff o.designatingEntityID) <|
    ok_bind_iff (ok_unsigned_short) <|
    ok_bind_iff (EntityIdentifier.ok_iff o.designatedEntityID) <|
    ok_bind_iff (ok_unsigned_short) <|
    ok_bind_iff (ok_float) <|
    ok_bind_iff (ok_float) <|
    ok_bind_iff (Vector3Float.ok_iff o.designatorSpotWrtDesignated) <|
    ok_bind_tl (WorldCoordinates.ok_iff o.designatorSpotLocation) <|
    ok_bind_iff (ok_byte) <|
    ok_bind_iff (ok_unsigned_short) <|
    ok_bind_iff (ok_byte) <|
    Vector3Float.ok_iff o.entityLinearAcceleration

theorem DesignatorPdu.after_canon {o : DesignatorPdu} (h : DesignatorPdu.Canon o) : DesignatorPdu.after DesignatorPdu.init o = o := by
  obtain ⟨h_designatorPower, h_designatorWavelength, h_designatorSpotWrtDesignated, h_entityLinearAcceleration⟩ := h
  cases o
  exact (DesignatorPdu.mk.injEq ..).mpr ⟨DistributedEmissionsFamilyPdu.after_canon trivial,
    EntityIdentifier.after_canon trivial,
    rfl,
    EntityIdentifier.after_canon trivial,
    rfl,
    h_designatorPower,
    h_designatorWavelength,
    Vector3Float.after_canon h_designatorSpotWrtDesignated,
    WorldCoordinates.after_canon trivial,
    rfl,
    rfl,
    rfl,
    Vector3Float.after_canon h_entityLinearAcceleration⟩

theorem DesignatorPdu.post : Post (DesignatorPdu.parse DesignatorPdu.init) (fun b o => (DesignatorPdu.WireOk o ∧ DesignatorPdu.Canon o) ∧ (DesignatorPdu.NoNaN o → (DesignatorPdu.serialize o).Emits b)) := by
  unfold DesignatorPdu.parse
  refine Post.bind (DistributedEmissionsFamilyPdu.post _) fun a0 b0 h0 => ?_
  refine Post.bind (EntityIdentifier.post) fun a1 b1 h1 => ?_
  refine Post.bind (post_unsigned_short) fun a2 b2 h2 => ?_
  refine Post.bind (EntityIdentifier.post) fun a3 b3 h3 => ?_
  refine Post.bind (post_unsigned_short) fun a4 b4 h4 => ?_
  refine Post.bind (post_float) fun a5 b5 h5 => ?_
  refine Post.bind (post_float) fun a6 b6 h6 => ?_
  refine Post.bind (Vector3Float.post) fun a7 b7 h7 => ?_
  refine Post.bind (WorldCoordinates.post) fun a8 b8 h8 => ?_
  refine Post.bind (post_byte) fun a9 b9 h9 => ?_
  refine Post.bind (post_unsigned_short) fun a10 b10 h10 => ?_
  refine Post.bind (post_byte) fun a11 b11 h11 => ?_
  refine Post.last (Vector3Float.post) fun a12 b12 h12 => ?_
  refine ⟨⟨⟨h0.1.1, h1.1.1, h2.1, h3.1.1, h4.1, h5.1.1, h6.1.1, h7.1.1, h9.1, h10.1, h11.1, h12.1.1⟩,
    ⟨h5.1.2, h6.1.2, h7.1.2, h12.1.2⟩⟩, fun hn => ?_⟩
  obtain ⟨n0, n1, n2, n3⟩ := hn
  exact W.Emits.bind (h0.2 trivial) <|
      W.Emits.bind (h1.2 trivial) <|
      W.Emits.bind (h2.2) <|
      W.Emits.bind (h3.2 trivial) <|
      W.Emits.bind (h4.2) <|
      W.Emits.bind (h5.2 n0) <|
      W.Emits.bind (h6.2 n1) <|
      W.Emits.bind (h7.2 n2) <|
      W.Emits.bind (h8.2 trivial) <|
      W.Emits.bind (h9.2) <|
      W.Emits.bind (h10.2) <|
      W.Emits.bind (h11.2) <|
      h12.2 n3

theorem StopFreezePdu.rt (s o : StopFreezePdu) : RT (StopFreezePdu.serialize o) (StopFreezePdu.parse s) (StopFreezePdu.after s o) := by
  unfold StopFreezePdu.serialize StopFreezePdu.parse
  exact RT.bind (SimulationManagementFamilyPdu.rt s.toSimulationManagementFamilyPdu o.toSimulationManagementFamilyPdu) <|
    RT.bind (ClockTime.rt s.realWorldTime o.realWorldTime) <|
    RT.bind (rt_unsigned_byte o.reason) <|
    RT.bind (rt_unsigned_byte o.frozenBehavior) <|
    RT.bind (rt_short o.padding1) <|
    RT.last (rt_unsigned_int o.requestID)

theorem StopFreezePdu.loc (s : StopFreezePdu) : Local (StopFreezePdu.parse s) := by
  unfold StopFreezePdu.parse
  exact Local.bind (SimulationManagementFamilyPdu.loc _) fun _ =>
    Local.bind (ClockTime.loc _) fun _ =>
    Local.bind (loc_unsigned_byte) fun _ =>
    Local.bind (loc_unsigned_byte) fun _ =>
    Local.bind (loc_short) fun _ =>
    Local.bind (loc_unsigned_int) fun _ =>
    Local.pure _

theorem StopFreezePdu.only (s : StopFreezePdu) : OnlyStruct (StopFreezePdu.parse s) := by
  unfold StopFreezePdu.parse
  exact OnlyStruct.bind (SimulationManagementFamilyPdu.only _) fun _ =>
    OnlyStruct.bind (ClockTime.only _) fun _ =>
    OnlyStruct.bind (only_unsigned_byte) fun _ =>
    OnlyStruct.bind (only_unsigned_byte) fun _ =>
    OnlyStruct.bind (only_short) fun _ =>
    OnlyStruct.bind (only_unsigned_int) fun _ =>
    OnlyStruct.pure _

theorem StopFreezePdu.sized (o : StopFreezePdu) : Sized (StopFreezePdu.serialize o) (StopFreezePdu.wireSize o) := by
  unfold StopFreezePdu.serialize
  refine Sized.of_eq (Sized.bind (SimulationManagementFamilyPdu.sized o.toSimulationManagementFamilyPdu) <|
    Sized.bind (ClockTime.sized o.realWorldTime) <|
    Sized.bind (sized_unsigned_byte o.reason) <|
    Sized.bind (sized_unsigned_byte o.frozenBehavior) <|
    Sized.bind (sized_short o.padding1) <|
    sized_unsigned_int o.requestID) ?_
  simp only [StopFreezePdu.wireSize, SimulationManagementFamilyPdu.wireSize, Pdu.wireSize, PduSuperclass.wireSize, EntityIdentifier.wireSize, SimulationAddress.wireSize, ClockTime.wireSize]; try omega

theorem StopFreezePdu.ok_iff (o : StopFreezePdu) : (StopFreezePdu.serialize o).Ok ↔ StopFreezePdu.WireOk o := by
  unfold StopFreezePdu.serialize StopFreezePdu.WireOk
  exact ok_bind_iff (SimulationManagementFamilyPdu.ok_iff o.toSimulationManagementFamilyPdu) <|
    ok_bind_iff (ClockTime.ok_iff o.realWorldTime) <|
    ok_bind_iff (ok_unsigned_byte) <|
    ok_bind_iff (ok_unsigned_byte) <|
    ok_bind_iff (ok_short) <|
    ok_unsigned_int

theorem StopFreezePdu.after_canon {o : StopFreezePdu} (h : StopFreezePdu.Canon o) : StopFreezePdu.after StopFreezePdu.init o = o := by
  cases o
  exact (StopFreezePdu.mk.injEq ..).mpr ⟨SimulationManagementFamilyPdu.after_canon trivial,
    ClockTime.after_canon trivial,
    rfl,
    rfl,
    rfl,
    rfl⟩

theorem StopFreezePdu.post : Post (StopFreezePdu.parse StopFreezePdu.init) (fun b o => (StopFreezePdu.WireOk o ∧ StopFreezePdu.Canon o) ∧ (StopFreezePdu.NoNaN o → (StopFreezePdu.serialize o).Emits b)) := by
  unfold StopFreezePdu.parse
  refine Post.bind (SimulationManagementFamilyPdu.post _) fun a0 b0 h0 => ?_
  refine Post.bind (ClockTime.post) fun a1 b1 h1 => ?_
  refine Post.bind (post_unsigned_byte) fun a2 b2 h2 => ?_
  refine Post.bind (post_unsigned_byte) fun a3 b3 h3 => ?_
  refine Post.bind (post_short) fun a4 b4 h4 => ?_
  refine Post.last (post_unsigned_int) fun a5 b5 h5 => ?_
  refine ⟨⟨⟨h0.1.1, h1.1.1, h2.1, h3.1, h4.1, h5.1⟩,
    trivial⟩, fun _ => ?_⟩
  exact W.Emits.bind (h0.2 trivial) <|
      W.Emits.bind (h1.2 trivial) <|
      W.Emits.bind (h2.2) <|
      W.Emits.bind (h3.2) <|
      W.Emits.bind (h4.2) <|
      h5.2

theorem EntityStatePdu.rt (s o : EntityStatePdu) : RT (EntityStatePdu.serialize o) (EntityStatePdu.parse s) (EntityStatePdu.after s o) := by
  unfold EntityStatePdu.serialize EntityStatePdu.parse
  exact RT.bind (EntityInformationFamilyPdu.rt s.toEntityInformationFamilyPdu o.toEntityInformationFamilyPdu) <|
    RT.bind (EntityIdentifier.rt s.entityID o.entityID) <|
    RT.bind (rt_unsigned_byte o.forceId) <|
    RT.bind (rt_unsigned_byte ((o.variableParameters.length : Int))) <|
    RT.bind (EntityType.rt s.entityType o.entityType) <|
    RT.bind (EntityType.rt s.alternativeEntityType o.alternativeEntityType) <|
    RT.bind (Vector3Float.rt s.entityLinearVelocity o.entityLinearVelocity) <|
    RT.bind (WorldCoordinates.rt s.entityLocation o.entityLocation) <|
    RT.bind (EulerAngles.rt s.entityOrientation o.entityOrientation) <|
    RT.bind (rt_unsigned_int o.entityAppearance) <|
    RT.bind (DeadReckoningParameters.rt s.deadReckoningParameters o.deadReckoningParameters) <|
    RT.bind (EntityMarking.rt s.marking o.marking) <|
    RT.bind (rt_unsigned_int o.capabilities) <|
    RT.last (rt_list fun x _ => VariableParameter.rt _ x)

theorem EntityStatePdu.loc (s : EntityStatePdu) : Local (EntityStatePdu.parse s) := by
  unfold EntityStatePdu.parse
  exact Local.bind (EntityInformationFamilyPdu.loc _) fun _ =>
    Local.bind (EntityIdentifier.loc _) fun _ =>
    Local.bind (loc_unsigned_byte) fun _ =>
    Local.bind (loc_unsigned_byte) fun _ =>
    Local.bind (EntityType.loc _) fun _ =>
    Local.bind (EntityType.loc _) fun _ =>
    Local.bind (Vector3Float.loc _) fun _ =>
    Local.bind (WorldCoordinates.loc _) fun _ =>
    Local.bind (EulerAngles.loc _) fun _ =>
    Local.bind (loc_unsigned_int) fun _ =>
    Local.bind (DeadReckoningParameters.loc _) fun _ =>
    Local.bind (EntityMarking.loc _) fun _ =>
    Local.bind (loc_unsigned_int) fun _ =>
    Local.bind (Local.times (VariableParameter.loc _) _) fun _ =>
    Local.pure _

theorem EntityStatePdu.only (s : EntityStatePdu) : OnlyStruct (EntityStatePdu.parse s) := by
  unfold EntityStatePdu.parse
  exact OnlyStruct.bind (EntityInformationFamilyPdu.only _) fun _ =>
    OnlyStruct.bind (EntityIdentifier.only _) fun _ =>
    OnlyStruct.bind (only_unsigned_byte) fun _ =>
    OnlyStruct.bind (only_unsigned_byte) fun _ =>
    OnlyStruct.bind (EntityType.only _) fun _ =>
    OnlyStruct.bind (EntityType.only _) fun _ =>
    OnlyStruct.bind (Vector3Float.only _) fun _ =>
    OnlyStruct.bind (WorldCoordinates.only _) fun _ =>
    OnlyStruct.bind (EulerAngles.only _) fun _ =>
    OnlyStruct.bind (only_unsigned_int) fun _ =>
    OnlyStruct.bind (DeadReckoningParameters.only _) fun _ =>
    OnlyStruct.bind (EntityMarking.only _) fun _ =>
    OnlyStruct.bind (only_unsigned_int) fun _ =>
    OnlyStruct.bind (OnlyStruct.times (VariableParameter.only _) _) fun _ =>
    OnlyStruct.pure _

theorem EntityStatePdu.sized (o : EntityStatePdu) : Sized (EntityStatePdu.serialize o) (EntityStatePdu.wireSize o) := by
  unfold EntityStatePdu.serialize
  refine Sized.of_eq (Sized.bind (EntityInformationFamilyPdu.sized o.toEntityInformationFamilyPdu) <|
    Sized.bind (EntityIdentifier.sized o.entityID) <|
    Sized.bind (sized_unsigned_byte o.forceId) <|
    Sized.bind (sized_unsigned_byte _) <|
    Sized.bind (EntityType.sized o.entityType) <|
    Sized.bind (EntityType.sized o.alternativeEntityType) <|
    Sized.bind (Vector3Float.sized o.entityLinearVelocity) <|
    Sized.bind (WorldCoordinates.sized o.entityLocation) <|
    Sized.bind (EulerAngles.sized o.entityOrientation) <|
    Sized.bind (sized_unsigned_int o.entityAppearance) <|
    Sized.bind (DeadReckoningParameters.sized o.deadReckoningParameters) <|
    Sized.bind (EntityMarking.sized o.marking) <|
    Sized.bind (sized_unsigned_int o.capabilities) <|
    Sized.forEach_const VariableParameter.sized) ?_
  simp only [EntityStatePdu.wireSize, EntityInformationFamilyPdu.wireSize, Pdu.wireSize, PduSuperclass.wireSize, EntityIdentifier.wireSize, SimulationAddress.wireSize, EntityType.wireSize, Vector3Float.wireSize, WorldCoordinates.wireSize, EulerAngles.wireSize, DeadReckoningParameters.wireSize, EntityMarking.wireSize]; try omega

theorem EntityStatePdu.ok_iff (o : EntityStatePdu) : (EntityStatePdu.serialize o).Ok ↔ EntityStatePdu.WireOk o := by
  unfold EntityStatePdu.serialize EntityStatePdu.WireOk
  exact ok_bind_iff (EntityInformationFamilyPdu.ok_iff o.toEntityInformationFamilyPdu) <|
    ok_bind_iff (EntityIdentifier.ok_iff o.entityID) <|
    ok_bind_iff (ok_unsigned_byte) <|
    ok_bind_iff (ok_unsigned_byte) <|
    ok_bind_iff (EntityType.ok_iff o.entityType) <|
    ok_bind_iff (EntityType.ok_iff o.alternativeEntityType) <|
    ok_bind_iff (Vector3Float.ok_iff o.entityLinearVelocity) <|
    ok_bind_tl (WorldCoordinates.ok_iff o.entityLocation) <|
    ok_bind_iff (EulerAngles.ok_iff o.entityOrientation) <|
    ok_bind_iff (ok_unsigned_int) <|
    ok_bind_iff (DeadReckoningParameters.ok_iff o.deadReckoningParameters) <|
    ok_bind_iff (EntityMarking.ok_iff o.marking) <|
    ok_bind_iff (ok_unsigned_int) <|
    ok_list VariableParameter.ok_iff

theorem EntityStatePdu.after_canon {o : EntityStatePdu} (h : EntityStatePdu.Canon o) : EntityStatePdu.after EntityStatePdu.init o = o := by
  obtain ⟨h_entityLinearVelocity, h_entityOrientation, h_deadReckoningParameters, h_marking⟩ := h
  cases o
  exact (EntityStatePdu.mk.injEq ..).mpr ⟨EntityInformationFamilyPdu.after_canon trivial,
    EntityIdentifier.after_canon trivial,
    rfl,
    EntityType.after_canon trivial,
    EntityType.after_canon trivial,
    Vector3Float.after_canon h_entityLinearVelocity,
    WorldCoordinates.after_canon trivial,
    EulerAngles.after_canon h_entityOrientation,
    rfl,
    DeadReckoningParameters.after_canon h_deadReckoningParameters,
    EntityMarking.after_canon h_marking,
    rfl,
    canon_list fun x hx => VariableParameter.after_canon trivial⟩

theorem EntityStatePdu.post : Post (EntityStatePdu.parse EntityStatePdu.init) (fun b o => (EntityStatePdu.WireOk o ∧ EntityStatePdu.Canon o) ∧ (EntityStatePdu.NoNaN o → (EntityStatePdu.serialize o).Emits b)) := by
  unfold EntityStatePdu.parse
  refine Post.bind (EntityInformationFamilyPdu.post _) fun a0 b0 h0 => ?_
  refine Post.bind (EntityIdentifier.post) fun a1 b1 h1 => ?_
  refine Post.bind (post_unsigned_byte) fun a2 b2 h2 => ?_
  refine Post.bind (post_unsigned_byte) fun a3 b3 h3 => ?_
  refine Post.bind (EntityType.post) fun a4 b4 h4 => ?_
  refine Post.bind (EntityType.post) fun a5 b5 h5 => ?_
  refine Post.bind (Vector3Float.post) fun a6 b6 h6 => ?_
  refine Post.bind (WorldCoordinates.post) fun a7 b7 h7 => ?_
  refine Post.bind (EulerAngles.post) fun a8 b8 h8 => ?_
  refine Post.bind (post_unsigned_int) fun a9 b9 h9 => ?_
  refine Post.bind (DeadReckoningParameters.post) fun a10 b10 h10 => ?_
  refine Post.bind (EntityMarking.post) fun a11 b11 h11 => ?_
  refine Post.bind (post_unsigned_int) fun a12 b12 h12 => ?_
  refine Post.last (Post.times VariableParameter.post _) fun a13 b13 h13 => ?_
  obtain rfl : a3 = (a13.length : Int) := count_eq h3.1.1 h13.1
  refine ⟨⟨⟨h0.1.1, h1.1.1, h2.1, h3.1, h4.1.1, h5.1.1, h6.1.1, h8.1.1, h9.1, h10.1.1, h11.1.1, h12.1, fun x hx => (h13.2.1 x hx).1⟩,
    ⟨h6.1.2, h8.1.2, h10.1.2, h11.1.2⟩⟩, fun hn => ?_⟩
  obtain ⟨n0, n1, n2⟩ := hn
  exact W.Emits.bind (h0.2 trivial) <|
      W.Emits.bind (h1.2 trivial) <|
      W.Emits.bind (h2.2) <|
      W.Emits.bind (h3.2) <|
      W.Emits.bind (h4.2 trivial) <|
      W.Emits.bind (h5.2 trivial) <|
      W.Emits.bind (h6.2 n0) <|
      W.Emits.bind (h7.2 trivial) <|
      W.Emits.bind (h8.2 n1) <|
      W.Emits.bind (h9.2) <|
      W.Emits.bind (h10.2 n2) <|
      W.Emits.bind (h11.2 trivial) <|
      W.Emits.bind (h12.2) <|
      h13.2.2 (fun _ _ => trivial)

theorem EntityManagementFamilyPdu.rt (s o : EntityManagementFamilyPdu) : RT (EntityManagementFamilyPdu.serialize o) (EntityManagementFamilyPdu.parse s) (EntityManagementFamilyPdu.after s o) := by
  unfold EntityManagementFamilyPdu.serialize EntityManagementFamilyPdu.parse
  exact RT.last (Pdu.rt s.toPdu o.toPdu)

theorem EntityManagementFamilyPdu.loc (s : EntityManagementFamilyPdu) : Local (EntityManagementFamilyPdu.parse s) := by
  unfold EntityManagementFamilyPdu.parse
  exact Local.bind (Pdu.loc _) fun _ =>
    Local.pure _

theorem EntityManagementFamilyPdu.only (s : EntityManagementFamilyPdu) : OnlyStruct (EntityManagementFamilyPdu.parse s) := by
  unfold EntityManagementFamilyPdu.parse
  exact OnlyStruct.bind (Pdu.only _) fun _ =>
    OnlyStruct.pure _

theorem EntityManagementFamilyPdu.sized (o : EntityManagementFamilyPdu) : Sized (EntityManagementFamilyPdu.serialize o) (EntityManagementFamilyPdu.wireSize o) := by
  unfold EntityManagementFamilyPdu.serialize
  exact (Pdu.sized o.toPdu).of_eq (by simp only [EntityManagementFamilyPdu.wireSize, Pdu.wireSize, PduSuperclass.wireSize]; try omega)

theorem EntityManagementFamilyPdu.ok_iff (o : EntityManagementFamilyPdu) : (EntityManagementFamilyPdu.serialize o).Ok ↔ EntityManagementFamilyPdu.WireOk o := by
  unfold EntityManagementFamilyPdu.serialize EntityManagementFamilyPdu.WireOk
  exact Pdu.ok_iff o.toPdu

theorem EntityManagementFamilyPdu.after_canon {s o : EntityManagementFamilyPdu} (h : EntityManagementFamilyPdu.Canon o) : EntityManagementFamilyPdu.after s o = o := by
  cases o; exact (EntityManagementFamilyPdu.mk.injEq ..).mpr (Pdu.after_canon trivial)

theorem EntityManagementFamilyPdu.post (s : EntityManagementFamilyPdu) : Post (EntityManagementFamilyPdu.parse s) (fun b o => (EntityManagementFamilyPdu.WireOk o ∧ EntityManagementFamilyPdu.Canon o) ∧ (EntityManagementFamilyPdu.NoNaN o → (EntityManagementFamilyPdu.serialize o).Emits b)) := by
  unfold EntityManagementFamilyPdu.parse
  refine Post.last (Pdu.post _) fun a0 b0 h0 => ?_
  refine ⟨⟨h0.1.1,
    trivial⟩, fun _ => ?_⟩
  exact h0.2 trivial

theorem StartResumePdu.rt (s o : StartResumePdu) : RT (StartResumePdu.serialize o) (StartResumePdu.parse s) (StartResumePdu.after s o) := by
  unfold StartResumePdu.serialize StartResumePdu.parse
  exact RT.bind (SimulationManagementFamilyPdu.rt s.toSimulationManagementFamilyPdu o.toSimulationManagementFamilyPdu) <|
    RT.bind (ClockTime.rt s.realWorldTime o.realWorldTime) <|
    RT.bind (ClockTime.rt s.simulationTime o.simulationTime) <|
    RT.last (rt_unsigned_int o.requestID)

theorem StartResumePdu.loc (s : StartResumePdu) : Local (StartResumePdu.parse s) := by
  unfold StartResumePdu.parse
  exact Local.bind (SimulationManagementFamilyPdu.loc _) fun _ =>
    Local.bind (ClockTime.loc _) fun _ =>
    Local.bind (ClockTime.loc _) fun _ =>
    Local.bind (loc_unsigned_int) fun _ =>
    Local.pure _

theorem StartResumePdu.only (s : StartResumePdu) : OnlyStruct (StartResumePdu.parse s) := by
  unfold StartResumePdu.parse
  exact OnlyStruct.bind (SimulationManagementFamilyPdu.only _) fun _ =>
    OnlyStruct.bind (ClockTime.only _) fun _ =>
    OnlyStruct.bind (ClockTime.only _) fun _ =>
    OnlyStruct.bind (only_unsigned_int) fun _ =>
    OnlyStruct.pure _

theorem StartResumePdu.sized (o : StartResumePdu) : Sized (StartResumePdu.serialize o) (StartResumePdu.wireSize o) := by
  unfold StartResumePdu.serialize
  refine Sized.of_eq (Sized.bind (SimulationManagementFamilyPdu.sized o.toSimulationManagementFamilyPdu) <|
    Sized.bind (ClockTime.sized o.realWorldTime) <|
    Sized.bind (ClockTime.sized o.simulationTime) <|
    sized_unsigned_int o.requestID) ?_
  simp only [StartResumePdu.wireSize, SimulationManagementFamilyPdu.wireSize, Pdu.wireSize, PduSuperclass.wireSize, EntityIdentifier.wireSize, SimulationAddress.wireSize, ClockTime.wireSize]; try omega

theorem StartResumePdu.ok_iff (o : StartResumePdu) : (StartResumePdu.serialize o).Ok ↔ StartResumePdu.WireOk o := by
  unfold StartResumePdu.serialize StartResumePdu.WireOk
  exact ok_bind_iff (SimulationManagementFamilyPdu.ok_iff o.toSimulationManagementFamilyPdu) <|
    ok_bind_iff (ClockTime.ok_iff o.realWorldTime) <|
    ok_bind_iff (ClockTime.ok_iff o.simulationTime) <|
    ok_unsigned_int

theorem StartResumePdu.after_canon {o : StartResumePdu} (h : StartResumePdu.Canon o) : StartResumePdu.after StartResumePdu.init o = o := by
  cases o
  exact (StartResumePdu.mk.injEq ..).mpr ⟨SimulationManagementFamilyPdu.after_canon trivial,
    ClockTime.after_canon trivial,
    ClockTime.after_canon trivial,
    rfl⟩

theorem StartResumePdu.post : Post (StartResumePdu.parse StartResumePdu.init) (fun b o => (StartResumePdu.WireOk o ∧ StartResumePdu.Canon o) ∧ (StartResumePdu.NoNaN o → (StartResumePdu.serialize o).Emits b)) := by
  unfold StartResumePdu.parse
  refine Post.bind (SimulationManagementFamilyPdu.post _) fun a0 b0 h0 => ?_
  refine Post.bind (ClockTime.post) fun a1 b1 h1 => ?_
  refine Post.bind (ClockTime.post) fun a2 b2 h2 => ?_
  refine Post.last (post_unsigned_int) fun a3 b3 h3 => ?_
  refine ⟨⟨⟨h0.1.1, h1.1.1, h2.1.1, h3.1⟩,
    trivial⟩, fun _ => ?_⟩
  exact W.Emits.bind (h0.2 trivial) <|
      W.Emits.bind (h1.2 trivial) <|
      W.Emits.bind (h2.2 trivial) <|
      h3.2

theorem ElectromagneticEmissionsPdu.rt (s o : ElectromagneticEmissionsPdu) : RT (ElectromagneticEmissionsPdu.serialize o) (ElectromagneticEmissionsPdu.parse s) (ElectromagneticEmissionsPdu.after s o) := by
  unfold ElectromagneticEmissionsPdu.serialize ElectromagneticEmissionsPdu.parse
  exact RT.bind (DistributedEmissionsFamilyPdu.rt s.toDistributedEmissionsFamilyPdu o.toDistributedEmissionsFamilyPdu) <|
    RT.bind (EntityIdentifier.rt s.emittingEntityID o.emittingEntityID) <|
    RT.bind (EventIdentifier.rt s.eventID o.eventID) <|
    RT.bind (rt_unsigned_byte o.stateUpdateIndicator) <|
    RT.bind (rt_unsigned_byte ((o.systems.length : Int))) <|
    RT.bind (rt_unsigned_short o.paddingForEmissionsPdu) <|
    RT.last (rt_list fun x _ => EmissionSystemRecord.rt _ x)

theorem ElectromagneticEmissionsPdu.loc (s : ElectromagneticEmissionsPdu) : Local (ElectromagneticEmissionsPdu.parse s) := by
  unfold ElectromagneticEmissionsPdu.parse
  exact Local.bind (DistributedEmissionsFamilyPdu.loc _) fun _ =>
    Local.bind (EntityIdentifier.loc _) fun _ =>
    Local.bind (EventIdentifier.loc _) fun _ =>
    Local.bind (loc_unsigned_byte) fun _ =>
    Local.bind (loc_unsigned_byte) fun _ =>
    Local.bind (loc_unsigned_short) fun _ =>
    Local.bind (Local.times (EmissionSystemRecord.loc _) _) fun _ =>
    Local.pure _

theorem ElectromagneticEmissionsPdu.only (s : ElectromagneticEmissionsPdu) : OnlyStruct (ElectromagneticEmissionsPdu.parse s) := by
  unfold ElectromagneticEmissionsPdu.parse
  exact OnlyStruct.bind (DistributedEmissionsFamilyPdu.only _) fun _ =>
    OnlyStruct.bind (EntityIdentifier.only _) fun _ =>
    OnlyStruct.bind (EventIdentifier.only _) fun _ =>
    OnlyStruct.bind (only_unsigned_byte) fun _ =>
    OnlyStruct.bind (only_unsigned_byte) fun _ =>
    OnlyStruct.bind (only_unsigned_short) fun _ =>
    OnlyStruct.bind (OnlyStruct.times (EmissionSystemRecord.only _) _) fun _ =>
    OnlyStruct.pure _

theorem ElectromagneticEmissionsPdu.sized (o : ElectromagneticEmissionsPdu) : Sized (ElectromagneticEmissionsPdu.serialize o) (ElectromagneticEmissionsPdu.wireSize o) := by
  unfold ElectromagneticEmissionsPdu.serialize
  refine Sized.of_eq (Sized.bind (DistributedEmissionsFamilyPdu.sized o.toDistributedEmissionsFamilyPdu) <|
    Sized.bind (EntityIdentifier.sized o.emittingEntityID) <|
    Sized.bind (EventIdentifier.sized o.eventID) <|
    Sized.bind (sized_unsigned_byte o.stateUpdateIndicator) <|
    Sized.bind (sized_unsigned_byte _) <|
    Sized.bind (sized_unsigned_short o.paddingForEmissionsPdu) <|
    Sized.forEach EmissionSystemRecord.sized) ?_
  simp only [ElectromagneticEmissionsPdu.wireSize, DistributedEmissionsFamilyPdu.wireSize, Pdu.wireSize, PduSuperclass.wireSize, EntityIdentifier.wireSize, SimulationAddress.wireSize, EventIdentifier.wireSize]; try omega

theorem ElectromagneticEmissionsPdu.ok_iff (o : ElectromagneticEmissionsPdu) : (ElectromagneticEmissionsPdu.serialize o).Ok ↔ ElectromagneticEmissionsPdu.WireOk o := by
  unfold ElectromagneticEmissionsPdu.serialize ElectromagneticEmissionsPdu.WireOk
  exact ok_bind_iff (DistributedEmissionsFamilyPdu.ok_iff o.toDistributedEmissionsFamilyPdu) <|
    ok_bind_iff (EntityIdentifier.ok_iff o.emittingEntityID) <|
    ok_bind_iff (EventIdentifier.ok_iff o.eventID) <|
    ok_bind_iff (ok_unsigned_byte) <|
    ok_bind_iff (ok_unsigned_byte) <|
    ok_bind_iff (ok_unsigned_short) <|
    ok_list EmissionSystemRecord.ok_iff

theorem ElectromagneticEmissionsPdu.after_canon {o : ElectromagneticEmissionsPdu} (h : ElectromagneticEmissionsPdu.Canon o) : ElectromagneticEmissionsPdu.after ElectromagneticEmissionsPdu.init o = o := by
  have h_systems := h
  cases o
  exact (ElectromagneticEmissionsPdu.mk.injEq ..).mpr ⟨DistributedEmissionsFamilyPdu.after_canon trivial,
    EntityIdentifier.after_canon trivial,
    EventIdentifier.after_canon trivial,
    rfl,
    canon_list fun x hx => EmissionSystemRecord.after_canon (h_systems x hx),
    rfl⟩

theorem ElectromagneticEmissionsPdu.post : Post (ElectromagneticEmissionsPdu.parse ElectromagneticEmissionsPdu.init) (fun _ o => ElectromagneticEmissionsPdu.WireOk o ∧ ElectromagneticEmissionsPdu.Canon o) := by
  unfold ElectromagneticEmissionsPdu.parse
  refine Post.bind (DistributedEmissionsFamilyPdu.post _) fun a0 b0 h0 => ?_
  refine Post.bind (EntityIdentifier.post) fun a1 b1 h1 => ?_
  refine Post.bind (EventIdentifier.post) fun a2 b2 h2 => ?_
  refine Post.bind (post_unsigned_byte) fun a3 b3 h3 => ?_
  refine Post.bind (post_unsigned_byte) fun a4 b4 h4 => ?_
  refine Post.bind (post_unsigned_short) fun a5 b5 h5 => ?_
  refine Post.last (Post.times' EmissionSystemRecord.post _) fun a6 b6 h6 => ?_
  obtain rfl : a4 = (a6.length : Int) := count_eq h4.1.1 h6.1
  exact ⟨⟨h0.1.1, h1.1.1, h2.1.1, h3.1, h4.1, h5.1, fun x hx => (h6.2 x hx).1⟩,
    fun x hx => (h6.2 x hx).2⟩

theorem ResupplyOfferPdu.rt (s o : ResupplyOfferPdu) : RT (ResupplyOfferPdu.serialize o) (ResupplyOfferPdu.parse s) (ResupplyOfferPdu.after s o) := by
  unfold ResupplyOfferPdu.serialize ResupplyOfferPdu.parse
  exact RT.bind (LogisticsFamilyPdu.rt s.toLogisticsFamilyPdu o.toLogisticsFamilyPdu) <|
    RT.bind (EntityIdentifier.rt s.receivingEntityID o.receivingEntityID) <|
    RT.bind (EntityIdentifier.rt s.supplyingEntityID o.supplyingEntityID) <|
    RT.bind (rt_unsigned_byte ((o.supplies.length : Int))) <|
    RT.bind (rt_byte o.padding1) <|
    RT.bind (rt_short o.padding2) <|
    RT.last (rt_list fun x _ => SupplyQuantity.rt _ x)

theorem ResupplyOfferPdu.loc (s : ResupplyOfferPdu) : Local (ResupplyOfferPdu.parse s) := by
  unfold ResupplyOfferPdu.parse
  exact Local.bind (LogisticsFamilyPdu.loc _) fun _ =>
    Local.bind (EntityIdentifier.loc _) fun _ =>
    Local.bind (EntityIdentifier.loc _) fun _ =>
    Local.bind (loc_unsigned_byte) fun _ =>
    Local.bind (loc_byte) fun _ =>
    Local.bind (loc_short) fun _ =>
    Local.bind (Local.times (SupplyQuantity.loc _) _) fun _ =>
    Local.pure _

theorem ResupplyOfferPdu.only (s : ResupplyOfferPdu) : OnlyStruct (ResupplyOfferPdu.parse s) := by
  unfold ResupplyOfferPdu.parse
  exact OnlyStruct.bind (LogisticsFamilyPdu.only _) fun _ =>
    OnlyStruct.bind (EntityIdentifier.only _) fun _ =>
    OnlyStruct.bind (EntityIdentifier.only _) fun _ =>
    OnlyStruct.bind (only_unsigned_byte) fun _ =>
    OnlyStruct.bind (only_byte) fun _ =>
    OnlyStruct.bind (only_short) fun _ =>
    OnlyStruct.bind (OnlyStruct.times (SupplyQuantity.only _) _) fun _ =>
    OnlyStruct.pure _

theorem ResupplyOfferPdu.sized (o : ResupplyOfferPdu) : Sized (ResupplyOfferPdu.serialize o) (ResupplyOfferPdu.wireSize o) := by
  unfold ResupplyOfferPdu.serialize
  refine Sized.of_eq (Sized.bind (LogisticsFamilyPdu.sized o.toLogisticsFamilyPdu) <|
    Sized.bind (EntityIdentifier.sized o.receivingEntityID) <|
    Sized.bind (EntityIdentifier.sized o.supplyingEntityID) <|
    Sized.bind (sized_unsigned_byte _) <|
    Sized.bind (sized_byte o.padding1) <|
    Sized.bind (sized_short o.padding2) <|
    Sized.forEach_const SupplyQuantity.sized) ?_
  simp only [ResupplyOfferPdu.wireSize, LogisticsFamilyPdu.wireSize, Pdu.wireSize, PduSuperclass.wireSize, EntityIdentifier.wireSize, SimulationAddress.wireSize]; try omega

theorem ResupplyOfferPdu.ok_iff (o : ResupplyOfferPdu) : (ResupplyOfferPdu.serialize o).Ok ↔ ResupplyOfferPdu.WireOk o := by
  unfold ResupplyOfferPdu.serialize ResupplyOfferPdu.WireOk
  exact ok_bind_iff (LogisticsFamilyPdu.ok_iff o.toLogisticsFamilyPdu) <|
    ok_bind_iff (EntityIdentifier.ok_iff o.receivingEntityID) <|
    ok_bind_iff (EntityIdentifier.ok_iff o.supplyingEntityID) <|
    ok_bind_iff (ok_unsigned_byte) <|
    ok_bind_iff (ok_byte) <|
    ok_bind_iff (ok_short) <|
    ok_list SupplyQuantity.ok_iff

theorem ResupplyOfferPdu.after_canon {o : ResupplyOfferPdu} (h : ResupplyOfferPdu.Canon o) : ResupplyOfferPdu.after ResupplyOfferPdu.init o = o := by
  have h_supplies := h
  cases o
  exact (ResupplyOfferPdu.mk.injEq ..).mpr ⟨LogisticsFamilyPdu.after_canon trivial,
    EntityIdentifier.after_canon trivial,
    EntityIdentifier.after_canon trivial,
    rfl,
    rfl,
    canon_list fun x hx => SupplyQuantity.after_canon (h_supplies x hx)⟩

theorem ResupplyOfferPdu.post : Post (ResupplyOfferPdu.parse ResupplyOfferPdu.init) (fun b o => (ResupplyOfferPdu.WireOk o ∧ ResupplyOfferPdu.Canon o) ∧ (ResupplyOfferPdu.NoNaN o → (ResupplyOfferPdu.serialize o).Emits b)) := by
  unfold ResupplyOfferPdu.parse
  refine Post.bind (LogisticsFamilyPdu.post _) fun a0 b0 h0 => ?_
  refine Post.bind (EntityIdentifier.post) fun a1 b1 h1 => ?_
  refine Post.bind (EntityIdentifier.post) fun a2 b2 h2 => ?_
  refine Post.bind (post_unsigned_byte) fun a3 b3 h3 => ?_
  refine Post.bind (post_byte) fun a4 b4 h4 => ?_
  refine Post.bind (post_short) fun a5 b5 h5 => ?_
  refine Post.last (Post.times SupplyQuantity.post _) fun a6 b6 h6 => ?_
  obtain rfl : a3 = (a6.length : Int) := count_eq h3.1.1 h6.1
  refine ⟨⟨⟨h0.1.1, h1.1.1, h2.1.1, h3.1, h4.1, h5.1, fun x hx => (h6.2.1 x hx).1⟩,
    fun x hx => (h6.2.1 x hx).2⟩, fun n0 => ?_⟩
  exact W.Emits.bind (h0.2 trivial) <|
      W.Emits.bind (h1.2 trivial) <|
      W.Emits.bind (h2.2 trivial) <|
      W.Emits.bind (h3.2) <|
      W.Emits.bind (h4.2) <|
      W.Emits.bind (h5.2) <|
      h6.2.2 n0

theorem AttributePdu.rt (s o : AttributePdu) : RT (AttributePdu.serialize o) (AttributePdu.parse s) (AttributePdu.after s o) := by
  unfold AttributePdu.serialize AttributePdu.parse
  exact RT.bind (EntityInformationFamilyPdu.rt s.toEntityInformationFamilyPdu o.toEntityInformationFamilyPdu) <|
    RT.bind (SimulationAddress.rt s.originatingSimulationAddress o.originatingSimulationAddress) <|
    RT.bind (rt_int o.padding1) <|
    RT.bind (rt_short o.padding2) <|
    RT.bind (rt_unsigned_byte o.attributeRecordPduType) <|
    RT.bind (rt_unsigned_byte o.attributeRecordProtocolVersion) <|
    RT.bind (rt_unsigned_int o.masterAttributeRecordType) <|
    RT.bind (rt_unsigned_byte o.actionCode) <|
    RT.bind (rt_byte o.padding3) <|
    RT.last (rt_unsigned_short o.numberOfAttributeRecordSets)

theorem AttributePdu.loc (s : AttributePdu) : Local (AttributePdu.parse s) := by
  unfold AttributePdu.parse
  exact Local.bind (EntityInformationFamilyPdu.loc _) fun _ =>
    Local.bind (SimulationAddress.loc _) fun _ =>
    Local.bind (loc_int) fun _ =>
    Local.bind (loc_short) fun _ =>
    Local.bind (loc_unsigned_byte) fun _ =>
    Local.bind (loc_unsigned_byte) fun _ =>
    Local.bind (loc_unsigned_int) fun _ =>
    Local.bind (loc_unsigned_byte) fun _ =>
    Local.bind (loc_byte) fun _ =>
    Local.bind (loc_unsigned_short) fun _ =>
    Local.pure _

theorem AttributePdu.only (s : AttributePdu) : OnlyStruct (AttributePdu.parse s) := by
  unfold AttributePdu.parse
  exact OnlyStruct.bind (EntityInformationFamilyPdu.only _) fun _ =>
    OnlyStruct.bind (SimulationAddress.only _) fun _ =>
    OnlyStruct.bind (only_int) fun _ =>
    OnlyStruct.bind (only_short) fun _ =>
    OnlyStruct.bind (only_unsigned_byte) fun _ =>
    OnlyStruct.bind (only_unsigned_byte) fun _ =>
    OnlyStruct.bind (only_unsigned_int) fun _ =>
    OnlyStruct.bind (only_unsigned_byte) fun _ =>
    OnlyStruct.bind (only_byte) fun _ =>
    OnlyStruct.bind (only_unsigned_short) fun _ =>
    OnlyStruct.pure _

theorem AttributePdu.sized (o : AttributePdu) : Sized (AttributePdu.serialize o) (AttributePdu.wireSize o) := by
  unfold AttributePdu.serialize
  refine Sized.of_eq (Sized.bind (EntityInformationFamilyPdu.sized o.toEntityInformationFamilyPdu) <|
    Sized.bind (SimulationAddress.sized o.originatingSimulationAddress) <|
    Sized.bind (sized_int o.padding1) <|
    Sized.bind (sized_short o.padding2) <|
    Sized.bind (sized_unsigned_byte o.attributeRecordPduType) <|
    Sized.bind (sized_unsigned_byte o.attributeRecordProtocolVersion) <|
    Sized.bind (sized_unsigned_int o.masterAttributeRecordType) <|
    Sized.bind (sized_unsigned_byte o.actionCode) <|
    Sized.bind (sized_byte o.padding3) <|
    sized_unsigned_short o.numberOfAttributeRecordSets) ?_
  simp only [AttributePdu.wireSize, EntityInformationFamilyPdu.wireSize, Pdu.wireSize, PduSuperclass.wireSize, SimulationAddress.wireSize]; try omega

theorem AttributePdu.ok_iff (o : AttributePdu) : (AttributePdu.serialize o).Ok ↔ AttributePdu.WireOk o := by
  unfold AttributePdu.serialize AttributePdu.WireOk
  exact ok_bind_iff (EntityInformationFamilyPdu.ok_iff o.toEntityInformationFamilyPdu) <|
    ok_bind_iff (SimulationAddress.ok_iff o.originatingSimulationAddress) <|
    ok_bind_iff (ok_int) <|
    ok_bind_iff (ok_short) <|
    ok_bind_iff (ok_unsigned_byte) <|
    ok_bind_iff (ok_unsigned_byte) <|
    ok_bind_iff (ok_unsigned_int) <|
    ok_bind_iff (ok_unsigned_byte) <|
    ok_bind_iff (ok_byte) <|
    ok_unsigned_short

theorem AttributePdu.after_canon {s o : AttributePdu} (h : AttributePdu.Canon o) : AttributePdu.after s o = o := by
  cases o
  exact (AttributePdu.mk.injEq ..).mpr ⟨EntityInformationFamilyPdu.after_canon trivial,
    SimulationAddress.after_canon trivial,
    rfl,
    rfl,
    rfl,
    rfl,
    rfl,
    rfl,
    rfl,
    rfl⟩

theorem AttributePdu.post (s : AttributePdu) : Post (AttributePdu.parse s) (fun b o => (AttributePdu.WireOk o ∧ AttributePdu.Canon o) ∧ (AttributePdu.NoNaN o → (AttributePdu.serialize o).Emits b)) := by
  unfold AttributePdu.parse
  refine Post.bind (EntityInformationFamilyPdu.post _) fun a0 b0 h0 => ?_
  refine Post.bind (SimulationAddress.post) fun a1 b1 h1 => ?_
  refine Post.bind (post_int) fun a2 b2 h2 => ?_
  refine Post.bind (post_short) fun a3 b3 h3 => ?_
  refine Post.bind (post_unsigned_byte) fun a4 b4 h4 => ?_
  refine Post.bind (post_unsigned_byte) fun a5 b5 h5 => ?_
  refine Post.bind (post_unsigned_int) fun a6 b6 h6 => ?_
  refine Post.bind (post_unsigned_byte) fun a7 b7 h7 => ?_
  refine Post.bind (post_byte) fun a8 b8 h8 => ?_
  refine Post.last (post_unsigned_short) fun a9 b9 h9 => ?_
  refine ⟨⟨⟨h0.1.1, h1.1.1, h2.1, h3.1, h4.1, h5.1, h6.1, h7.1, h8.1, h9.1⟩,
    trivial⟩, fun _ => ?_⟩
  exact W.Emits.bind (h0.2 trivial) <|
      W.Emits.bind (h1.2 trivial) <|
      W.Emits.bind (h2.2) <|
      W.Emits.bind (h3.2) <|
      W.Emits.bind (h4.2) <|
      W.Emits.bind (h5.2) <|
      W.Emits.bind (h6.2) <|
      W.Emits.bind (h7.2) <|
      W.Emits.bind (h8.2) <|
      h9.2

theorem MinefieldFamilyPdu.rt (s o : MinefieldFamilyPdu) : RT (MinefieldFamilyPdu.serialize o) (MinefieldFamilyPdu.parse s) (MinefieldFamilyPdu.after s o) := by
  unfold MinefieldFamilyPdu.serialize MinefieldFamilyPdu.parse
  exact RT.last (Pdu.rt s.toPdu o.toPdu)

theorem MinefieldFamilyPdu.loc (s : MinefieldFamilyPdu) : Local (MinefieldFamilyPdu.parse s) := by
  unfold MinefieldFamilyPdu.parse
  exact Local.bind (Pdu.loc _) fun _ =>
    Local.pure _

theorem MinefieldFamilyPdu.only (s : MinefieldFamilyPdu) : OnlyStruct (MinefieldFamilyPdu.parse s) := by
  unfold MinefieldFamilyPdu.parse
  exact OnlyStruct.bind (Pdu.only _) fun _ =>
    OnlyStruct.pure _

theorem MinefieldFamilyPdu.sized (o : MinefieldFamilyPdu) : Sized (MinefieldFamilyPdu.serialize o) (MinefieldFamilyPdu.wireSize o) := by
  unfold MinefieldFamilyPdu.serialize
  exact (Pdu.sized o.toPdu).of_eq (by simp only [MinefieldFamilyPdu.wireSize, Pdu.wireSize, PduSuperclass.wireSize]; try omega)

theorem MinefieldFamilyPdu.ok_iff (o : MinefieldFamilyPdu) : (MinefieldFamilyPdu.serialize o).Ok ↔ MinefieldFamilyPdu.WireOk o := by
  unfold MinefieldFamilyPdu.serialize MinefieldFamilyPdu.WireOk
  exact Pdu.ok_iff o.toPdu

theorem MinefieldFamilyPdu.after_canon {s o : MinefieldFamilyPdu} (h : MinefieldFamilyPdu.Canon o) : MinefieldFamilyPdu.after s o = o := by
  cases o; exact (MinefieldFamilyPdu.mk.injEq ..).mpr (Pdu.after_canon trivial)

theorem MinefieldFamilyPdu.post (s : MinefieldFamilyPdu) : Post (MinefieldFamilyPdu.parse s) (fun b o => (MinefieldFamilyPdu.WireOk o ∧ MinefieldFamilyPdu.Canon o) ∧ (MinefieldFamilyPdu.NoNaN o → (MinefieldFamilyPdu.serialize o).Emits b)) := by
  unfold MinefieldFamilyPdu.parse
  refine Post.last (Pdu.post _) fun a0 b0 h0 => ?_
  refine ⟨⟨h0.1.1,
    trivial⟩, fun _ => ?_⟩
  exact h0.2 trivial

theorem SetDataReliablePdu.rt (s o : SetDataReliablePdu) : RT (SetDataReliablePdu.serialize o) (SetDataReliablePdu.parse s) (SetDataReliablePdu.after s o) := by
  unfold SetDataReliablePdu.serialize SetDataReliablePdu.parse
  exact RT.bind (SimulationManagementWithReliabilityFamilyPdu.rt s.toSimulationManagementWithReliabilityFamilyPdu o.toSimulationManagementWithReliabilityFamilyPdu) <|
    RT.bind (rt_unsigned_byte o.requiredReliabilityService) <|
    RT.bind (rt_unsigned_short o.pad1) <|
    RT.bind (rt_unsigned_byte o.pad2) <|
    RT.bind (rt_unsigned_int o.requestID) <|
    RT.last (DatumSpecification.rt s._datums o._datums)

theorem SetDataReliablePdu.loc (s : SetDataReliablePdu) : Local (SetDataReliablePdu.parse s) := by
  unfold SetDataReliablePdu.parse
  exact Local.bind (SimulationManagementWithReliabilityFamilyPdu.loc _) fun _ =>
    Local.bind (loc_unsigned_byte) fun _ =>
    Local.bind (loc_unsigned_short) fun _ =>
    Local.bind (loc_unsigned_byte) fun _ =>
    Local.bind (loc_unsigned_int) fun _ =>
    Local.bind (DatumSpecification.loc _) fun _ =>
    Local.pure _

theorem SetDataReliablePdu.only (s : SetDataReliablePdu) : OnlyStruct (SetDataReliablePdu.parse s) := by
  unfold SetDataReliablePdu.parse
  exact OnlyStruct.bind (SimulationManagementWithReliabilityFamilyPdu.only _) fun _ =>
    OnlyStruct.bind (only_unsigned_byte) fun _ =>
    OnlyStruct.bind (only_unsigned_short) fun _ =>
    OnlyStruct.bind (only_unsigned_byte) fun _ =>
    OnlyStruct.bind (only_unsigned_int) fun _ =>
    OnlyStruct.bind (DatumSpecification.only _) fun _ =>
    OnlyStruct.pure _

theorem SetDataReliablePdu.sized (o : SetDataReliablePdu) : Sized (SetDataReliablePdu.serialize o) (SetDataReliablePdu.wireSize o) := by
  unfold SetDataReliablePdu.serialize
  refine Sized.of_eq (Sized.bind (SimulationManagementWithReliabilityFamilyPdu.sized o.toSimulationManagementWithReliabilityFamilyPdu) <|
    Sized.bind (sized_unsigned_byte o.requiredReliabilityService) <|
    Sized.bind (sized_unsigned_short o.pad1) <|
    Sized.bind (sized_unsigned_byte o.pad2) <|
    Sized.bind (sized_unsigned_int o.requestID) <|
    DatumSpecification.sized o._datums) ?_
  simp only [SetDataReliablePdu.wireSize, SimulationManagementWithReliabilityFamilyPdu.wireSize, Pdu.wireSize, PduSuperclass.wireSize, EntityIdentifier.wireSize, SimulationAddress.wireSize, DatumSpecification.wireSize]; try omega

theorem SetDataReliablePdu.ok_iff (o : SetDataReliablePdu) : (SetDataReliablePdu.serialize o).Ok ↔ SetDataReliablePdu.WireOk o := by
  unfold SetDataReliablePdu.serialize SetDataReliablePdu.WireOk
  exact ok_bind_iff (SimulationManagementWithReliabilityFamilyPdu.ok_iff o.toSimulationManagementWithReliabilityFamilyPdu) <|
    ok_bind_iff (ok_unsigned_byte) <|
    ok_bind_iff (ok_unsigned_short) <|
    ok_bind_iff (ok_unsigned_byte) <|
    ok_bind_iff (ok_unsigned_int) <|
    DatumSpecification.ok_iff o._datums

theorem SetDataReliablePdu.after_canon {o : SetDataReliablePdu} (h : SetDataReliablePdu.Canon o) : SetDataReliablePdu.after SetDataReliablePdu.init o = o := by
  have h__datums := h
  cases o
  exact (SetDataReliablePdu.mk.injEq ..).mpr ⟨SimulationManagementWithReliabilityFamilyPdu.after_canon trivial,
    rfl,
    rfl,
    rfl,
    rfl,
    DatumSpecification.after_canon h__datums⟩

theorem SetDataReliablePdu.post : Post (SetDataReliablePdu.parse SetDataReliablePdu.init) (fun _ o => SetDataReliablePdu.WireOk o ∧ SetDataReliablePdu.Canon o) := by
  unfold SetDataReliablePdu.parse
  refine Post.bind (SimulationManagementWithReliabilityFamilyPdu.post _) fun a0 b0 h0 => ?_
  refine Post.bind (post_unsigned_byte) fun a1 b1 h1 => ?_
  refine Post.bind (post_unsigned_short) fun a2 b2 h2 => ?_
  refine Post.bind (post_unsigned_byte) fun a3 b3 h3 => ?_
  refine Post.bind (post_unsigned_int) fun a4 b4 h4 => ?_
  refine Post.last (DatumSpecification.post) fun a5 b5 h5 => ?_
  exact ⟨⟨h0.1.1, h1.1, h2.1, h3.1, h4.1, h5.1⟩,
    h5.2⟩

theorem EventReportPdu.rt (s o : EventReportPdu) : RT (EventReportPdu.serialize o) (EventReportPdu.parse s) (EventReportPdu.after s o) := by
  unfold EventReportPdu.serialize EventReportPdu.parse
  exact RT.bind (SimulationManagementFamilyPdu.rt s.toSimulationManagementFamilyPdu o.toSimulationManagementFamilyPdu) <|
    RT.bind (rt_unsigned_int o.eventType) <|
    RT.bind (rt_unsigned_int o.padding1) <|
    RT.last (DatumSpecification.rt s._datums o._datums)

theorem EventReportPdu.loc (s : EventReportPdu) : Local (EventReportPdu.parse s) := by
  unfold EventReportPdu.parse
  exact Local.bind (SimulationManagementFamilyPdu.loc _) fun _ =>
    Local.bind (loc_unsigned_int) fun _ =>
    Local.bind (loc_unsigned_int) fun _ =>
    Local.bind (DatumSpecification.loc _) fun _ =>
    Local.pure _

theorem EventReportPdu.only (s : EventReportPdu) : OnlyStruct (EventReportPdu.parse s) := by
  unfold EventReportPdu.parse
  exact OnlyStruct.bind (SimulationManagementFamilyPdu.only _) fun _ =>
    OnlyStruct.bind (only_unsigned_int) fun _ =>
    OnlyStruct.bind (only_unsigned_int) fun _ =>
    OnlyStruct.bind (DatumSpecification.only _) fun _ =>
    OnlyStruct.pure _

theorem EventReportPdu.sized (o : EventReportPdu) : Sized (EventReportPdu.serialize o) (EventReportPdu.wireSize o) := by
  unfold EventReportPdu.serialize
  refine Sized.of_eq (Sized.bind (SimulationManagementFamilyPdu.sized o.toSimulationManagementFamilyPdu) <|
    Sized.bind (sized_unsigned_int o.eventType) <|
    Sized.bind (sized_unsigned_int o.padding1) <|
    DatumSpecification.sized o._datums) ?_
  simp only [EventReportPdu.wireSize, SimulationManagementFamilyPdu.wireSize, Pdu.wireSize, PduSuperclass.wireSize, EntityIdentifier.wireSize, SimulationAddress.wireSize, DatumSpecification.wireSize]; try omega

theorem EventReportPdu.ok_iff (o : EventReportPdu) : (EventReportPdu.serialize o).Ok ↔ EventReportPdu.WireOk o := by
  unfold EventReportPdu.serialize EventReportPdu.WireOk
  exact ok_bind_iff (SimulationManagementFamilyPdu.ok_iff o.toSimulationManagementFamilyPdu) <|
    ok_bind_iff (ok_unsigned_int) <|
    ok_bind_iff (ok_unsigned_int) <|
    DatumSpecification.ok_iff o._datums

theorem EventReportPdu.after_canon {o : EventReportPdu} (h : EventReportPdu.Canon o) : EventReportPdu.after EventReportPdu.init o = o := by
  have h__datums := h
  cases o
  exact (EventReportPdu.mk.injEq ..).mpr ⟨SimulationManagementFamilyPdu.after_canon trivial,
    rfl,
    rfl,
    DatumSpecification.after_canon h__datums⟩

theorem EventReportPdu.post : Post (EventReportPdu.parse EventReportPdu.init) (fun _ o => EventReportPdu.WireOk o ∧ EventReportPdu.Canon o) := by
  unfold EventReportPdu.parse
  refine Post.bind (SimulationManagementFamilyPdu.post _) fun a0 b0 h0 => ?_
  refine Post.bind (post_unsigned_int) fun a1 b1 h1 => ?_
  refine Post.bind (post_unsigned_int) fun a2 b2 h2 => ?_
  refine Post.last (DatumSpecification.post) fun a3 b3 h3 => ?_
  exact ⟨⟨h0.1.1, h1.1, h2.1, h3.1⟩,
    h3.2⟩

theorem PointObjectStatePdu.rt (s o : PointObjectStatePdu) : RT (PointObjectStatePdu.serialize o) (PointObjectStatePdu.parse s) (PointObjectStatePdu.after s o) := by
  unfold PointObjectStatePdu.serialize PointObjectStatePdu.parse
  exact RT.bind (SyntheticEnvironmentFamilyPdu.rt s.toSyntheticEnvironmentFamilyPdu o.toSyntheticEnvironmentFamilyPdu) <|
    RT.bind (EntityIdentifier.rt s.objectID o.objectID) <|
    RT.bind (EntityIdentifier.rt s.referencedObjectID o.referencedObjectID) <|
    RT.bind (rt_unsigned_short o.updateNumber) <|
    RT.bind (rt_unsigned_byte o.forceID) <|
    RT.bind (rt_unsigned_byte o.modifications) <|
    RT.bind (ObjectType.rt s.objectType o.objectType) <|
    RT.bind (WorldCoordinates.rt s.objectLocation o.objectLocation) <|
    RT.bind (EulerAngles.rt s.objectOrientation o.objectOrientation) <|
    RT.bind (rt_double o.objectAppearance) <|
    RT.bind (SimulationAddress.rt s.requesterID o.requesterID) <|
    RT.bind (SimulationAddress.rt s.receivingID o.receivingID) <|
    RT.last (rt_unsigned_int o.pad2)

theorem PointObjectStatePdu.loc (s : PointObjectStatePdu) : Local (PointObjectStatePdu.parse s) := by
  unfold PointObjectStatePdu.parse
  exact Local.bind (SyntheticEnvironmentFamilyPdu.loc _) fun _ =>
    Local.bind (EntityIdentifier.loc _) fun _ =>
    Local.bind (EntityIdentifier.loc _) fun _ =>
    Local.bind (loc_unsigned_short) fun _ =>
    Local.bind (loc_unsigned_byte) fun _ =>
    Local.bind (loc_unsigned_byte) fun _ =>
    Local.bind (ObjectType.loc _) fun _ =>
    Local.bind (WorldCoordinates.loc _) fun _ =>
    Local.bind (EulerAngles.loc _) fun _ =>
    Local.bind (loc_double) fun _ =>
    Local.bind (SimulationAddress.loc _) fun _ =>
    Local.bind (SimulationAddress.loc _) fun _ =>
    Local.bind (loc_unsigned_int) fun _ =>
    Local.pure _

theorem PointObjectStatePdu.only (s : PointObjectStatePdu) : OnlyStruct (PointObjectStatePdu.parse s) := by
  unfold PointObjectStatePdu.parse
  exact OnlyStruct.bind (SyntheticEnvironmentFamilyPdu.only _) fun _ =>
    OnlyStruct.bind (EntityIdentifier.only _) fun _ =>
    OnlyStruct.bind (EntityIdentifier.only _) fun _ =>
    OnlyStruct.bind (only_unsigned_short) fun _ =>
    OnlyStruct.bind (only_unsigned_byte) fun _ =>
    OnlyStruct.bind (only_unsigned_byte) fun _ =>
    OnlyStruct.bind (ObjectType.only _) fun _ =>
    OnlyStruct.bind (WorldCoordinates.only _) fun _ =>
    OnlyStruct.bind (EulerAngles.only _) fun _ =>
    OnlyStruct.bind (only_double) fun _ =>
    OnlyStruct.bind (SimulationAddress.only _) fun _ =>
    OnlyStruct.bind (SimulationAddress.only _) fun _ =>
    OnlyStruct.bind (only_unsigned_int) fun _ =>
    OnlyStruct.pure _

theorem PointObjectStatePdu.sized (o : PointObjectStatePdu) : Sized (PointObjectStatePdu.serialize o) (PointObjectStatePdu.wireSize o) := by
  unfold PointObjectStatePdu.serialize
  refine Sized.of_eq (Sized.bind (SyntheticEnvironmentFamilyPdu.sized o.toSyntheticEnvironmentFamilyPdu) <|
    Sized.bind (EntityIdentifier.sized o.objectID) <|
    Sized.bind (EntityIdentifier.sized o.referencedObjectID) <|
    Sized.bind (sized_unsigned_short o.updateNumber) <|
    Sized.bind (sized_unsigned_byte o.forceID) <|
    Sized.bind (sized_unsigned_byte o.modifications) <|
    Sized.bind (ObjectType.sized o.objectType) <|
    Sized.bind (WorldCoordinates.sized o.objectLocation) <|
    Sized.bind (EulerAngles.sized o.objectOrientation) <|
    Sized.bind (sized_double o.objectAppearance) <|
    Sized.bind (SimulationAddress.sized o.requesterID) <|
    Sized.bind (SimulationAddress.sized o.receivingID) <|
    sized_unsigned_int o.pad2) ?_
  simp only [PointObjectStatePdu.wireSize, SyntheticEnvironmentFamilyPdu.wireSize, Pdu.wireSize, PduSuperclass.wireSize, EntityIdentifier.wireSize, SimulationAddress.wireSize, ObjectType.wireSize, WorldCoordinates.wireSize, EulerAngles.wireSize]; try omega

theorem PointObjectStatePdu.ok_iff (o : PointObjectStatePdu) : (PointObjectStatePdu.serialize o).Ok ↔ PointObjectStatePdu.WireOk o := by
  unfold PointObjectStatePdu.serialize PointObjectStatePdu.WireOk
  exact ok_bind_iff (SyntheticEnvironmentFamilyPdu.ok_iff o.toSyntheticEnvironmentFamilyPdu) <|
    ok_bind_iff (EntityIdentifier.ok_iff o.objectID) <|
    ok_bind_iff (EntityIdentifier.ok_iff o.referencedObjectID) <|
    ok_bind_iff (ok_unsigned_short) <|
    ok_bind_iff (ok_unsigned_byte) <|
    ok_bind_iff (ok_unsigned_byte) <|
    ok_bind_iff (ObjectType.ok_iff o.objectType) <|
    ok_bind_tl (WorldCoordinates.ok_iff o.objectLocation) <|
    ok_bind_iff (EulerAngles.ok_iff o.objectOrientation) <|
    ok_bind_tl (ok_double) <|
    ok_bind_iff (SimulationAddress.ok_iff o.requesterID) <|
    ok_bind_iff (SimulationAddress.ok_iff o.receivingID) <|
    ok_unsigned_int

theorem PointObjectStatePdu.after_canon {o : PointObjectStatePdu} (h : PointObjectStatePdu.Canon o) : PointObjectStatePdu.after PointObjectStatePdu.init o = o := by
  obtain ⟨h_objectOrientation, h_pad1⟩ := h
  cases o
  exact (PointObjectStatePdu.mk.injEq ..).mpr ⟨SyntheticEnvironmentFamilyPdu.after_canon trivial,
    EntityIdentifier.after_canon trivial,
    EntityIdentifier.after_canon trivial,
    rfl,
    rfl,
    rfl,
    ObjectType.after_canon trivial,
    WorldCoordinates.after_canon trivial,
    EulerAngles.after_canon h_objectOrientation,
    rfl,
    h_pad1.symm,
    SimulationAddress.after_canon trivial,
    SimulationAddress.after_canon trivial,
    rfl⟩

theorem PointObjectStatePdu.post : Post (PointObjectStatePdu.parse PointObjectStatePdu.init) (fun b o => (PointObjectStatePdu.WireOk o ∧ PointObjectStatePdu.Canon o) ∧ (PointObjectStatePdu.NoNaN o → (PointObjectStatePdu.serialize o).Emits b)) := by
  unfold PointObjectStatePdu.parse
  refine Post.bind (SyntheticEnvironmentFamilyPdu.post _) fun a0 b0 h0 => ?_
  refine Post.bind (EntityIdentifier.post) fun a1 b1 h1 => ?_
  refine Post.bind (EntityIdentifier.post) fun a2 b2 h2 => ?_
  refine Post.bind (post_unsigned_short) fun a3 b3 h3 => ?_
  refine Post.bind (post_unsigned_byte) fun a4 b4 h4 => ?_
  refine Post.bind (post_unsigned_byte) fun a5 b5 h5 => ?_
  refine Post.bind (ObjectType.post) fun a6 b6 h6 => ?_
  refine Post.bind (WorldCoordinates.post) fun a7 b7 h7 => ?_
  refine Post.bind (EulerAngles.post) fun a8 b8 h8 => ?_
  refine Post.bind (post_double) fun a9 b9 h9 => ?_
  refine Post.bind (SimulationAddress.post) fun a10 b10 h10 => ?_
  refine Post.bind (SimulationAddress.post) fun a11 b11 h11 => ?_
  refine Post.last (post_unsigned_int) fun a12 b12 h12 => ?_
  refine ⟨⟨⟨h0.1.1, h1.1.1, h2.1.1, h3.1, h4.1, h5.1, h6.1.1, h8.1.1, h10.1.1, h11.1.1, h12.1⟩,
    ⟨h8.1.2, rfl⟩⟩, fun n0 => ?_⟩
  exact W.Emits.bind (h0.2 trivial) <|
      W.Emits.bind (h1.2 trivial) <|
      W.Emits.bind (h2.2 trivial) <|
      W.Emits.bind (h3.2) <|
      W.Emits.bind (h4.2) <|
      W.Emits.bind (h5.2) <|
      W.Emits.bind (h6.2 trivial) <|
      W.Emits.bind (h7.2 trivial) <|
      W.Emits.bind (h8.2 n0) <|
      W.Emits.bind (h9) <|
      W.Emits.bind (h10.2 trivial) <|
      W.Emits.bind (h11.2 trivial) <|
      h12.2

theorem DataPdu.rt (s o : DataPdu) : RT (DataPdu.serialize o) (DataPdu.parse s) (DataPdu.after s o) := by
  unfold DataPdu.serialize DataPdu.parse
  exact RT.bind (SimulationManagementFamilyPdu.rt s.toSimulationManagementFamilyPdu o.toSimulationManagementFamilyPdu) <|
    RT.bind (rt_unsigned_int o.requestID) <|
    RT.bind (rt_unsigned_int o.padding1) <|
    RT.last (DatumSpecification.rt s._datums o._datums)

theorem DataPdu.loc (s : DataPdu) : Local (DataPdu.parse s) := by
  unfold DataPdu.parse
  exact Local.bind (SimulationManagementFamilyPdu.loc _) fun _ =>
    Local.bind (loc_unsigned_int) fun _ =>
    Local.bind (loc_unsigned_int) fun _ =>
    Local.bind (DatumSpecification.loc _) fun _ =>
    Local.pure _

theorem DataPdu.only (s : DataPdu) : OnlyStruct (DataPdu.parse s) := by
  unfold DataPdu.parse
  exact OnlyStruct.bind (SimulationManagementFamilyPdu.only _) fun _ =>
    OnlyStruct.bind (only_unsigned_int) fun _ =>
    OnlyStruct.bind (only_unsigned_int) fun _ =>
    OnlyStruct.bind (DatumSpecification.only _) fun _ =>
    OnlyStruct.pure _

theorem DataPdu.sized (o : DataPdu) : Sized (DataPdu.serialize o) (DataPdu.wireSize o) := by
  unfold DataPdu.serialize
  refine Sized.of_eq (Sized.bind (SimulationManagementFamilyPdu.sized o.toSimulationManagementFamilyPdu) <|
    Sized.bind (sized_unsigned_int o.requestID) <|
    Sized.bind (sized_unsigned_int o.padding1) <|
    DatumSpecification.sized o._datums) ?_
  simp only [DataPdu.wireSize, SimulationManagementFamilyPdu.wireSize, Pdu.wireSize, PduSuperclass.wireSize, EntityIdentifier.wireSize, SimulationAddress.wireSize, DatumSpecification.wireSize]; try omega

theorem DataPdu.ok_iff (o : DataPdu) : (DataPdu.serialize o).Ok ↔ DataPdu.WireOk o := by
  unfold DataPdu.serialize DataPdu.WireOk
  exact ok_bind_iff (SimulationManagementFamilyPdu.ok_iff o.toSimulationManagementFamilyPdu) <|
    ok_bind_iff (ok_unsigned_int) <|
    ok_bind_iff (ok_unsigned_int) <|
    DatumSpecification.ok_iff o._datums

theorem DataPdu.after_canon {o : DataPdu} (h : DataPdu.Canon o) : DataPdu.after DataPdu.init o = o := by
  have h__datums := h
  cases o
  exact (DataPdu.mk.injEq ..).mpr ⟨SimulationManagementFamilyPdu.after_canon trivial,
    rfl,
    rfl,
    DatumSpecification.after_canon h__datums⟩

theorem DataPdu.post : Post (DataPdu.parse DataPdu.init) (fun _ o => DataPdu.WireOk o ∧ DataPdu.Canon o) := by
  unfold DataPdu.parse
  refine Post.bind (SimulationManagementFamilyPdu.post _) fun a0 b0 h0 => ?_
  refine Post.bind (post_unsigned_int) fun a1 b1 h1 => ?_
  refine Post.bind (post_unsigned_int) fun a2 b2 h2 => ?_
  refine Post.last (DatumSpecification.post) fun a3 b3 h3 => ?_
  exact ⟨⟨h0.1.1, h1.1, h2.1, h3.1⟩,
    h3.2⟩

end Dis
