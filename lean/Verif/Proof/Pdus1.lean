import Verif.Spec.Pdus1
import Verif.Proof.Records5

/-!
# Proofs for: PDUs of `opendis/dis7.py`, part 1

Generated by `tools/genproof.py`.
-/

set_option linter.unusedVariables false
set_option linter.unusedSimpArgs false

namespace Dis

theorem PduSuperclass.rt (s o : PduSuperclass) : RT (PduSuperclass.serialize o) (PduSuperclass.parse s) (PduSuperclass.after s o) := by
  unfold PduSuperclass.serialize PduSuperclass.parse
  exact RT.bind (rt_unsigned_byte o.protocolVersion) <|
    RT.bind (rt_unsigned_byte o.exerciseID) <|
    RT.bind (rt_unsigned_byte o.pduType) <|
    RT.bind (rt_unsigned_byte o.protocolFamily) <|
    RT.bind (rt_unsigned_int o.timestamp) <|
    RT.last (rt_unsigned_short o.length)

theorem PduSuperclass.loc (s : PduSuperclass) : Local (PduSuperclass.parse s) := by
  unfold PduSuperclass.parse
  exact Local.bind (loc_unsigned_byte) fun _ =>
    Local.bind (loc_unsigned_byte) fun _ =>
    Local.bind (loc_unsigned_byte) fun _ =>
    Local.bind (loc_unsigned_byte) fun _ =>
    Local.bind (loc_unsigned_int) fun _ =>
    Local.bind (loc_unsigned_short) fun _ =>
    Local.pure _

theorem PduSuperclass.only (s : PduSuperclass) : OnlyStruct (PduSuperclass.parse s) := by
  unfold PduSuperclass.parse
  exact OnlyStruct.bind (only_unsigned_byte) fun _ =>
    OnlyStruct.bind (only_unsigned_byte) fun _ =>
    OnlyStruct.bind (only_unsigned_byte) fun _ =>
    OnlyStruct.bind (only_unsigned_byte) fun _ =>
    OnlyStruct.bind (only_unsigned_int) fun _ =>
    OnlyStruct.bind (only_unsigned_short) fun _ =>
    OnlyStruct.pure _

theorem PduSuperclass.sized (o : PduSuperclass) : Sized (PduSuperclass.serialize o) (PduSuperclass.wireSize o) := by
  unfold PduSuperclass.serialize
  refine Sized.of_eq (Sized.bind (sized_unsigned_byte o.protocolVersion) <|
    Sized.bind (sized_unsigned_byte o.exerciseID) <|
    Sized.bind (sized_unsigned_byte o.pduType) <|
    Sized.bind (sized_unsigned_byte o.protocolFamily) <|
    Sized.bind (sized_unsigned_int o.timestamp) <|
    sized_unsigned_short o.length) ?_
  simp only [PduSuperclass.wireSize]; try omega

theorem PduSuperclass.ok_iff (o : PduSuperclass) : (PduSuperclass.serialize o).Ok ↔ PduSuperclass.WireOk o := by
  unfold PduSuperclass.serialize PduSuperclass.WireOk
  exact ok_bind_iff (ok_unsigned_byte) <|
    ok_bind_iff (ok_unsigned_byte) <|
    ok_bind_iff (ok_unsigned_byte) <|
    ok_bind_iff (ok_unsigned_byte) <|
    ok_bind_iff (ok_unsigned_int) <|
    ok_unsigned_short

theorem PduSuperclass.after_canon {s o : PduSuperclass} (h : PduSuperclass.Canon o) : PduSuperclass.after s o = o := by
  cases o
  exact (PduSuperclass.mk.injEq ..).mpr ⟨rfl,
    rfl,
    rfl,
    rfl,
    rfl,
    rfl⟩

theorem PduSuperclass.post (s : PduSuperclass) : Post (PduSuperclass.parse s) (fun b o => (PduSuperclass.WireOk o ∧ PduSuperclass.Canon o) ∧ (PduSuperclass.NoNaN o → (PduSuperclass.serialize o).Emits b)) := by
  unfold PduSuperclass.parse
  refine Post.bind (post_unsigned_byte) fun a0 b0 h0 => ?_
  refine Post.bind (post_unsigned_byte) fun a1 b1 h1 => ?_
  refine Post.bind (post_unsigned_byte) fun a2 b2 h2 => ?_
  refine Post.bind (post_unsigned_byte) fun a3 b3 h3 => ?_
  refine Post.bind (post_unsigned_int) fun a4 b4 h4 => ?_
  refine Post.last (post_unsigned_short) fun a5 b5 h5 => ?_
  refine ⟨⟨⟨h0.1, h1.1, h2.1, h3.1, h4.1, h5.1⟩,
    trivial⟩, fun _ => ?_⟩
  exact W.Emits.bind (h0.2) <|
      W.Emits.bind (h1.2) <|
      W.Emits.bind (h2.2) <|
      W.Emits.bind (h3.2) <|
      W.Emits.bind (h4.2) <|
      h5.2

theorem LiveEntityPdu.rt (s o : LiveEntityPdu) : RT (LiveEntityPdu.serialize o) (LiveEntityPdu.parse s) (LiveEntityPdu.after s o) := by
  unfold LiveEntityPdu.serialize LiveEntityPdu.parse
  exact RT.bind (PduSuperclass.rt s.toPduSuperclass o.toPduSuperclass) <|
    RT.bind (rt_unsigned_short o.subprotocolNumber) <|
    RT.last (rt_unsigned_byte o.padding)

theorem LiveEntityPdu.loc (s : LiveEntityPdu) : Local (LiveEntityPdu.parse s) := by
  unfold LiveEntityPdu.parse
  exact Local.bind (PduSuperclass.loc _) fun _ =>
    Local.bind (loc_unsigned_short) fun _ =>
    Local.bind (loc_unsigned_byte) fun _ =>
    Local.pure _

theorem LiveEntityPdu.only (s : LiveEntityPdu) : OnlyStruct (LiveEntityPdu.parse s) := by
  unfold LiveEntityPdu.parse
  exact OnlyStruct.bind (PduSuperclass.only _) fun _ =>
    OnlyStruct.bind (only_unsigned_short) fun _ =>
    OnlyStruct.bind (only_unsigned_byte) fun _ =>
    OnlyStruct.pure _

theorem LiveEntityPdu.sized (o : LiveEntityPdu) : Sized (LiveEntityPdu.serialize o) (LiveEntityPdu.wireSize o) := by
  unfold LiveEntityPdu.serialize
  refine Sized.of_eq (Sized.bind (PduSuperclass.sized o.toPduSuperclass) <|
    Sized.bind (sized_unsigned_short o.subprotocolNumber) <|
    sized_unsigned_byte o.padding) ?_
  simp only [LiveEntityPdu.wireSize, PduSuperclass.wireSize]; try omega

theorem LiveEntityPdu.ok_iff (o : LiveEntityPdu) : (LiveEntityPdu.serialize o).Ok ↔ LiveEntityPdu.WireOk o := by
  unfold LiveEntityPdu.serialize LiveEntityPdu.WireOk
  exact ok_bind_iff (PduSuperclass.ok_iff o.toPduSuperclass) <|
    ok_bind_iff (ok_unsigned_short) <|
    ok_unsigned_byte

theorem LiveEntityPdu.after_canon {s o : LiveEntityPdu} (h : LiveEntityPdu.Canon o) : LiveEntityPdu.after s o = o := by
  cases o
  exact (LiveEntityPdu.mk.injEq ..).mpr ⟨PduSuperclass.after_canon trivial,
    rfl,
    rfl⟩

theorem LiveEntityPdu.post (s : LiveEntityPdu) : Post (LiveEntityPdu.parse s) (fun b o => (LiveEntityPdu.WireOk o ∧ LiveEntityPdu.Canon o) ∧ (LiveEntityPdu.NoNaN o → (LiveEntityPdu.serialize o).Emits b)) := by
  unfold LiveEntityPdu.parse
  refine Post.bind (PduSuperclass.post _) fun a0 b0 h0 => ?_
  refine Post.bind (post_unsigned_short) fun a1 b1 h1 => ?_
  refine Post.last (post_unsigned_byte) fun a2 b2 h2 => ?_
  refine ⟨⟨⟨h0.1.1, h1.1, h2.1⟩,
    trivial⟩, fun _ => ?_⟩
  exact W.Emits.bind (h0.2 trivial) <|
      W.Emits.bind (h1.2) <|
      h2.2

theorem Pdu.rt (s o : Pdu) : RT (Pdu.serialize o) (Pdu.parse s) (Pdu.after s o) := by
  unfold Pdu.serialize Pdu.parse
  exact RT.bind (PduSuperclass.rt s.toPduSuperclass o.toPduSuperclass) <|
    RT.bind (rt_unsigned_byte o.pduStatus) <|
    RT.last (rt_unsigned_byte o.padding)

theorem Pdu.loc (s : Pdu) : Local (Pdu.parse s) := by
  unfold Pdu.parse
  exact Local.bind (PduSuperclass.loc _) fun _ =>
    Local.bind (loc_unsigned_byte) fun _ =>
    Local.bind (loc_unsigned_byte) fun _ =>
    Local.pure _

theorem Pdu.only (s : Pdu) : OnlyStruct (Pdu.parse s) := by
  unfold Pdu.parse
  exact OnlyStruct.bind (PduSuperclass.only _) fun _ =>
    OnlyStruct.bind (only_unsigned_byte) fun _ =>
    OnlyStruct.bind (only_unsigned_byte) fun _ =>
    OnlyStruct.pure _

theorem Pdu.sized (o : Pdu) : Sized (Pdu.serialize o) (Pdu.wireSize o) := by
  unfold Pdu.serialize
  refine Sized.of_eq (Sized.bind (PduSuperclass.sized o.toPduSuperclass) <|
    Sized.bind (sized_unsigned_byte o.pduStatus) <|
    sized_unsigned_byte o.padding) ?_
  simp only [Pdu.wireSize, PduSuperclass.wireSize]; try omega

theorem Pdu.ok_iff (o : Pdu) : (Pdu.serialize o).Ok ↔ Pdu.WireOk o := by
  unfold Pdu.serialize Pdu.WireOk
  exact ok_bind_iff (PduSuperclass.ok_iff o.toPduSuperclass) <|
    ok_bind_iff (ok_unsigned_byte) <|
    ok_unsigned_byte

theorem Pdu.after_canon {s o : Pdu} (h : Pdu.Canon o) : Pdu.after s o = o := by
  cases o
  exact (Pdu.mk.injEq ..).mpr ⟨PduSuperclass.after_canon trivial,
    rfl,
    rfl⟩

theorem Pdu.post (s : Pdu) : Post (Pdu.parse s) (fun b o => (Pdu.WireOk o ∧ Pdu.Canon o) ∧ (Pdu.NoNaN o → (Pdu.serialize o).Emits b)) := by
  unfold Pdu.parse
  refine Post.bind (PduSuperclass.post _) fun a0 b0 h0 => ?_
  refine Post.bind (post_unsigned_byte) fun a1 b1 h1 => ?_
  refine Post.last (post_unsigned_byte) fun a2 b2 h2 => ?_
  refine ⟨⟨⟨h0.1.1, h1.1, h2.1⟩,
    trivial⟩, fun _ => ?_⟩
  exact W.Emits.bind (h0.2 trivial) <|
      W.Emits.bind (h1.2) <|
      h2.2

theorem EntityInformationFamilyPdu.rt (s o : EntityInformationFamilyPdu) : RT (EntityInformationFamilyPdu.serialize o) (EntityInformationFamilyPdu.parse s) (EntityInformationFamilyPdu.after s o) := by
  unfold EntityInformationFamilyPdu.serialize EntityInformationFamilyPdu.parse
  exact RT.last (Pdu.rt s.toPdu o.toPdu)

theorem EntityInformationFamilyPdu.loc (s : EntityInformationFamilyPdu) : Local (EntityInformationFamilyPdu.parse s) := by
  unfold EntityInformationFamilyPdu.parse
  exact Local.bind (Pdu.loc _) fun _ =>
    Local.pure _

theorem EntityInformationFamilyPdu.only (s : EntityInformationFamilyPdu) : OnlyStruct (EntityInformationFamilyPdu.parse s) := by
  unfold EntityInformationFamilyPdu.parse
  exact OnlyStruct.bind (Pdu.only _) fun _ =>
    OnlyStruct.pure _

theorem EntityInformationFamilyPdu.sized (o : EntityInformationFamilyPdu) : Sized (EntityInformationFamilyPdu.serialize o) (EntityInformationFamilyPdu.wireSize o) := by
  unfold EntityInformationFamilyPdu.serialize
  exact (Pdu.sized o.toPdu).of_eq (by simp only [EntityInformationFamilyPdu.wireSize, Pdu.wireSize, PduSuperclass.wireSize]; try omega)

theorem EntityInformationFamilyPdu.ok_iff (o : EntityInformationFamilyPdu) : (EntityInformationFamilyPdu.serialize o).Ok ↔ EntityInformationFamilyPdu.WireOk o := by
  unfold EntityInformationFamilyPdu.serialize EntityInformationFamilyPdu.WireOk
  exact Pdu.ok_iff o.toPdu

theorem EntityInformationFamilyPdu.after_canon {s o : EntityInformationFamilyPdu} (h : EntityInformationFamilyPdu.Canon o) : EntityInformationFamilyPdu.after s o = o := by
  cases o; exact (EntityInformationFamilyPdu.mk.injEq ..).mpr (Pdu.after_canon trivial)

theorem EntityInformationFamilyPdu.post (s : EntityInformationFamilyPdu) : Post (EntityInformationFamilyPdu.parse s) (fun b o => (EntityInformationFamilyPdu.WireOk o ∧ EntityInformationFamilyPdu.Canon o) ∧ (EntityInformationFamilyPdu.NoNaN o → (EntityInformationFamilyPdu.serialize o).Emits b)) := by
  unfold EntityInformationFamilyPdu.parse
  refine Post.last (Pdu.post _) fun a0 b0 h0 => ?_
  refine ⟨⟨h0.1.1,
    trivial⟩, fun _ => ?_⟩
  exact h0.2 trivial

theorem LogisticsFamilyPdu.rt (s o : LogisticsFamilyPdu) : RT (LogisticsFamilyPdu.serialize o) (LogisticsFamilyPdu.parse s) (LogisticsFamilyPdu.after s o) := by
  unfold LogisticsFamilyPdu.serialize LogisticsFamilyPdu.parse
  exact RT.last (Pdu.rt s.toPdu o.toPdu)

theorem LogisticsFamilyPdu.loc (s : LogisticsFamilyPdu) : Local (LogisticsFamilyPdu.parse s) := by
  unfold LogisticsFamilyPdu.parse
  exact Local.bind (Pdu.loc _) fun _ =>
    Local.pure _

theorem LogisticsFamilyPdu.only (s : LogisticsFamilyPdu) : OnlyStruct (LogisticsFamilyPdu.parse s) := by
  unfold LogisticsFamilyPdu.parse
  exact OnlyStruct.bind (Pdu.only _) fun _ =>
    OnlyStruct.pure _

theorem LogisticsFamilyPdu.sized (o : LogisticsFamilyPdu) : Sized (LogisticsFamilyPdu.serialize o) (LogisticsFamilyPdu.wireSize o) := by
  unfold LogisticsFamilyPdu.serialize
  exact (Pdu.sized o.toPdu).of_eq (by simp only [LogisticsFamilyPdu.wireSize, Pdu.wireSize, PduSuperclass.wireSize]; try omega)

theorem LogisticsFamilyPdu.ok_iff (o : LogisticsFamilyPdu) : (LogisticsFamilyPdu.serialize o).Ok ↔ LogisticsFamilyPdu.WireOk o := by
  unfold LogisticsFamilyPdu.serialize LogisticsFamilyPdu.WireOk
  exact Pdu.ok_iff o.toPdu

theorem LogisticsFamilyPdu.after_canon {s o : LogisticsFamilyPdu} (h : LogisticsFamilyPdu.Canon o) : LogisticsFamilyPdu.after s o = o := by
  cases o; exact (LogisticsFamilyPdu.mk.injEq ..).mpr (Pdu.after_canon trivial)

theorem LogisticsFamilyPdu.post (s : LogisticsFamilyPdu) : Post (LogisticsFamilyPdu.parse s) (fun b o => (LogisticsFamilyPdu.WireOk o ∧ LogisticsFamilyPdu.Canon o) ∧ (LogisticsFamilyPdu.NoNaN o → (LogisticsFamilyPdu.serialize o).Emits b)) := by
  unfold LogisticsFamilyPdu.parse
  refine Post.last (Pdu.post _) fun a0 b0 h0 => ?_
  refine ⟨⟨h0.1.1,
    trivial⟩, fun _ => ?_⟩
  exact h0.2 trivial

theorem EntityStateUpdatePdu.rt (s o : EntityStateUpdatePdu) : RT (EntityStateUpdatePdu.serialize o) (EntityStateUpdatePdu.parse s) (EntityStateUpdatePdu.after s o) := by
  unfold EntityStateUpdatePdu.serialize EntityStateUpdatePdu.parse
  exact RT.bind (EntityInformationFamilyPdu.rt s.toEntityInformationFamilyPdu o.toEntityInformationFamilyPdu) <|
    RT.bind (EntityIdentifier.rt s.entityID o.entityID) <|
    RT.bind (rt_byte o.padding1) <|
    RT.bind (rt_unsigned_byte ((o.variableParameters.length : Int))) <|
    RT.bind (Vector3Float.rt s.entityLinearVelocity o.entityLinearVelocity) <|
    RT.bind (WorldCoordinates.rt s.entityLocation o.entityLocation) <|
    RT.bind (EulerAngles.rt s.entityOrientation o.entityOrientation) <|
    RT.bind (rt_unsigned_int o.entityAppearance) <|
    RT.last (rt_list fun x _ => VariableParameter.rt _ x)

theorem EntityStateUpdatePdu.loc (s : EntityStateUpdatePdu) : Local (EntityStateUpdatePdu.parse s) := by
  unfold EntityStateUpdatePdu.parse
  exact Local.bind (EntityInformationFamilyPdu.loc _) fun _ =>
    Local.bind (EntityIdentifier.loc _) fun _ =>
    Local.bind (loc_byte) fun _ =>
    Local.bind (loc_unsigned_byte) fun _ =>
    Local.bind (Vector3Float.loc _) fun _ =>
    Local.bind (WorldCoordinates.loc _) fun _ =>
    Local.bind (EulerAngles.loc _) fun _ =>
    Local.bind (loc_unsigned_int) fun _ =>
    Local.bind (Local.times (VariableParameter.loc _) _) fun _ =>
    Local.pure _

theorem EntityStateUpdatePdu.only (s : EntityStateUpdatePdu) : OnlyStruct (EntityStateUpdatePdu.parse s) := by
  unfold EntityStateUpdatePdu.parse
  exact OnlyStruct.bind (EntityInformationFamilyPdu.only _) fun _ =>
    OnlyStruct.bind (EntityIdentifier.only _) fun _ =>
    OnlyStruct.bind (only_byte) fun _ =>
    OnlyStruct.bind (only_unsigned_byte) fun _ =>
    OnlyStruct.bind (Vector3Float.only _) fun _ =>
    OnlyStruct.bind (WorldCoordinates.only _) fun _ =>
    OnlyStruct.bind (EulerAngles.only _) fun _ =>
    OnlyStruct.bind (only_unsigned_int) fun _ =>
    OnlyStruct.bind (OnlyStruct.times (VariableParameter.only _) _) fun _ =>
    OnlyStruct.pure _

theorem EntityStateUpdatePdu.sized (o : EntityStateUpdatePdu) : Sized (EntityStateUpdatePdu.serialize o) (EntityStateUpdatePdu.wireSize o) := by
  unfold EntityStateUpdatePdu.serialize
  refine Sized.of_eq (Sized.bind (EntityInformationFamilyPdu.sized o.toEntityInformationFamilyPdu) <|
    Sized.bind (EntityIdentifier.sized o.entityID) <|
    Sized.bind (sized_byte o.padding1) <|
    Sized.bind (sized_unsigned_byte _) <|
    Sized.bind (Vector3Float.sized o.entityLinearVelocity) <|
    Sized.bind (WorldCoordinates.sized o.entityLocation) <|
    Sized.bind (EulerAngles.sized o.entityOrientation) <|
    Sized.bind (sized_unsigned_int o.entityAppearance) <|
    Sized.forEach_const VariableParameter.sized) ?_
  simp only [EntityStateUpdatePdu.wireSize, EntityInformationFamilyPdu.wireSize, Pdu.wireSize, PduSuperclass.wireSize, EntityIdentifier.wireSize, SimulationAddress.wireSize, Vector3Float.wireSize, WorldCoordinates.wireSize, EulerAngles.wireSize]; try omega

theorem EntityStateUpdatePdu.ok_iff (o : EntityStateUpdatePdu) : (EntityStateUpdatePdu.serialize o).Ok ↔ EntityStateUpdatePdu.WireOk o := by
  unfold EntityStateUpdatePdu.serialize EntityStateUpdatePdu.WireOk
  exact ok_bind_iff (EntityInformationFamilyPdu.ok_iff o.toEntityInformationFamilyPdu) <|
    ok_bind_iff (EntityIdentifier.ok_iff o.entityID) <|
    ok_bind_iff (ok_byte) <|
    ok_bind_iff (ok_unsigned_byte) <|
    ok_bind_iff (Vector3Float.ok_iff o.entityLinearVelocity) <|
    ok_bind_tl (WorldCoordinates.ok_iff o.entityLocation) <|
    ok_bind_iff (EulerAngles.ok_iff o.entityOrientation) <|
    ok_bind_iff (ok_unsigned_int) <|
    ok_list VariableParameter.ok_iff

theorem EntityStateUpdatePdu.after_canon {o : EntityStateUpdatePdu} (h : EntityStateUpdatePdu.Canon o) : EntityStateUpdatePdu.after EntityStateUpdatePdu.init o = o := by
  obtain ⟨h_entityLinearVelocity, h_entityOrientation⟩ := h
  cases o
  exact (EntityStateUpdatePdu.mk.injEq ..).mpr ⟨EntityInformationFamilyPdu.after_canon trivial,
    EntityIdentifier.after_canon trivial,
    rfl,
    Vector3Float.after_canon h_entityLinearVelocity,
    WorldCoordinates.after_canon trivial,
    EulerAngles.after_canon h_entityOrientation,
    rfl,
    canon_list fun x hx => VariableParameter.after_canon trivial⟩

theorem EntityStateUpdatePdu.post : Post (EntityStateUpdatePdu.parse EntityStateUpdatePdu.init) (fun b o => (EntityStateUpdatePdu.WireOk o ∧ EntityStateUpdatePdu.Canon o) ∧ (EntityStateUpdatePdu.NoNaN o → (EntityStateUpdatePdu.serialize o).Emits b)) := by
  unfold EntityStateUpdatePdu.parse
  refine Post.bind (EntityInformationFamilyPdu.post _) fun a0 b0 h0 => ?_
  refine Post.bind (EntityIdentifier.post) fun a1 b1 h1 => ?_
  refine Post.bind (post_byte) fun a2 b2 h2 => ?_
  refine Post.bind (post_unsigned_byte) fun a3 b3 h3 => ?_
  refine Post.bind (Vector3Float.post) fun a4 b4 h4 => ?_
  refine Post.bind (WorldCoordinates.post) fun a5 b5 h5 => ?_
  refine Post.bind (EulerAngles.post) fun a6 b6 h6 => ?_
  refine Post.bind (post_unsigned_int) fun a7 b7 h7 => ?_
  refine Post.last (Post.times VariableParameter.post _) fun a8 b8 h8 => ?_
  obtain rfl : a3 = (a8.length : Int) := count_eq h3.1.1 h8.1
  refine ⟨⟨⟨h0.1.1, h1.1.1, h2.1, h3.1, h4.1.1, h6.1.1, h7.1, fun x hx => (h8.2.1 x hx).1⟩,
    ⟨h4.1.2, h6.1.2⟩⟩, fun hn => ?_⟩
  obtain ⟨n0, n1⟩ := hn
  exact W.Emits.bind (h0.2 trivial) <|
      W.Emits.bind (h1.2 trivial) <|
      W.Emits.bind (h2.2) <|
      W.Emits.bind (h3.2) <|
      W.Emits.bind (h4.2 n0) <|
      W.Emits.bind (h5.2 trivial) <|
      W.Emits.bind (h6.2 n1) <|
      W.Emits.bind (h7.2) <|
      h8.2.2 (fun _ _ => trivial)

theorem ServiceRequestPdu.rt (s o : ServiceRequestPdu) : RT (ServiceRequestPdu.serialize o) (ServiceRequestPdu.parse s) (ServiceRequestPdu.after s o) := by
  unfold ServiceRequestPdu.serialize ServiceRequestPdu.parse
  exact RT.bind (LogisticsFamilyPdu.rt s.toLogisticsFamilyPdu o.toLogisticsFamilyPdu) <|
    RT.bind (EntityIdentifier.rt s.requestingEntityID o.requestingEntityID) <|
    RT.bind (EntityIdentifier.rt s.servicingEntityID o.servicingEntityID) <|
    RT.bind (rt_unsigned_byte o.serviceTypeRequested) <|
    RT.bind (rt_unsigned_byte ((o.supplies.length : Int))) <|
    RT.bind (rt_short o.serviceRequestPadding) <|
    RT.last (rt_list fun x _ => SupplyQuantity.rt _ x)

theorem ServiceRequestPdu.loc (s : ServiceRequestPdu) : Local (ServiceRequestPdu.parse s) := by
  unfold ServiceRequestPdu.parse
  exact Local.bind (LogisticsFamilyPdu.loc _) fun _ =>
    Local.bind (EntityIdentifier.loc _) fun _ =>
    Local.bind (EntityIdentifier.loc _) fun _ =>
    Local.bind (loc_unsigned_byte) fun _ =>
    Local.bind (loc_unsigned_byte) fun _ =>
    Local.bind (loc_short) fun _ =>
    Local.bind (Local.times (SupplyQuantity.loc _) _) fun _ =>
    Local.pure _

theorem ServiceRequestPdu.only (s : ServiceRequestPdu) : OnlyStruct (ServiceRequestPdu.parse s) := by
  unfold ServiceRequestPdu.parse
  exact OnlyStruct.bind (LogisticsFamilyPdu.only _) fun _ =>
    OnlyStruct.bind (EntityIdentifier.only _) fun _ =>
    OnlyStruct.bind (EntityIdentifier.only _) fun _ =>
    OnlyStruct.bind (only_unsigned_byte) fun _ =>
    OnlyStruct.bind (only_unsigned_byte) fun _ =>
    OnlyStruct.bind (only_short) fun _ =>
    OnlyStruct.bind (OnlyStruct.times (SupplyQuantity.only _) _) fun _ =>
    OnlyStruct.pure _

theorem ServiceRequestPdu.sized (o : ServiceRequestPdu) : Sized (ServiceRequestPdu.serialize o) (ServiceRequestPdu.wireSize o) := by
  unfold ServiceRequestPdu.serialize
  refine Sized.of_eq (Sized.bind (LogisticsFamilyPdu.sized o.toLogisticsFamilyPdu) <|
    Sized.bind (EntityIdentifier.sized o.requestingEntityID) <|
    Sized.bind (EntityIdentifier.sized o.servicingEntityID) <|
    Sized.bind (sized_unsigned_byte o.serviceTypeRequested) <|
    Sized.bind (sized_unsigned_byte _) <|
    Sized.bind (sized_short o.serviceRequestPadding) <|
    Sized.forEach_const SupplyQuantity.sized) ?_
  simp only [ServiceRequestPdu.wireSize, LogisticsFamilyPdu.wireSize, Pdu.wireSize, PduSuperclass.wireSize, EntityIdentifier.wireSize, SimulationAddress.wireSize]; try omega

theorem ServiceRequestPdu.ok_iff (o : ServiceRequestPdu) : (ServiceRequestPdu.serialize o).Ok ↔ ServiceRequestPdu.WireOk o := by
  unfold ServiceRequestPdu.serialize ServiceRequestPdu.WireOk
  exact ok_bind_iff (LogisticsFamilyPdu.ok_iff o.toLogisticsFamilyPdu) <|
    ok_bind_iff (EntityIdentifier.ok_iff o.requestingEntityID) <|
    ok_bind_iff (EntityIdentifier.ok_iff o.servicingEntityID) <|
    ok_bind_iff (ok_unsigned_byte) <|
    ok_bind_iff (ok_unsigned_byte) <|
    ok_bind_iff (ok_short) <|
    ok_list SupplyQuantity.ok_iff

theorem ServiceRequestPdu.after_canon {o : ServiceRequestPdu} (h : ServiceRequestPdu.Canon o) : ServiceRequestPdu.after ServiceRequestPdu.init o = o := by
  have h_supplies := h
  cases o
  exact (ServiceRequestPdu.mk.injEq ..).mpr ⟨LogisticsFamilyPdu.after_canon trivial,
    EntityIdentifier.after_canon trivial,
    EntityIdentifier.after_canon trivial,
    rfl,
    rfl,
    canon_list fun x hx => SupplyQuantity.after_canon (h_supplies x hx)⟩

theorem ServiceRequestPdu.post : Post (ServiceRequestPdu.parse ServiceRequestPdu.init) (fun b o => (ServiceRequestPdu.WireOk o ∧ ServiceRequestPdu.Canon o) ∧ (ServiceRequestPdu.NoNaN o → (ServiceRequestPdu.serialize o).Emits b)) := by
  unfold ServiceRequestPdu.parse
  refine Post.bind (LogisticsFamilyPdu.post _) fun a0 b0 h0 => ?_
  refine Post.bind (EntityIdentifier.post) fun a1 b1 h1 => ?_
  refine Post.bind (EntityIdentifier.post) fun a2 b2 h2 => ?_
  refine Post.bind (post_unsigned_byte) fun a3 b3 h3 => ?_
  refine Post.bind (post_unsigned_byte) fun a4 b4 h4 => ?_
  refine Post.bind (post_short) fun a5 b5 h5 => ?_
  refine Post.last (Post.times SupplyQuantity.post _) fun a6 b6 h6 => ?_
  obtain rfl : a4 = (a6.length : Int) := count_eq h4.1.1 h6.1
  refine ⟨⟨⟨h0.1.1, h1.1.1, h2.1.1, h3.1, h4.1, h5.1, fun x hx => (h6.2.1 x hx).1⟩,
    fun x hx => (h6.2.1 x hx).2⟩, fun n0 => ?_⟩
  exact W.Emits.bind (h0.2 trivial) <|
      W.Emits.bind (h1.2 trivial) <|
      W.Emits.bind (h2.2 trivial) <|
      W.Emits.bind (h3.2) <|
      W.Emits.bind (h4.2) <|
      W.Emits.bind (h5.2) <|
      h6.2.2 n0

theorem RepairCompletePdu.rt (s o : RepairCompletePdu) : RT (RepairCompletePdu.serialize o) (RepairCompletePdu.parse s) (RepairCompletePdu.after s o) := by
  unfold RepairCompletePdu.serialize RepairCompletePdu.parse
  exact RT.bind (LogisticsFamilyPdu.rt s.toLogisticsFamilyPdu o.toLogisticsFamilyPdu) <|
    RT.bind (EntityIdentifier.rt s.receivingEntityID o.receivingEntityID) <|
    RT.bind (EntityIdentifier.rt s.repairingEntityID o.repairingEntityID) <|
    RT.bind (rt_unsigned_short o.repair) <|
    RT.last (rt_short o.padding4)

theorem RepairCompletePdu.loc (s : RepairCompletePdu) : Local (RepairCompletePdu.parse s) := by
  unfold RepairCompletePdu.parse
  exact Local.bind (LogisticsFamilyPdu.loc _) fun _ =>
    Local.bind (EntityIdentifier.loc _) fun _ =>
    Local.bind (EntityIdentifier.loc _) fun _ =>
    Local.bind (loc_unsigned_short) fun _ =>
    Local.bind (loc_short) fun _ =>
    Local.pure _

theorem RepairCompletePdu.only (s : RepairCompletePdu) : OnlyStruct (RepairCompletePdu.parse s) := by
  unfold RepairCompletePdu.parse
  exact OnlyStruct.bind (LogisticsFamilyPdu.only _) fun _ =>
    OnlyStruct.bind (EntityIdentifier.only _) fun _ =>
    OnlyStruct.bind (EntityIdentifier.only _) fun _ =>
    OnlyStruct.bind (only_unsigned_short) fun _ =>
    OnlyStruct.bind (only_short) fun _ =>
    OnlyStruct.pure _

theorem RepairCompletePdu.sized (o : RepairCompletePdu) : Sized (RepairCompletePdu.serialize o) (RepairCompletePdu.wireSize o) := by
  unfold RepairCompletePdu.serialize
  refine Sized.of_eq (Sized.bind (LogisticsFamilyPdu.sized o.toLogisticsFamilyPdu) <|
    Sized.bind (EntityIdentifier.sized o.receivingEntityID) <|
    Sized.bind (EntityIdentifier.sized o.repairingEntityID) <|
    Sized.bind (sized_unsigned_short o.repair) <|
    sized_short o.padding4) ?_
  simp only [RepairCompletePdu.wireSize, LogisticsFamilyPdu.wireSize, Pdu.wireSize, PduSuperclass.wireSize, EntityIdentifier.wireSize, SimulationAddress.wireSize]; try omega

theorem RepairCompletePdu.ok_iff (o : RepairCompletePdu) : (RepairCompletePdu.serialize o).Ok ↔ RepairCompletePdu.WireOk o := by
  unfold RepairCompletePdu.serialize RepairCompletePdu.WireOk
  exact ok_bind_iff (LogisticsFamilyPdu.ok_iff o.toLogisticsFamilyPdu) <|
    ok_bind_iff (EntityIdentifier.ok_iff o.receivingEntityID) <|
    ok_bind_iff (EntityIdentifier.ok_iff o.repairingEntityID) <|
    ok_bind_iff (ok_unsigned_short) <|
    ok_short

theorem RepairCompletePdu.after_canon {o : RepairCompletePdu} (h : RepairCompletePdu.Canon o) : RepairCompletePdu.after RepairCompletePdu.init o = o := by
  cases o
  exact (RepairCompletePdu.mk.injEq ..).mpr ⟨LogisticsFamilyPdu.after_canon trivial,
    EntityIdentifier.after_canon trivial,
    EntityIdentifier.after_canon trivial,
    rfl,
    rfl⟩

theorem RepairCompletePdu.post : Post (RepairCompletePdu.parse RepairCompletePdu.init) (fun b o => (RepairCompletePdu.WireOk o ∧ RepairCompletePdu.Canon o) ∧ (RepairCompletePdu.NoNaN o → (RepairCompletePdu.serialize o).Emits b)) := by
  unfold RepairCompletePdu.parse
  refine Post.bind (LogisticsFamilyPdu.post _) fun a0 b0 h0 => ?_
  refine Post.bind (EntityIdentifier.post) fun a1 b1 h1 => ?_
  refine Post.bind (EntityIdentifier.post) fun a2 b2 h2 => ?_
  refine Post.bind (post_unsigned_short) fun a3 b3 h3 => ?_
  refine Post.last (post_short) fun a4 b4 h4 => ?_
  refine ⟨⟨⟨h0.1.1, h1.1.1, h2.1.1, h3.1, h4.1⟩,
    trivial⟩, fun _ => ?_⟩
  exact W.Emits.bind (h0.2 trivial) <|
      W.Emits.bind (h1.2 trivial) <|
      W.Emits.bind (h2.2 trivial) <|
      W.Emits.bind (h3.2) <|
      h4.2

theorem SyntheticEnvironmentFamilyPdu.rt (s o : SyntheticEnvironmentFamilyPdu) : RT (SyntheticEnvironmentFamilyPdu.serialize o) (SyntheticEnvironmentFamilyPdu.parse s) (SyntheticEnvironmentFamilyPdu.after s o) := by
  unfold SyntheticEnvironmentFamilyPdu.serialize SyntheticEnvironmentFamilyPdu.parse
  exact RT.last (Pdu.rt s.toPdu o.toPdu)

theorem SyntheticEnvironmentFamilyPdu.loc (s : SyntheticEnvironmentFamilyPdu) : Local (SyntheticEnvironmentFamilyPdu.parse s) := by
  unfold SyntheticEnvironmentFamilyPdu.parse
  exact Local.bind (Pdu.loc _) fun _ =>
    Local.pure _

theorem SyntheticEnvironmentFamilyPdu.only (s : SyntheticEnvironmentFamilyPdu) : OnlyStruct (SyntheticEnvironmentFamilyPdu.parse s) := by
  unfold SyntheticEnvironmentFamilyPdu.parse
  exact OnlyStruct.bind (Pdu.only _) fun _ =>
    OnlyStruct.pure _

theorem SyntheticEnvironmentFamilyPdu.sized (o : SyntheticEnvironmentFamilyPdu) : Sized (SyntheticEnvironmentFamilyPdu.serialize o) (SyntheticEnvironmentFamilyPdu.wireSize o) := by
  unfold SyntheticEnvironmentFamilyPdu.serialize
  exact (Pdu.sized o.toPdu).of_eq (by simp only [SyntheticEnvironmentFamilyPdu.wireSize, Pdu.wireSize, PduSuperclass.wireSize]; try omega)

theorem SyntheticEnvironmentFamilyPdu.ok_iff (o : SyntheticEnvironmentFamilyPdu) : (SyntheticEnvironmentFamilyPdu.serialize o).Ok ↔ SyntheticEnvironmentFamilyPdu.WireOk o := by
  unfold SyntheticEnvironmentFamilyPdu.serialize SyntheticEnvironmentFamilyPdu.WireOk
  exact Pdu.ok_iff o.toPdu

theorem SyntheticEnvironmentFamilyPdu.after_canon {s o : SyntheticEnvironmentFamilyPdu} (h : SyntheticEnvironmentFamilyPdu.Canon o) : SyntheticEnvironmentFamilyPdu.after s o = o := by
  cases o; exact (SyntheticEnvironmentFamilyPdu.mk.injEq ..).mpr (Pdu.after_canon trivial)

theorem SyntheticEnvironmentFamilyPdu.post (s : SyntheticEnvironmentFamilyPdu) : Post (SyntheticEnvironmentFamilyPdu.parse s) (fun b o => (SyntheticEnvironmentFamilyPdu.WireOk o ∧ SyntheticEnvironmentFamilyPdu.Canon o) ∧ (SyntheticEnvironmentFamilyPdu.NoNaN o → (SyntheticEnvironmentFamilyPdu.serialize o).Emits b)) := by
  unfold SyntheticEnvironmentFamilyPdu.parse
  refine Post.last (Pdu.post _) fun a0 b0 h0 => ?_
  refine ⟨⟨h0.1.1,
    trivial⟩, fun _ => ?_⟩
  exact h0.2 trivial

theorem CollisionPdu.rt (s o : CollisionPdu) : RT (CollisionPdu.serialize o) (CollisionPdu.parse s) (CollisionPdu.after s o) := by
  unfold CollisionPdu.serialize CollisionPdu.parse
  exact RT.bind (EntityInformationFamilyPdu.rt s.toEntityInformationFamilyPdu o.toEntityInformationFamilyPdu) <|
    RT.bind (EntityIdentifier.rt s.issuingEntityID o.issuingEntityID) <|
    RT.bind (EntityIdentifier.rt s.collidingEntityID o.collidingEntityID) <|
    RT.bind (EventIdentifier.rt s.eventID o.eventID) <|
    RT.bind (rt_unsigned_byte o.collisionType) <|
    RT.bind (rt_byte o.pad) <|
    RT.bind (Vector3Float.rt s.velocity o.velocity) <|
    RT.bind (rt_float o.mass) <|
    RT.last (Vector3Float.rt s.location o.location)

theorem CollisionPdu.loc (s : CollisionPdu) : Local (CollisionPdu.parse s) := by
  unfold CollisionPdu.parse
  exact Local.bind (EntityInformationFamilyPdu.loc _) fun _ =>
    Local.bind (EntityIdentifier.loc _) fun _ =>
    Local.bind (EntityIdentifier.loc _) fun _ =>
    Local.bind (EventIdentifier.loc _) fun _ =>
    Local.bind (loc_unsigned_byte) fun _ =>
    Local.bind (loc_byte) fun _ =>
    Local.bind (Vector3Float.loc _) fun _ =>
    Local.bind (loc_float) fun _ =>
    Local.bind (Vector3Float.loc _) fun _ =>
    Local.pure _

theorem CollisionPdu.only (s : CollisionPdu) : OnlyStruct (CollisionPdu.parse s) := by
  unfold CollisionPdu.parse
  exact OnlyStruct.bind (EntityInformationFamilyPdu.only _) fun _ =>
    OnlyStruct.bind (EntityIdentifier.only _) fun _ =>
    OnlyStruct.bind (EntityIdentifier.only _) fun _ =>
    OnlyStruct.bind (EventIdentifier.only _) fun _ =>
    OnlyStruct.bind (only_unsigned_byte) fun _ =>
    OnlyStruct.bind (only_byte) fun _ =>
    OnlyStruct.bind (Vector3Float.only _) fun _ =>
    OnlyStruct.bind (only_float) fun _ =>
    OnlyStruct.bind (Vector3Float.only _) fun _ =>
    OnlyStruct.pure _

theorem CollisionPdu.sized (o : CollisionPdu) : Sized (CollisionPdu.serialize o) (CollisionPdu.wireSize o) := by
  unfold CollisionPdu.serialize
  refine Sized.of_eq (Sized.bind (EntityInformationFamilyPdu.sized o.toEntityInformationFamilyPdu) <|
    Sized.bind (EntityIdentifier.sized o.issuingEntityID) <|
    Sized.bind (EntityIdentifier.sized o.collidingEntityID) <|
    Sized.bind (EventIdentifier.sized o.eventID) <|
    Sized.bind (sized_unsigned_byte o.collisionType) <|
    Sized.bind (sized_byte o.pad) <|
    Sized.bind (Vector3Float.sized o.velocity) <|
    Sized.bind (sized_float o.mass) <|
    Vector3Float.sized o.location) ?_
  simp only [CollisionPdu.wireSize, EntityInformationFamilyPdu.wireSize, Pdu.wireSize, PduSuperclass.wireSize, EntityIdentifier.wireSize, SimulationAddress.wireSize, EventIdentifier.wireSize, Vector3Float.wireSize]; try omega

theorem CollisionPdu.ok_iff (o : CollisionPdu) : (CollisionPdu.serialize o).Ok ↔ CollisionPdu.WireOk o := by
  unfold CollisionPdu.serialize CollisionPdu.WireOk
  exact ok_bind_iff (EntityInformationFamilyPdu.ok_iff o.toEntityInformationFamilyPdu) <|
    ok_bind_iff (EntityIdentifier.ok_iff o.issuingEntityID) <|
    ok_bind_iff (EntityIdentifier.ok_iff o.collidingEntityID) <|
    ok_bind_iff (EventIdentifier.ok_iff o.eventID) <|
    ok_bind_iff (ok_unsigned_byte) <|
    ok_bind_iff (ok_byte) <|
    ok_bind_iff (Vector3Float.ok_iff o.velocity) <|
    ok_bind_iff (ok_float) <|
    Vector3Float.ok_iff o.location

theorem CollisionPdu.after_canon {o : CollisionPdu} (h : CollisionPdu.Canon o) : CollisionPdu.after CollisionPdu.init o = o := by
  obtain ⟨h_velocity, h_mass, h_location⟩ := h
  cases o
  exact (CollisionPdu.mk.injEq ..).mpr ⟨EntityInformationFamilyPdu.after_canon trivial,
    EntityIdentifier.after_canon trivial,
    EntityIdentifier.after_canon trivial,
    EventIdentifier.after_canon trivial,
    rfl,
    rfl,
    Vector3Float.after_canon h_velocity,
    h_mass,
    Vector3Float.after_canon h_location⟩

theorem CollisionPdu.post : Post (CollisionPdu.parse CollisionPdu.init) (fun b o => (CollisionPdu.WireOk o ∧ CollisionPdu.Canon o) ∧ (CollisionPdu.NoNaN o → (CollisionPdu.serialize o).Emits b)) := by
  unfold CollisionPdu.parse
  refine Post.bind (EntityInformationFamilyPdu.post _) fun a0 b0 h0 => ?_
  refine Post.bind (EntityIdentifier.post) fun a1 b1 h1 => ?_
  refine Post.bind (EntityIdentifier.post) fun a2 b2 h2 => ?_
  refine Post.bind (EventIdentifier.post) fun a3 b3 h3 => ?_
  refine Post.bind (post_unsigned_byte) fun a4 b4 h4 => ?_
  refine Post.bind (post_byte) fun a5 b5 h5 => ?_
  refine Post.bind (Vector3Float.post) fun a6 b6 h6 => ?_
  refine Post.bind (post_float) fun a7 b7 h7 => ?_
  refine Post.last (Vector3Float.post) fun a8 b8 h8 => ?_
  refine ⟨⟨⟨h0.1.1, h1.1.1, h2.1.1, h3.1.1, h4.1, h5.1, h6.1.1, h7.1.1, h8.1.1⟩,
    ⟨h6.1.2, h7.1.2, h8.1.2⟩⟩, fun hn => ?_⟩
  obtain ⟨n0, n1, n2⟩ := hn
  exact W.Emits.bind (h0.2 trivial) <|
      W.Emits.bind (h1.2 trivial) <|
      W.Emits.bind (h2.2 trivial) <|
      W.Emits.bind (h3.2 trivial) <|
      W.Emits.bind (h4.2) <|
      W.Emits.bind (h5.2) <|
      W.Emits.bind (h6.2 n0) <|
      W.Emits.bind (h7.2 n1) <|
      h8.2 n2

theorem RepairResponsePdu.rt (s o : RepairResponsePdu) : RT (RepairResponsePdu.serialize o) (RepairResponsePdu.parse s) (RepairResponsePdu.after s o) := by
  unfold RepairResponsePdu.serialize RepairResponsePdu.parse
  exact RT.bind (LogisticsFamilyPdu.rt s.toLogisticsFamilyPdu o.toLogisticsFamilyPdu) <|
    RT.bind (EntityIdentifier.rt s.receivingEntityID o.receivingEntityID) <|
    RT.bind (EntityIdentifier.rt s.repairingEntityID o.repairingEntityID) <|
    RT.bind (rt_unsigned_byte o.repairResult) <|
    RT.bind (rt_short o.padding1) <|
    RT.last (rt_byte o.padding2)

theorem RepairResponsePdu.loc (s : RepairResponsePdu) : Local (RepairResponsePdu.parse s) := by
  unfold RepairResponsePdu.parse
  exact Local.bind (LogisticsFamilyPdu.loc _) fun _ =>
    Local.bind (EntityIdentifier.loc _) fun _ =>
    Local.bind (EntityIdentifier.loc _) fun _ =>
    Local.bind (loc_unsigned_byte) fun _ =>
    Local.bind (loc_short) fun _ =>
    Local.bind (loc_byte) fun _ =>
    Local.pure _

theorem RepairResponsePdu.only (s : RepairResponsePdu) : OnlyStruct (RepairResponsePdu.parse s) := by
  unfold RepairResponsePdu.parse
  exact OnlyStruct.bind (LogisticsFamilyPdu.only _) fun _ =>
    OnlyStruct.bind (EntityIdentifier.only _) fun _ =>
    OnlyStruct.bind (EntityIdentifier.only _) fun _ =>
    OnlyStruct.bind (only_unsigned_byte) fun _ =>
    OnlyStruct.bind (only_short) fun _ =>
    OnlyStruct.bind (only_byte) fun _ =>
    OnlyStruct.pure _

theorem RepairResponsePdu.sized (o : RepairResponsePdu) : Sized (RepairResponsePdu.serialize o) (RepairResponsePdu.wireSize o) := by
  unfold RepairResponsePdu.serialize
  refine Sized.of_eq (Sized.bind (LogisticsFamilyPdu.sized o.toLogisticsFamilyPdu) <|
    Sized.bind (EntityIdentifier.sized o.receivingEntityID) <|
    Sized.bind (EntityIdentifier.sized o.repairingEntityID) <|
    Sized.bind (sized_unsigned_byte o.repairResult) <|
    Sized.bind (sized_short o.padding1) <|
    sized_byte o.padding2) ?_
  simp only [RepairResponsePdu.wireSize, LogisticsFamilyPdu.wireSize, Pdu.wireSize, PduSuperclass.wireSize, EntityIdentifier.wireSize, SimulationAddress.wireSize]; try omega

theorem RepairResponsePdu.ok_iff (o : RepairResponsePdu) : (RepairResponsePdu.serialize o).Ok ↔ RepairResponsePdu.WireOk o := by
  unfold RepairResponsePdu.serialize RepairResponsePdu.WireOk
  exact ok_bind_iff (LogisticsFamilyPdu.ok_iff o.toLogisticsFamilyPdu) <|
    ok_bind_iff (EntityIdentifier.ok_iff o.receivingEntityID) <|
    ok_bind_iff (EntityIdentifier.ok_iff o.repairingEntityID) <|
    ok_bind_iff (ok_unsigned_byte) <|
    ok_bind_iff (ok_short) <|
    ok_byte

theorem RepairResponsePdu.after_canon {o : RepairResponsePdu} (h : RepairResponsePdu.Canon o) : RepairResponsePdu.after RepairResponsePdu.init o = o := by
  cases o
  exact (RepairResponsePdu.mk.injEq ..).mpr ⟨LogisticsFamilyPdu.after_canon trivial,
    EntityIdentifier.after_canon trivial,
    EntityIdentifier.after_canon trivial,
    rfl,
    rfl,
    rfl⟩

theorem RepairResponsePdu.post : Post (RepairResponsePdu.parse RepairResponsePdu.init) (fun b o => (RepairResponsePdu.WireOk o ∧ RepairResponsePdu.Canon o) ∧ (RepairResponsePdu.NoNaN o → (RepairResponsePdu.serialize o).Emits b)) := by
  unfold RepairResponsePdu.parse
  refine Post.bind (LogisticsFamilyPdu.post _) fun a0 b0 h0 => ?_
  refine Post.bind (EntityIdentifier.post) fun a1 b1 h1 => ?_
  refine Post.bind (EntityIdentifier.post) fun a2 b2 h2 => ?_
  refine Post.bind (post_unsigned_byte) fun a3 b3 h3 => ?_
  refine Post.bind (post_short) fun a4 b4 h4 => ?_
  refine Post.last (post_byte) fun a5 b5 h5 => ?_
  refine ⟨⟨⟨h0.1.1, h1.1.1, h2.1.1, h3.1, h4.1, h5.1⟩,
    trivial⟩, fun _ => ?_⟩
  exact W.Emits.bind (h0.2 trivial) <|
      W.Emits.bind (h1.2 trivial) <|
      W.Emits.bind (h2.2 trivial) <|
      W.Emits.bind (h3.2) <|
      W.Emits.bind (h4.2) <|
      h5.2

theorem SimulationManagementFamilyPdu.rt (s o : SimulationManagementFamilyPdu) : RT (SimulationManagementFamilyPdu.serialize o) (SimulationManagementFamilyPdu.parse s) (SimulationManagementFamilyPdu.after s o) := by
  unfold SimulationManagementFamilyPdu.serialize SimulationManagementFamilyPdu.parse
  exact RT.bind (Pdu.rt s.toPdu o.toPdu) <|
    RT.bind (EntityIdentifier.rt s.originatingEntityID o.originatingEntityID) <|
    RT.last (EntityIdentifier.rt s.receivingEntityID o.receivingEntityID)

theorem SimulationManagementFamilyPdu.loc (s : SimulationManagementFamilyPdu) : Local (SimulationManagementFamilyPdu.parse s) := by
  unfold SimulationManagementFamilyPdu.parse
  exact Local.bind (Pdu.loc _) fun _ =>
    Local.bind (EntityIdentifier.loc _) fun _ =>
    Local.bind (EntityIdentifier.loc _) fun _ =>
    Local.pure _

theorem SimulationManagementFamilyPdu.only (s : SimulationManagementFamilyPdu) : OnlyStruct (SimulationManagementFamilyPdu.parse s) := by
  unfold SimulationManagementFamilyPdu.parse
  exact OnlyStruct.bind (Pdu.only _) fun _ =>
    OnlyStruct.bind (EntityIdentifier.only _) fun _ =>
    OnlyStruct.bind (EntityIdentifier.only _) fun _ =>
    OnlyStruct.pure _

theorem SimulationManagementFamilyPdu.sized (o : SimulationManagementFamilyPdu) : Sized (SimulationManagementFamilyPdu.serialize o) (SimulationManagementFamilyPdu.wireSize o) := by
  unfold SimulationManagementFamilyPdu.serialize
  refine Sized.of_eq (Sized.bind (Pdu.sized o.toPdu) <|
    Sized.bind (EntityIdentifier.sized o.originatingEntityID) <|
    EntityIdentifier.sized o.receivingEntityID) ?_
  simp only [SimulationManagementFamilyPdu.wireSize, Pdu.wireSize, PduSuperclass.wireSize, EntityIdentifier.wireSize, SimulationAddress.wireSize]; try omega

theorem SimulationManagementFamilyPdu.ok_iff (o : SimulationManagementFamilyPdu) : (SimulationManagementFamilyPdu.serialize o).Ok ↔ SimulationManagementFamilyPdu.WireOk o := by
  unfold SimulationManagementFamilyPdu.serialize SimulationManagementFamilyPdu.WireOk
  exact ok_bind_iff (Pdu.ok_iff o.toPdu) <|
    ok_bind_iff (EntityIdentifier.ok_iff o.originatingEntityID) <|
    EntityIdentifier.ok_iff o.receivingEntityID

theorem SimulationManagementFamilyPdu.after_canon {s o : SimulationManagementFamilyPdu} (h : SimulationManagementFamilyPdu.Canon o) : SimulationManagementFamilyPdu.after s o = o := by
  cases o
  exact (SimulationManagementFamilyPdu.mk.injEq ..).mpr ⟨Pdu.after_canon trivial,
    EntityIdentifier.after_canon trivial,
    EntityIdentifier.after_canon trivial⟩

theorem SimulationManagementFamilyPdu.post (s : SimulationManagementFamilyPdu) : Post (SimulationManagementFamilyPdu.parse s) (fun b o => (SimulationManagementFamilyPdu.WireOk o ∧ SimulationManagementFamilyPdu.Canon o) ∧ (SimulationManagementFamilyPdu.NoNaN o → (SimulationManagementFamilyPdu.serialize o).Emits b)) := by
  unfold SimulationManagementFamilyPdu.parse
  refine Post.bind (Pdu.post _) fun a0 b0 h0 => ?_
  refine Post.bind (EntityIdentifier.post) fun a1 b1 h1 => ?_
  refine Post.last (EntityIdentifier.post) fun a2 b2 h2 => ?_
  refine ⟨⟨⟨h0.1.1, h1.1.1, h2.1.1⟩,
    trivial⟩, fun _ => ?_⟩
  exact W.Emits.bind (h0.2 trivial) <|
      W.Emits.bind (h1.2 trivial) <|
      h2.2 trivial

theorem DataQueryPdu.rt (s o : DataQueryPdu) : RT (DataQueryPdu.serialize o) (DataQueryPdu.parse s) (DataQueryPdu.after s o) := by
  unfold DataQueryPdu.serialize DataQueryPdu.parse
  exact RT.bind (SimulationManagementFamilyPdu.rt s.toSimulationManagementFamilyPdu o.toSimulationManagementFamilyPdu) <|
    RT.bind (rt_unsigned_int o.requestID) <|
    RT.bind (rt_unsigned_int o.timeInterval) <|
    RT.last (DataQueryDatumSpecification.rt s._dataQuery o._dataQuery)

theorem DataQueryPdu.loc (s : DataQueryPdu) : Local (DataQueryPdu.parse s) := by
  unfold DataQueryPdu.parse
  exact Local.bind (SimulationManagementFamilyPdu.loc _) fun _ =>
    Local.bind (loc_unsigned_int) fun _ =>
    Local.bind (loc_unsigned_int) fun _ =>
    Local.bind (DataQueryDatumSpecification.loc _) fun _ =>
    Local.pure _

theorem DataQueryPdu.only (s : DataQueryPdu) : OnlyStruct (DataQueryPdu.parse s) := by
  unfold DataQueryPdu.parse
  exact OnlyStruct.bind (SimulationManagementFamilyPdu.only _) fun _ =>
    OnlyStruct.bind (only_unsigned_int) fun _ =>
    OnlyStruct.bind (only_unsigned_int) fun _ =>
    OnlyStruct.bind (DataQueryDatumSpecification.only _) fun _ =>
    OnlyStruct.pure _

theorem DataQueryPdu.sized (o : DataQueryPdu) : Sized (DataQueryPdu.serialize o) (DataQueryPdu.wireSize o) := by
  unfold DataQueryPdu.serialize
  refine Sized.of_eq (Sized.bind (SimulationManagementFamilyPdu.sized o.toSimulationManagementFamilyPdu) <|
    Sized.bind (sized_unsigned_int o.requestID) <|
    Sized.bind (sized_unsigned_int o.timeInterval) <|
    DataQueryDatumSpecification.sized o._dataQuery) ?_
  simp only [DataQueryPdu.wireSize, SimulationManagementFamilyPdu.wireSize, Pdu.wireSize, PduSuperclass.wireSize, EntityIdentifier.wireSize, SimulationAddress.wireSize, DataQueryDatumSpecification.wireSize]; try omega

theorem DataQueryPdu.ok_iff (o : DataQueryPdu) : (DataQueryPdu.serialize o).Ok ↔ DataQueryPdu.WireOk o := by
  unfold DataQueryPdu.serialize DataQueryPdu.WireOk
  exact ok_bind_iff (SimulationManagementFamilyPdu.ok_iff o.toSimulationManagementFamilyPdu) <|
    ok_bind_iff (ok_unsigned_int) <|
    ok_bind_iff (ok_unsigned_int) <|
    DataQueryDatumSpecification.ok_iff o._dataQuery

theorem DataQueryPdu.after_canon {o : DataQueryPdu} (h : DataQueryPdu.Canon o) : DataQueryPdu.after DataQueryPdu.init o = o := by
  cases o
  exact (DataQueryPdu.mk.injEq ..).mpr ⟨SimulationManagementFamilyPdu.after_canon trivial,
    rfl,
    rfl,
    DataQueryDatumSpecification.after_canon trivial⟩

theorem DataQueryPdu.post : Post (DataQueryPdu.parse DataQueryPdu.init) (fun b o => (DataQueryPdu.WireOk o ∧ DataQueryPdu.Canon o) ∧ (DataQueryPdu.NoNaN o → (DataQueryPdu.serialize o).Emits b)) := by
  unfold DataQueryPdu.parse
  refine Post.bind (SimulationManagementFamilyPdu.post _) fun a0 b0 h0 => ?_
  refine Post.bind (post_unsigned_int) fun a1 b1 h1 => ?_
  refine Post.bind (post_unsigned_int) fun a2 b2 h2 => ?_
  refine Post.last (DataQueryDatumSpecification.post) fun a3 b3 h3 => ?_
  refine ⟨⟨⟨h0.1.1, h1.1, h2.1, h3.1.1⟩,
    trivial⟩, fun _ => ?_⟩
  exact W.Emits.bind (h0.2 trivial) <|
      W.Emits.bind (h1.2) <|
      W.Emits.bind (h2.2) <|
      h3.2 trivial

end Dis
