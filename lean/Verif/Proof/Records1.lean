import Verif.Spec.Records1
import Verif.Proof.Common

/-!
# Proofs for: Records of `opendis/dis7.py`, part 1

Generated by `tools/genproof.py`.
-/

set_option linter.unusedVariables false
set_option linter.unusedSimpArgs false

namespace Dis

theorem DataQueryDatumSpecification.rt (s o : DataQueryDatumSpecification) : RT (DataQueryDatumSpecification.serialize o) (DataQueryDatumSpecification.parse s) (DataQueryDatumSpecification.after s o) := by
  unfold DataQueryDatumSpecification.serialize DataQueryDatumSpecification.parse
  exact RT.bind (rt_unsigned_int ((o.fixedDatumIDs.length : Int))) <|
    RT.bind (rt_unsigned_int ((o.variableDatumIDs.length : Int))) <|
    RT.bind (rt_list_id rt_unsigned_int) <|
    RT.last (rt_list_id rt_unsigned_int)

theorem DataQueryDatumSpecification.loc (s : DataQueryDatumSpecification) : Local (DataQueryDatumSpecification.parse s) := by
  unfold DataQueryDatumSpecification.parse
  exact Local.bind (loc_unsigned_int) fun _ =>
    Local.bind (loc_unsigned_int) fun _ =>
    Local.bind (Local.times loc_unsigned_int _) fun _ =>
    Local.bind (Local.times loc_unsigned_int _) fun _ =>
    Local.pure _

theorem DataQueryDatumSpecification.only (s : DataQueryDatumSpecification) : OnlyStruct (DataQueryDatumSpecification.parse s) := by
  unfold DataQueryDatumSpecification.parse
  exact OnlyStruct.bind (only_unsigned_int) fun _ =>
    OnlyStruct.bind (only_unsigned_int) fun _ =>
    OnlyStruct.bind (OnlyStruct.times only_unsigned_int _) fun _ =>
    OnlyStruct.bind (OnlyStruct.times only_unsigned_int _) fun _ =>
    OnlyStruct.pure _

theorem DataQueryDatumSpecification.sized (o : DataQueryDatumSpecification) : Sized (DataQueryDatumSpecification.serialize o) (DataQueryDatumSpecification.wireSize o) := by
  unfold DataQueryDatumSpecification.serialize
  refine Sized.of_eq (Sized.bind (sized_unsigned_int _) <|
    Sized.bind (sized_unsigned_int _) <|
    Sized.bind (Sized.forEach_const sized_unsigned_int) <|
    Sized.forEach_const sized_unsigned_int) ?_
  simp only [DataQueryDatumSpecification.wireSize]; try omega

theorem DataQueryDatumSpecification.ok_iff (o : DataQueryDatumSpecification) : (DataQueryDatumSpecification.serialize o).Ok ↔ DataQueryDatumSpecification.WireOk o := by
  unfold DataQueryDatumSpecification.serialize DataQueryDatumSpecification.WireOk
  exact ok_bind_iff (ok_unsigned_int) <|
    ok_bind_iff (ok_unsigned_int) <|
    ok_bind_iff (ok_list fun _ => ok_unsigned_int) <|
    ok_list fun _ => ok_unsigned_int

theorem DataQueryDatumSpecification.after_canon {o : DataQueryDatumSpecification} (h : DataQueryDatumSpecification.Canon o) : DataQueryDatumSpecification.after DataQueryDatumSpecification.init o = o := by
  cases o
  exact (DataQueryDatumSpecification.mk.injEq ..).mpr ⟨rfl,
    rfl⟩

theorem DataQueryDatumSpecification.post : Post (DataQueryDatumSpecification.parse DataQueryDatumSpecification.init) (fun b o => (DataQueryDatumSpecification.WireOk o ∧ DataQueryDatumSpecification.Canon o) ∧ (DataQueryDatumSpecification.NoNaN o → (DataQueryDatumSpecification.serialize o).Emits b)) := by
  unfold DataQueryDatumSpecification.parse
  refine Post.bind (post_unsigned_int) fun a0 b0 h0 => ?_
  refine Post.bind (post_unsigned_int) fun a1 b1 h1 => ?_
  refine Post.bind (Post.times_all post_unsigned_int _) fun a2 b2 h2 => ?_
  refine Post.last (Post.times_all post_unsigned_int _) fun a3 b3 h3 => ?_
  obtain rfl : a0 = (a2.length : Int) := count_eq h0.1.1 h2.1
  obtain rfl : a1 = (a3.length : Int) := count_eq h1.1.1 h3.1
  refine ⟨⟨⟨h0.1, h1.1, h2.2.1, h3.2.1⟩,
    trivial⟩, fun _ => ?_⟩
  exact W.Emits.bind (h0.2) <|
      W.Emits.bind (h1.2) <|
      W.Emits.bind (h2.2.2) <|
      h3.2.2

theorem RadioIdentifier.rt (s o : RadioIdentifier) : RT (RadioIdentifier.serialize o) (RadioIdentifier.parse s) (RadioIdentifier.after s o) := by
  unfold RadioIdentifier.serialize RadioIdentifier.parse
  exact RT.bind (rt_unsigned_short o.siteNumber) <|
    RT.bind (rt_unsigned_short o.applicationNumber) <|
    RT.bind (rt_unsigned_short o.referenceNumber) <|
    RT.last (rt_unsigned_short o.radioNumber)

theorem RadioIdentifier.loc (s : RadioIdentifier) : Local (RadioIdentifier.parse s) := by
  unfold RadioIdentifier.parse
  exact Local.bind (loc_unsigned_short) fun _ =>
    Local.bind (loc_unsigned_short) fun _ =>
    Local.bind (loc_unsigned_short) fun _ =>
    Local.bind (loc_unsigned_short) fun _ =>
    Local.pure _

theorem RadioIdentifier.only (s : RadioIdentifier) : OnlyStruct (RadioIdentifier.parse s) := by
  unfold RadioIdentifier.parse
  exact OnlyStruct.bind (only_unsigned_short) fun _ =>
    OnlyStruct.bind (only_unsigned_short) fun _ =>
    OnlyStruct.bind (only_unsigned_short) fun _ =>
    OnlyStruct.bind (only_unsigned_short) fun _ =>
    OnlyStruct.pure _

theorem RadioIdentifier.sized (o : RadioIdentifier) : Sized (RadioIdentifier.serialize o) (RadioIdentifier.wireSize o) := by
  unfold RadioIdentifier.serialize
  refine Sized.of_eq (Sized.bind (sized_unsigned_short o.siteNumber) <|
    Sized.bind (sized_unsigned_short o.applicationNumber) <|
    Sized.bind (sized_unsigned_short o.referenceNumber) <|
    sized_unsigned_short o.radioNumber) ?_
  simp only [RadioIdentifier.wireSize]; try omega

theorem RadioIdentifier.ok_iff (o : RadioIdentifier) : (RadioIdentifier.serialize o).Ok ↔ RadioIdentifier.WireOk o := by
  unfold RadioIdentifier.serialize RadioIdentifier.WireOk
  exact ok_bind_iff (ok_unsigned_short) <|
    ok_bind_iff (ok_unsigned_short) <|
    ok_bind_iff (ok_unsigned_short) <|
    ok_unsigned_short

theorem RadioIdentifier.after_canon {o : RadioIdentifier} (h : RadioIdentifier.Canon o) : RadioIdentifier.after RadioIdentifier.init o = o := by
  cases o
  exact (RadioIdentifier.mk.injEq ..).mpr ⟨rfl,
    rfl,
    rfl,
    rfl⟩

theorem RadioIdentifier.post : Post (RadioIdentifier.parse RadioIdentifier.init) (fun b o => (RadioIdentifier.WireOk o ∧ RadioIdentifier.Canon o) ∧ (RadioIdentifier.NoNaN o → (RadioIdentifier.serialize o).Emits b)) := by
  unfold RadioIdentifier.parse
  refine Post.bind (post_unsigned_short) fun a0 b0 h0 => ?_
  refine Post.bind (post_unsigned_short) fun a1 b1 h1 => ?_
  refine Post.bind (post_unsigned_short) fun a2 b2 h2 => ?_
  refine Post.last (post_unsigned_short) fun a3 b3 h3 => ?_
  refine ⟨⟨⟨h0.1, h1.1, h2.1, h3.1⟩,
    trivial⟩, fun _ => ?_⟩
  exact W.Emits.bind (h0.2) <|
      W.Emits.bind (h1.2) <|
      W.Emits.bind (h2.2) <|
      h3.2

theorem RequestID.rt (s o : RequestID) : RT (RequestID.serialize o) (RequestID.parse s) (RequestID.after s o) := by
  unfold RequestID.serialize RequestID.parse
  exact RT.last (rt_unsigned_int o.requestID)

theorem RequestID.loc (s : RequestID) : Local (RequestID.parse s) := by
  unfold RequestID.parse
  exact Local.bind (loc_unsigned_int) fun _ =>
    Local.pure _

theorem RequestID.only (s : RequestID) : OnlyStruct (RequestID.parse s) := by
  unfold RequestID.parse
  exact OnlyStruct.bind (only_unsigned_int) fun _ =>
    OnlyStruct.pure _

theorem RequestID.sized (o : RequestID) : Sized (RequestID.serialize o) (RequestID.wireSize o) := by
  unfold RequestID.serialize
  exact (sized_unsigned_int o.requestID).of_eq (by simp only [RequestID.wireSize]; try omega)

theorem RequestID.ok_iff (o : RequestID) : (RequestID.serialize o).Ok ↔ RequestID.WireOk o := by
  unfold RequestID.serialize RequestID.WireOk
  exact ok_unsigned_int

theorem RequestID.after_canon {o : RequestID} (h : RequestID.Canon o) : RequestID.after RequestID.init o = o := by
  cases o; exact (RequestID.mk.injEq ..).mpr (rfl)

theorem RequestID.post : Post (RequestID.parse RequestID.init) (fun b o => (RequestID.WireOk o ∧ RequestID.Canon o) ∧ (RequestID.NoNaN o → (RequestID.serialize o).Emits b)) := by
  unfold RequestID.parse
  refine Post.last (post_unsigned_int) fun a0 b0 h0 => ?_
  refine ⟨⟨h0.1,
    trivial⟩, fun _ => ?_⟩
  exact h0.2

theorem IFFData.rt (s o : IFFData) (hd : IFFData.Decodable o) :
    RT (IFFData.serialize o) (IFFData.parse s) (IFFData.after s o) := by
  obtain ⟨t, l, d⟩ := o
  cases (show d = [] from hd)
  unfold IFFData.serialize IFFData.parse
  exact RT.bind (rt_unsigned_int t) <| RT.bind (rt_unsigned_short 0) <| RT.last (RT.pure _ _)

theorem IFFData.loc (s : IFFData) : Local (IFFData.parse s) := by
  unfold IFFData.parse
  exact Local.bind loc_unsigned_int fun _ => Local.bind loc_unsigned_short fun _ =>
    Local.bind (Local.times loc_unsigned_byte _) fun _ => Local.pure _

theorem IFFData.only (s : IFFData) : OnlyStruct (IFFData.parse s) := by
  unfold IFFData.parse
  exact OnlyStruct.bind only_unsigned_int fun _ => OnlyStruct.bind only_unsigned_short fun _ =>
    OnlyStruct.bind (OnlyStruct.times only_unsigned_byte _) fun _ => OnlyStruct.pure _

theorem IFFData.sized (o : IFFData) : Sized (IFFData.serialize o) (IFFData.wireSize o) := by
  unfold IFFData.serialize
  refine Sized.of_eq (Sized.bind (sized_unsigned_int _) <| Sized.bind (sized_unsigned_short _) <|
    Sized.forEach_const sized_unsigned_byte) ?_
  simp only [IFFData.wireSize]; omega

theorem IFFData.ok_iff (o : IFFData) : (IFFData.serialize o).Ok ↔ IFFData.WireOk o := by
  unfold IFFData.serialize IFFData.WireOk
  exact ok_bind_iff ok_unsigned_int <| ok_bind_iff ok_unsigned_short <|
    ok_list fun _ => ok_unsigned_byte

theorem IFFData.after_canon {o : IFFData} (h : IFFData.Canon o) :
    IFFData.after IFFData.init o = o := by
  cases o
  exact (IFFData.mk.injEq ..).mpr ⟨rfl, h.1.symm, h.2.symm⟩

theorem IFFData.post : Post (IFFData.parse IFFData.init) (fun b o => IFFData.Live o →
    (IFFData.WireOk o ∧ IFFData.Canon o) ∧ (IFFData.NoNaN o → (IFFData.serialize o).Emits b)) := by
  unfold IFFData.parse
  refine Post.bind post_unsigned_int fun a0 b0 h0 => ?_
  refine Post.bind post_unsigned_short fun a1 b1 h1 => ?_
  refine Post.last (Post.times_all post_unsigned_byte _) fun a2 b2 h2 => ?_
  intro hl
  obtain rfl : a1 = 0 := hl
  obtain rfl : a2 = [] := List.eq_nil_of_length_eq_zero h2.1
  exact ⟨⟨⟨h0.1, h1.1, fun _ hx => nomatch hx⟩, rfl, rfl⟩,
    fun _ => W.Emits.bind h0.2 <| W.Emits.bind h1.2 h2.2.2⟩

theorem EntityType.rt (s o : EntityType) : RT (EntityType.serialize o) (EntityType.parse s) (EntityType.after s o) := by
  unfold EntityType.serialize EntityType.parse
  exact RT.bind (rt_unsigned_byte o.entityKind) <|
    RT.bind (rt_unsigned_byte o.domain) <|
    RT.bind (rt_unsigned_short o.country) <|
    RT.bind (rt_unsigned_byte o.category) <|
    RT.bind (rt_unsigned_byte o.subcategory) <|
    RT.bind (rt_unsigned_byte o.specific) <|
    RT.last (rt_unsigned_byte o.extra)

theorem EntityType.loc (s : EntityType) : Local (EntityType.parse s) := by
  unfold EntityType.parse
  exact Local.bind (loc_unsigned_byte) fun _ =>
    Local.bind (loc_unsigned_byte) fun _ =>
    Local.bind (loc_unsigned_short) fun _ =>
    Local.bind (loc_unsigned_byte) fun _ =>
    Local.bind (loc_unsigned_byte) fun _ =>
    Local.bind (loc_unsigned_byte) fun _ =>
    Local.bind (loc_unsigned_byte) fun _ =>
    Local.pure _

theorem EntityType.only (s : EntityType) : OnlyStruct (EntityType.parse s) := by
  unfold EntityType.parse
  exact OnlyStruct.bind (only_unsigned_byte) fun _ =>
    OnlyStruct.bind (only_unsigned_byte) fun _ =>
    OnlyStruct.bind (only_unsigned_short) fun _ =>
    OnlyStruct.bind (only_unsigned_byte) fun _ =>
    OnlyStruct.bind (only_unsigned_byte) fun _ =>
    OnlyStruct.bind (only_unsigned_byte) fun _ =>
    OnlyStruct.bind (only_unsigned_byte) fun _ =>
    OnlyStruct.pure _

theorem EntityType.sized (o : EntityType) : Sized (EntityType.serialize o) (EntityType.wireSize o) := by
  unfold EntityType.serialize
  refine Sized.of_eq (Sized.bind (sized_unsigned_byte o.entityKind) <|
    Sized.bind (sized_unsigned_byte o.domain) <|
    Sized.bind (sized_unsigned_short o.country) <|
    Sized.bind (sized_unsigned_byte o.category) <|
    Sized.bind (sized_unsigned_byte o.subcategory) <|
    Sized.bind (sized_unsigned_byte o.specific) <|
    sized_unsigned_byte o.extra) ?_
  simp only [EntityType.wireSize]; try omega

theorem EntityType.ok_iff (o : EntityType) : (EntityType.serialize o).Ok ↔ EntityType.WireOk o := by
  unfold EntityType.serialize EntityType.WireOk
  exact ok_bind_iff (ok_unsigned_byte) <|
    ok_bind_iff (ok_unsigned_byte) <|
    ok_bind_iff (ok_unsigned_short) <|
    ok_bind_iff (ok_unsigned_byte) <|
    ok_bind_iff (ok_unsigned_byte) <|
    ok_bind_iff (ok_unsigned_byte) <|
    ok_unsigned_byte

theorem EntityType.after_canon {o : EntityType} (h : EntityType.Canon o) : EntityType.after EntityType.init o = o := by
  cases o
  exact (EntityType.mk.injEq ..).mpr ⟨rfl,
    rfl,
    rfl,
    rfl,
    rfl,
    rfl,
    rfl⟩

theorem EntityType.post : Post (EntityType.parse EntityType.init) (fun b o => (EntityType.WireOk o ∧ EntityType.Canon o) ∧ (EntityType.NoNaN o → (EntityType.serialize o).Emits b)) := by
  unfold EntityType.parse
  refine Post.bind (post_unsigned_byte) fun a0 b0 h0 => ?_
  refine Post.bind (post_unsigned_byte) fun a1 b1 h1 => ?_
  refine Post.bind (post_unsigned_short) fun a2 b2 h2 => ?_
  refine Post.bind (post_unsigned_byte) fun a3 b3 h3 => ?_
  refine Post.bind (post_unsigned_byte) fun a4 b4 h4 => ?_
  refine Post.bind (post_unsigned_byte) fun a5 b5 h5 => ?_
  refine Post.last (post_unsigned_byte) fun a6 b6 h6 => ?_
  refine ⟨⟨⟨h0.1, h1.1, h2.1, h3.1, h4.1, h5.1, h6.1⟩,
    trivial⟩, fun _ => ?_⟩
  exact W.Emits.bind (h0.2) <|
      W.Emits.bind (h1.2) <|
      W.Emits.bind (h2.2) <|
      W.Emits.bind (h3.2) <|
      W.Emits.bind (h4.2) <|
      W.Emits.bind (h5.2) <|
      h6.2

theorem MunitionDescriptor.rt (s o : MunitionDescriptor) : RT (MunitionDescriptor.serialize o) (MunitionDescriptor.parse s) (MunitionDescriptor.after s o) := by
  unfold MunitionDescriptor.serialize MunitionDescriptor.parse
  exact RT.bind (EntityType.rt s.munitionType o.munitionType) <|
    RT.bind (rt_unsigned_short o.warhead) <|
    RT.bind (rt_unsigned_short o.fuse) <|
    RT.bind (rt_unsigned_short o.quantity) <|
    RT.last (rt_unsigned_short o.rate)

theorem MunitionDescriptor.loc (s : MunitionDescriptor) : Local (MunitionDescriptor.parse s) := by
  unfold MunitionDescriptor.parse
  exact Local.bind (EntityType.loc _) fun _ =>
    Local.bind (loc_unsigned_short) fun _ =>
    Local.bind (loc_unsigned_short) fun _ =>
    Local.bind (loc_unsigned_short) fun _ =>
    Local.bind (loc_unsigned_short) fun _ =>
    Local.pure _

theorem MunitionDescriptor.only (s : MunitionDescriptor) : OnlyStruct (MunitionDescriptor.parse s) := by
  unfold MunitionDescriptor.parse
  exact OnlyStruct.bind (EntityType.only _) fun _ =>
    OnlyStruct.bind (only_unsigned_short) fun _ =>
    OnlyStruct.bind (only_unsigned_short) fun _ =>
    OnlyStruct.bind (only_unsigned_short) fun _ =>
    OnlyStruct.bind (only_unsigned_short) fun _ =>
    OnlyStruct.pure _

theorem MunitionDescriptor.sized (o : MunitionDescriptor) : Sized (MunitionDescriptor.serialize o) (MunitionDescriptor.wireSize o) := by
  unfold MunitionDescriptor.serialize
  refine Sized.of_eq (Sized.bind (EntityType.sized o.munitionType) <|
    Sized.bind (sized_unsigned_short o.warhead) <|
    Sized.bind (sized_unsigned_short o.fuse) <|
    Sized.bind (sized_unsigned_short o.quantity) <|
    sized_unsigned_short o.rate) ?_
  simp only [MunitionDescriptor.wireSize, EntityType.wireSize]; try omega

theorem MunitionDescriptor.ok_iff (o : MunitionDescriptor) : (MunitionDescriptor.serialize o).Ok ↔ MunitionDescriptor.WireOk o := by
  unfold MunitionDescriptor.serialize MunitionDescriptor.WireOk
  exact ok_bind_iff (EntityType.ok_iff o.munitionType) <|
    ok_bind_iff (ok_unsigned_short) <|
    ok_bind_iff (ok_unsigned_short) <|
    ok_bind_iff (ok_unsigned_short) <|
    ok_unsigned_short

theorem MunitionDescriptor.after_canon {o : MunitionDescriptor} (h : MunitionDescriptor.Canon o) : MunitionDescriptor.after MunitionDescriptor.init o = o := by
  cases o
  exact (MunitionDescriptor.mk.injEq ..).mpr ⟨EntityType.after_canon trivial,
    rfl,
    rfl,
    rfl,
    rfl⟩

theorem MunitionDescriptor.post : Post (MunitionDescriptor.parse MunitionDescriptor.init) (fun b o => (MunitionDescriptor.WireOk o ∧ MunitionDescriptor.Canon o) ∧ (MunitionDescriptor.NoNaN o → (MunitionDescriptor.serialize o).Emits b)) := by
  unfold MunitionDescriptor.parse
  refine Post.bind (EntityType.post) fun a0 b0 h0 => ?_
  refine Post.bind (post_unsigned_short) fun a1 b1 h1 => ?_
  refine Post.bind (post_unsigned_short) fun a2 b2 h2 => ?_
  refine Post.bind (post_unsigned_short) fun a3 b3 h3 => ?_
  refine Post.last (post_unsigned_short) fun a4 b4 h4 => ?_
  refine ⟨⟨⟨h0.1.1, h1.1, h2.1, h3.1, h4.1⟩,
    trivial⟩, fun _ => ?_⟩
  exact W.Emits.bind (h0.2 trivial) <|
      W.Emits.bind (h1.2) <|
      W.Emits.bind (h2.2) <|
      W.Emits.bind (h3.2) <|
      h4.2

theorem MinefieldSensorType.rt (s o : MinefieldSensorType) : RT (MinefieldSensorType.serialize o) (MinefieldSensorType.parse s) (MinefieldSensorType.after s o) := by
  unfold MinefieldSensorType.serialize MinefieldSensorType.parse
  exact RT.last (rt_unsigned_short o.sensorType)

theorem MinefieldSensorType.loc (s : MinefieldSensorType) : Local (MinefieldSensorType.parse s) := by
  unfold MinefieldSensorType.parse
  exact Local.bind (loc_unsigned_short) fun _ =>
    Local.pure _

theorem MinefieldSensorType.only (s : MinefieldSensorType) : OnlyStruct (MinefieldSensorType.parse s) := by
  unfold MinefieldSensorType.parse
  exact OnlyStruct.bind (only_unsigned_short) fun _ =>
    OnlyStruct.pure _

theorem MinefieldSensorType.sized (o : MinefieldSensorType) : Sized (MinefieldSensorType.serialize o) (MinefieldSensorType.wireSize o) := by
  unfold MinefieldSensorType.serialize
  exact (sized_unsigned_short o.sensorType).of_eq (by simp only [MinefieldSensorType.wireSize]; try omega)

theorem MinefieldSensorType.ok_iff (o : MinefieldSensorType) : (MinefieldSensorType.serialize o).Ok ↔ MinefieldSensorType.WireOk o := by
  unfold MinefieldSensorType.serialize MinefieldSensorType.WireOk
  exact ok_unsigned_short

theorem MinefieldSensorType.after_canon {o : MinefieldSensorType} (h : MinefieldSensorType.Canon o) : MinefieldSensorType.after MinefieldSensorType.init o = o := by
  cases o; exact (MinefieldSensorType.mk.injEq ..).mpr (rfl)

theorem MinefieldSensorType.post : Post (MinefieldSensorType.parse MinefieldSensorType.init) (fun b o => (MinefieldSensorType.WireOk o ∧ MinefieldSensorType.Canon o) ∧ (MinefieldSensorType.NoNaN o → (MinefieldSensorType.serialize o).Emits b)) := by
  unfold MinefieldSensorType.parse
  refine Post.last (post_unsigned_short) fun a0 b0 h0 => ?_
  refine ⟨⟨h0.1,
    trivial⟩, fun _ => ?_⟩
  exact h0.2

theorem GroupID.rt (s o : GroupID) : RT (GroupID.serialize o) (GroupID.parse s) (GroupID.after s o) := by
  unfold GroupID.serialize GroupID.parse
  exact RT.bind (SimulationAddress.rt s.simulationAddress o.simulationAddress) <|
    RT.last (rt_unsigned_short o.groupNumber)

theorem GroupID.loc (s : GroupID) : Local (GroupID.parse s) := by
  unfold GroupID.parse
  exact Local.bind (SimulationAddress.loc _) fun _ =>
    Local.bind (loc_unsigned_short) fun _ =>
    Local.pure _

theorem GroupID.only (s : GroupID) : OnlyStruct (GroupID.parse s) := by
  unfold GroupID.parse
  exact OnlyStruct.bind (SimulationAddress.only _) fun _ =>
    OnlyStruct.bind (only_unsigned_short) fun _ =>
    OnlyStruct.pure _

theorem GroupID.sized (o : GroupID) : Sized (GroupID.serialize o) (GroupID.wireSize o) := by
  unfold GroupID.serialize
  refine Sized.of_eq (Sized.bind (SimulationAddress.sized o.simulationAddress) <|
    sized_unsigned_short o.groupNumber) ?_
  simp only [GroupID.wireSize, SimulationAddress.wireSize]; try omega

theorem GroupID.ok_iff (o : GroupID) : (GroupID.serialize o).Ok ↔ GroupID.WireOk o := by
  unfold GroupID.serialize GroupID.WireOk
  exact ok_bind_iff (SimulationAddress.ok_iff o.simulationAddress) <|
    ok_unsigned_short

theorem GroupID.after_canon {o : GroupID} (h : GroupID.Canon o) : GroupID.after GroupID.init o = o := by
  cases o
  exact (GroupID.mk.injEq ..).mpr ⟨SimulationAddress.after_canon trivial,
    rfl⟩

theorem GroupID.post : Post (GroupID.parse GroupID.init) (fun b o => (GroupID.WireOk o ∧ GroupID.Canon o) ∧ (GroupID.NoNaN o → (GroupID.serialize o).Emits b)) := by
  unfold GroupID.parse
  refine Post.bind (SimulationAddress.post) fun a0 b0 h0 => ?_
  refine Post.last (post_unsigned_short) fun a1 b1 h1 => ?_
  refine ⟨⟨⟨h0.1.1, h1.1⟩,
    trivial⟩, fun _ => ?_⟩
  exact W.Emits.bind (h0.2 trivial) <|
      h1.2

theorem LayerHeader.rt (s o : LayerHeader) : RT (LayerHeader.serialize o) (LayerHeader.parse s) (LayerHeader.after s o) := by
  unfold LayerHeader.serialize LayerHeader.parse
  exact RT.bind (rt_unsigned_byte o.layerNumber) <|
    RT.bind (rt_unsigned_byte o.layerSpecificInformation) <|
    RT.last (rt_unsigned_short o.length)

theorem LayerHeader.loc (s : LayerHeader) : Local (LayerHeader.parse s) := by
  unfold LayerHeader.parse
  exact Local.bind (loc_unsigned_byte) fun _ =>
    Local.bind (loc_unsigned_byte) fun _ =>
    Local.bind (loc_unsigned_short) fun _ =>
    Local.pure _

theorem LayerHeader.only (s : LayerHeader) : OnlyStruct (LayerHeader.parse s) := by
  unfold LayerHeader.parse
  exact OnlyStruct.bind (only_unsigned_byte) fun _ =>
    OnlyStruct.bind (only_unsigned_byte) fun _ =>
    OnlyStruct.bind (only_unsigned_short) fun _ =>
    OnlyStruct.pure _

theorem LayerHeader.sized (o : LayerHeader) : Sized (LayerHeader.serialize o) (LayerHeader.wireSize o) := by
  unfold LayerHeader.serialize
  refine Sized.of_eq (Sized.bind (sized_unsigned_byte o.layerNumber) <|
    Sized.bind (sized_unsigned_byte o.layerSpecificInformation) <|
    sized_unsigned_short o.length) ?_
  simp only [LayerHeader.wireSize]; try omega

theorem LayerHeader.ok_iff (o : LayerHeader) : (LayerHeader.serialize o).Ok ↔ LayerHeader.WireOk o := by
  unfold LayerHeader.serialize LayerHeader.WireOk
  exact ok_bind_iff (ok_unsigned_byte) <|
    ok_bind_iff (ok_unsigned_byte) <|
    ok_unsigned_short

theorem LayerHeader.after_canon {o : LayerHeader} (h : LayerHeader.Canon o) : LayerHeader.after LayerHeader.init o = o := by
  cases o
  exact (LayerHeader.mk.injEq ..).mpr ⟨rfl,
    rfl,
    rfl⟩

theorem LayerHeader.post : Post (LayerHeader.parse LayerHeader.init) (fun b o => (LayerHeader.WireOk o ∧ LayerHeader.Canon o) ∧ (LayerHeader.NoNaN o → (LayerHeader.serialize o).Emits b)) := by
  unfold LayerHeader.parse
  refine Post.bind (post_unsigned_byte) fun a0 b0 h0 => ?_
  refine Post.bind (post_unsigned_byte) fun a1 b1 h1 => ?_
  refine Post.last (post_unsigned_short) fun a2 b2 h2 => ?_
  refine ⟨⟨⟨h0.1, h1.1, h2.1⟩,
    trivial⟩, fun _ => ?_⟩
  exact W.Emits.bind (h0.2) <|
      W.Emits.bind (h1.2) <|
      h2.2

theorem UnsignedDISInteger.rt (s o : UnsignedDISInteger) : RT (UnsignedDISInteger.serialize o) (UnsignedDISInteger.parse s) (UnsignedDISInteger.after s o) := by
  unfold UnsignedDISInteger.serialize UnsignedDISInteger.parse
  exact RT.last (rt_unsigned_int o.val)

theorem UnsignedDISInteger.loc (s : UnsignedDISInteger) : Local (UnsignedDISInteger.parse s) := by
  unfold UnsignedDISInteger.parse
  exact Local.bind (loc_unsigned_int) fun _ =>
    Local.pure _

theorem UnsignedDISInteger.only (s : UnsignedDISInteger) : OnlyStruct (UnsignedDISInteger.parse s) := by
  unfold UnsignedDISInteger.parse
  exact OnlyStruct.bind (only_unsigned_int) fun _ =>
    OnlyStruct.pure _

theorem UnsignedDISInteger.sized (o : UnsignedDISInteger) : Sized (UnsignedDISInteger.serialize o) (UnsignedDISInteger.wireSize o) := by
  unfold UnsignedDISInteger.serialize
  exact (sized_unsigned_int o.val).of_eq (by simp only [UnsignedDISInteger.wireSize]; try omega)

theorem UnsignedDISInteger.ok_iff (o : UnsignedDISInteger) : (UnsignedDISInteger.serialize o).Ok ↔ UnsignedDISInteger.WireOk o := by
  unfold UnsignedDISInteger.serialize UnsignedDISInteger.WireOk
  exact ok_unsigned_int

theorem UnsignedDISInteger.after_canon {o : UnsignedDISInteger} (h : UnsignedDISInteger.Canon o) : UnsignedDISInteger.after UnsignedDISInteger.init o = o := by
  cases o; exact (UnsignedDISInteger.mk.injEq ..).mpr (rfl)

theorem UnsignedDISInteger.post : Post (UnsignedDISInteger.parse UnsignedDISInteger.init) (fun b o => (UnsignedDISInteger.WireOk o ∧ UnsignedDISInteger.Canon o) ∧ (UnsignedDISInteger.NoNaN o → (UnsignedDISInteger.serialize o).Emits b)) := by
  unfold UnsignedDISInteger.parse
  refine Post.last (post_unsigned_int) fun a0 b0 h0 => ?_
  refine ⟨⟨h0.1,
    trivial⟩, fun _ => ?_⟩
  exact h0.2

theorem DeadReckoningParameters.rt (s o : DeadReckoningParameters) : RT (DeadReckoningParameters.serialize o) (DeadReckoningParameters.parse s) (DeadReckoningParameters.after s o) := by
  unfold DeadReckoningParameters.serialize DeadReckoningParameters.parse
  exact RT.bind (rt_unsigned_byte o.deadReckoningAlgorithm) <|
    RT.bind (rt_array rt_unsigned_byte o.parameters 15) <|
    RT.bind (Vector3Float.rt s.entityLinearAcceleration o.entityLinearAcceleration) <|
    RT.last (Vector3Float.rt s.entityAngularVelocity o.entityAngularVelocity)

theorem DeadReckoningParameters.loc (s : DeadReckoningParameters) : Local (DeadReckoningParameters.parse s) := by
  unfold DeadReckoningParameters.parse
  exact Local.bind (loc_unsigned_byte) fun _ =>
    Local.bind (Local.times loc_unsigned_byte _) fun _ =>
    Local.bind (Vector3Float.loc _) fun _ =>
    Local.bind (Vector3Float.loc _) fun _ =>
    Local.pure _

theorem DeadReckoningParameters.only (s : DeadReckoningParameters) : OnlyStruct (DeadReckoningParameters.parse s) := by
  unfold DeadReckoningParameters.parse
  exact OnlyStruct.bind (only_unsigned_byte) fun _ =>
    OnlyStruct.bind (OnlyStruct.times only_unsigned_byte _) fun _ =>
    OnlyStruct.bind (Vector3Float.only _) fun _ =>
    OnlyStruct.bind (Vector3Float.only _) fun _ =>
    OnlyStruct.pure _

theorem DeadReckoningParameters.sized (o : DeadReckoningParameters) : Sized (DeadReckoningParameters.serialize o) (DeadReckoningParameters.wireSize o) := by
  unfold DeadReckoningParameters.serialize
  refine Sized.of_eq (Sized.bind (sized_unsigned_byte o.deadReckoningAlgorithm) <|
    Sized.bind (sized_array sized_unsigned_byte _ _ _) <|
    Sized.bind (Vector3Float.sized o.entityLinearAcceleration) <|
    Vector3Float.sized o.entityAngularVelocity) ?_
  simp only [DeadReckoningParameters.wireSize, Vector3Float.wireSize]; try omega

theorem DeadReckoningParameters.ok_iff (o : DeadReckoningParameters) : (DeadReckoningParameters.serialize o).Ok ↔ DeadReckoningParameters.WireOk o := by
  unfold DeadReckoningParameters.serialize DeadReckoningParameters.WireOk
  exact ok_bind_iff (ok_unsigned_byte) <|
    ok_bind_iff (ok_array (fun _ => ok_unsigned_byte) _ 15 (by decide)) <|
    ok_bind_iff (Vector3Float.ok_iff o.entityLinearAcceleration) <|
    Vector3Float.ok_iff o.entityAngularVelocity

theorem DeadReckoningParameters.after_canon {o : DeadReckoningParameters} (h : DeadReckoningParameters.Canon o) : DeadReckoningParameters.after DeadReckoningParameters.init o = o := by
  obtain ⟨h_parameters, h_entityLinearAcceleration, h_entityAngularVelocity⟩ := h
  cases o
  exact (DeadReckoningParameters.mk.injEq ..).mpr ⟨rfl,
    List.take_of_length_le (Nat.le_of_eq h_parameters),
    Vector3Float.after_canon h_entityLinearAcceleration,
    Vector3Float.after_canon h_entityAngularVelocity⟩

theorem DeadReckoningParameters.post : Post (DeadReckoningParameters.parse DeadReckoningParameters.init) (fun b o => (DeadReckoningParameters.WireOk o ∧ DeadReckoningParameters.Canon o) ∧ (DeadReckoningParameters.NoNaN o → (DeadReckoningParameters.serialize o).Emits b)) := by
  unfold DeadReckoningParameters.parse
  refine Post.bind (post_unsigned_byte) fun a0 b0 h0 => ?_
  refine Post.bind (Post.times_all post_unsigned_byte _) fun a1 b1 h1 => ?_
  refine Post.bind (Vector3Float.post) fun a2 b2 h2 => ?_
  refine Post.last (Vector3Float.post) fun a3 b3 h3 => ?_
  refine ⟨⟨⟨h0.1, ⟨Nat.le_of_eq h1.1.symm, fun x hx => h1.2.1 x (List.mem_of_mem_take hx)⟩, h2.1.1, h3.1.1⟩,
    ⟨h1.1, h2.1.2, h3.1.2⟩⟩, fun hn => ?_⟩
  obtain ⟨n0, n1⟩ := hn
  exact W.Emits.bind (h0.2) <|
      W.Emits.bind (emits_array h1.1 h1.2.2) <|
      W.Emits.bind (h2.2 n0) <|
      h3.2 n1

theorem ProtocolMode.rt (s o : ProtocolMode) : RT (ProtocolMode.serialize o) (ProtocolMode.parse s) (ProtocolMode.after s o) := by
  unfold ProtocolMode.serialize ProtocolMode.parse
  exact RT.last (rt_unsigned_short o.protocolMode)

theorem ProtocolMode.loc (s : ProtocolMode) : Local (ProtocolMode.parse s) := by
  unfold ProtocolMode.parse
  exact Local.bind (loc_unsigned_short) fun _ =>
    Local.pure _

theorem ProtocolMode.only (s : ProtocolMode) : OnlyStruct (ProtocolMode.parse s) := by
  unfold ProtocolMode.parse
  exact OnlyStruct.bind (only_unsigned_short) fun _ =>
    OnlyStruct.pure _

theorem ProtocolMode.sized (o : ProtocolMode) : Sized (ProtocolMode.serialize o) (ProtocolMode.wireSize o) := by
  unfold ProtocolMode.serialize
  exact (sized_unsigned_short o.protocolMode).of_eq (by simp only [ProtocolMode.wireSize]; try omega)

theorem ProtocolMode.ok_iff (o : ProtocolMode) : (ProtocolMode.serialize o).Ok ↔ ProtocolMode.WireOk o := by
  unfold ProtocolMode.serialize ProtocolMode.WireOk
  exact ok_unsigned_short

theorem ProtocolMode.after_canon {o : ProtocolMode} (h : ProtocolMode.Canon o) : ProtocolMode.after ProtocolMode.init o = o := by
  cases o; exact (ProtocolMode.mk.injEq ..).mpr (rfl)

theorem ProtocolMode.post : Post (ProtocolMode.parse ProtocolMode.init) (fun b o => (ProtocolMode.WireOk o ∧ ProtocolMode.Canon o) ∧ (ProtocolMode.NoNaN o → (ProtocolMode.serialize o).Emits b)) := by
  unfold ProtocolMode.parse
  refine Post.last (post_unsigned_short) fun a0 b0 h0 => ?_
  refine ⟨⟨h0.1,
    trivial⟩, fun _ => ?_⟩
  exact h0.2

theorem AngleDeception.rt (s o : AngleDeception) : RT (AngleDeception.serialize o) (AngleDeception.parse s) (AngleDeception.after s o) := by
  unfold AngleDeception.serialize AngleDeception.parse
  exact RT.bind (rt_unsigned_int o.recordType) <|
    RT.bind (rt_unsigned_short o.recordLength) <|
    RT.bind (rt_unsigned_short o.padding) <|
    RT.bind (rt_unsigned_byte o.emitterNumber) <|
    RT.bind (rt_unsigned_byte o.beamNumber) <|
    RT.bind (rt_unsigned_byte o.stateIndicator) <|
    RT.bind (rt_unsigned_byte o.padding2) <|
    RT.bind (rt_float o.azimuthOffset) <|
    RT.bind (rt_float o.azimuthWidth) <|
    RT.bind (rt_float o.azimuthPullRate) <|
    RT.bind (rt_float o.azimuthPullAcceleration) <|
    RT.bind (rt_float o.elevationOffset) <|
    RT.bind (rt_float o.elevationWidth) <|
    RT.bind (rt_float o.elevationPullRate) <|
    RT.bind (rt_float o.elevationPullAcceleration) <|
    RT.last (rt_unsigned_int o.padding3)

theorem AngleDeception.loc (s : AngleDeception) : Local (AngleDeception.parse s) := by
  unfold AngleDeception.parse
  exact Local.bind (loc_unsigned_int) fun _ =>
    Local.bind (loc_unsigned_short) fun _ =>
    Local.bind (loc_unsigned_short) fun _ =>
    Local.bind (loc_unsigned_byte) fun _ =>
    Local.bind (loc_unsigned_byte) fun _ =>
    Local.bind (loc_unsigned_byte) fun _ =>
    Local.bind (loc_unsigned_byte) fun _ =>
    Local.bind (loc_float) fun _ =>
    Local.bind (loc_float) fun _ =>
    Local.bind (loc_float) fun _ =>
    Local.bind (loc_float) fun _ =>
    Local.bind (loc_float) fun _ =>
    Local.bind (loc_float) fun _ =>
    Local.bind (loc_float) fun _ =>
    Local.bind (loc_float) fun _ =>
    Local.bind (loc_unsigned_int) fun _ =>
    Local.pure _

theorem AngleDeception.only (s : AngleDeception) : OnlyStruct (AngleDeception.parse s) := by
  unfold AngleDeception.parse
  exact OnlyStruct.bind (only_unsigned_int) fun _ =>
    OnlyStruct.bind (only_unsigned_short) fun _ =>
    OnlyStruct.bind (only_unsigned_short) fun _ =>
    OnlyStruct.bind (only_unsigned_byte) fun _ =>
    OnlyStruct.bind (only_unsigned_byte) fun _ =>
    OnlyStruct.bind (only_unsigned_byte) fun _ =>
    OnlyStruct.bind (only_unsigned_byte) fun _ =>
    OnlyStruct.bind (only_float) fun _ =>
    OnlyStruct.bind (only_float) fun _ =>
    OnlyStruct.bind (only_float) fun _ =>
    OnlyStruct.bind (only_float) fun _ =>
    OnlyStruct.bind (only_float) fun _ =>
    OnlyStruct.bind (only_float) fun _ =>
    OnlyStruct.bind (only_float) fun _ =>
    OnlyStruct.bind (only_float) fun _ =>
    OnlyStruct.bind (only_unsigned_int) fun _ =>
    OnlyStruct.pure _

theorem AngleDeception.sized (o : AngleDeception) : Sized (AngleDeception.serialize o) (AngleDeception.wireSize o) := by
  unfold AngleDeception.serialize
  refine Sized.of_eq (Sized.bind (sized_unsigned_int o.recordType) <|
    Sized.bind (sized_unsigned_short o.recordLength) <|
    Sized.bind (sized_unsigned_short o.padding) <|
    Sized.bind (sized_unsigned_byte o.emitterNumber) <|
    Sized.bind (sized_unsigned_byte o.beamNumber) <|
    Sized.bind (sized_unsigned_byte o.stateIndicator) <|
    Sized.bind (sized_unsigned_byte o.padding2) <|
    Sized.bind (sized_float o.azimuthOffset) <|
    Sized.bind (sized_float o.azimuthWidth) <|
    Sized.bind (sized_float o.azimuthPullRate) <|
    Sized.bind (sized_float o.azimuthPullAcceleration) <|
    Sized.bind (sized_float o.elevationOffset) <|
    Sized.bind (sized_float o.elevationWidth) <|
    Sized.bind (sized_float o.elevationPullRate) <|
    Sized.bind (sized_float o.elevationPullAcceleration) <|
    sized_unsigned_int o.padding3) ?_
  simp only [AngleDeception.wireSize]; try omega

theorem AngleDeception.ok_iff (o : AngleDeception) : (AngleDeception.serialize o).Ok ↔ AngleDeception.WireOk o := by
  unfold AngleDeception.serialize AngleDeception.WireOk
  exact ok_bind_iff (ok_unsigned_int) <|
    ok_bind_iff (ok_unsigned_short) <|
    ok_bind_iff (ok_unsigned_short) <|
    ok_bind_iff (ok_unsigned_byte) <|
    ok_bind_iff (ok_unsigned_byte) <|
    ok_bind_iff (ok_unsigned_byte) <|
    ok_bind_iff (ok_unsigned_byte) <|
    ok_bind_iff (ok_float) <|
    ok_bind_iff (ok_float) <|
    ok_bind_iff (ok_float) <|
    ok_bind_iff (ok_float) <|
    ok_bind_iff (ok_float) <|
    ok_bind_iff (ok_float) <|
    ok_bind_iff (ok_float) <|
    ok_bind_iff (ok_float) <|
    ok_unsigned_int

theorem AngleDeception.after_canon {o : AngleDeception} (h : AngleDeception.Canon o) : AngleDeception.after AngleDeception.init o = o := by
  obtain ⟨h_azimuthOffset, h_azimuthWidth, h_azimuthPullRate, h_azimuthPullAcceleration, h_elevationOffset, h_elevationWidth, h_elevationPullRate, h_elevationPullAcceleration⟩ := h
  cases o
  exact (AngleDeception.mk.injEq ..).mpr ⟨rfl,
    rfl,
    rfl,
    rfl,
    rfl,
    rfl,
    rfl,
    h_azimuthOffset,
    h_azimuthWidth,
    h_azimuthPullRate,
    h_azimuthPullAcceleration,
    h_elevationOffset,
    h_elevationWidth,
    h_elevationPullRate,
    h_elevationPullAcceleration,
    rfl⟩

theorem AngleDeception.post : Post (AngleDeception.parse AngleDeception.init) (fun b o => (AngleDeception.WireOk o ∧ AngleDeception.Canon o) ∧ (AngleDeception.NoNaN o → (AngleDeception.serialize o).Emits b)) := by
  unfold AngleDeception.parse
  refine Post.bind (post_unsigned_int) fun a0 b0 h0 => ?_
  refine Post.bind (post_unsigned_short) fun a1 b1 h1 => ?_
  refine Post.bind (post_unsigned_short) fun a2 b2 h2 => ?_
  refine Post.bind (post_unsigned_byte) fun a3 b3 h3 => ?_
  refine Post.bind (post_unsigned_byte) fun a4 b4 h4 => ?_
  refine Post.bind (post_unsigned_byte) fun a5 b5 h5 => ?_
  refine Post.bind (post_unsigned_byte) fun a6 b6 h6 => ?_
  refine Post.bind (post_float) fun a7 b7 h7 => ?_
  refine Post.bind (post_float) fun a8 b8 h8 => ?_
  refine Post.bind (post_float) fun a9 b9 h9 => ?_
  refine Post.bind (post_float) fun a10 b10 h10 => ?_
  refine Post.bind (post_float) fun a11 b11 h11 => ?_
  refine Post.bind (post_float) fun a12 b12 h12 => ?_
  refine Post.bind (post_float) fun a13 b13 h13 => ?_
  refine Post.bind (post_float) fun a14 b14 h14 => ?_
  refine Post.last (post_unsigned_int) fun a15 b15 h15 => ?_
  refine ⟨⟨⟨h0.1, h1.1, h2.1, h3.1, h4.1, h5.1, h6.1, h7.1.1, h8.1.1, h9.1.1, h10.1.1, h11.1.1, h12.1.1, h13.1.1, h14.1.1, h15.1⟩,
    ⟨h7.1.2, h8.1.2, h9.1.2, h10.1.2, h11.1.2, h12.1.2, h13.1.2, h14.1.2⟩⟩, fun hn => ?_⟩
  obtain ⟨n0, n1, n2, n3, n4, n5, n6, n7⟩ := hn
  exact W.Emits.bind (h0.2) <|
      W.Emits.bind (h1.2) <|
      W.Emits.bind (h2.2) <|
      W.Emits.bind (h3.2) <|
      W.Emits.bind (h4.2) <|
      W.Emits.bind (h5.2) <|
      W.Emits.bind (h6.2) <|
      W.Emits.bind (h7.2 n0) <|
      W.Emits.bind (h8.2 n1) <|
      W.Emits.bind (h9.2 n2) <|
      W.Emits.bind (h10.2 n3) <|
      W.Emits.bind (h11.2 n4) <|
      W.Emits.bind (h12.2 n5) <|
      W.Emits.bind (h13.2 n6) <|
      W.Emits.bind (h14.2 n7) <|
      h15.2

theorem EntityAssociation.rt (s o : EntityAssociation) : RT (EntityAssociation.serialize o) (EntityAssociation.parse s) (EntityAssociation.after s o) := by
  unfold EntityAssociation.serialize EntityAssociation.parse
  exact RT.bind (rt_unsigned_byte o.recordType) <|
    RT.bind (rt_unsigned_byte o.changeIndicator) <|
    RT.bind (rt_unsigned_byte o.associationStatus) <|
    RT.bind (rt_unsigned_byte o.associationType) <|
    RT.bind (EntityIdentifier.rt s.entityID o.entityID) <|
    RT.bind (rt_unsigned_short o.ownStationLocation) <|
    RT.bind (rt_unsigned_byte o.physicalConnectionType) <|
    RT.bind (rt_unsigned_byte o.groupMemberType) <|
    RT.last (rt_unsigned_short o.groupNumber)

theorem EntityAssociation.loc (s : EntityAssociation) : Local (EntityAssociation.parse s) := by
  unfold EntityAssociation.parse
  exact Local.bind (loc_unsigned_byte) fun _ =>
    Local.bind (loc_unsigned_byte) fun _ =>
    Local.bind (loc_unsigned_byte) fun _ =>
    Local.bind (loc_unsigned_byte) fun _ =>
    Local.bind (EntityIdentifier.loc _) fun _ =>
    Local.bind (loc_unsigned_short) fun _ =>
    Local.bind (loc_unsigned_byte) fun _ =>
    Local.bind (loc_unsigned_byte) fun _ =>
    Local.bind (loc_unsigned_short) fun _ =>
    Local.pure _

theorem EntityAssociation.only (s : EntityAssociation) : OnlyStruct (EntityAssociation.parse s) := by
  unfold EntityAssociation.parse
  exact OnlyStruct.bind (only_unsigned_byte) fun _ =>
    OnlyStruct.bind (only_unsigned_byte) fun _ =>
    OnlyStruct.bind (only_unsigned_byte) fun _ =>
    OnlyStruct.bind (only_unsigned_byte) fun _ =>
    OnlyStruct.bind (EntityIdentifier.only _) fun _ =>
    OnlyStruct.bind (only_unsigned_short) fun _ =>
    OnlyStruct.bind (only_unsigned_byte) fun _ =>
    OnlyStruct.bind (only_unsigned_byte) fun _ =>
    OnlyStruct.bind (only_unsigned_short) fun _ =>
    OnlyStruct.pure _

theorem EntityAssociation.sized (o : EntityAssociation) : Sized (EntityAssociation.serialize o) (EntityAssociation.wireSize o) := by
  unfold EntityAssociation.serialize
  refine Sized.of_eq (Sized.bind (sized_unsigned_byte o.recordType) <|
    Sized.bind (sized_unsigned_byte o.changeIndicator) <|
    Sized.bind (sized_unsigned_byte o.associationStatus) <|
    Sized.bind (sized_unsigned_byte o.associationType) <|
    Sized.bind (EntityIdentifier.sized o.entityID) <|
    Sized.bind (sized_unsigned_short o.ownStationLocation) <|
    Sized.bind (sized_unsigned_byte o.physicalConnectionType) <|
    Sized.bind (sized_unsigned_byte o.groupMemberType) <|
    sized_unsigned_short o.groupNumber) ?_
  simp only [EntityAssociation.wireSize, EntityIdentifier.wireSize, SimulationAddress.wireSize]; try omega

theorem EntityAssociation.ok_iff (o : EntityAssociation) : (EntityAssociation.serialize o).Ok ↔ EntityAssociation.WireOk o := by
  unfold EntityAssociation.serialize EntityAssociation.WireOk
  exact ok_bind_iff (ok_unsigned_byte) <|
    ok_bind_iff (ok_unsigned_byte) <|
    ok_bind_iff (ok_unsigned_byte) <|
    ok_bind_iff (ok_unsigned_byte) <|
    ok_bind_iff (EntityIdentifier.ok_iff o.entityID) <|
    ok_bind_iff (ok_unsigned_short) <|
    ok_bind_iff (ok_unsigned_byte) <|
    ok_bind_iff (ok_unsigned_byte) <|
    ok_unsigned_short

theorem EntityAssociation.after_canon {o : EntityAssociation} (h : EntityAssociation.Canon o) : EntityAssociation.after EntityAssociation.init o = o := by
  cases o
  exact (EntityAssociation.mk.injEq ..).mpr ⟨rfl,
    rfl,
    rfl,
    rfl,
    EntityIdentifier.after_canon trivial,
    rfl,
    rfl,
    rfl,
    rfl⟩

theorem EntityAssociation.post : Post (EntityAssociation.parse EntityAssociation.init) (fun b o => (EntityAssociation.WireOk o ∧ EntityAssociation.Canon o) ∧ (EntityAssociation.NoNaN o → (EntityAssociation.serialize o).Emits b)) := by
  unfold EntityAssociation.parse
  refine Post.bind (post_unsigned_byte) fun a0 b0 h0 => ?_
  refine Post.bind (post_unsigned_byte) fun a1 b1 h1 => ?_
  refine Post.bind (post_unsigned_byte) fun a2 b2 h2 => ?_
  refine Post.bind (post_unsigned_byte) fun a3 b3 h3 => ?_
  refine Post.bind (EntityIdentifier.post) fun a4 b4 h4 => ?_
  refine Post.bind (post_unsigned_short) fun a5 b5 h5 => ?_
  refine Post.bind (post_unsigned_byte) fun a6 b6 h6 => ?_
  refine Post.bind (post_unsigned_byte) fun a7 b7 h7 => ?_
  refine Post.last (post_unsigned_short) fun a8 b8 h8 => ?_
  refine ⟨⟨⟨h0.1, h1.1, h2.1, h3.1, h4.1.1, h5.1, h6.1, h7.1, h8.1⟩,
    trivial⟩, fun _ => ?_⟩
  exact W.Emits.bind (h0.2) <|
      W.Emits.bind (h1.2) <|
      W.Emits.bind (h2.2) <|
      W.Emits.bind (h3.2) <|
      W.Emits.bind (h4.2 trivial) <|
      W.Emits.bind (h5.2) <|
      W.Emits.bind (h6.2) <|
      W.Emits.bind (h7.2) <|
      h8.2

theorem VectoringNozzleSystem.rt (s o : VectoringNozzleSystem) : RT (VectoringNozzleSystem.serialize o) (VectoringNozzleSystem.parse s) (VectoringNozzleSystem.after s o) := by
  unfold VectoringNozzleSystem.serialize VectoringNozzleSystem.parse
  exact RT.bind (rt_float o.horizontalDeflectionAngle) <|
    RT.last (rt_float o.verticalDeflectionAngle)

theorem VectoringNozzleSystem.loc (s : VectoringNozzleSystem) : Local (VectoringNozzleSystem.parse s) := by
  unfold VectoringNozzleSystem.parse
  exact Local.bind (loc_float) fun _ =>
    Local.bind (loc_float) fun _ =>
    Local.pure _

theorem VectoringNozzleSystem.only (s : VectoringNozzleSystem) : OnlyStruct (VectoringNozzleSystem.parse s) := by
  unfold VectoringNozzleSystem.parse
  exact OnlyStruct.bind (only_float) fun _ =>
    OnlyStruct.bind (only_float) fun _ =>
    OnlyStruct.pure _

theorem VectoringNozzleSystem.sized (o : VectoringNozzleSystem) : Sized (VectoringNozzleSystem.serialize o) (VectoringNozzleSystem.wireSize o) := by
  unfold VectoringNozzleSystem.serialize
  refine Sized.of_eq (Sized.bind (sized_float o.horizontalDeflectionAngle) <|
    sized_float o.verticalDeflectionAngle) ?_
  simp only [VectoringNozzleSystem.wireSize]; try omega

theorem VectoringNozzleSystem.ok_iff (o : VectoringNozzleSystem) : (VectoringNozzleSystem.serialize o).Ok ↔ VectoringNozzleSystem.WireOk o := by
  unfold VectoringNozzleSystem.serialize VectoringNozzleSystem.WireOk
  exact ok_bind_iff (ok_float) <|
    ok_float

theorem VectoringNozzleSystem.after_canon {o : VectoringNozzleSystem} (h : VectoringNozzleSystem.Canon o) : VectoringNozzleSystem.after VectoringNozzleSystem.init o = o := by
  obtain ⟨h_horizontalDeflectionAngle, h_verticalDeflectionAngle⟩ := h
  cases o
  exact (VectoringNozzleSystem.mk.injEq ..).mpr ⟨h_horizontalDeflectionAngle,
    h_verticalDeflectionAngle⟩

theorem VectoringNozzleSystem.post : Post (VectoringNozzleSystem.parse VectoringNozzleSystem.init) (fun b o => (VectoringNozzleSystem.WireOk o ∧ VectoringNozzleSystem.Canon o) ∧ (VectoringNozzleSystem.NoNaN o → (VectoringNozzleSystem.serialize o).Emits b)) := by
  unfold VectoringNozzleSystem.parse
  refine Post.bind (post_float) fun a0 b0 h0 => ?_
  refine Post.last (post_float) fun a1 b1 h1 => ?_
  refine ⟨⟨⟨h0.1.1, h1.1.1⟩,
    ⟨h0.1.2, h1.1.2⟩⟩, fun hn => ?_⟩
  obtain ⟨n0, n1⟩ := hn
  exact W.Emits.bind (h0.2 n0) <|
      h1.2 n1

theorem FalseTargetsAttribute.rt (s o : FalseTargetsAttribute) : RT (FalseTargetsAttribute.serialize o) (FalseTargetsAttribute.parse s) (FalseTargetsAttribute.after s o) := by
  unfold FalseTargetsAttribute.serialize FalseTargetsAttribute.parse
  exact RT.bind (rt_unsigned_int o.recordType) <|
    RT.bind (rt_unsigned_short o.recordLength) <|
    RT.bind (rt_unsigned_short o.padding) <|
    RT.bind (rt_unsigned_byte o.emitterNumber) <|
    RT.bind (rt_unsigned_byte o.beamNumber) <|
    RT.bind (rt_unsigned_byte o.stateIndicator) <|
    RT.bind (rt_unsigned_byte o.padding2) <|
    RT.bind (rt_unsigned_short o.falseTargetCount) <|
    RT.bind (rt_float o.walkSpeed) <|
    RT.bind (rt_float o.walkAcceleration) <|
    RT.bind (rt_float o.maximumWalkDistance) <|
    RT.bind (rt_float o.keepTime) <|
    RT.last (rt_float o.echoSpacing)

theorem FalseTargetsAttribute.loc (s : FalseTargetsAttribute) : Local (FalseTargetsAttribute.parse s) := by
  unfold FalseTargetsAttribute.parse
  exact Local.bind (loc_unsigned_int) fun _ =>
    Local.bind (loc_unsigned_short) fun _ =>
    Local.bind (loc_unsigned_short) fun _ =>
    Local.bind (loc_unsigned_byte) fun _ =>
    Local.bind (loc_unsigned_byte) fun _ =>
    Local.bind (loc_unsigned_byte) fun _ =>
    Local.bind (loc_unsigned_byte) fun _ =>
    Local.bind (loc_unsigned_short) fun _ =>
    Local.bind (loc_float) fun _ =>
    Local.bind (loc_float) fun _ =>
    Local.bind (loc_float) fun _ =>
    Local.bind (loc_float) fun _ =>
    Local.bind (loc_float) fun _ =>
    Local.pure _

theorem FalseTargetsAttribute.only (s : FalseTargetsAttribute) : OnlyStruct (FalseTargetsAttribute.parse s) := by
  unfold FalseTargetsAttribute.parse
  exact OnlyStruct.bind (only_unsigned_int) fun _ =>
    OnlyStruct.bind (only_unsigned_short) fun _ =>
    OnlyStruct.bind (only_unsigned_short) fun _ =>
    OnlyStruct.bind (only_unsigned_byte) fun _ =>
    OnlyStruct.bind (only_unsigned_byte) fun _ =>
    OnlyStruct.bind (only_unsigned_byte) fun _ =>
    OnlyStruct.bind (only_unsigned_byte) fun _ =>
    OnlyStruct.bind (only_unsigned_short) fun _ =>
    OnlyStruct.bind (only_float) fun _ =>
    OnlyStruct.bind (only_float) fun _ =>
    OnlyStruct.bind (only_float) fun _ =>
    OnlyStruct.bind (only_float) fun _ =>
    OnlyStruct.bind (only_float) fun _ =>
    OnlyStruct.pure _

theorem FalseTargetsAttribute.sized (o : FalseTargetsAttribute) : Sized (FalseTargetsAttribute.serialize o) (FalseTargetsAttribute.wireSize o) := by
  unfold FalseTargetsAttribute.serialize
  refine Sized.of_eq (Sized.bind (sized_unsigned_int o.recordType) <|
    Sized.bind (sized_unsigned_short o.recordLength) <|
    Sized.bind (sized_unsigned_short o.padding) <|
    Sized.bind (sized_unsigned_byte o.emitterNumber) <|
    Sized.bind (sized_unsigned_byte o.beamNumber) <|
    Sized.bind (sized_unsigned_byte o.stateIndicator) <|
    Sized.bind (sized_unsigned_byte o.padding2) <|
    Sized.bind (sized_unsigned_short o.falseTargetCount) <|
    Sized.bind (sized_float o.walkSpeed) <|
    Sized.bind (sized_float o.walkAcceleration) <|
    Sized.bind (sized_float o.maximumWalkDistance) <|
    Sized.bind (sized_float o.keepTime) <|
    sized_float o.echoSpacing) ?_
  simp only [FalseTargetsAttribute.wireSize]; try omega

theorem FalseTargetsAttribute.ok_iff (o : FalseTargetsAttribute) : (FalseTargetsAttribute.serialize o).Ok ↔ FalseTargetsAttribute.WireOk o := by
  unfold FalseTargetsAttribute.serialize FalseTargetsAttribute.WireOk
  exact ok_bind_iff (ok_unsigned_int) <|
    ok_bind_iff (ok_unsigned_short) <|
    ok_bind_iff (ok_unsigned_short) <|
    ok_bind_iff (ok_unsigned_byte) <|
    ok_bind_iff (ok_unsigned_byte) <|
    ok_bind_iff (ok_unsigned_byte) <|
    ok_bind_iff (ok_unsigned_byte) <|
    ok_bind_iff (ok_unsigned_short) <|
    ok_bind_iff (ok_float) <|
    ok_bind_iff (ok_float) <|
    ok_bind_iff (ok_float) <|
    ok_bind_iff (ok_float) <|
    ok_float

theorem FalseTargetsAttribute.after_canon {o : FalseTargetsAttribute} (h : FalseTargetsAttribute.Canon o) : FalseTargetsAttribute.after FalseTargetsAttribute.init o = o := by
  obtain ⟨h_walkSpeed, h_walkAcceleration, h_maximumWalkDistance, h_keepTime, h_echoSpacing⟩ := h
  cases o
  exact (FalseTargetsAttribute.mk.injEq ..).mpr ⟨rfl,
    rfl,
    rfl,
    rfl,
    rfl,
    rfl,
    rfl,
    rfl,
    h_walkSpeed,
    h_walkAcceleration,
    h_maximumWalkDistance,
    h_keepTime,
    h_echoSpacing⟩

theorem FalseTargetsAttribute.post : Post (FalseTargetsAttribute.parse FalseTargetsAttribute.init) (fun b o => (FalseTargetsAttribute.WireOk o ∧ FalseTargetsAttribute.Canon o) ∧ (FalseTargetsAttribute.NoNaN o → (FalseTargetsAttribute.serialize o).Emits b)) := by
  unfold FalseTargetsAttribute.parse
  refine Post.bind (post_unsigned_int) fun a0 b0 h0 => ?_
  refine Post.bind (post_unsigned_short) fun a1 b1 h1 => ?_
  refine Post.bind (post_unsigned_short) fun a2 b2 h2 => ?_
  refine Post.bind (post_unsigned_byte) fun a3 b3 h3 => ?_
  refine Post.bind (post_unsigned_byte) fun a4 b4 h4 => ?_
  refine Post.bind (post_unsigned_byte) fun a5 b5 h5 => ?_
  refine Post.bind (post_unsigned_byte) fun a6 b6 h6 => ?_
  refine Post.bind (post_unsigned_short) fun a7 b7 h7 => ?_
  refine Post.bind (post_float) fun a8 b8 h8 => ?_
  refine Post.bind (post_float) fun a9 b9 h9 => ?_
  refine Post.bind (post_float) fun a10 b10 h10 => ?_
  refine Post.bind (post_float) fun a11 b11 h11 => ?_
  refine Post.last (post_float) fun a12 b12 h12 => ?_
  refine ⟨⟨⟨h0.1, h1.1, h2.1, h3.1, h4.1, h5.1, h6.1, h7.1, h8.1.1, h9.1.1, h10.1.1, h11.1.1, h12.1.1⟩,
    ⟨h8.1.2, h9.1.2, h10.1.2, h11.1.2, h12.1.2⟩⟩, fun hn => ?_⟩
  obtain ⟨n0, n1, n2, n3, n4⟩ := hn
  exact W.Emits.bind (h0.2) <|
      W.Emits.bind (h1.2) <|
      W.Emits.bind (h2.2) <|
      W.Emits.bind (h3.2) <|
      W.Emits.bind (h4.2) <|
      W.Emits.bind (h5.2) <|
      W.Emits.bind (h6.2) <|
      W.Emits.bind (h7.2) <|
      W.Emits.bind (h8.2 n0) <|
      W.Emits.bind (h9.2 n1) <|
      W.Emits.bind (h10.2 n2) <|
      W.Emits.bind (h11.2 n3) <|
      h12.2 n4

theorem MinefieldIdentifier.rt (s o : MinefieldIdentifier) : RT (MinefieldIdentifier.serialize o) (MinefieldIdentifier.parse s) (MinefieldIdentifier.after s o) := by
  unfold MinefieldIdentifier.serialize MinefieldIdentifier.parse
  exact RT.bind (SimulationAddress.rt s.simulationAddress o.simulationAddress) <|
    RT.last (rt_unsigned_short o.minefieldNumber)

theorem MinefieldIdentifier.loc (s : MinefieldIdentifier) : Local (MinefieldIdentifier.parse s) := by
  unfold MinefieldIdentifier.parse
  exact Local.bind (SimulationAddress.loc _) fun _ =>
    Local.bind (loc_unsigned_short) fun _ =>
    Local.pure _

theorem MinefieldIdentifier.only (s : MinefieldIdentifier) : OnlyStruct (MinefieldIdentifier.parse s) := by
  unfold MinefieldIdentifier.parse
  exact OnlyStruct.bind (SimulationAddress.only _) fun _ =>
    OnlyStruct.bind (only_unsigned_short) fun _ =>
    OnlyStruct.pure _

theorem MinefieldIdentifier.sized (o : MinefieldIdentifier) : Sized (MinefieldIdentifier.serialize o) (MinefieldIdentifier.wireSize o) := by
  unfold MinefieldIdentifier.serialize
  refine Sized.of_eq (Sized.bind (SimulationAddress.sized o.simulationAddress) <|
    sized_unsigned_short o.minefieldNumber) ?_
  simp only [MinefieldIdentifier.wireSize, SimulationAddress.wireSize]; try omega

theorem MinefieldIdentifier.ok_iff (o : MinefieldIdentifier) : (MinefieldIdentifier.serialize o).Ok ↔ MinefieldIdentifier.WireOk o := by
  unfold MinefieldIdentifier.serialize MinefieldIdentifier.WireOk
  exact ok_bind_iff (SimulationAddress.ok_iff o.simulationAddress) <|
    ok_unsigned_short

theorem MinefieldIdentifier.after_canon {o : MinefieldIdentifier} (h : MinefieldIdentifier.Canon o) : MinefieldIdentifier.after MinefieldIdentifier.init o = o := by
  cases o
  exact (MinefieldIdentifier.mk.injEq ..).mpr ⟨SimulationAddress.after_canon trivial,
    rfl⟩

theorem MinefieldIdentifier.post : Post (MinefieldIdentifier.parse MinefieldIdentifier.init) (fun b o => (MinefieldIdentifier.WireOk o ∧ MinefieldIdentifier.Canon o) ∧ (MinefieldIdentifier.NoNaN o → (MinefieldIdentifier.serialize o).Emits b)) := by
  unfold MinefieldIdentifier.parse
  refine Post.bind (SimulationAddress.post) fun a0 b0 h0 => ?_
  refine Post.last (post_unsigned_short) fun a1 b1 h1 => ?_
  refine ⟨⟨⟨h0.1.1, h1.1⟩,
    trivial⟩, fun _ => ?_⟩
  exact W.Emits.bind (h0.2 trivial) <|
      h1.2

theorem RadioType.rt (s o : RadioType) : RT (RadioType.serialize o) (RadioType.parse s) (RadioType.after s o) := by
  unfold RadioType.serialize RadioType.parse
  exact RT.bind (rt_unsigned_byte o.entityKind) <|
    RT.bind (rt_unsigned_byte o.domain) <|
    RT.bind (rt_unsigned_short o.country) <|
    RT.bind (rt_unsigned_byte o.category) <|
    RT.bind (rt_unsigned_byte o.subcategory) <|
    RT.bind (rt_unsigned_byte o.specific) <|
    RT.last (rt_unsigned_byte o.extra)

theorem RadioType.loc (s : RadioType) : Local (RadioType.parse s) := by
  unfold RadioType.parse
  exact Local.bind (loc_unsigned_byte) fun _ =>
    Local.bind (loc_unsigned_byte) fun _ =>
    Local.bind (loc_unsigned_short) fun _ =>
    Local.bind (loc_unsigned_byte) fun _ =>
    Local.bind (loc_unsigned_byte) fun _ =>
    Local.bind (loc_unsigned_byte) fun _ =>
    Local.bind (loc_unsigned_byte) fun _ =>
    Local.pure _

theorem RadioType.only (s : RadioType) : OnlyStruct (RadioType.parse s) := by
  unfold RadioType.parse
  exact OnlyStruct.bind (only_unsigned_byte) fun _ =>
    OnlyStruct.bind (only_unsigned_byte) fun _ =>
    OnlyStruct.bind (only_unsigned_short) fun _ =>
    OnlyStruct.bind (only_unsigned_byte) fun _ =>
    OnlyStruct.bind (only_unsigned_byte) fun _ =>
    OnlyStruct.bind (only_unsigned_byte) fun _ =>
    OnlyStruct.bind (only_unsigned_byte) fun _ =>
    OnlyStruct.pure _

theorem RadioType.sized (o : RadioType) : Sized (RadioType.serialize o) (RadioType.wireSize o) := by
  unfold RadioType.serialize
  refine Sized.of_eq (Sized.bind (sized_unsigned_byte o.entityKind) <|
    Sized.bind (sized_unsigned_byte o.domain) <|
    Sized.bind (sized_unsigned_short o.country) <|
    Sized.bind (sized_unsigned_byte o.category) <|
    Sized.bind (sized_unsigned_byte o.subcategory) <|
    Sized.bind (sized_unsigned_byte o.specific) <|
    sized_unsigned_byte o.extra) ?_
  simp only [RadioType.wireSize]; try omega

theorem RadioType.ok_iff (o : RadioType) : (RadioType.serialize o).Ok ↔ RadioType.WireOk o := by
  unfold RadioType.serialize RadioType.WireOk
  exact ok_bind_iff (ok_unsigned_byte) <|
    ok_bind_iff (ok_unsigned_byte) <|
    ok_bind_iff (ok_unsigned_short) <|
    ok_bind_iff (ok_unsigned_byte) <|
    ok_bind_iff (ok_unsigned_byte) <|
    ok_bind_iff (ok_unsigned_byte) <|
    ok_unsigned_byte

theorem RadioType.after_canon {o : RadioType} (h : RadioType.Canon o) : RadioType.after RadioType.init o = o := by
  cases o
  exact (RadioType.mk.injEq ..).mpr ⟨rfl,
    rfl,
    rfl,
    rfl,
    rfl,
    rfl,
    rfl⟩

theorem RadioType.post : Post (RadioType.parse RadioType.init) (fun b o => (RadioType.WireOk o ∧ RadioType.Canon o) ∧ (RadioType.NoNaN o → (RadioType.serialize o).Emits b)) := by
  unfold RadioType.parse
  refine Post.bind (post_unsigned_byte) fun a0 b0 h0 => ?_
  refine Post.bind (post_unsigned_byte) fun a1 b1 h1 => ?_
  refine Post.bind (post_unsigned_short) fun a2 b2 h2 => ?_
  refine Post.bind (post_unsigned_byte) fun a3 b3 h3 => ?_
  refine Post.bind (post_unsigned_byte) fun a4 b4 h4 => ?_
  refine Post.bind (post_unsigned_byte) fun a5 b5 h5 => ?_
  refine Post.last (post_unsigned_byte) fun a6 b6 h6 => ?_
  refine ⟨⟨⟨h0.1, h1.1, h2.1, h3.1, h4.1, h5.1, h6.1⟩,
    trivial⟩, fun _ => ?_⟩
  exact W.Emits.bind (h0.2) <|
      W.Emits.bind (h1.2) <|
      W.Emits.bind (h2.2) <|
      W.Emits.bind (h3.2) <|
      W.Emits.bind (h4.2) <|
      W.Emits.bind (h5.2) <|
      h6.2

theorem NamedLocationIdentification.rt (s o : NamedLocationIdentification) : RT (NamedLocationIdentification.serialize o) (NamedLocationIdentification.parse s) (NamedLocationIdentification.after s o) := by
  unfold NamedLocationIdentification.serialize NamedLocationIdentification.parse
  exact RT.bind (rt_unsigned_short o.stationName) <|
    RT.last (rt_unsigned_short o.stationNumber)

theorem NamedLocationIdentification.loc (s : NamedLocationIdentification) : Local (NamedLocationIdentification.parse s) := by
  unfold NamedLocationIdentification.parse
  exact Local.bind (loc_unsigned_short) fun _ =>
    Local.bind (loc_unsigned_short) fun _ =>
    Local.pure _

theorem NamedLocationIdentification.only (s : NamedLocationIdentification) : OnlyStruct (NamedLocationIdentification.parse s) := by
  unfold NamedLocationIdentification.parse
  exact OnlyStruct.bind (only_unsigned_short) fun _ =>
    OnlyStruct.bind (only_unsigned_short) fun _ =>
    OnlyStruct.pure _

theorem NamedLocationIdentification.sized (o : NamedLocationIdentification) : Sized (NamedLocationIdentification.serialize o) (NamedLocationIdentification.wireSize o) := by
  unfold NamedLocationIdentification.serialize
  refine Sized.of_eq (Sized.bind (sized_unsigned_short o.stationName) <|
    sized_unsigned_short o.stationNumber) ?_
  simp only [NamedLocationIdentification.wireSize]; try omega

theorem NamedLocationIdentification.ok_iff (o : NamedLocationIdentification) : (NamedLocationIdentification.serialize o).Ok ↔ NamedLocationIdentification.WireOk o := by
  unfold NamedLocationIdentification.serialize NamedLocationIdentification.WireOk
  exact ok_bind_iff (ok_unsigned_short) <|
    ok_unsigned_short

theorem NamedLocationIdentification.after_canon {o : NamedLocationIdentification} (h : NamedLocationIdentification.Canon o) : NamedLocationIdentification.after NamedLocationIdentification.init o = o := by
  cases o
  exact (NamedLocationIdentification.mk.injEq ..).mpr ⟨rfl,
    rfl⟩

theorem NamedLocationIdentification.post : Post (NamedLocationIdentification.parse NamedLocationIdentification.init) (fun b o => (NamedLocationIdentification.WireOk o ∧ NamedLocationIdentification.Canon o) ∧ (NamedLocationIdentification.NoNaN o → (NamedLocationIdentification.serialize o).Emits b)) := by
  unfold NamedLocationIdentification.parse
  refine Post.bind (post_unsigned_short) fun a0 b0 h0 => ?_
  refine Post.last (post_unsigned_short) fun a1 b1 h1 => ?_
  refine ⟨⟨⟨h0.1, h1.1⟩,
    trivial⟩, fun _ => ?_⟩
  exact W.Emits.bind (h0.2) <|
      h1.2

theorem IFFDataSpecification.rt (s o : IFFDataSpecification) (hd : IFFDataSpecification.Decodable o) : RT (IFFDataSpecification.serialize o) (IFFDataSpecification.parse s) (IFFDataSpecification.after s o) := by
  have d0 := hd
  unfold IFFDataSpecification.serialize IFFDataSpecification.parse
  exact RT.bind (rt_unsigned_short ((o.iffDataRecords.length : Int))) <|
    RT.last (rt_list fun x hx => IFFData.rt _ x (d0 x hx))

theorem IFFDataSpecification.loc (s : IFFDataSpecification) : Local (IFFDataSpecification.parse s) := by
  unfold IFFDataSpecification.parse
  exact Local.bind (loc_unsigned_short) fun _ =>
    Local.bind (Local.times (IFFData.loc _) _) fun _ =>
    Local.pure _

theorem IFFDataSpecification.only (s : IFFDataSpecification) : OnlyStruct (IFFDataSpecification.parse s) := by
  unfold IFFDataSpecification.parse
  exact OnlyStruct.bind (only_unsigned_short) fun _ =>
    OnlyStruct.bind (OnlyStruct.times (IFFData.only _) _) fun _ =>
    OnlyStruct.pure _

theorem IFFDataSpecification.sized (o : IFFDataSpecification) : Sized (IFFDataSpecification.serialize o) (IFFDataSpecification.wireSize o) := by
  unfold IFFDataSpecification.serialize
  refine Sized.of_eq (Sized.bind (sized_unsigned_short _) <|
    Sized.forEach IFFData.sized) ?_
  simp only [IFFDataSpecification.wireSize]; try omega

theorem IFFDataSpecification.ok_iff (o : IFFDataSpecification) : (IFFDataSpecification.serialize o).Ok ↔ IFFDataSpecification.WireOk o := by
  unfold IFFDataSpecification.serialize IFFDataSpecification.WireOk
  exact ok_bind_iff (ok_unsigned_short) <|
    ok_list IFFData.ok_iff

theorem IFFDataSpecification.after_canon {o : IFFDataSpecification} (h : IFFDataSpecification.Canon o) : IFFDataSpecification.after IFFDataSpecification.init o = o := by
  have h_iffDataRecords := h
  cases o; exact (IFFDataSpecification.mk.injEq ..).mpr (canon_list fun x hx => IFFData.after_canon (h_iffDataRecords x hx))

theorem IFFDataSpecification.post : Post (IFFDataSpecification.parse IFFDataSpecification.init) (fun b o => IFFDataSpecification.Live o → (IFFDataSpecification.WireOk o ∧ IFFDataSpecification.Canon o) ∧ (IFFDataSpecification.NoNaN o → (IFFDataSpecification.serialize o).Emits b)) := by
  unfold IFFDataSpecification.parse
  refine Post.bind (post_unsigned_short) fun a0 b0 h0 => ?_
  refine Post.last (Post.times_live IFFData.post _) fun a1 b1 h1 => ?_
  intro hlive
  have l0 := hlive
  obtain rfl : a0 = (a1.length : Int) := count_eq h0.1.1 h1.1
  refine ⟨⟨⟨h0.1, fun x hx => ((h1.2 l0).1 x hx).1⟩,
    fun x hx => ((h1.2 l0).1 x hx).2⟩, fun _ => ?_⟩
  exact W.Emits.bind (h0.2) <|
      (h1.2 l0).2 (fun _ _ => trivial)

theorem OwnershipStatus.rt (s o : OwnershipStatus) : RT (OwnershipStatus.serialize o) (OwnershipStatus.parse s) (OwnershipStatus.after s o) := by
  unfold OwnershipStatus.serialize OwnershipStatus.parse
  exact RT.bind (EntityIdentifier.rt s.entityId o.entityId) <|
    RT.bind (rt_unsigned_byte o.ownershipStatus) <|
    RT.last (rt_unsigned_byte o.padding)

theorem OwnershipStatus.loc (s : OwnershipStatus) : Local (OwnershipStatus.parse s) := by
  unfold OwnershipStatus.parse
  exact Local.bind (EntityIdentifier.loc _) fun _ =>
    Local.bind (loc_unsigned_byte) fun _ =>
    Local.bind (loc_unsigned_byte) fun _ =>
    Local.pure _

theorem OwnershipStatus.only (s : OwnershipStatus) : OnlyStruct (OwnershipStatus.parse s) := by
  unfold OwnershipStatus.parse
  exact OnlyStruct.bind (EntityIdentifier.only _) fun _ =>
    OnlyStruct.bind (only_unsigned_byte) fun _ =>
    OnlyStruct.bind (only_unsigned_byte) fun _ =>
    OnlyStruct.pure _

theorem OwnershipStatus.sized (o : OwnershipStatus) : Sized (OwnershipStatus.serialize o) (OwnershipStatus.wireSize o) := by
  unfold OwnershipStatus.serialize
  refine Sized.of_eq (Sized.bind (EntityIdentifier.sized o.entityId) <|
    Sized.bind (sized_unsigned_byte o.ownershipStatus) <|
    sized_unsigned_byte o.padding) ?_
  simp only [OwnershipStatus.wireSize, EntityIdentifier.wireSize, SimulationAddress.wireSize]; try omega

theorem OwnershipStatus.ok_iff (o : OwnershipStatus) : (OwnershipStatus.serialize o).Ok ↔ OwnershipStatus.WireOk o := by
  unfold OwnershipStatus.serialize OwnershipStatus.WireOk
  exact ok_bind_iff (EntityIdentifier.ok_iff o.entityId) <|
    ok_bind_iff (ok_unsigned_byte) <|
    ok_unsigned_byte

theorem OwnershipStatus.after_canon {o : OwnershipStatus} (h : OwnershipStatus.Canon o) : OwnershipStatus.after OwnershipStatus.init o = o := by
  cases o
  exact (OwnershipStatus.mk.injEq ..).mpr ⟨EntityIdentifier.after_canon trivial,
    rfl,
    rfl⟩

theorem OwnershipStatus.post : Post (OwnershipStatus.parse OwnershipStatus.init) (fun b o => (OwnershipStatus.WireOk o ∧ OwnershipStatus.Canon o) ∧ (OwnershipStatus.NoNaN o → (OwnershipStatus.serialize o).Emits b)) := by
  unfold OwnershipStatus.parse
  refine Post.bind (EntityIdentifier.post) fun a0 b0 h0 => ?_
  refine Post.bind (post_unsigned_byte) fun a1 b1 h1 => ?_
  refine Post.last (post_unsigned_byte) fun a2 b2 h2 => ?_
  refine ⟨⟨⟨h0.1.1, h1.1, h2.1⟩,
    trivial⟩, fun _ => ?_⟩
  exact W.Emits.bind (h0.2 trivial) <|
      W.Emits.bind (h1.2) <|
      h2.2

theorem AttachedParts.rt (s o : AttachedParts) : RT (AttachedParts.serialize o) (AttachedParts.parse s) (AttachedParts.after s o) := by
  unfold AttachedParts.serialize AttachedParts.parse
  exact RT.bind (rt_unsigned_byte o.recordType) <|
    RT.bind (rt_unsigned_byte o.detachedIndicator) <|
    RT.bind (rt_unsigned_short o.partAttachedTo) <|
    RT.bind (rt_unsigned_int o.parameterType) <|
    RT.last (rt_attr rt_long o.parameterValue)

theorem AttachedParts.loc (s : AttachedParts) : Local (AttachedParts.parse s) := by
  unfold AttachedParts.parse
  exact Local.bind (loc_unsigned_byte) fun _ =>
    Local.bind (loc_unsigned_byte) fun _ =>
    Local.bind (loc_unsigned_short) fun _ =>
    Local.bind (loc_unsigned_int) fun _ =>
    Local.bind (loc_long) fun _ =>
    Local.pure _

theorem AttachedParts.only (s : AttachedParts) : OnlyStruct (AttachedParts.parse s) := by
  unfold AttachedParts.parse
  exact OnlyStruct.bind (only_unsigned_byte) fun _ =>
    OnlyStruct.bind (only_unsigned_byte) fun _ =>
    OnlyStruct.bind (only_unsigned_short) fun _ =>
    OnlyStruct.bind (only_unsigned_int) fun _ =>
    OnlyStruct.bind (only_long) fun _ =>
    OnlyStruct.pure _

theorem AttachedParts.sized (o : AttachedParts) : Sized (AttachedParts.serialize o) (AttachedParts.wireSize o) := by
  unfold AttachedParts.serialize
  refine Sized.of_eq (Sized.bind (sized_unsigned_byte o.recordType) <|
    Sized.bind (sized_unsigned_byte o.detachedIndicator) <|
    Sized.bind (sized_unsigned_short o.partAttachedTo) <|
    Sized.bind (sized_unsigned_int o.parameterType) <|
    sized_using sized_long) ?_
  simp only [AttachedParts.wireSize]; try omega

theorem AttachedParts.ok_iff (o : AttachedParts) : (AttachedParts.serialize o).Ok ↔ AttachedParts.WireOk o := by
  unfold AttachedParts.serialize AttachedParts.WireOk
  exact ok_bind_iff (ok_unsigned_byte) <|
    ok_bind_iff (ok_unsigned_byte) <|
    ok_bind_iff (ok_unsigned_short) <|
    ok_bind_iff (ok_unsigned_int) <|
    ok_attr ok_long

theorem AttachedParts.after_canon {o : AttachedParts} (h : AttachedParts.Canon o) : AttachedParts.after AttachedParts.init o = o := by
  obtain ⟨h_parameterValue, h_attachedPartType⟩ := h
  cases o
  exact (AttachedParts.mk.injEq ..).mpr ⟨rfl,
    rfl,
    rfl,
    rfl,
    h_attachedPartType.symm,
    canon_use_some h_parameterValue⟩

theorem AttachedParts.post : Post (AttachedParts.parse AttachedParts.init) (fun b o => (AttachedParts.WireOk o ∧ AttachedParts.Canon o) ∧ (AttachedParts.NoNaN o → (AttachedParts.serialize o).Emits b)) := by
  unfold AttachedParts.parse
  refine Post.bind (post_unsigned_byte) fun a0 b0 h0 => ?_
  refine Post.bind (post_unsigned_byte) fun a1 b1 h1 => ?_
  refine Post.bind (post_unsigned_short) fun a2 b2 h2 => ?_
  refine Post.bind (post_unsigned_int) fun a3 b3 h3 => ?_
  refine Post.last (post_long) fun a4 b4 h4 => ?_
  refine ⟨⟨⟨h0.1, h1.1, h2.1, h3.1, ⟨a4, rfl, h4.1⟩⟩,
    ⟨⟨a4, rfl⟩, rfl⟩⟩, fun _ => ?_⟩
  exact W.Emits.bind (h0.2) <|
      W.Emits.bind (h1.2) <|
      W.Emits.bind (h2.2) <|
      W.Emits.bind (h3.2) <|
      h4.2

end Dis
