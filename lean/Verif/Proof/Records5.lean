import Verif.Spec.Records5
import Verif.Proof.Records4

/-!
# Proofs for: Records of `opendis/dis7.py`, part 5

Generated by `tools/genproof.py`.
-/

set_option linter.unusedVariables false
set_option linter.unusedSimpArgs false

namespace Dis

theorem EnvironmentGeneral.rt (s o : EnvironmentGeneral) : RT (EnvironmentGeneral.serialize o) (EnvironmentGeneral.parse s) (EnvironmentGeneral.after s o) := by
  unfold EnvironmentGeneral.serialize EnvironmentGeneral.parse
  exact RT.bind (rt_unsigned_int o.environmentType) <|
    RT.bind (rt_unsigned_byte o.length) <|
    RT.bind (rt_unsigned_byte o.index) <|
    RT.bind (rt_attr rt_unsigned_byte o.padding1) <|
    RT.bind (rt_need rt_unsigned_byte o.geometry) <|
    RT.last (rt_unsigned_byte o.padding2)

theorem EnvironmentGeneral.loc (s : EnvironmentGeneral) : Local (EnvironmentGeneral.parse s) := by
  unfold EnvironmentGeneral.parse
  exact Local.bind (loc_unsigned_int) fun _ =>
    Local.bind (loc_unsigned_byte) fun _ =>
    Local.bind (loc_unsigned_byte) fun _ =>
    Local.bind (loc_unsigned_byte) fun _ =>
    Local.bind (loc_unsigned_byte) fun _ =>
    Local.bind (loc_unsigned_byte) fun _ =>
    Local.pure _

theorem EnvironmentGeneral.only (s : EnvironmentGeneral) : OnlyStruct (EnvironmentGeneral.parse s) := by
  unfold EnvironmentGeneral.parse
  exact OnlyStruct.bind (only_unsigned_int) fun _ =>
    OnlyStruct.bind (only_unsigned_byte) fun _ =>
    OnlyStruct.bind (only_unsigned_byte) fun _ =>
    OnlyStruct.bind (only_unsigned_byte) fun _ =>
    OnlyStruct.bind (only_unsigned_byte) fun _ =>
    OnlyStruct.bind (only_unsigned_byte) fun _ =>
    OnlyStruct.pure _

theorem EnvironmentGeneral.sized (o : EnvironmentGeneral) : Sized (EnvironmentGeneral.serialize o) (EnvironmentGeneral.wireSize o) := by
  unfold EnvironmentGeneral.serialize
  refine Sized.of_eq (Sized.bind (sized_unsigned_int o.environmentType) <|
    Sized.bind (sized_unsigned_byte o.length) <|
    Sized.bind (sized_unsigned_byte o.index) <|
    Sized.bind (sized_using sized_unsigned_byte) <|
    Sized.bind (sized_using sized_unsigned_byte) <|
    sized_unsigned_byte o.padding2) ?_
  simp only [EnvironmentGeneral.wireSize]; try omega

theorem EnvironmentGeneral.ok_iff (o : EnvironmentGeneral) : (EnvironmentGeneral.serialize o).Ok ↔ EnvironmentGeneral.WireOk o := by
  unfold EnvironmentGeneral.serialize EnvironmentGeneral.WireOk
  exact ok_bind_iff (ok_unsigned_int) <|
    ok_bind_iff (ok_unsigned_byte) <|
    ok_bind_iff (ok_unsigned_byte) <|
    ok_bind_iff (ok_attr ok_unsigned_byte) <|
    ok_bind_iff (ok_need ok_unsigned_byte) <|
    ok_unsigned_byte

theorem EnvironmentGeneral.after_canon {o : EnvironmentGeneral} (h : EnvironmentGeneral.Canon o) : EnvironmentGeneral.after EnvironmentGeneral.init o = o := by
  obtain ⟨h_padding1, h_geometry, h_padding⟩ := h
  cases o
  exact (EnvironmentGeneral.mk.injEq ..).mpr ⟨rfl,
    rfl,
    rfl,
    h_padding.symm,
    canon_use_some h_geometry,
    rfl,
    canon_use_some h_padding1⟩

theorem EnvironmentGeneral.post : Post (EnvironmentGeneral.parse EnvironmentGeneral.init) (fun b o => (EnvironmentGeneral.WireOk o ∧ EnvironmentGeneral.Canon o) ∧ (EnvironmentGeneral.NoNaN o → (EnvironmentGeneral.serialize o).Emits b)) := by
  unfold EnvironmentGeneral.parse
  refine Post.bind (post_unsigned_int) fun a0 b0 h0 => ?_
  refine Post.bind (post_unsigned_byte) fun a1 b1 h1 => ?_
  refine Post.bind (post_unsigned_byte) fun a2 b2 h2 => ?_
  refine Post.bind (post_unsigned_byte) fun a3 b3 h3 => ?_
  refine Post.bind (post_unsigned_byte) fun a4 b4 h4 => ?_
  refine Post.last (post_unsigned_byte) fun a5 b5 h5 => ?_
  refine ⟨⟨⟨h0.1, h1.1, h2.1, ⟨a3, rfl, h3.1⟩, ⟨a4, rfl, h4.1⟩, h5.1⟩,
    ⟨⟨a3, rfl⟩, ⟨a4, rfl⟩, rfl⟩⟩, fun _ => ?_⟩
  exact W.Emits.bind (h0.2) <|
      W.Emits.bind (h1.2) <|
      W.Emits.bind (h2.2) <|
      W.Emits.bind (h3.2) <|
      W.Emits.bind (h4.2) <|
      h5.2

theorem GridAxis.rt (s o : GridAxis) : RT (GridAxis.serialize o) (GridAxis.parse s) (GridAxis.after s o) := by
  unfold GridAxis.serialize GridAxis.parse
  exact RT.bind (rt_double o.domainInitialXi) <|
    RT.bind (rt_double o.domainFinalXi) <|
    RT.bind (rt_unsigned_short o.domainPointsXi) <|
    RT.bind (rt_unsigned_byte o.interleafFactor) <|
    RT.bind (rt_unsigned_byte o.axisType) <|
    RT.bind (rt_unsigned_short o.numberOfPointsOnXiAxis) <|
    RT.last (rt_unsigned_short o.initialIndex)

theorem GridAxis.loc (s : GridAxis) : Local (GridAxis.parse s) := by
  unfold GridAxis.parse
  exact Local.bind (loc_double) fun _ =>
    Local.bind (loc_double) fun _ =>
    Local.bind (loc_unsigned_short) fun _ =>
    Local.bind (loc_unsigned_byte) fun _ =>
    Local.bind (loc_unsigned_byte) fun _ =>
    Local.bind (loc_unsigned_short) fun _ =>
    Local.bind (loc_unsigned_short) fun _ =>
    Local.pure _

theorem GridAxis.only (s : GridAxis) : OnlyStruct (GridAxis.parse s) := by
  unfold GridAxis.parse
  exact OnlyStruct.bind (only_double) fun _ =>
    OnlyStruct.bind (only_double) fun _ =>
    OnlyStruct.bind (only_unsigned_short) fun _ =>
    OnlyStruct.bind (only_unsigned_byte) fun _ =>
    OnlyStruct.bind (only_unsigned_byte) fun _ =>
    OnlyStruct.bind (only_unsigned_short) fun _ =>
    OnlyStruct.bind (only_unsigned_short) fun _ =>
    OnlyStruct.pure _

theorem GridAxis.sized (o : GridAxis) : Sized (GridAxis.serialize o) (GridAxis.wireSize o) := by
  unfold GridAxis.serialize
  refine Sized.of_eq (Sized.bind (sized_double o.domainInitialXi) <|
    Sized.bind (sized_double o.domainFinalXi) <|
    Sized.bind (sized_unsigned_short o.domainPointsXi) <|
    Sized.bind (sized_unsigned_byte o.interleafFactor) <|
    Sized.bind (sized_unsigned_byte o.axisType) <|
    Sized.bind (sized_unsigned_short o.numberOfPointsOnXiAxis) <|
    sized_unsigned_short o.initialIndex) ?_
  simp only [GridAxis.wireSize]; try omega

theorem GridAxis.ok_iff (o : GridAxis) : (GridAxis.serialize o).Ok ↔ GridAxis.WireOk o := by
  unfold GridAxis.serialize GridAxis.WireOk
  exact ok_bind_tl (ok_double) <|
    ok_bind_tl (ok_double) <|
    ok_bind_iff (ok_unsigned_short) <|
    ok_bind_iff (ok_unsigned_byte) <|
    ok_bind_iff (ok_unsigned_byte) <|
    ok_bind_iff (ok_unsigned_short) <|
    ok_unsigned_short

theorem GridAxis.after_canon {o : GridAxis} (h : GridAxis.Canon o) : GridAxis.after GridAxis.init o = o := by
  cases o
  exact (GridAxis.mk.injEq ..).mpr ⟨rfl,
    rfl,
    rfl,
    rfl,
    rfl,
    rfl,
    rfl⟩

theorem GridAxis.post : Post (GridAxis.parse GridAxis.init) (fun b o => (GridAxis.WireOk o ∧ GridAxis.Canon o) ∧ (GridAxis.NoNaN o → (GridAxis.serialize o).Emits b)) := by
  unfold GridAxis.parse
  refine Post.bind (post_double) fun a0 b0 h0 => ?_
  refine Post.bind (post_double) fun a1 b1 h1 => ?_
  refine Post.bind (post_unsigned_short) fun a2 b2 h2 => ?_
  refine Post.bind (post_unsigned_byte) fun a3 b3 h3 => ?_
  refine Post.bind (post_unsigned_byte) fun a4 b4 h4 => ?_
  refine Post.bind (post_unsigned_short) fun a5 b5 h5 => ?_
  refine Post.last (post_unsigned_short) fun a6 b6 h6 => ?_
  refine ⟨⟨⟨h2.1, h3.1, h4.1, h5.1, h6.1⟩,
    trivial⟩, fun _ => ?_⟩
  exact W.Emits.bind (h0) <|
      W.Emits.bind (h1) <|
      W.Emits.bind (h2.2) <|
      W.Emits.bind (h3.2) <|
      W.Emits.bind (h4.2) <|
      W.Emits.bind (h5.2) <|
      h6.2

theorem RecordSpecification.rt (s o : RecordSpecification) (hd : RecordSpecification.Decodable o) : RT (RecordSpecification.serialize o) (RecordSpecification.parse s) (RecordSpecification.after s o) := by
  have d0 := hd
  unfold RecordSpecification.serialize RecordSpecification.parse
  exact RT.bind (rt_unsigned_int ((o.recordSets.length : Int))) <|
    RT.last (rt_list_null d0)

theorem RecordSpecification.loc (s : RecordSpecification) : Local (RecordSpecification.parse s) := by
  unfold RecordSpecification.parse
  exact Local.bind (loc_unsigned_int) fun _ =>
    Local.bind (local_throw_times _ _) fun _ =>
    Local.pure _

theorem RecordSpecification.sized (o : RecordSpecification) : Sized (RecordSpecification.serialize o) (RecordSpecification.wireSize o) := by
  unfold RecordSpecification.serialize
  refine Sized.of_eq (Sized.bind (sized_unsigned_int _) <|
    Sized.forEach_const RecordSpecificationElement.sized) ?_
  simp only [RecordSpecification.wireSize]; try omega

theorem RecordSpecification.ok_iff (o : RecordSpecification) : (RecordSpecification.serialize o).Ok ↔ RecordSpecification.WireOk o := by
  unfold RecordSpecification.serialize RecordSpecification.WireOk
  exact ok_bind_iff (ok_unsigned_int) <|
    ok_list RecordSpecificationElement.ok_iff

theorem RecordSpecification.after_canon {o : RecordSpecification} (h : RecordSpecification.Canon o) : RecordSpecification.after RecordSpecification.init o = o := by
  have h_recordSets := h
  cases o; exact (RecordSpecification.mk.injEq ..).mpr (h_recordSets.symm)

theorem RecordSpecification.post : Post (RecordSpecification.parse RecordSpecification.init) (fun b o => (RecordSpecification.WireOk o ∧ RecordSpecification.Canon o) ∧ (RecordSpecification.NoNaN o → (RecordSpecification.serialize o).Emits b)) := by
  unfold RecordSpecification.parse
  refine Post.bind (post_unsigned_int) fun a0 b0 h0 => ?_
  refine Post.last (Post.times_throw _ _) fun a1 b1 h1 => ?_
  obtain rfl : a0 = 0 := zero_eq h0.1.1 h1.1
  obtain ⟨-, rfl, rfl⟩ := h1
  refine ⟨⟨⟨h0.1, (fun _ hx => nomatch hx)⟩,
    rfl⟩, fun _ => ?_⟩
  exact W.Emits.bind (h0.2) <|
      W.emits_pure ()

theorem EventIdentifierLiveEntity.rt (s o : EventIdentifierLiveEntity) : RT (EventIdentifierLiveEntity.serialize o) (EventIdentifierLiveEntity.parse s) (EventIdentifierLiveEntity.after s o) := by
  unfold EventIdentifierLiveEntity.serialize EventIdentifierLiveEntity.parse
  exact RT.bind (rt_unsigned_byte o.siteNumber) <|
    RT.bind (rt_unsigned_byte o.applicationNumber) <|
    RT.last (rt_unsigned_short o.eventNumber)

theorem EventIdentifierLiveEntity.loc (s : EventIdentifierLiveEntity) : Local (EventIdentifierLiveEntity.parse s) := by
  unfold EventIdentifierLiveEntity.parse
  exact Local.bind (loc_unsigned_byte) fun _ =>
    Local.bind (loc_unsigned_byte) fun _ =>
    Local.bind (loc_unsigned_short) fun _ =>
    Local.pure _

theorem EventIdentifierLiveEntity.only (s : EventIdentifierLiveEntity) : OnlyStruct (EventIdentifierLiveEntity.parse s) := by
  unfold EventIdentifierLiveEntity.parse
  exact OnlyStruct.bind (only_unsigned_byte) fun _ =>
    OnlyStruct.bind (only_unsigned_byte) fun _ =>
    OnlyStruct.bind (only_unsigned_short) fun _ =>
    OnlyStruct.pure _

theorem EventIdentifierLiveEntity.sized (o : EventIdentifierLiveEntity) : Sized (EventIdentifierLiveEntity.serialize o) (EventIdentifierLiveEntity.wireSize o) := by
  unfold EventIdentifierLiveEntity.serialize
  refine Sized.of_eq (Sized.bind (sized_unsigned_byte o.siteNumber) <|
    Sized.bind (sized_unsigned_byte o.applicationNumber) <|
    sized_unsigned_short o.eventNumber) ?_
  simp only [EventIdentifierLiveEntity.wireSize]; try omega

theorem EventIdentifierLiveEntity.ok_iff (o : EventIdentifierLiveEntity) : (EventIdentifierLiveEntity.serialize o).Ok ↔ EventIdentifierLiveEntity.WireOk o := by
  unfold EventIdentifierLiveEntity.serialize EventIdentifierLiveEntity.WireOk
  exact ok_bind_iff (ok_unsigned_byte) <|
    ok_bind_iff (ok_unsigned_byte) <|
    ok_unsigned_short

theorem EventIdentifierLiveEntity.after_canon {o : EventIdentifierLiveEntity} (h : EventIdentifierLiveEntity.Canon o) : EventIdentifierLiveEntity.after EventIdentifierLiveEntity.init o = o := by
  cases o
  exact (EventIdentifierLiveEntity.mk.injEq ..).mpr ⟨rfl,
    rfl,
    rfl⟩

theorem EventIdentifierLiveEntity.post : Post (EventIdentifierLiveEntity.parse EventIdentifierLiveEntity.init) (fun b o => (EventIdentifierLiveEntity.WireOk o ∧ EventIdentifierLiveEntity.Canon o) ∧ (EventIdentifierLiveEntity.NoNaN o → (EventIdentifierLiveEntity.serialize o).Emits b)) := by
  unfold EventIdentifierLiveEntity.parse
  refine Post.bind (post_unsigned_byte) fun a0 b0 h0 => ?_
  refine Post.bind (post_unsigned_byte) fun a1 b1 h1 => ?_
  refine Post.last (post_unsigned_short) fun a2 b2 h2 => ?_
  refine ⟨⟨⟨h0.1, h1.1, h2.1⟩,
    trivial⟩, fun _ => ?_⟩
  exact W.Emits.bind (h0.2) <|
      W.Emits.bind (h1.2) <|
      h2.2

theorem ExpendableDescriptor.rt (s o : ExpendableDescriptor) : RT (ExpendableDescriptor.serialize o) (ExpendableDescriptor.parse s) (ExpendableDescriptor.after s o) := by
  unfold ExpendableDescriptor.serialize ExpendableDescriptor.parse
  exact RT.bind (EntityType.rt s.expendableType o.expendableType) <|
    RT.last (rt_long o.padding)

theorem ExpendableDescriptor.loc (s : ExpendableDescriptor) : Local (ExpendableDescriptor.parse s) := by
  unfold ExpendableDescriptor.parse
  exact Local.bind (EntityType.loc _) fun _ =>
    Local.bind (loc_long) fun _ =>
    Local.pure _

theorem ExpendableDescriptor.only (s : ExpendableDescriptor) : OnlyStruct (ExpendableDescriptor.parse s) := by
  unfold ExpendableDescriptor.parse
  exact OnlyStruct.bind (EntityType.only _) fun _ =>
    OnlyStruct.bind (only_long) fun _ =>
    OnlyStruct.pure _

theorem ExpendableDescriptor.sized (o : ExpendableDescriptor) : Sized (ExpendableDescriptor.serialize o) (ExpendableDescriptor.wireSize o) := by
  unfold ExpendableDescriptor.serialize
  refine Sized.of_eq (Sized.bind (EntityType.sized o.expendableType) <|
    sized_long o.padding) ?_
  simp only [ExpendableDescriptor.wireSize, EntityType.wireSize]; try omega

theorem ExpendableDescriptor.ok_iff (o : ExpendableDescriptor) : (ExpendableDescriptor.serialize o).Ok ↔ ExpendableDescriptor.WireOk o := by
  unfold ExpendableDescriptor.serialize ExpendableDescriptor.WireOk
  exact ok_bind_iff (EntityType.ok_iff o.expendableType) <|
    ok_long

theorem ExpendableDescriptor.after_canon {o : ExpendableDescriptor} (h : ExpendableDescriptor.Canon o) : ExpendableDescriptor.after ExpendableDescriptor.init o = o := by
  cases o
  exact (ExpendableDescriptor.mk.injEq ..).mpr ⟨EntityType.after_canon trivial,
    rfl⟩

theorem ExpendableDescriptor.post : Post (ExpendableDescriptor.parse ExpendableDescriptor.init) (fun b o => (ExpendableDescriptor.WireOk o ∧ ExpendableDescriptor.Canon o) ∧ (ExpendableDescriptor.NoNaN o → (ExpendableDescriptor.serialize o).Emits b)) := by
  unfold ExpendableDescriptor.parse
  refine Post.bind (EntityType.post) fun a0 b0 h0 => ?_
  refine Post.last (post_long) fun a1 b1 h1 => ?_
  refine ⟨⟨⟨h0.1.1, h1.1⟩,
    trivial⟩, fun _ => ?_⟩
  exact W.Emits.bind (h0.2 trivial) <|
      h1.2

theorem PropulsionSystemData.rt (s o : PropulsionSystemData) : RT (PropulsionSystemData.serialize o) (PropulsionSystemData.parse s) (PropulsionSystemData.after s o) := by
  unfold PropulsionSystemData.serialize PropulsionSystemData.parse
  exact RT.bind (rt_float o.powerSetting) <|
    RT.last (rt_float o.engineRpm)

theorem PropulsionSystemData.loc (s : PropulsionSystemData) : Local (PropulsionSystemData.parse s) := by
  unfold PropulsionSystemData.parse
  exact Local.bind (loc_float) fun _ =>
    Local.bind (loc_float) fun _ =>
    Local.pure _

theorem PropulsionSystemData.only (s : PropulsionSystemData) : OnlyStruct (PropulsionSystemData.parse s) := by
  unfold PropulsionSystemData.parse
  exact OnlyStruct.bind (only_float) fun _ =>
    OnlyStruct.bind (only_float) fun _ =>
    OnlyStruct.pure _

theorem PropulsionSystemData.sized (o : PropulsionSystemData) : Sized (PropulsionSystemData.serialize o) (PropulsionSystemData.wireSize o) := by
  unfold PropulsionSystemData.serialize
  refine Sized.of_eq (Sized.bind (sized_float o.powerSetting) <|
    sized_float o.engineRpm) ?_
  simp only [PropulsionSystemData.wireSize]; try omega

theorem PropulsionSystemData.ok_iff (o : PropulsionSystemData) : (PropulsionSystemData.serialize o).Ok ↔ PropulsionSystemData.WireOk o := by
  unfold PropulsionSystemData.serialize PropulsionSystemData.WireOk
  exact ok_bind_iff (ok_float) <|
    ok_float

theorem PropulsionSystemData.after_canon {o : PropulsionSystemData} (h : PropulsionSystemData.Canon o) : PropulsionSystemData.after PropulsionSystemData.init o = o := by
  obtain ⟨h_powerSetting, h_engineRpm⟩ := h
  cases o
  exact (PropulsionSystemData.mk.injEq ..).mpr ⟨h_powerSetting,
    h_engineRpm⟩

theorem PropulsionSystemData.post : Post (PropulsionSystemData.parse PropulsionSystemData.init) (fun b o => (PropulsionSystemData.WireOk o ∧ PropulsionSystemData.Canon o) ∧ (PropulsionSystemData.NoNaN o → (PropulsionSystemData.serialize o).Emits b)) := by
  unfold PropulsionSystemData.parse
  refine Post.bind (post_float) fun a0 b0 h0 => ?_
  refine Post.last (post_float) fun a1 b1 h1 => ?_
  refine ⟨⟨⟨h0.1.1, h1.1.1⟩,
    ⟨h0.1.2, h1.1.2⟩⟩, fun hn => ?_⟩
  obtain ⟨n0, n1⟩ := hn
  exact W.Emits.bind (h0.2 n0) <|
      h1.2 n1

theorem LiveEntityIdentifier.rt (s o : LiveEntityIdentifier) : RT (LiveEntityIdentifier.serialize o) (LiveEntityIdentifier.parse s) (LiveEntityIdentifier.after s o) := by
  unfold LiveEntityIdentifier.serialize LiveEntityIdentifier.parse
  exact RT.bind (LiveSimulationAddress.rt s.liveSimulationAddress o.liveSimulationAddress) <|
    RT.last (rt_unsigned_short o.entityNumber)

theorem LiveEntityIdentifier.loc (s : LiveEntityIdentifier) : Local (LiveEntityIdentifier.parse s) := by
  unfold LiveEntityIdentifier.parse
  exact Local.bind (LiveSimulationAddress.loc _) fun _ =>
    Local.bind (loc_unsigned_short) fun _ =>
    Local.pure _

theorem LiveEntityIdentifier.only (s : LiveEntityIdentifier) : OnlyStruct (LiveEntityIdentifier.parse s) := by
  unfold LiveEntityIdentifier.parse
  exact OnlyStruct.bind (LiveSimulationAddress.only _) fun _ =>
    OnlyStruct.bind (only_unsigned_short) fun _ =>
    OnlyStruct.pure _

theorem LiveEntityIdentifier.sized (o : LiveEntityIdentifier) : Sized (LiveEntityIdentifier.serialize o) (LiveEntityIdentifier.wireSize o) := by
  unfold LiveEntityIdentifier.serialize
  refine Sized.of_eq (Sized.bind (LiveSimulationAddress.sized o.liveSimulationAddress) <|
    sized_unsigned_short o.entityNumber) ?_
  simp only [LiveEntityIdentifier.wireSize, LiveSimulationAddress.wireSize]; try omega

theorem LiveEntityIdentifier.ok_iff (o : LiveEntityIdentifier) : (LiveEntityIdentifier.serialize o).Ok ↔ LiveEntityIdentifier.WireOk o := by
  unfold LiveEntityIdentifier.serialize LiveEntityIdentifier.WireOk
  exact ok_bind_iff (LiveSimulationAddress.ok_iff o.liveSimulationAddress) <|
    ok_unsigned_short

theorem LiveEntityIdentifier.after_canon {o : LiveEntityIdentifier} (h : LiveEntityIdentifier.Canon o) : LiveEntityIdentifier.after LiveEntityIdentifier.init o = o := by
  cases o
  exact (LiveEntityIdentifier.mk.injEq ..).mpr ⟨LiveSimulationAddress.after_canon trivial,
    rfl⟩

theorem LiveEntityIdentifier.post : Post (LiveEntityIdentifier.parse LiveEntityIdentifier.init) (fun b o => (LiveEntityIdentifier.WireOk o ∧ LiveEntityIdentifier.Canon o) ∧ (LiveEntityIdentifier.NoNaN o → (LiveEntityIdentifier.serialize o).Emits b)) := by
  unfold LiveEntityIdentifier.parse
  refine Post.bind (LiveSimulationAddress.post) fun a0 b0 h0 => ?_
  refine Post.last (post_unsigned_short) fun a1 b1 h1 => ?_
  refine ⟨⟨⟨h0.1.1, h1.1⟩,
    trivial⟩, fun _ => ?_⟩
  exact W.Emits.bind (h0.2 trivial) <|
      h1.2

theorem SeparationVP.rt (s o : SeparationVP) : RT (SeparationVP.serialize o) (SeparationVP.parse s) (SeparationVP.after s o) := by
  unfold SeparationVP.serialize SeparationVP.parse
  exact RT.bind (rt_unsigned_byte o.recordType) <|
    RT.bind (rt_unsigned_byte o.reasonForSeparation) <|
    RT.bind (rt_unsigned_byte o.preEntityIndicator) <|
    RT.bind (rt_unsigned_byte o.padding1) <|
    RT.bind (EntityIdentifier.rt s.parentEntityID o.parentEntityID) <|
    RT.bind (rt_unsigned_short o.padding2) <|
    RT.last (rt_using_int rt_unsigned_int o.stationLocation)

theorem SeparationVP.loc (s : SeparationVP) : Local (SeparationVP.parse s) := by
  unfold SeparationVP.parse
  exact Local.bind (loc_unsigned_byte) fun _ =>
    Local.bind (loc_unsigned_byte) fun _ =>
    Local.bind (loc_unsigned_byte) fun _ =>
    Local.bind (loc_unsigned_byte) fun _ =>
    Local.bind (EntityIdentifier.loc _) fun _ =>
    Local.bind (loc_unsigned_short) fun _ =>
    Local.bind (loc_unsigned_int) fun _ =>
    Local.pure _

theorem SeparationVP.only (s : SeparationVP) : OnlyStruct (SeparationVP.parse s) := by
  unfold SeparationVP.parse
  exact OnlyStruct.bind (only_unsigned_byte) fun _ =>
    OnlyStruct.bind (only_unsigned_byte) fun _ =>
    OnlyStruct.bind (only_unsigned_byte) fun _ =>
    OnlyStruct.bind (only_unsigned_byte) fun _ =>
    OnlyStruct.bind (EntityIdentifier.only _) fun _ =>
    OnlyStruct.bind (only_unsigned_short) fun _ =>
    OnlyStruct.bind (only_unsigned_int) fun _ =>
    OnlyStruct.pure _

theorem SeparationVP.sized (o : SeparationVP) : Sized (SeparationVP.serialize o) (SeparationVP.wireSize o) := by
  unfold SeparationVP.serialize
  refine Sized.of_eq (Sized.bind (sized_unsigned_byte o.recordType) <|
    Sized.bind (sized_unsigned_byte o.reasonForSeparation) <|
    Sized.bind (sized_unsigned_byte o.preEntityIndicator) <|
    Sized.bind (sized_unsigned_byte o.padding1) <|
    Sized.bind (EntityIdentifier.sized o.parentEntityID) <|
    Sized.bind (sized_unsigned_short o.padding2) <|
    sized_using sized_unsigned_int) ?_
  simp only [SeparationVP.wireSize, EntityIdentifier.wireSize, SimulationAddress.wireSize]; try omega

theorem SeparationVP.ok_iff (o : SeparationVP) : (SeparationVP.serialize o).Ok ↔ SeparationVP.WireOk o := by
  unfold SeparationVP.serialize SeparationVP.WireOk
  exact ok_bind_iff (ok_unsigned_byte) <|
    ok_bind_iff (ok_unsigned_byte) <|
    ok_bind_iff (ok_unsigned_byte) <|
    ok_bind_iff (ok_unsigned_byte) <|
    ok_bind_iff (EntityIdentifier.ok_iff o.parentEntityID) <|
    ok_bind_iff (ok_unsigned_short) <|
    ok_using_int ok_unsigned_int

theorem SeparationVP.after_canon {o : SeparationVP} (h : SeparationVP.Canon o) : SeparationVP.after SeparationVP.init o = o := by
  have h_stationLocation := h
  cases o
  exact (SeparationVP.mk.injEq ..).mpr ⟨rfl,
    rfl,
    rfl,
    rfl,
    EntityIdentifier.after_canon trivial,
    rfl,
    canon_use_int h_stationLocation⟩

theorem SeparationVP.post : Post (SeparationVP.parse SeparationVP.init) (fun b o => (SeparationVP.WireOk o ∧ SeparationVP.Canon o) ∧ (SeparationVP.NoNaN o → (SeparationVP.serialize o).Emits b)) := by
  unfold SeparationVP.parse
  refine Post.bind (post_unsigned_byte) fun a0 b0 h0 => ?_
  refine Post.bind (post_unsigned_byte) fun a1 b1 h1 => ?_
  refine Post.bind (post_unsigned_byte) fun a2 b2 h2 => ?_
  refine Post.bind (post_unsigned_byte) fun a3 b3 h3 => ?_
  refine Post.bind (EntityIdentifier.post) fun a4 b4 h4 => ?_
  refine Post.bind (post_unsigned_short) fun a5 b5 h5 => ?_
  refine Post.last (post_unsigned_int) fun a6 b6 h6 => ?_
  refine ⟨⟨⟨h0.1, h1.1, h2.1, h3.1, h4.1.1, h5.1, ⟨a6, rfl, h6.1⟩⟩,
    ⟨a6, rfl⟩⟩, fun _ => ?_⟩
  exact W.Emits.bind (h0.2) <|
      W.Emits.bind (h1.2) <|
      W.Emits.bind (h2.2) <|
      W.Emits.bind (h3.2) <|
      W.Emits.bind (h4.2 trivial) <|
      W.Emits.bind (h5.2) <|
      h6.2

theorem EmitterSystem.rt (s o : EmitterSystem) : RT (EmitterSystem.serialize o) (EmitterSystem.parse s) (EmitterSystem.after s o) := by
  unfold EmitterSystem.serialize EmitterSystem.parse
  exact RT.bind (rt_unsigned_short o.emitterName) <|
    RT.bind (rt_unsigned_byte o.emitterFunction) <|
    RT.last (rt_unsigned_byte o.emitterIDNumber)

theorem EmitterSystem.loc (s : EmitterSystem) : Local (EmitterSystem.parse s) := by
  unfold EmitterSystem.parse
  exact Local.bind (loc_unsigned_short) fun _ =>
    Local.bind (loc_unsigned_byte) fun _ =>
    Local.bind (loc_unsigned_byte) fun _ =>
    Local.pure _

theorem EmitterSystem.only (s : EmitterSystem) : OnlyStruct (EmitterSystem.parse s) := by
  unfold EmitterSystem.parse
  exact OnlyStruct.bind (only_unsigned_short) fun _ =>
    OnlyStruct.bind (only_unsigned_byte) fun _ =>
    OnlyStruct.bind (only_unsigned_byte) fun _ =>
    OnlyStruct.pure _

theorem EmitterSystem.sized (o : EmitterSystem) : Sized (EmitterSystem.serialize o) (EmitterSystem.wireSize o) := by
  unfold EmitterSystem.serialize
  refine Sized.of_eq (Sized.bind (sized_unsigned_short o.emitterName) <|
    Sized.bind (sized_unsigned_byte o.emitterFunction) <|
    sized_unsigned_byte o.emitterIDNumber) ?_
  simp only [EmitterSystem.wireSize]; try omega

theorem EmitterSystem.ok_iff (o : EmitterSystem) : (EmitterSystem.serialize o).Ok ↔ EmitterSystem.WireOk o := by
  unfold EmitterSystem.serialize EmitterSystem.WireOk
  exact ok_bind_iff (ok_unsigned_short) <|
    ok_bind_iff (ok_unsigned_byte) <|
    ok_unsigned_byte

theorem EmitterSystem.after_canon {o : EmitterSystem} (h : EmitterSystem.Canon o) : EmitterSystem.after EmitterSystem.init o = o := by
  cases o
  exact (EmitterSystem.mk.injEq ..).mpr ⟨rfl,
    rfl,
    rfl⟩

theorem EmitterSystem.post : Post (EmitterSystem.parse EmitterSystem.init) (fun b o => (EmitterSystem.WireOk o ∧ EmitterSystem.Canon o) ∧ (EmitterSystem.NoNaN o → (EmitterSystem.serialize o).Emits b)) := by
  unfold EmitterSystem.parse
  refine Post.bind (post_unsigned_short) fun a0 b0 h0 => ?_
  refine Post.bind (post_unsigned_byte) fun a1 b1 h1 => ?_
  refine Post.last (post_unsigned_byte) fun a2 b2 h2 => ?_
  refine ⟨⟨⟨h0.1, h1.1, h2.1⟩,
    trivial⟩, fun _ => ?_⟩
  exact W.Emits.bind (h0.2) <|
      W.Emits.bind (h1.2) <|
      h2.2

theorem PduStatus.rt (s o : PduStatus) : RT (PduStatus.serialize o) (PduStatus.parse s) (PduStatus.after s o) := by
  unfold PduStatus.serialize PduStatus.parse
  exact RT.last (rt_unsigned_byte o.pduStatus)

theorem PduStatus.loc (s : PduStatus) : Local (PduStatus.parse s) := by
  unfold PduStatus.parse
  exact Local.bind (loc_unsigned_byte) fun _ =>
    Local.pure _

theorem PduStatus.only (s : PduStatus) : OnlyStruct (PduStatus.parse s) := by
  unfold PduStatus.parse
  exact OnlyStruct.bind (only_unsigned_byte) fun _ =>
    OnlyStruct.pure _

theorem PduStatus.sized (o : PduStatus) : Sized (PduStatus.serialize o) (PduStatus.wireSize o) := by
  unfold PduStatus.serialize
  exact (sized_unsigned_byte o.pduStatus).of_eq (by simp only [PduStatus.wireSize]; try omega)

theorem PduStatus.ok_iff (o : PduStatus) : (PduStatus.serialize o).Ok ↔ PduStatus.WireOk o := by
  unfold PduStatus.serialize PduStatus.WireOk
  exact ok_unsigned_byte

theorem PduStatus.after_canon {o : PduStatus} (h : PduStatus.Canon o) : PduStatus.after PduStatus.init o = o := by
  cases o; exact (PduStatus.mk.injEq ..).mpr (rfl)

theorem PduStatus.post : Post (PduStatus.parse PduStatus.init) (fun b o => (PduStatus.WireOk o ∧ PduStatus.Canon o) ∧ (PduStatus.NoNaN o → (PduStatus.serialize o).Emits b)) := by
  unfold PduStatus.parse
  refine Post.last (post_unsigned_byte) fun a0 b0 h0 => ?_
  refine ⟨⟨h0.1,
    trivial⟩, fun _ => ?_⟩
  exact h0.2

theorem EmissionSystemBeamRecord.rt (s o : EmissionSystemBeamRecord) : RT (EmissionSystemBeamRecord.serialize o) (EmissionSystemBeamRecord.parse s) (EmissionSystemBeamRecord.after s o) := by
  unfold EmissionSystemBeamRecord.serialize EmissionSystemBeamRecord.parse
  exact RT.bind (rt_unsigned_byte o.beamDataLength) <|
    RT.bind (rt_unsigned_byte o.beamIDNumber) <|
    RT.bind (rt_unsigned_short o.beamParameterIndex) <|
    RT.bind (EEFundamentalParameterData.rt s.fundamentalParameterData o.fundamentalParameterData) <|
    RT.bind (rt_unsigned_byte o.beamFunction) <|
    RT.bind (rt_unsigned_byte ((o.trackJamRecords.length : Int))) <|
    RT.bind (rt_unsigned_byte o.highDensityTrackJam) <|
    RT.bind (BeamStatus.rt s.beamStatus o.beamStatus) <|
    RT.bind (rt_unsigned_int o.jammingModeSequence) <|
    RT.last (rt_list fun x _ => TrackJamData.rt _ x)

theorem EmissionSystemBeamRecord.loc (s : EmissionSystemBeamRecord) : Local (EmissionSystemBeamRecord.parse s) := by
  unfold EmissionSystemBeamRecord.parse
  exact Local.bind (loc_unsigned_byte) fun _ =>
    Local.bind (loc_unsigned_byte) fun _ =>
    Local.bind (loc_unsigned_short) fun _ =>
    Local.bind (EEFundamentalParameterData.loc _) fun _ =>
    Local.bind (loc_unsigned_byte) fun _ =>
    Local.bind (loc_unsigned_byte) fun _ =>
    Local.bind (loc_unsigned_byte) fun _ =>
    Local.bind (BeamStatus.loc _) fun _ =>
    Local.bind (loc_unsigned_int) fun _ =>
    Local.bind (Local.times (TrackJamData.loc _) _) fun _ =>
    Local.pure _

theorem EmissionSystemBeamRecord.only (s : EmissionSystemBeamRecord) : OnlyStruct (EmissionSystemBeamRecord.parse s) := by
  unfold EmissionSystemBeamRecord.parse
  exact OnlyStruct.bind (only_unsigned_byte) fun _ =>
    OnlyStruct.bind (only_unsigned_byte) fun _ =>
    OnlyStruct.bind (only_unsigned_short) fun _ =>
    OnlyStruct.bind (EEFundamentalParameterData.only _) fun _ =>
    OnlyStruct.bind (only_unsigned_byte) fun _ =>
    OnlyStruct.bind (only_unsigned_byte) fun _ =>
    OnlyStruct.bind (only_unsigned_byte) fun _ =>
    OnlyStruct.bind (BeamStatus.only _) fun _ =>
    OnlyStruct.bind (only_unsigned_int) fun _ =>
    OnlyStruct.bind (OnlyStruct.times (TrackJamData.only _) _) fun _ =>
    OnlyStruct.pure _

theorem EmissionSystemBeamRecord.sized (o : EmissionSystemBeamRecord) : Sized (EmissionSystemBeamRecord.serialize o) (EmissionSystemBeamRecord.wireSize o) := by
  unfold EmissionSystemBeamRecord.serialize
  refine Sized.of_eq (Sized.bind (sized_unsigned_byte o.beamDataLength) <|
    Sized.bind (sized_unsigned_byte o.beamIDNumber) <|
    Sized.bind (sized_unsigned_short o.beamParameterIndex) <|
    Sized.bind (EEFundamentalParameterData.sized o.fundamentalParameterData) <|
    Sized.bind (sized_unsigned_byte o.beamFunction) <|
    Sized.bind (sized_unsigned_byte _) <|
    Sized.bind (sized_unsigned_byte o.highDensityTrackJam) <|
    Sized.bind (BeamStatus.sized o.beamStatus) <|
    Sized.bind (sized_unsigned_int o.jammingModeSequence) <|
    Sized.forEach_const TrackJamData.sized) ?_
  simp only [EmissionSystemBeamRecord.wireSize, EEFundamentalParameterData.wireSize, BeamStatus.wireSize]; try omega

theorem EmissionSystemBeamRecord.ok_iff (o : EmissionSystemBeamRecord) : (EmissionSystemBeamRecord.serialize o).Ok ↔ EmissionSystemBeamRecord.WireOk o := by
  unfold EmissionSystemBeamRecord.serialize EmissionSystemBeamRecord.WireOk
  exact ok_bind_iff (ok_unsigned_byte) <|
    ok_bind_iff (ok_unsigned_byte) <|
    ok_bind_iff (ok_unsigned_short) <|
    ok_bind_iff (EEFundamentalParameterData.ok_iff o.fundamentalParameterData) <|
    ok_bind_iff (ok_unsigned_byte) <|
    ok_bind_iff (ok_unsigned_byte) <|
    ok_bind_iff (ok_unsigned_byte) <|
    ok_bind_tl (BeamStatus.ok_iff o.beamStatus) <|
    ok_bind_iff (ok_unsigned_int) <|
    ok_list TrackJamData.ok_iff

theorem EmissionSystemBeamRecord.after_canon {o : EmissionSystemBeamRecord} (h : EmissionSystemBeamRecord.Canon o) : EmissionSystemBeamRecord.after EmissionSystemBeamRecord.init o = o := by
  obtain ⟨h_fundamentalParameterData, h_beamStatus⟩ := h
  cases o
  exact (EmissionSystemBeamRecord.mk.injEq ..).mpr ⟨rfl,
    rfl,
    rfl,
    EEFundamentalParameterData.after_canon h_fundamentalParameterData,
    rfl,
    rfl,
    BeamStatus.after_canon h_beamStatus,
    rfl,
    canon_list fun x hx => TrackJamData.after_canon trivial⟩

theorem EmissionSystemBeamRecord.post : Post (EmissionSystemBeamRecord.parse EmissionSystemBeamRecord.init) (fun _ o => EmissionSystemBeamRecord.WireOk o ∧ EmissionSystemBeamRecord.Canon o) := by
  unfold EmissionSystemBeamRecord.parse
  refine Post.bind (post_unsigned_byte) fun a0 b0 h0 => ?_
  refine Post.bind (post_unsigned_byte) fun a1 b1 h1 => ?_
  refine Post.bind (post_unsigned_short) fun a2 b2 h2 => ?_
  refine Post.bind (EEFundamentalParameterData.post) fun a3 b3 h3 => ?_
  refine Post.bind (post_unsigned_byte) fun a4 b4 h4 => ?_
  refine Post.bind (post_unsigned_byte) fun a5 b5 h5 => ?_
  refine Post.bind (post_unsigned_byte) fun a6 b6 h6 => ?_
  refine Post.bind (BeamStatus.post) fun a7 b7 h7 => ?_
  refine Post.bind (post_unsigned_int) fun a8 b8 h8 => ?_
  refine Post.last (Post.times TrackJamData.post _) fun a9 b9 h9 => ?_
  obtain rfl : a5 = (a9.length : Int) := count_eq h5.1.1 h9.1
  exact ⟨⟨h0.1, h1.1, h2.1, h3.1.1, h4.1, h5.1, h6.1, h8.1, fun x hx => (h9.2.1 x hx).1⟩,
    ⟨h3.1.2, h7.2⟩⟩

theorem EmissionSystemRecord.rt (s o : EmissionSystemRecord) : RT (EmissionSystemRecord.serialize o) (EmissionSystemRecord.parse s) (EmissionSystemRecord.after s o) := by
  unfold EmissionSystemRecord.serialize EmissionSystemRecord.parse
  exact RT.bind (rt_unsigned_byte o.systemDataLength) <|
    RT.bind (rt_unsigned_byte ((o.beamRecords.length : Int))) <|
    RT.bind (rt_unsigned_short 0) <|
    RT.bind (EmitterSystem.rt s.emitterSystem o.emitterSystem) <|
    RT.bind (Vector3Float.rt s.location o.location) <|
    RT.last (rt_list fun x _ => EmissionSystemBeamRecord.rt _ x)

theorem EmissionSystemRecord.loc (s : EmissionSystemRecord) : Local (EmissionSystemRecord.parse s) := by
  unfold EmissionSystemRecord.parse
  exact Local.bind (loc_unsigned_byte) fun _ =>
    Local.bind (loc_unsigned_byte) fun _ =>
    Local.bind (loc_unsigned_short) fun _ =>
    Local.bind (EmitterSystem.loc _) fun _ =>
    Local.bind (Vector3Float.loc _) fun _ =>
    Local.bind (Local.times (EmissionSystemBeamRecord.loc _) _) fun _ =>
    Local.pure _

theorem EmissionSystemRecord.only (s : EmissionSystemRecord) : OnlyStruct (EmissionSystemRecord.parse s) := by
  unfold EmissionSystemRecord.parse
  exact OnlyStruct.bind (only_unsigned_byte) fun _ =>
    OnlyStruct.bind (only_unsigned_byte) fun _ =>
    OnlyStruct.bind (only_unsigned_short) fun _ =>
    OnlyStruct.bind (EmitterSystem.only _) fun _ =>
    OnlyStruct.bind (Vector3Float.only _) fun _ =>
    OnlyStruct.bind (OnlyStruct.times (EmissionSystemBeamRecord.only _) _) fun _ =>
    OnlyStruct.pure _

theorem EmissionSystemRecord.sized (o : EmissionSystemRecord) : Sized (EmissionSystemRecord.serialize o) (EmissionSystemRecord.wireSize o) := by
  unfold EmissionSystemRecord.serialize
  refine Sized.of_eq (Sized.bind (sized_unsigned_byte o.systemDataLength) <|
    Sized.bind (sized_unsigned_byte _) <|
    Sized.bind (sized_unsigned_short 0) <|
    Sized.bind (EmitterSystem.sized o.emitterSystem) <|
    Sized.bind (Vector3Float.sized o.location) <|
    Sized.forEach EmissionSystemBeamRecord.sized) ?_
  simp only [EmissionSystemRecord.wireSize, EmitterSystem.wireSize, Vector3Float.wireSize]; try omega

theorem EmissionSystemRecord.ok_iff (o : EmissionSystemRecord) : (EmissionSystemRecord.serialize o).Ok ↔ EmissionSystemRecord.WireOk o := by
  unfold EmissionSystemRecord.serialize EmissionSystemRecord.WireOk
  exact ok_bind_iff (ok_unsigned_byte) <|
    ok_bind_iff (ok_unsigned_byte) <|
    ok_bind_tl (ok_unsigned_short_zero) <|
    ok_bind_iff (EmitterSystem.ok_iff o.emitterSystem) <|
    ok_bind_iff (Vector3Float.ok_iff o.location) <|
    ok_list EmissionSystemBeamRecord.ok_iff

theorem EmissionSystemRecord.after_canon {o : EmissionSystemRecord} (h : EmissionSystemRecord.Canon o) : EmissionSystemRecord.after EmissionSystemRecord.init o = o := by
  obtain ⟨h_location, h_beamRecords, h_paddingForEmissionsPdu⟩ := h
  cases o
  exact (EmissionSystemRecord.mk.injEq ..).mpr ⟨rfl,
    h_paddingForEmissionsPdu.symm,
    EmitterSystem.after_canon trivial,
    Vector3Float.after_canon h_location,
    canon_list fun x hx => EmissionSystemBeamRecord.after_canon (h_beamRecords x hx)⟩

theorem EmissionSystemRecord.post : Post (EmissionSystemRecord.parse EmissionSystemRecord.init) (fun _ o => EmissionSystemRecord.WireOk o ∧ EmissionSystemRecord.Canon o) := by
  unfold EmissionSystemRecord.parse
  refine Post.bind (post_unsigned_byte) fun a0 b0 h0 => ?_
  refine Post.bind (post_unsigned_byte) fun a1 b1 h1 => ?_
  refine Post.bind (post_unsigned_short) fun a2 b2 h2 => ?_
  refine Post.bind (EmitterSystem.post) fun a3 b3 h3 => ?_
  refine Post.bind (Vector3Float.post) fun a4 b4 h4 => ?_
  refine Post.last (Post.times' EmissionSystemBeamRecord.post _) fun a5 b5 h5 => ?_
  obtain rfl : a1 = (a5.length : Int) := count_eq h1.1.1 h5.1
  exact ⟨⟨h0.1, h1.1, h3.1.1, h4.1.1, fun x hx => (h5.2 x hx).1⟩,
    ⟨h4.1.2, fun x hx => (h5.2 x hx).2, rfl⟩⟩

end Dis
