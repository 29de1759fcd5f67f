import Verif.Spec.Records4
import Verif.Proof.Records3

/-!
# Proofs for: Records of `opendis/dis7.py`, part 4

Generated by `tools/genproof.py`.
-/

set_option linter.unusedVariables false
set_option linter.unusedSimpArgs false

namespace Dis

theorem LaunchedMunitionRecord.rt (s o : LaunchedMunitionRecord) : RT (LaunchedMunitionRecord.serialize o) (LaunchedMunitionRecord.parse s) (LaunchedMunitionRecord.after s o) := by
  unfold LaunchedMunitionRecord.serialize LaunchedMunitionRecord.parse
  exact RT.bind (EventIdentifier.rt s.fireEventID o.fireEventID) <|
    RT.bind (rt_unsigned_short o.padding) <|
    RT.bind (EventIdentifier.rt s.firingEntityID o.firingEntityID) <|
    RT.bind (rt_unsigned_short o.padding2) <|
    RT.bind (EventIdentifier.rt s.targetEntityID o.targetEntityID) <|
    RT.bind (rt_unsigned_short o.padding3) <|
    RT.last (WorldCoordinates.rt s.targetLocation o.targetLocation)

theorem LaunchedMunitionRecord.loc (s : LaunchedMunitionRecord) : Local (LaunchedMunitionRecord.parse s) := by
  unfold LaunchedMunitionRecord.parse
  exact Local.bind (EventIdentifier.loc _) fun _ =>
    Local.bind (loc_unsigned_short) fun _ =>
    Local.bind (EventIdentifier.loc _) fun _ =>
    Local.bind (loc_unsigned_short) fun _ =>
    Local.bind (EventIdentifier.loc _) fun _ =>
    Local.bind (loc_unsigned_short) fun _ =>
    Local.bind (WorldCoordinates.loc _) fun _ =>
    Local.pure _

theorem LaunchedMunitionRecord.only (s : LaunchedMunitionRecord) : OnlyStruct (LaunchedMunitionRecord.parse s) := by
  unfold LaunchedMunitionRecord.parse
  exact OnlyStruct.bind (EventIdentifier.only _) fun _ =>
    OnlyStruct.bind (only_unsigned_short) fun _ =>
    OnlyStruct.bind (EventIdentifier.only _) fun _ =>
    OnlyStruct.bind (only_unsigned_short) fun _ =>
    OnlyStruct.bind (EventIdentifier.only _) fun _ =>
    OnlyStruct.bind (only_unsigned_short) fun _ =>
    OnlyStruct.bind (WorldCoordinates.only _) fun _ =>
    OnlyStruct.pure _

theorem LaunchedMunitionRecord.sized (o : LaunchedMunitionRecord) : Sized (LaunchedMunitionRecord.serialize o) (LaunchedMunitionRecord.wireSize o) := by
  unfold LaunchedMunitionRecord.serialize
  refine Sized.of_eq (Sized.bind (EventIdentifier.sized o.fireEventID) <|
    Sized.bind (sized_unsigned_short o.padding) <|
    Sized.bind (EventIdentifier.sized o.firingEntityID) <|
    Sized.bind (sized_unsigned_short o.padding2) <|
    Sized.bind (EventIdentifier.sized o.targetEntityID) <|
    Sized.bind (sized_unsigned_short o.padding3) <|
    WorldCoordinates.sized o.targetLocation) ?_
  simp only [LaunchedMunitionRecord.wireSize, EventIdentifier.wireSize, SimulationAddress.wireSize, WorldCoordinates.wireSize]; try omega

theorem LaunchedMunitionRecord.ok_iff (o : LaunchedMunitionRecord) : (LaunchedMunitionRecord.serialize o).Ok ↔ LaunchedMunitionRecord.WireOk o := by
  unfold LaunchedMunitionRecord.serialize LaunchedMunitionRecord.WireOk
  exact ok_bind_iff (EventIdentifier.ok_iff o.fireEventID) <|
    ok_bind_iff (ok_unsigned_short) <|
    ok_bind_iff (EventIdentifier.ok_iff o.firingEntityID) <|
    ok_bind_iff (ok_unsigned_short) <|
    ok_bind_iff (EventIdentifier.ok_iff o.targetEntityID) <|
    ok_bind_tr (ok_unsigned_short) <|
    WorldCoordinates.ok_iff o.targetLocation

theorem LaunchedMunitionRecord.after_canon {o : LaunchedMunitionRecord} (h : LaunchedMunitionRecord.Canon o) : LaunchedMunitionRecord.after LaunchedMunitionRecord.init o = o := by
  cases o
  exact (LaunchedMunitionRecord.mk.injEq ..).mpr ⟨EventIdentifier.after_canon trivial,
    rfl,
    EventIdentifier.after_canon trivial,
    rfl,
    EventIdentifier.after_canon trivial,
    rfl,
    WorldCoordinates.after_canon trivial⟩

theorem LaunchedMunitionRecord.post : Post (LaunchedMunitionRecord.parse LaunchedMunitionRecord.init) (fun b o => (LaunchedMunitionRecord.WireOk o ∧ LaunchedMunitionRecord.Canon o) ∧ (LaunchedMunitionRecord.NoNaN o → (LaunchedMunitionRecord.serialize o).Emits b)) := by
  unfold LaunchedMunitionRecord.parse
  refine Post.bind (EventIdentifier.post) fun a0 b0 h0 => ?_
  refine Post.bind (post_unsigned_short) fun a1 b1 h1 => ?_
  refine Post.bind (EventIdentifier.post) fun a2 b2 h2 => ?_
  refine Post.bind (post_unsigned_short) fun a3 b3 h3 => ?_
  refine Post.bind (EventIdentifier.post) fun a4 b4 h4 => ?_
  refine Post.bind (post_unsigned_short) fun a5 b5 h5 => ?_
  refine Post.last (WorldCoordinates.post) fun a6 b6 h6 => ?_
  refine ⟨⟨⟨h0.1.1, h1.1, h2.1.1, h3.1, h4.1.1, h5.1⟩,
    trivial⟩, fun _ => ?_⟩
  exact W.Emits.bind (h0.2 trivial) <|
      W.Emits.bind (h1.2) <|
      W.Emits.bind (h2.2 trivial) <|
      W.Emits.bind (h3.2) <|
      W.Emits.bind (h4.2 trivial) <|
      W.Emits.bind (h5.2) <|
      h6.2 trivial

theorem IFFFundamentalParameterData.rt (s o : IFFFundamentalParameterData) : RT (IFFFundamentalParameterData.serialize o) (IFFFundamentalParameterData.parse s) (IFFFundamentalParameterData.after s o) := by
  unfold IFFFundamentalParameterData.serialize IFFFundamentalParameterData.parse
  exact RT.bind (rt_float o.erp) <|
    RT.bind (rt_float o.frequency) <|
    RT.bind (rt_float o.pgrf) <|
    RT.bind (rt_float o.pulseWidth) <|
    RT.bind (rt_unsigned_int o.burstLength) <|
    RT.bind (rt_unsigned_byte o.applicableModes) <|
    RT.last (rt_array rt_unsigned_byte o.systemSpecificData 3)

theorem IFFFundamentalParameterData.loc (s : IFFFundamentalParameterData) : Local (IFFFundamentalParameterData.parse s) := by
  unfold IFFFundamentalParameterData.parse
  exact Local.bind (loc_float) fun _ =>
    Local.bind (loc_float) fun _ =>
    Local.bind (loc_float) fun _ =>
    Local.bind (loc_float) fun _ =>
    Local.bind (loc_unsigned_int) fun _ =>
    Local.bind (loc_unsigned_byte) fun _ =>
    Local.bind (Local.times loc_unsigned_byte _) fun _ =>
    Local.pure _

theorem IFFFundamentalParameterData.only (s : IFFFundamentalParameterData) : OnlyStruct (IFFFundamentalParameterData.parse s) := by
  unfold IFFFundamentalParameterData.parse
  exact OnlyStruct.bind (only_float) fun _ =>
    OnlyStruct.bind (only_float) fun _ =>
    OnlyStruct.bind (only_float) fun _ =>
    OnlyStruct.bind (only_float) fun _ =>
    OnlyStruct.bind (only_unsigned_int) fun _ =>
    OnlyStruct.bind (only_unsigned_byte) fun _ =>
    OnlyStruct.bind (OnlyStruct.times only_unsigned_byte _) fun _ =>
    OnlyStruct.pure _

theorem IFFFundamentalParameterData.sized (o : IFFFundamentalParameterData) : Sized (IFFFundamentalParameterData.serialize o) (IFFFundamentalParameterData.wireSize o) := by
  unfold IFFFundamentalParameterData.serialize
  refine Sized.of_eq (Sized.bind (sized_float o.erp) <|
    Sized.bind (sized_float o.frequency) <|
    Sized.bind (sized_float o.pgrf) <|
    Sized.bind (sized_float o.pulseWidth) <|
    Sized.bind (sized_unsigned_int o.burstLength) <|
    Sized.bind (sized_unsigned_byte o.applicableModes) <|
    sized_array sized_unsigned_byte _ _ _) ?_
  simp only [IFFFundamentalParameterData.wireSize]; try omega

theorem IFFFundamentalParameterData.ok_iff (o : IFFFundamentalParameterData) : (IFFFundamentalParameterData.serialize o).Ok ↔ IFFFundamentalParameterData.WireOk o := by
  unfold IFFFundamentalParameterData.serialize IFFFundamentalParameterData.WireOk
  exact ok_bind_iff (ok_float) <|
    ok_bind_iff (ok_float) <|
    ok_bind_iff (ok_float) <|
    ok_bind_iff (ok_float) <|
    ok_bind_iff (ok_unsigned_int) <|
    ok_bind_iff (ok_unsigned_byte) <|
    ok_array (fun _ => ok_unsigned_byte) _ 3 (by decide)

theorem IFFFundamentalParameterData.after_canon {o : IFFFundamentalParameterData} (h : IFFFundamentalParameterData.Canon o) : IFFFundamentalParameterData.after IFFFundamentalParameterData.init o = o := by
  obtain ⟨h_erp, h_frequency, h_pgrf, h_pulseWidth, h_systemSpecificData⟩ := h
  cases o
  exact (IFFFundamentalParameterData.mk.injEq ..).mpr ⟨h_erp,
    h_frequency,
    h_pgrf,
    h_pulseWidth,
    rfl,
    rfl,
    List.take_of_length_le (Nat.le_of_eq h_systemSpecificData)⟩

theorem IFFFundamentalParameterData.post : Post (IFFFundamentalParameterData.parse IFFFundamentalParameterData.init) (fun b o => (IFFFundamentalParameterData.WireOk o ∧ IFFFundamentalParameterData.Canon o) ∧ (IFFFundamentalParameterData.NoNaN o → (IFFFundamentalParameterData.serialize o).Emits b)) := by
  unfold IFFFundamentalParameterData.parse
  refine Post.bind (post_float) fun a0 b0 h0 => ?_
  refine Post.bind (post_float) fun a1 b1 h1 => ?_
  refine Post.bind (post_float) fun a2 b2 h2 => ?_
  refine Post.bind (post_float) fun a3 b3 h3 => ?_
  refine Post.bind (post_unsigned_int) fun a4 b4 h4 => ?_
  refine Post.bind (post_unsigned_byte) fun a5 b5 h5 => ?_
  refine Post.last (Post.times_all post_unsigned_byte _) fun a6 b6 h6 => ?_
  refine ⟨⟨⟨h0.1.1, h1.1.1, h2.1.1, h3.1.1, h4.1, h5.1, ⟨Nat.le_of_eq h6.1.symm, fun x hx => h6.2.1 x (List.mem_of_mem_take hx)⟩⟩,
    ⟨h0.1.2, h1.1.2, h2.1.2, h3.1.2, h6.1⟩⟩, fun hn => ?_⟩
  obtain ⟨n0, n1, n2, n3⟩ := hn
  exact W.Emits.bind (h0.2 n0) <|
      W.Emits.bind (h1.2 n1) <|
      W.Emits.bind (h2.2 n2) <|
      W.Emits.bind (h3.2 n3) <|
      W.Emits.bind (h4.2) <|
      W.Emits.bind (h5.2) <|
      emits_array h6.1 h6.2.2

theorem FundamentalOperationalData.rt (s o : FundamentalOperationalData) : RT (FundamentalOperationalData.serialize o) (FundamentalOperationalData.parse s) (FundamentalOperationalData.after s o) := by
  unfold FundamentalOperationalData.serialize FundamentalOperationalData.parse
  exact RT.bind (rt_unsigned_byte o.systemStatus) <|
    RT.bind (rt_unsigned_byte o.dataField1) <|
    RT.bind (rt_unsigned_byte o.informationLayers) <|
    RT.bind (rt_unsigned_byte o.dataField2) <|
    RT.bind (rt_unsigned_short o.parameter1) <|
    RT.bind (rt_unsigned_short o.parameter2) <|
    RT.bind (rt_unsigned_short o.parameter3) <|
    RT.bind (rt_unsigned_short o.parameter4) <|
    RT.bind (rt_unsigned_short o.parameter5) <|
    RT.last (rt_unsigned_short o.parameter6)

theorem FundamentalOperationalData.loc (s : FundamentalOperationalData) : Local (FundamentalOperationalData.parse s) := by
  unfold FundamentalOperationalData.parse
  exact Local.bind (loc_unsigned_byte) fun _ =>
    Local.bind (loc_unsigned_byte) fun _ =>
    Local.bind (loc_unsigned_byte) fun _ =>
    Local.bind (loc_unsigned_byte) fun _ =>
    Local.bind (loc_unsigned_short) fun _ =>
    Local.bind (loc_unsigned_short) fun _ =>
    Local.bind (loc_unsigned_short) fun _ =>
    Local.bind (loc_unsigned_short) fun _ =>
    Local.bind (loc_unsigned_short) fun _ =>
    Local.bind (loc_unsigned_short) fun _ =>
    Local.pure _

theorem FundamentalOperationalData.only (s : FundamentalOperationalData) : OnlyStruct (FundamentalOperationalData.parse s) := by
  unfold FundamentalOperationalData.parse
  exact OnlyStruct.bind (only_unsigned_byte) fun _ =>
    OnlyStruct.bind (only_unsigned_byte) fun _ =>
    OnlyStruct.bind (only_unsigned_byte) fun _ =>
    OnlyStruct.bind (only_unsigned_byte) fun _ =>
    OnlyStruct.bind (only_unsigned_short) fun _ =>
    OnlyStruct.bind (only_unsigned_short) fun _ =>
    OnlyStruct.bind (only_unsigned_short) fun _ =>
    OnlyStruct.bind (only_unsigned_short) fun _ =>
    OnlyStruct.bind (only_unsigned_short) fun _ =>
    OnlyStruct.bind (only_unsigned_short) fun _ =>
    OnlyStruct.pure _

theorem FundamentalOperationalData.sized (o : FundamentalOperationalData) : Sized (FundamentalOperationalData.serialize o) (FundamentalOperationalData.wireSize o) := by
  unfold FundamentalOperationalData.serialize
  refine Sized.of_eq (Sized.bind (sized_unsigned_byte o.systemStatus) <|
    Sized.bind (sized_unsigned_byte o.dataField1) <|
    Sized.bind (sized_unsigned_byte o.informationLayers) <|
    Sized.bind (sized_unsigned_byte o.dataField2) <|
    Sized.bind (sized_unsigned_short o.parameter1) <|
    Sized.bind (sized_unsigned_short o.parameter2) <|
    Sized.bind (sized_unsigned_short o.parameter3) <|
    Sized.bind (sized_unsigned_short o.parameter4) <|
    Sized.bind (sized_unsigned_short o.parameter5) <|
    sized_unsigned_short o.parameter6) ?_
  simp only [FundamentalOperationalData.wireSize]; try omega

theorem FundamentalOperationalData.ok_iff (o : FundamentalOperationalData) : (FundamentalOperationalData.serialize o).Ok ↔ FundamentalOperationalData.WireOk o := by
  unfold FundamentalOperationalData.serialize FundamentalOperationalData.WireOk
  exact ok_bind_iff (ok_unsigned_byte) <|
    ok_bind_iff (ok_unsigned_byte) <|
    ok_bind_iff (ok_unsigned_byte) <|
    ok_bind_iff (ok_unsigned_byte) <|
    ok_bind_iff (ok_unsigned_short) <|
    ok_bind_iff (ok_unsigned_short) <|
    ok_bind_iff (ok_unsigned_short) <|
    ok_bind_iff (ok_unsigned_short) <|
    ok_bind_iff (ok_unsigned_short) <|
    ok_unsigned_short

theorem FundamentalOperationalData.after_canon {o : FundamentalOperationalData} (h : FundamentalOperationalData.Canon o) : FundamentalOperationalData.after FundamentalOperationalData.init o = o := by
  cases o
  exact (FundamentalOperationalData.mk.injEq ..).mpr ⟨rfl,
    rfl,
    rfl,
    rfl,
    rfl,
    rfl,
    rfl,
    rfl,
    rfl,
    rfl⟩

theorem FundamentalOperationalData.post : Post (FundamentalOperationalData.parse FundamentalOperationalData.init) (fun b o => (FundamentalOperationalData.WireOk o ∧ FundamentalOperationalData.Canon o) ∧ (FundamentalOperationalData.NoNaN o → (FundamentalOperationalData.serialize o).Emits b)) := by
  unfold FundamentalOperationalData.parse
  refine Post.bind (post_unsigned_byte) fun a0 b0 h0 => ?_
  refine Post.bind (post_unsigned_byte) fun a1 b1 h1 => ?_
  refine Post.bind (post_unsigned_byte) fun a2 b2 h2 => ?_
  refine Post.bind (post_unsigned_byte) fun a3 b3 h3 => ?_
  refine Post.bind (post_unsigned_short) fun a4 b4 h4 => ?_
  refine Post.bind (post_unsigned_short) fun a5 b5 h5 => ?_
  refine Post.bind (post_unsigned_short) fun a6 b6 h6 => ?_
  refine Post.bind (post_unsigned_short) fun a7 b7 h7 => ?_
  refine Post.bind (post_unsigned_short) fun a8 b8 h8 => ?_
  refine Post.last (post_unsigned_short) fun a9 b9 h9 => ?_
  refine ⟨⟨⟨h0.1, h1.1, h2.1, h3.1, h4.1, h5.1, h6.1, h7.1, h8.1, h9.1⟩,
    trivial⟩, fun _ => ?_⟩
  exact W.Emits.bind (h0.2) <|
      W.Emits.bind (h1.2) <|
      W.Emits.bind (h2.2) <|
      W.Emits.bind (h3.2) <|
      W.Emits.bind (h4.2) <|
      W.Emits.bind (h5.2) <|
      W.Emits.bind (h6.2) <|
      W.Emits.bind (h7.2) <|
      W.Emits.bind (h8.2) <|
      h9.2

theorem IntercomCommunicationsParameters.rt (s o : IntercomCommunicationsParameters) : RT (IntercomCommunicationsParameters.serialize o) (IntercomCommunicationsParameters.parse s) (IntercomCommunicationsParameters.after s o) := by
  unfold IntercomCommunicationsParameters.serialize IntercomCommunicationsParameters.parse
  exact RT.bind (rt_unsigned_short o.recordType) <|
    RT.bind (rt_unsigned_short o.recordLength) <|
    RT.last (rt_unsigned_int o.recordSpecificField)

theorem IntercomCommunicationsParameters.loc (s : IntercomCommunicationsParameters) : Local (IntercomCommunicationsParameters.parse s) := by
  unfold IntercomCommunicationsParameters.parse
  exact Local.bind (loc_unsigned_short) fun _ =>
    Local.bind (loc_unsigned_short) fun _ =>
    Local.bind (loc_unsigned_int) fun _ =>
    Local.pure _

theorem IntercomCommunicationsParameters.only (s : IntercomCommunicationsParameters) : OnlyStruct (IntercomCommunicationsParameters.parse s) := by
  unfold IntercomCommunicationsParameters.parse
  exact OnlyStruct.bind (only_unsigned_short) fun _ =>
    OnlyStruct.bind (only_unsigned_short) fun _ =>
    OnlyStruct.bind (only_unsigned_int) fun _ =>
    OnlyStruct.pure _

theorem IntercomCommunicationsParameters.sized (o : IntercomCommunicationsParameters) : Sized (IntercomCommunicationsParameters.serialize o) (IntercomCommunicationsParameters.wireSize o) := by
  unfold IntercomCommunicationsParameters.serialize
  refine Sized.of_eq (Sized.bind (sized_unsigned_short o.recordType) <|
    Sized.bind (sized_unsigned_short o.recordLength) <|
    sized_unsigned_int o.recordSpecificField) ?_
  simp only [IntercomCommunicationsParameters.wireSize]; try omega

theorem IntercomCommunicationsParameters.ok_iff (o : IntercomCommunicationsParameters) : (IntercomCommunicationsParameters.serialize o).Ok ↔ IntercomCommunicationsParameters.WireOk o := by
  unfold IntercomCommunicationsParameters.serialize IntercomCommunicationsParameters.WireOk
  exact ok_bind_iff (ok_unsigned_short) <|
    ok_bind_iff (ok_unsigned_short) <|
    ok_unsigned_int

theorem IntercomCommunicationsParameters.after_canon {o : IntercomCommunicationsParameters} (h : IntercomCommunicationsParameters.Canon o) : IntercomCommunicationsParameters.after IntercomCommunicationsParameters.init o = o := by
  cases o
  exact (IntercomCommunicationsParameters.mk.injEq ..).mpr ⟨rfl,
    rfl,
    rfl⟩

theorem IntercomCommunicationsParameters.post : Post (IntercomCommunicationsParameters.parse IntercomCommunicationsParameters.init) (fun b o => (IntercomCommunicationsParameters.WireOk o ∧ IntercomCommunicationsParameters.Canon o) ∧ (IntercomCommunicationsParameters.NoNaN o → (IntercomCommunicationsParameters.serialize o).Emits b)) := by
  unfold IntercomCommunicationsParameters.parse
  refine Post.bind (post_unsigned_short) fun a0 b0 h0 => ?_
  refine Post.bind (post_unsigned_short) fun a1 b1 h1 => ?_
  refine Post.last (post_unsigned_int) fun a2 b2 h2 => ?_
  refine ⟨⟨⟨h0.1, h1.1, h2.1⟩,
    trivial⟩, fun _ => ?_⟩
  exact W.Emits.bind (h0.2) <|
      W.Emits.bind (h1.2) <|
      h2.2

theorem Munition.rt (s o : Munition) : RT (Munition.serialize o) (Munition.parse s) (Munition.after s o) := by
  unfold Munition.serialize Munition.parse
  exact RT.bind (EntityType.rt s.munitionType o.munitionType) <|
    RT.bind (rt_unsigned_int o.station) <|
    RT.bind (rt_unsigned_short o.quantity) <|
    RT.bind (rt_unsigned_byte o.munitionStatus) <|
    RT.last (rt_unsigned_byte o.padding)

theorem Munition.loc (s : Munition) : Local (Munition.parse s) := by
  unfold Munition.parse
  exact Local.bind (EntityType.loc _) fun _ =>
    Local.bind (loc_unsigned_int) fun _ =>
    Local.bind (loc_unsigned_short) fun _ =>
    Local.bind (loc_unsigned_byte) fun _ =>
    Local.bind (loc_unsigned_byte) fun _ =>
    Local.pure _

theorem Munition.only (s : Munition) : OnlyStruct (Munition.parse s) := by
  unfold Munition.parse
  exact OnlyStruct.bind (EntityType.only _) fun _ =>
    OnlyStruct.bind (only_unsigned_int) fun _ =>
    OnlyStruct.bind (only_unsigned_short) fun _ =>
    OnlyStruct.bind (only_unsigned_byte) fun _ =>
    OnlyStruct.bind (only_unsigned_byte) fun _ =>
    OnlyStruct.pure _

theorem Munition.sized (o : Munition) : Sized (Munition.serialize o) (Munition.wireSize o) := by
  unfold Munition.serialize
  refine Sized.of_eq (Sized.bind (EntityType.sized o.munitionType) <|
    Sized.bind (sized_unsigned_int o.station) <|
    Sized.bind (sized_unsigned_short o.quantity) <|
    Sized.bind (sized_unsigned_byte o.munitionStatus) <|
    sized_unsigned_byte o.padding) ?_
  simp only [Munition.wireSize, EntityType.wireSize]; try omega

theorem Munition.ok_iff (o : Munition) : (Munition.serialize o).Ok ↔ Munition.WireOk o := by
  unfold Munition.serialize Munition.WireOk
  exact ok_bind_iff (EntityType.ok_iff o.munitionType) <|
    ok_bind_iff (ok_unsigned_int) <|
    ok_bind_iff (ok_unsigned_short) <|
    ok_bind_iff (ok_unsigned_byte) <|
    ok_unsigned_byte

theorem Munition.after_canon {o : Munition} (h : Munition.Canon o) : Munition.after Munition.init o = o := by
  cases o
  exact (Munition.mk.injEq ..).mpr ⟨EntityType.after_canon trivial,
    rfl,
    rfl,
    rfl,
    rfl⟩

theorem Munition.post : Post (Munition.parse Munition.init) (fun b o => (Munition.WireOk o ∧ Munition.Canon o) ∧ (Munition.NoNaN o → (Munition.serialize o).Emits b)) := by
  unfold Munition.parse
  refine Post.bind (EntityType.post) fun a0 b0 h0 => ?_
  refine Post.bind (post_unsigned_int) fun a1 b1 h1 => ?_
  refine Post.bind (post_unsigned_short) fun a2 b2 h2 => ?_
  refine Post.bind (post_unsigned_byte) fun a3 b3 h3 => ?_
  refine Post.last (post_unsigned_byte) fun a4 b4 h4 => ?_
  refine ⟨⟨⟨h0.1.1, h1.1, h2.1, h3.1, h4.1⟩,
    trivial⟩, fun _ => ?_⟩
  exact W.Emits.bind (h0.2 trivial) <|
      W.Emits.bind (h1.2) <|
      W.Emits.bind (h2.2) <|
      W.Emits.bind (h3.2) <|
      h4.2

theorem StandardVariableSpecification.rt (s o : StandardVariableSpecification) : RT (StandardVariableSpecification.serialize o) (StandardVariableSpecification.parse s) (StandardVariableSpecification.after s o) := by
  unfold StandardVariableSpecification.serialize StandardVariableSpecification.parse
  exact RT.bind (rt_unsigned_short ((o.standardVariables.length : Int))) <|
    RT.last (rt_list_throw)

theorem StandardVariableSpecification.loc (s : StandardVariableSpecification) : Local (StandardVariableSpecification.parse s) := by
  unfold StandardVariableSpecification.parse
  exact Local.bind (loc_unsigned_short) fun _ =>
    Local.bind (local_throw_times _ _) fun _ =>
    Local.pure _

theorem StandardVariableSpecification.sized (o : StandardVariableSpecification) : Sized (StandardVariableSpecification.serialize o) (StandardVariableSpecification.wireSize o) := by
  unfold StandardVariableSpecification.serialize
  refine Sized.of_eq (Sized.bind (sized_unsigned_short _) <|
    sized_list_throw) ?_
  simp only [StandardVariableSpecification.wireSize]; try omega

theorem StandardVariableSpecification.ok_iff (o : StandardVariableSpecification) : (StandardVariableSpecification.serialize o).Ok ↔ StandardVariableSpecification.WireOk o := by
  unfold StandardVariableSpecification.serialize StandardVariableSpecification.WireOk
  exact ok_bind_iff (ok_unsigned_short) <|
    ok_list_throw

theorem StandardVariableSpecification.after_canon {o : StandardVariableSpecification} (h : StandardVariableSpecification.Canon o) : StandardVariableSpecification.after StandardVariableSpecification.init o = o := by
  have h_standardVariables := h
  cases o; exact (StandardVariableSpecification.mk.injEq ..).mpr (h_standardVariables.symm)

theorem StandardVariableSpecification.post : Post (StandardVariableSpecification.parse StandardVariableSpecification.init) (fun b o => (StandardVariableSpecification.WireOk o ∧ StandardVariableSpecification.Canon o) ∧ (StandardVariableSpecification.NoNaN o → (StandardVariableSpecification.serialize o).Emits b)) := by
  unfold StandardVariableSpecification.parse
  refine Post.bind (post_unsigned_short) fun a0 b0 h0 => ?_
  refine Post.last (Post.times_throw _ _) fun a1 b1 h1 => ?_
  obtain rfl : a0 = 0 := zero_eq h0.1.1 h1.1
  obtain ⟨-, rfl, rfl⟩ := h1
  refine ⟨⟨⟨h0.1, rfl⟩,
    rfl⟩, fun _ => ?_⟩
  exact W.Emits.bind (h0.2) <|
      W.emits_pure ()

theorem Vector2Float.rt (s o : Vector2Float) : RT (Vector2Float.serialize o) (Vector2Float.parse s) (Vector2Float.after s o) := by
  unfold Vector2Float.serialize Vector2Float.parse
  exact RT.bind (rt_float o.x) <|
    RT.last (rt_float o.y)

theorem Vector2Float.loc (s : Vector2Float) : Local (Vector2Float.parse s) := by
  unfold Vector2Float.parse
  exact Local.bind (loc_float) fun _ =>
    Local.bind (loc_float) fun _ =>
    Local.pure _

theorem Vector2Float.only (s : Vector2Float) : OnlyStruct (Vector2Float.parse s) := by
  unfold Vector2Float.parse
  exact OnlyStruct.bind (only_float) fun _ =>
    OnlyStruct.bind (only_float) fun _ =>
    OnlyStruct.pure _

theorem Vector2Float.sized (o : Vector2Float) : Sized (Vector2Float.serialize o) (Vector2Float.wireSize o) := by
  unfold Vector2Float.serialize
  refine Sized.of_eq (Sized.bind (sized_float o.x) <|
    sized_float o.y) ?_
  simp only [Vector2Float.wireSize]; try omega

theorem Vector2Float.ok_iff (o : Vector2Float) : (Vector2Float.serialize o).Ok ↔ Vector2Float.WireOk o := by
  unfold Vector2Float.serialize Vector2Float.WireOk
  exact ok_bind_iff (ok_float) <|
    ok_float

theorem Vector2Float.after_canon {o : Vector2Float} (h : Vector2Float.Canon o) : Vector2Float.after Vector2Float.init o = o := by
  obtain ⟨h_x, h_y⟩ := h
  cases o
  exact (Vector2Float.mk.injEq ..).mpr ⟨h_x,
    h_y⟩

theorem Vector2Float.post : Post (Vector2Float.parse Vector2Float.init) (fun b o => (Vector2Float.WireOk o ∧ Vector2Float.Canon o) ∧ (Vector2Float.NoNaN o → (Vector2Float.serialize o).Emits b)) := by
  unfold Vector2Float.parse
  refine Post.bind (post_float) fun a0 b0 h0 => ?_
  refine Post.last (post_float) fun a1 b1 h1 => ?_
  refine ⟨⟨⟨h0.1.1, h1.1.1⟩,
    ⟨h0.1.2, h1.1.2⟩⟩, fun hn => ?_⟩
  obtain ⟨n0, n1⟩ := hn
  exact W.Emits.bind (h0.2 n0) <|
      h1.2 n1

theorem Environment.rt (s o : Environment) : RT (Environment.serialize o) (Environment.parse s) (Environment.after s o) := by
  unfold Environment.serialize Environment.parse
  exact RT.bind (rt_unsigned_int o.environmentType) <|
    RT.bind (rt_unsigned_short o.length) <|
    RT.bind (rt_unsigned_byte o.index) <|
    RT.last (rt_attr rt_unsigned_byte o.padding)

theorem Environment.loc (s : Environment) : Local (Environment.parse s) := by
  unfold Environment.parse
  exact Local.bind (loc_unsigned_int) fun _ =>
    Local.bind (loc_unsigned_short) fun _ =>
    Local.bind (loc_unsigned_byte) fun _ =>
    Local.bind (loc_unsigned_byte) fun _ =>
    Local.pure _

theorem Environment.only (s : Environment) : OnlyStruct (Environment.parse s) := by
  unfold Environment.parse
  exact OnlyStruct.bind (only_unsigned_int) fun _ =>
    OnlyStruct.bind (only_unsigned_short) fun _ =>
    OnlyStruct.bind (only_unsigned_byte) fun _ =>
    OnlyStruct.bind (only_unsigned_byte) fun _ =>
    OnlyStruct.pure _

theorem Environment.sized (o : Environment) : Sized (Environment.serialize o) (Environment.wireSize o) := by
  unfold Environment.serialize
  refine Sized.of_eq (Sized.bind (sized_unsigned_int o.environmentType) <|
    Sized.bind (sized_unsigned_short o.length) <|
    Sized.bind (sized_unsigned_byte o.index) <|
    sized_using sized_unsigned_byte) ?_
  simp only [Environment.wireSize]; try omega

theorem Environment.ok_iff (o : Environment) : (Environment.serialize o).Ok ↔ Environment.WireOk o := by
  unfold Environment.serialize Environment.WireOk
  exact ok_bind_iff (ok_unsigned_int) <|
    ok_bind_iff (ok_unsigned_short) <|
    ok_bind_iff (ok_unsigned_byte) <|
    ok_attr ok_unsigned_byte

theorem Environment.after_canon {o : Environment} (h : Environment.Canon o) : Environment.after Environment.init o = o := by
  obtain ⟨h_padding, h_padding0, h_padding1⟩ := h
  cases o
  exact (Environment.mk.injEq ..).mpr ⟨rfl,
    rfl,
    rfl,
    h_padding0.symm,
    h_padding1.symm,
    canon_use_some h_padding⟩

theorem Environment.post : Post (Environment.parse Environment.init) (fun b o => (Environment.WireOk o ∧ Environment.Canon o) ∧ (Environment.NoNaN o → (Environment.serialize o).Emits b)) := by
  unfold Environment.parse
  refine Post.bind (post_unsigned_int) fun a0 b0 h0 => ?_
  refine Post.bind (post_unsigned_short) fun a1 b1 h1 => ?_
  refine Post.bind (post_unsigned_byte) fun a2 b2 h2 => ?_
  refine Post.last (post_unsigned_byte) fun a3 b3 h3 => ?_
  refine ⟨⟨⟨h0.1, h1.1, h2.1, ⟨a3, rfl, h3.1⟩⟩,
    ⟨⟨a3, rfl⟩, rfl, rfl⟩⟩, fun _ => ?_⟩
  exact W.Emits.bind (h0.2) <|
      W.Emits.bind (h1.2) <|
      W.Emits.bind (h2.2) <|
      h3.2

theorem AcousticEmitter.rt (s o : AcousticEmitter) : RT (AcousticEmitter.serialize o) (AcousticEmitter.parse s) (AcousticEmitter.after s o) := by
  unfold AcousticEmitter.serialize AcousticEmitter.parse
  exact RT.bind (rt_unsigned_short o.acousticSystemName) <|
    RT.bind (rt_unsigned_byte o.acousticFunction) <|
    RT.last (rt_unsigned_byte o.acousticIDNumber)

theorem AcousticEmitter.loc (s : AcousticEmitter) : Local (AcousticEmitter.parse s) := by
  unfold AcousticEmitter.parse
  exact Local.bind (loc_unsigned_short) fun _ =>
    Local.bind (loc_unsigned_byte) fun _ =>
    Local.bind (loc_unsigned_byte) fun _ =>
    Local.pure _

theorem AcousticEmitter.only (s : AcousticEmitter) : OnlyStruct (AcousticEmitter.parse s) := by
  unfold AcousticEmitter.parse
  exact OnlyStruct.bind (only_unsigned_short) fun _ =>
    OnlyStruct.bind (only_unsigned_byte) fun _ =>
    OnlyStruct.bind (only_unsigned_byte) fun _ =>
    OnlyStruct.pure _

theorem AcousticEmitter.sized (o : AcousticEmitter) : Sized (AcousticEmitter.serialize o) (AcousticEmitter.wireSize o) := by
  unfold AcousticEmitter.serialize
  refine Sized.of_eq (Sized.bind (sized_unsigned_short o.acousticSystemName) <|
    Sized.bind (sized_unsigned_byte o.acousticFunction) <|
    sized_unsigned_byte o.acousticIDNumber) ?_
  simp only [AcousticEmitter.wireSize]; try omega

theorem AcousticEmitter.ok_iff (o : AcousticEmitter) : (AcousticEmitter.serialize o).Ok ↔ AcousticEmitter.WireOk o := by
  unfold AcousticEmitter.serialize AcousticEmitter.WireOk
  exact ok_bind_iff (ok_unsigned_short) <|
    ok_bind_iff (ok_unsigned_byte) <|
    ok_unsigned_byte

theorem AcousticEmitter.after_canon {o : AcousticEmitter} (h : AcousticEmitter.Canon o) : AcousticEmitter.after AcousticEmitter.init o = o := by
  cases o
  exact (AcousticEmitter.mk.injEq ..).mpr ⟨rfl,
    rfl,
    rfl⟩

theorem AcousticEmitter.post : Post (AcousticEmitter.parse AcousticEmitter.init) (fun b o => (AcousticEmitter.WireOk o ∧ AcousticEmitter.Canon o) ∧ (AcousticEmitter.NoNaN o → (AcousticEmitter.serialize o).Emits b)) := by
  unfold AcousticEmitter.parse
  refine Post.bind (post_unsigned_short) fun a0 b0 h0 => ?_
  refine Post.bind (post_unsigned_byte) fun a1 b1 h1 => ?_
  refine Post.last (post_unsigned_byte) fun a2 b2 h2 => ?_
  refine ⟨⟨⟨h0.1, h1.1, h2.1⟩,
    trivial⟩, fun _ => ?_⟩
  exact W.Emits.bind (h0.2) <|
      W.Emits.bind (h1.2) <|
      h2.2

theorem AngularVelocityVector.rt (s o : AngularVelocityVector) : RT (AngularVelocityVector.serialize o) (AngularVelocityVector.parse s) (AngularVelocityVector.after s o) := by
  unfold AngularVelocityVector.serialize AngularVelocityVector.parse
  exact RT.bind (rt_float o.x) <|
    RT.bind (rt_float o.y) <|
    RT.last (rt_float o.z)

theorem AngularVelocityVector.loc (s : AngularVelocityVector) : Local (AngularVelocityVector.parse s) := by
  unfold AngularVelocityVector.parse
  exact Local.bind (loc_float) fun _ =>
    Local.bind (loc_float) fun _ =>
    Local.bind (loc_float) fun _ =>
    Local.pure _

theorem AngularVelocityVector.only (s : AngularVelocityVector) : OnlyStruct (AngularVelocityVector.parse s) := by
  unfold AngularVelocityVector.parse
  exact OnlyStruct.bind (only_float) fun _ =>
    OnlyStruct.bind (only_float) fun _ =>
    OnlyStruct.bind (only_float) fun _ =>
    OnlyStruct.pure _

theorem AngularVelocityVector.sized (o : AngularVelocityVector) : Sized (AngularVelocityVector.serialize o) (AngularVelocityVector.wireSize o) := by
  unfold AngularVelocityVector.serialize
  refine Sized.of_eq (Sized.bind (sized_float o.x) <|
    Sized.bind (sized_float o.y) <|
    sized_float o.z) ?_
  simp only [AngularVelocityVector.wireSize]; try omega

theorem AngularVelocityVector.ok_iff (o : AngularVelocityVector) : (AngularVelocityVector.serialize o).Ok ↔ AngularVelocityVector.WireOk o := by
  unfold AngularVelocityVector.serialize AngularVelocityVector.WireOk
  exact ok_bind_iff (ok_float) <|
    ok_bind_iff (ok_float) <|
    ok_float

theorem AngularVelocityVector.after_canon {o : AngularVelocityVector} (h : AngularVelocityVector.Canon o) : AngularVelocityVector.after AngularVelocityVector.init o = o := by
  obtain ⟨h_x, h_y, h_z⟩ := h
  cases o
  exact (AngularVelocityVector.mk.injEq ..).mpr ⟨h_x,
    h_y,
    h_z⟩

theorem AngularVelocityVector.post : Post (AngularVelocityVector.parse AngularVelocityVector.init) (fun b o => (AngularVelocityVector.WireOk o ∧ AngularVelocityVector.Canon o) ∧ (AngularVelocityVector.NoNaN o → (AngularVelocityVector.serialize o).Emits b)) := by
  unfold AngularVelocityVector.parse
  refine Post.bind (post_float) fun a0 b0 h0 => ?_
  refine Post.bind (post_float) fun a1 b1 h1 => ?_
  refine Post.last (post_float) fun a2 b2 h2 => ?_
  refine ⟨⟨⟨h0.1.1, h1.1.1, h2.1.1⟩,
    ⟨h0.1.2, h1.1.2, h2.1.2⟩⟩, fun hn => ?_⟩
  obtain ⟨n0, n1, n2⟩ := hn
  exact W.Emits.bind (h0.2 n0) <|
      W.Emits.bind (h1.2 n1) <|
      h2.2 n2

theorem AggregateMarking.rt (s o : AggregateMarking) : RT (AggregateMarking.serialize o) (AggregateMarking.parse s) (AggregateMarking.after s o) := by
  unfold AggregateMarking.serialize AggregateMarking.parse
  exact RT.bind (rt_unsigned_byte o.characterSet) <|
    RT.last (rt_array rt_unsigned_byte o.characters 31)

theorem AggregateMarking.loc (s : AggregateMarking) : Local (AggregateMarking.parse s) := by
  unfold AggregateMarking.parse
  exact Local.bind (loc_unsigned_byte) fun _ =>
    Local.bind (Local.times loc_unsigned_byte _) fun _ =>
    Local.pure _

theorem AggregateMarking.only (s : AggregateMarking) : OnlyStruct (AggregateMarking.parse s) := by
  unfold AggregateMarking.parse
  exact OnlyStruct.bind (only_unsigned_byte) fun _ =>
    OnlyStruct.bind (OnlyStruct.times only_unsigned_byte _) fun _ =>
    OnlyStruct.pure _

theorem AggregateMarking.sized (o : AggregateMarking) : Sized (AggregateMarking.serialize o) (AggregateMarking.wireSize o) := by
  unfold AggregateMarking.serialize
  refine Sized.of_eq (Sized.bind (sized_unsigned_byte o.characterSet) <|
    sized_array sized_unsigned_byte _ _ _) ?_
  simp only [AggregateMarking.wireSize]; try omega

theorem AggregateMarking.ok_iff (o : AggregateMarking) : (AggregateMarking.serialize o).Ok ↔ AggregateMarking.WireOk o := by
  unfold AggregateMarking.serialize AggregateMarking.WireOk
  exact ok_bind_iff (ok_unsigned_byte) <|
    ok_array (fun _ => ok_unsigned_byte) _ 31 (by decide)

theorem AggregateMarking.after_canon {o : AggregateMarking} (h : AggregateMarking.Canon o) : AggregateMarking.after AggregateMarking.init o = o := by
  have h_characters := h
  cases o
  exact (AggregateMarking.mk.injEq ..).mpr ⟨rfl,
    List.take_of_length_le (Nat.le_of_eq h_characters)⟩

theorem AggregateMarking.post : Post (AggregateMarking.parse AggregateMarking.init) (fun b o => (AggregateMarking.WireOk o ∧ AggregateMarking.Canon o) ∧ (AggregateMarking.NoNaN o → (AggregateMarking.serialize o).Emits b)) := by
  unfold AggregateMarking.parse
  refine Post.bind (post_unsigned_byte) fun a0 b0 h0 => ?_
  refine Post.last (Post.times_all post_unsigned_byte _) fun a1 b1 h1 => ?_
  refine ⟨⟨⟨h0.1, ⟨Nat.le_of_eq h1.1.symm, fun x hx => h1.2.1 x (List.mem_of_mem_take hx)⟩⟩,
    h1.1⟩, fun _ => ?_⟩
  exact W.Emits.bind (h0.2) <|
      emits_array h1.1 h1.2.2

theorem DataFilterRecord.rt (s o : DataFilterRecord) : RT (DataFilterRecord.serialize o) (DataFilterRecord.parse s) (DataFilterRecord.after s o) := by
  unfold DataFilterRecord.serialize DataFilterRecord.parse
  exact RT.last (rt_unsigned_int o.bitFlags)

theorem DataFilterRecord.loc (s : DataFilterRecord) : Local (DataFilterRecord.parse s) := by
  unfold DataFilterRecord.parse
  exact Local.bind (loc_unsigned_int) fun _ =>
    Local.pure _

theorem DataFilterRecord.only (s : DataFilterRecord) : OnlyStruct (DataFilterRecord.parse s) := by
  unfold DataFilterRecord.parse
  exact OnlyStruct.bind (only_unsigned_int) fun _ =>
    OnlyStruct.pure _

theorem DataFilterRecord.sized (o : DataFilterRecord) : Sized (DataFilterRecord.serialize o) (DataFilterRecord.wireSize o) := by
  unfold DataFilterRecord.serialize
  exact (sized_unsigned_int o.bitFlags).of_eq (by simp only [DataFilterRecord.wireSize]; try omega)

theorem DataFilterRecord.ok_iff (o : DataFilterRecord) : (DataFilterRecord.serialize o).Ok ↔ DataFilterRecord.WireOk o := by
  unfold DataFilterRecord.serialize DataFilterRecord.WireOk
  exact ok_unsigned_int

theorem DataFilterRecord.after_canon {o : DataFilterRecord} (h : DataFilterRecord.Canon o) : DataFilterRecord.after DataFilterRecord.init o = o := by
  cases o; exact (DataFilterRecord.mk.injEq ..).mpr (rfl)

theorem DataFilterRecord.post : Post (DataFilterRecord.parse DataFilterRecord.init) (fun b o => (DataFilterRecord.WireOk o ∧ DataFilterRecord.Canon o) ∧ (DataFilterRecord.NoNaN o → (DataFilterRecord.serialize o).Emits b)) := by
  unfold DataFilterRecord.parse
  refine Post.last (post_unsigned_int) fun a0 b0 h0 => ?_
  refine ⟨⟨h0.1,
    trivial⟩, fun _ => ?_⟩
  exact h0.2

theorem IntercomIdentifier.rt (s o : IntercomIdentifier) : RT (IntercomIdentifier.serialize o) (IntercomIdentifier.parse s) (IntercomIdentifier.after s o) := by
  unfold IntercomIdentifier.serialize IntercomIdentifier.parse
  exact RT.bind (rt_unsigned_short o.siteNumber) <|
    RT.bind (rt_unsigned_short o.applicationNumber) <|
    RT.bind (rt_unsigned_short o.referenceNumber) <|
    RT.last (rt_unsigned_short o.intercomNumber)

theorem IntercomIdentifier.loc (s : IntercomIdentifier) : Local (IntercomIdentifier.parse s) := by
  unfold IntercomIdentifier.parse
  exact Local.bind (loc_unsigned_short) fun _ =>
    Local.bind (loc_unsigned_short) fun _ =>
    Local.bind (loc_unsigned_short) fun _ =>
    Local.bind (loc_unsigned_short) fun _ =>
    Local.pure _

theorem IntercomIdentifier.only (s : IntercomIdentifier) : OnlyStruct (IntercomIdentifier.parse s) := by
  unfold IntercomIdentifier.parse
  exact OnlyStruct.bind (only_unsigned_short) fun _ =>
    OnlyStruct.bind (only_unsigned_short) fun _ =>
    OnlyStruct.bind (only_unsigned_short) fun _ =>
    OnlyStruct.bind (only_unsigned_short) fun _ =>
    OnlyStruct.pure _

theorem IntercomIdentifier.sized (o : IntercomIdentifier) : Sized (IntercomIdentifier.serialize o) (IntercomIdentifier.wireSize o) := by
  unfold IntercomIdentifier.serialize
  refine Sized.of_eq (Sized.bind (sized_unsigned_short o.siteNumber) <|
    Sized.bind (sized_unsigned_short o.applicationNumber) <|
    Sized.bind (sized_unsigned_short o.referenceNumber) <|
    sized_unsigned_short o.intercomNumber) ?_
  simp only [IntercomIdentifier.wireSize]; try omega

theorem IntercomIdentifier.ok_iff (o : IntercomIdentifier) : (IntercomIdentifier.serialize o).Ok ↔ IntercomIdentifier.WireOk o := by
  unfold IntercomIdentifier.serialize IntercomIdentifier.WireOk
  exact ok_bind_iff (ok_unsigned_short) <|
    ok_bind_iff (ok_unsigned_short) <|
    ok_bind_iff (ok_unsigned_short) <|
    ok_unsigned_short

theorem IntercomIdentifier.after_canon {o : IntercomIdentifier} (h : IntercomIdentifier.Canon o) : IntercomIdentifier.after IntercomIdentifier.init o = o := by
  cases o
  exact (IntercomIdentifier.mk.injEq ..).mpr ⟨rfl,
    rfl,
    rfl,
    rfl⟩

theorem IntercomIdentifier.post : Post (IntercomIdentifier.parse IntercomIdentifier.init) (fun b o => (IntercomIdentifier.WireOk o ∧ IntercomIdentifier.Canon o) ∧ (IntercomIdentifier.NoNaN o → (IntercomIdentifier.serialize o).Emits b)) := by
  unfold IntercomIdentifier.parse
  refine Post.bind (post_unsigned_short) fun a0 b0 h0 => ?_
  refine Post.bind (post_unsigned_short) fun a1 b1 h1 => ?_
  refine Post.bind (post_unsigned_short) fun a2 b2 h2 => ?_
  refine Post.last (post_unsigned_short) fun a3 b3 h3 => ?_
  refine ⟨⟨⟨h0.1, h1.1, h2.1, h3.1⟩,
    trivial⟩, fun _ => ?_⟩
  exact W.Emits.bind (h0.2) <|
      W.Emits.bind (h1.2) <|
      W.Emits.bind (h2.2) <|
      h3.2

theorem StorageFuel.rt (s o : StorageFuel) : RT (StorageFuel.serialize o) (StorageFuel.parse s) (StorageFuel.after s o) := by
  unfold StorageFuel.serialize StorageFuel.parse
  exact RT.bind (rt_unsigned_int o.fuelQuantity) <|
    RT.bind (rt_unsigned_byte o.fuelMeasurementUnits) <|
    RT.bind (rt_unsigned_byte o.fuelType) <|
    RT.bind (rt_unsigned_byte o.fuelLocation) <|
    RT.last (rt_unsigned_byte o.padding)

theorem StorageFuel.loc (s : StorageFuel) : Local (StorageFuel.parse s) := by
  unfold StorageFuel.parse
  exact Local.bind (loc_unsigned_int) fun _ =>
    Local.bind (loc_unsigned_byte) fun _ =>
    Local.bind (loc_unsigned_byte) fun _ =>
    Local.bind (loc_unsigned_byte) fun _ =>
    Local.bind (loc_unsigned_byte) fun _ =>
    Local.pure _

theorem StorageFuel.only (s : StorageFuel) : OnlyStruct (StorageFuel.parse s) := by
  unfold StorageFuel.parse
  exact OnlyStruct.bind (only_unsigned_int) fun _ =>
    OnlyStruct.bind (only_unsigned_byte) fun _ =>
    OnlyStruct.bind (only_unsigned_byte) fun _ =>
    OnlyStruct.bind (only_unsigned_byte) fun _ =>
    OnlyStruct.bind (only_unsigned_byte) fun _ =>
    OnlyStruct.pure _

theorem StorageFuel.sized (o : StorageFuel) : Sized (StorageFuel.serialize o) (StorageFuel.wireSize o) := by
  unfold StorageFuel.serialize
  refine Sized.of_eq (Sized.bind (sized_unsigned_int o.fuelQuantity) <|
    Sized.bind (sized_unsigned_byte o.fuelMeasurementUnits) <|
    Sized.bind (sized_unsigned_byte o.fuelType) <|
    Sized.bind (sized_unsigned_byte o.fuelLocation) <|
    sized_unsigned_byte o.padding) ?_
  simp only [StorageFuel.wireSize]; try omega

theorem StorageFuel.ok_iff (o : StorageFuel) : (StorageFuel.serialize o).Ok ↔ StorageFuel.WireOk o := by
  unfold StorageFuel.serialize StorageFuel.WireOk
  exact ok_bind_iff (ok_unsigned_int) <|
    ok_bind_iff (ok_unsigned_byte) <|
    ok_bind_iff (ok_unsigned_byte) <|
    ok_bind_iff (ok_unsigned_byte) <|
    ok_unsigned_byte

theorem StorageFuel.after_canon {o : StorageFuel} (h : StorageFuel.Canon o) : StorageFuel.after StorageFuel.init o = o := by
  cases o
  exact (StorageFuel.mk.injEq ..).mpr ⟨rfl,
    rfl,
    rfl,
    rfl,
    rfl⟩

theorem StorageFuel.post : Post (StorageFuel.parse StorageFuel.init) (fun b o => (StorageFuel.WireOk o ∧ StorageFuel.Canon o) ∧ (StorageFuel.NoNaN o → (StorageFuel.serialize o).Emits b)) := by
  unfold StorageFuel.parse
  refine Post.bind (post_unsigned_int) fun a0 b0 h0 => ?_
  refine Post.bind (post_unsigned_byte) fun a1 b1 h1 => ?_
  refine Post.bind (post_unsigned_byte) fun a2 b2 h2 => ?_
  refine Post.bind (post_unsigned_byte) fun a3 b3 h3 => ?_
  refine Post.last (post_unsigned_byte) fun a4 b4 h4 => ?_
  refine ⟨⟨⟨h0.1, h1.1, h2.1, h3.1, h4.1⟩,
    trivial⟩, fun _ => ?_⟩
  exact W.Emits.bind (h0.2) <|
      W.Emits.bind (h1.2) <|
      W.Emits.bind (h2.2) <|
      W.Emits.bind (h3.2) <|
      h4.2

theorem Sensor.rt (s o : Sensor) : RT (Sensor.serialize o) (Sensor.parse s) (Sensor.after s o) := by
  unfold Sensor.serialize Sensor.parse
  exact RT.bind (rt_unsigned_byte o.sensorTypeSource) <|
    RT.bind (rt_unsigned_byte o.sensorOnOffStatus) <|
    RT.bind (rt_unsigned_short o.sensorType) <|
    RT.bind (rt_unsigned_int o.station) <|
    RT.bind (rt_unsigned_short o.quantity) <|
    RT.last (rt_unsigned_short o.padding)

theorem Sensor.loc (s : Sensor) : Local (Sensor.parse s) := by
  unfold Sensor.parse
  exact Local.bind (loc_unsigned_byte) fun _ =>
    Local.bind (loc_unsigned_byte) fun _ =>
    Local.bind (loc_unsigned_short) fun _ =>
    Local.bind (loc_unsigned_int) fun _ =>
    Local.bind (loc_unsigned_short) fun _ =>
    Local.bind (loc_unsigned_short) fun _ =>
    Local.pure _

theorem Sensor.only (s : Sensor) : OnlyStruct (Sensor.parse s) := by
  unfold Sensor.parse
  exact OnlyStruct.bind (only_unsigned_byte) fun _ =>
    OnlyStruct.bind (only_unsigned_byte) fun _ =>
    OnlyStruct.bind (only_unsigned_short) fun _ =>
    OnlyStruct.bind (only_unsigned_int) fun _ =>
    OnlyStruct.bind (only_unsigned_short) fun _ =>
    OnlyStruct.bind (only_unsigned_short) fun _ =>
    OnlyStruct.pure _

theorem Sensor.sized (o : Sensor) : Sized (Sensor.serialize o) (Sensor.wireSize o) := by
  unfold Sensor.serialize
  refine Sized.of_eq (Sized.bind (sized_unsigned_byte o.sensorTypeSource) <|
    Sized.bind (sized_unsigned_byte o.sensorOnOffStatus) <|
    Sized.bind (sized_unsigned_short o.sensorType) <|
    Sized.bind (sized_unsigned_int o.station) <|
    Sized.bind (sized_unsigned_short o.quantity) <|
    sized_unsigned_short o.padding) ?_
  simp only [Sensor.wireSize]; try omega

theorem Sensor.ok_iff (o : Sensor) : (Sensor.serialize o).Ok ↔ Sensor.WireOk o := by
  unfold Sensor.serialize Sensor.WireOk
  exact ok_bind_iff (ok_unsigned_byte) <|
    ok_bind_iff (ok_unsigned_byte) <|
    ok_bind_iff (ok_unsigned_short) <|
    ok_bind_iff (ok_unsigned_int) <|
    ok_bind_iff (ok_unsigned_short) <|
    ok_unsigned_short

theorem Sensor.after_canon {o : Sensor} (h : Sensor.Canon o) : Sensor.after Sensor.init o = o := by
  cases o
  exact (Sensor.mk.injEq ..).mpr ⟨rfl,
    rfl,
    rfl,
    rfl,
    rfl,
    rfl⟩

theorem Sensor.post : Post (Sensor.parse Sensor.init) (fun b o => (Sensor.WireOk o ∧ Sensor.Canon o) ∧ (Sensor.NoNaN o → (Sensor.serialize o).Emits b)) := by
  unfold Sensor.parse
  refine Post.bind (post_unsigned_byte) fun a0 b0 h0 => ?_
  refine Post.bind (post_unsigned_byte) fun a1 b1 h1 => ?_
  refine Post.bind (post_unsigned_short) fun a2 b2 h2 => ?_
  refine Post.bind (post_unsigned_int) fun a3 b3 h3 => ?_
  refine Post.bind (post_unsigned_short) fun a4 b4 h4 => ?_
  refine Post.last (post_unsigned_short) fun a5 b5 h5 => ?_
  refine ⟨⟨⟨h0.1, h1.1, h2.1, h3.1, h4.1, h5.1⟩,
    trivial⟩, fun _ => ?_⟩
  exact W.Emits.bind (h0.2) <|
      W.Emits.bind (h1.2) <|
      W.Emits.bind (h2.2) <|
      W.Emits.bind (h3.2) <|
      W.Emits.bind (h4.2) <|
      h5.2

theorem MunitionReload.rt (s o : MunitionReload) : RT (MunitionReload.serialize o) (MunitionReload.parse s) (MunitionReload.after s o) := by
  unfold MunitionReload.serialize MunitionReload.parse
  exact RT.bind (EntityType.rt s.munitionType o.munitionType) <|
    RT.bind (rt_unsigned_int o.station) <|
    RT.bind (rt_unsigned_short o.standardQuantity) <|
    RT.bind (rt_unsigned_short o.maximumQuantity) <|
    RT.bind (rt_unsigned_int o.standardQuantityReloadTime) <|
    RT.last (rt_unsigned_int o.maximumQuantityReloadTime)

theorem MunitionReload.loc (s : MunitionReload) : Local (MunitionReload.parse s) := by
  unfold MunitionReload.parse
  exact Local.bind (EntityType.loc _) fun _ =>
    Local.bind (loc_unsigned_int) fun _ =>
    Local.bind (loc_unsigned_short) fun _ =>
    Local.bind (loc_unsigned_short) fun _ =>
    Local.bind (loc_unsigned_int) fun _ =>
    Local.bind (loc_unsigned_int) fun _ =>
    Local.pure _

theorem MunitionReload.only (s : MunitionReload) : OnlyStruct (MunitionReload.parse s) := by
  unfold MunitionReload.parse
  exact OnlyStruct.bind (EntityType.only _) fun _ =>
    OnlyStruct.bind (only_unsigned_int) fun _ =>
    OnlyStruct.bind (only_unsigned_short) fun _ =>
    OnlyStruct.bind (only_unsigned_short) fun _ =>
    OnlyStruct.bind (only_unsigned_int) fun _ =>
    OnlyStruct.bind (only_unsigned_int) fun _ =>
    OnlyStruct.pure _

theorem MunitionReload.sized (o : MunitionReload) : Sized (MunitionReload.serialize o) (MunitionReload.wireSize o) := by
  unfold MunitionReload.serialize
  refine Sized.of_eq (Sized.bind (EntityType.sized o.munitionType) <|
    Sized.bind (sized_unsigned_int o.station) <|
    Sized.bind (sized_unsigned_short o.standardQuantity) <|
    Sized.bind (sized_unsigned_short o.maximumQuantity) <|
    Sized.bind (sized_unsigned_int o.standardQuantityReloadTime) <|
    sized_unsigned_int o.maximumQuantityReloadTime) ?_
  simp only [MunitionReload.wireSize, EntityType.wireSize]; try omega

theorem MunitionReload.ok_iff (o : MunitionReload) : (MunitionReload.serialize o).Ok ↔ MunitionReload.WireOk o := by
  unfold MunitionReload.serialize MunitionReload.WireOk
  exact ok_bind_iff (EntityType.ok_iff o.munitionType) <|
    ok_bind_iff (ok_unsigned_int) <|
    ok_bind_iff (ok_unsigned_short) <|
    ok_bind_iff (ok_unsigned_short) <|
    ok_bind_iff (ok_unsigned_int) <|
    ok_unsigned_int

theorem MunitionReload.after_canon {o : MunitionReload} (h : MunitionReload.Canon o) : MunitionReload.after MunitionReload.init o = o := by
  cases o
  exact (MunitionReload.mk.injEq ..).mpr ⟨EntityType.after_canon trivial,
    rfl,
    rfl,
    rfl,
    rfl,
    rfl⟩

theorem MunitionReload.post : Post (MunitionReload.parse MunitionReload.init) (fun b o => (MunitionReload.WireOk o ∧ MunitionReload.Canon o) ∧ (MunitionReload.NoNaN o → (MunitionReload.serialize o).Emits b)) := by
  unfold MunitionReload.parse
  refine Post.bind (EntityType.post) fun a0 b0 h0 => ?_
  refine Post.bind (post_unsigned_int) fun a1 b1 h1 => ?_
  refine Post.bind (post_unsigned_short) fun a2 b2 h2 => ?_
  refine Post.bind (post_unsigned_short) fun a3 b3 h3 => ?_
  refine Post.bind (post_unsigned_int) fun a4 b4 h4 => ?_
  refine Post.last (post_unsigned_int) fun a5 b5 h5 => ?_
  refine ⟨⟨⟨h0.1.1, h1.1, h2.1, h3.1, h4.1, h5.1⟩,
    trivial⟩, fun _ => ?_⟩
  exact W.Emits.bind (h0.2 trivial) <|
      W.Emits.bind (h1.2) <|
      W.Emits.bind (h2.2) <|
      W.Emits.bind (h3.2) <|
      W.Emits.bind (h4.2) <|
      h5.2

theorem StorageFuelReload.rt (s o : StorageFuelReload) : RT (StorageFuelReload.serialize o) (StorageFuelReload.parse s) (StorageFuelReload.after s o) := by
  unfold StorageFuelReload.serialize StorageFuelReload.parse
  exact RT.bind (rt_unsigned_int o.standardQuantity) <|
    RT.bind (rt_unsigned_int o.maximumQuantity) <|
    RT.bind (rt_unsigned_byte o.standardQuantityReloadTime) <|
    RT.bind (rt_unsigned_byte o.maximumQuantityReloadTime) <|
    RT.bind (rt_unsigned_byte o.fuelMeasurementUnits) <|
    RT.bind (rt_unsigned_byte o.fuelType) <|
    RT.bind (rt_unsigned_byte o.fuelLocation) <|
    RT.last (rt_unsigned_byte o.padding)

theorem StorageFuelReload.loc (s : StorageFuelReload) : Local (StorageFuelReload.parse s) := by
  unfold StorageFuelReload.parse
  exact Local.bind (loc_unsigned_int) fun _ =>
    Local.bind (loc_unsigned_int) fun _ =>
    Local.bind (loc_unsigned_byte) fun _ =>
    Local.bind (loc_unsigned_byte) fun _ =>
    Local.bind (loc_unsigned_byte) fun _ =>
    Local.bind (loc_unsigned_byte) fun _ =>
    Local.bind (loc_unsigned_byte) fun _ =>
    Local.bind (loc_unsigned_byte) fun _ =>
    Local.pure _

theorem StorageFuelReload.only (s : StorageFuelReload) : OnlyStruct (StorageFuelReload.parse s) := by
  unfold StorageFuelReload.parse
  exact OnlyStruct.bind (only_unsigned_int) fun _ =>
    OnlyStruct.bind (only_unsigned_int) fun _ =>
    OnlyStruct.bind (only_unsigned_byte) fun _ =>
    OnlyStruct.bind (only_unsigned_byte) fun _ =>
    OnlyStruct.bind (only_unsigned_byte) fun _ =>
    OnlyStruct.bind (only_unsigned_byte) fun _ =>
    OnlyStruct.bind (only_unsigned_byte) fun _ =>
    OnlyStruct.bind (only_unsigned_byte) fun _ =>
    OnlyStruct.pure _

theorem StorageFuelReload.sized (o : StorageFuelReload) : Sized (StorageFuelReload.serialize o) (StorageFuelReload.wireSize o) := by
  unfold StorageFuelReload.serialize
  refine Sized.of_eq (Sized.bind (sized_unsigned_int o.standardQuantity) <|
    Sized.bind (sized_unsigned_int o.maximumQuantity) <|
    Sized.bind (sized_unsigned_byte o.standardQuantityReloadTime) <|
    Sized.bind (sized_unsigned_byte o.maximumQuantityReloadTime) <|
    Sized.bind (sized_unsigned_byte o.fuelMeasurementUnits) <|
    Sized.bind (sized_unsigned_byte o.fuelType) <|
    Sized.bind (sized_unsigned_byte o.fuelLocation) <|
    sized_unsigned_byte o.padding) ?_
  simp only [StorageFuelReload.wireSize]; try omega

theorem StorageFuelReload.ok_iff (o : StorageFuelReload) : (StorageFuelReload.serialize o).Ok ↔ StorageFuelReload.WireOk o := by
  unfold StorageFuelReload.serialize StorageFuelReload.WireOk
  exact ok_bind_iff (ok_unsigned_int) <|
    ok_bind_iff (ok_unsigned_int) <|
    ok_bind_iff (ok_unsigned_byte) <|
    ok_bind_iff (ok_unsigned_byte) <|
    ok_bind_iff (ok_unsigned_byte) <|
    ok_bind_iff (ok_unsigned_byte) <|
    ok_bind_iff (ok_unsigned_byte) <|
    ok_unsigned_byte

theorem StorageFuelReload.after_canon {o : StorageFuelReload} (h : StorageFuelReload.Canon o) : StorageFuelReload.after StorageFuelReload.init o = o := by
  cases o
  exact (StorageFuelReload.mk.injEq ..).mpr ⟨rfl,
    rfl,
    rfl,
    rfl,
    rfl,
    rfl,
    rfl,
    rfl⟩

theorem StorageFuelReload.post : Post (StorageFuelReload.parse StorageFuelReload.init) (fun b o => (StorageFuelReload.WireOk o ∧ StorageFuelReload.Canon o) ∧ (StorageFuelReload.NoNaN o → (StorageFuelReload.serialize o).Emits b)) := by
  unfold StorageFuelReload.parse
  refine Post.bind (post_unsigned_int) fun a0 b0 h0 => ?_
  refine Post.bind (post_unsigned_int) fun a1 b1 h1 => ?_
  refine Post.bind (post_unsigned_byte) fun a2 b2 h2 => ?_
  refine Post.bind (post_unsigned_byte) fun a3 b3 h3 => ?_
  refine Post.bind (post_unsigned_byte) fun a4 b4 h4 => ?_
  refine Post.bind (post_unsigned_byte) fun a5 b5 h5 => ?_
  refine Post.bind (post_unsigned_byte) fun a6 b6 h6 => ?_
  refine Post.last (post_unsigned_byte) fun a7 b7 h7 => ?_
  refine ⟨⟨⟨h0.1, h1.1, h2.1, h3.1, h4.1, h5.1, h6.1, h7.1⟩,
    trivial⟩, fun _ => ?_⟩
  exact W.Emits.bind (h0.2) <|
      W.Emits.bind (h1.2) <|
      W.Emits.bind (h2.2) <|
      W.Emits.bind (h3.2) <|
      W.Emits.bind (h4.2) <|
      W.Emits.bind (h5.2) <|
      W.Emits.bind (h6.2) <|
      h7.2

theorem ExpendableReload.rt (s o : ExpendableReload) : RT (ExpendableReload.serialize o) (ExpendableReload.parse s) (ExpendableReload.after s o) := by
  unfold ExpendableReload.serialize ExpendableReload.parse
  exact RT.bind (EntityType.rt s.expendable o.expendable) <|
    RT.bind (rt_unsigned_int o.station) <|
    RT.bind (rt_unsigned_short o.standardQuantity) <|
    RT.bind (rt_unsigned_short o.maximumQuantity) <|
    RT.bind (rt_unsigned_int o.standardQuantityReloadTime) <|
    RT.last (rt_unsigned_int o.maximumQuantityReloadTime)

theorem ExpendableReload.loc (s : ExpendableReload) : Local (ExpendableReload.parse s) := by
  unfold ExpendableReload.parse
  exact Local.bind (EntityType.loc _) fun _ =>
    Local.bind (loc_unsigned_int) fun _ =>
    Local.bind (loc_unsigned_short) fun _ =>
    Local.bind (loc_unsigned_short) fun _ =>
    Local.bind (loc_unsigned_int) fun _ =>
    Local.bind (loc_unsigned_int) fun _ =>
    Local.pure _

theorem ExpendableReload.only (s : ExpendableReload) : OnlyStruct (ExpendableReload.parse s) := by
  unfold ExpendableReload.parse
  exact OnlyStruct.bind (EntityType.only _) fun _ =>
    OnlyStruct.bind (only_unsigned_int) fun _ =>
    OnlyStruct.bind (only_unsigned_short) fun _ =>
    OnlyStruct.bind (only_unsigned_short) fun _ =>
    OnlyStruct.bind (only_unsigned_int) fun _ =>
    OnlyStruct.bind (only_unsigned_int) fun _ =>
    OnlyStruct.pure _

theorem ExpendableReload.sized (o : ExpendableReload) : Sized (ExpendableReload.serialize o) (ExpendableReload.wireSize o) := by
  unfold ExpendableReload.serialize
  refine Sized.of_eq (Sized.bind (EntityType.sized o.expendable) <|
    Sized.bind (sized_unsigned_int o.station) <|
    Sized.bind (sized_unsigned_short o.standardQuantity) <|
    Sized.bind (sized_unsigned_short o.maximumQuantity) <|
    Sized.bind (sized_unsigned_int o.standardQuantityReloadTime) <|
    sized_unsigned_int o.maximumQuantityReloadTime) ?_
  simp only [ExpendableReload.wireSize, EntityType.wireSize]; try omega

theorem ExpendableReload.ok_iff (o : ExpendableReload) : (ExpendableReload.serialize o).Ok ↔ ExpendableReload.WireOk o := by
  unfold ExpendableReload.serialize ExpendableReload.WireOk
  exact ok_bind_iff (EntityType.ok_iff o.expendable) <|
    ok_bind_iff (ok_unsigned_int) <|
    ok_bind_iff (ok_unsigned_short) <|
    ok_bind_iff (ok_unsigned_short) <|
    ok_bind_iff (ok_unsigned_int) <|
    ok_unsigned_int

theorem ExpendableReload.after_canon {o : ExpendableReload} (h : ExpendableReload.Canon o) : ExpendableReload.after ExpendableReload.init o = o := by
  cases o
  exact (ExpendableReload.mk.injEq ..).mpr ⟨EntityType.after_canon trivial,
    rfl,
    rfl,
    rfl,
    rfl,
    rfl⟩

theorem ExpendableReload.post : Post (ExpendableReload.parse ExpendableReload.init) (fun b o => (ExpendableReload.WireOk o ∧ ExpendableReload.Canon o) ∧ (ExpendableReload.NoNaN o → (ExpendableReload.serialize o).Emits b)) := by
  unfold ExpendableReload.parse
  refine Post.bind (EntityType.post) fun a0 b0 h0 => ?_
  refine Post.bind (post_unsigned_int) fun a1 b1 h1 => ?_
  refine Post.bind (post_unsigned_short) fun a2 b2 h2 => ?_
  refine Post.bind (post_unsigned_short) fun a3 b3 h3 => ?_
  refine Post.bind (post_unsigned_int) fun a4 b4 h4 => ?_
  refine Post.last (post_unsigned_int) fun a5 b5 h5 => ?_
  refine ⟨⟨⟨h0.1.1, h1.1, h2.1, h3.1, h4.1, h5.1⟩,
    trivial⟩, fun _ => ?_⟩
  exact W.Emits.bind (h0.2 trivial) <|
      W.Emits.bind (h1.2) <|
      W.Emits.bind (h2.2) <|
      W.Emits.bind (h3.2) <|
      W.Emits.bind (h4.2) <|
      h5.2

theorem EngineFuelReload.rt (s o : EngineFuelReload) : RT (EngineFuelReload.serialize o) (EngineFuelReload.parse s) (EngineFuelReload.after s o) := by
  unfold EngineFuelReload.serialize EngineFuelReload.parse
  exact RT.bind (rt_unsigned_int o.standardQuantity) <|
    RT.bind (rt_unsigned_int o.maximumQuantity) <|
    RT.bind (rt_unsigned_int o.standardQuantityReloadTime) <|
    RT.bind (rt_unsigned_int o.maximumQuantityReloadTime) <|
    RT.bind (rt_unsigned_byte o.fuelMeasurmentUnits) <|
    RT.bind (rt_unsigned_byte o.fuelLocation) <|
    RT.last (rt_unsigned_byte o.padding)

theorem EngineFuelReload.loc (s : EngineFuelReload) : Local (EngineFuelReload.parse s) := by
  unfold EngineFuelReload.parse
  exact Local.bind (loc_unsigned_int) fun _ =>
    Local.bind (loc_unsigned_int) fun _ =>
    Local.bind (loc_unsigned_int) fun _ =>
    Local.bind (loc_unsigned_int) fun _ =>
    Local.bind (loc_unsigned_byte) fun _ =>
    Local.bind (loc_unsigned_byte) fun _ =>
    Local.bind (loc_unsigned_byte) fun _ =>
    Local.pure _

theorem EngineFuelReload.only (s : EngineFuelReload) : OnlyStruct (EngineFuelReload.parse s) := by
  unfold EngineFuelReload.parse
  exact OnlyStruct.bind (only_unsigned_int) fun _ =>
    OnlyStruct.bind (only_unsigned_int) fun _ =>
    OnlyStruct.bind (only_unsigned_int) fun _ =>
    OnlyStruct.bind (only_unsigned_int) fun _ =>
    OnlyStruct.bind (only_unsigned_byte) fun _ =>
    OnlyStruct.bind (only_unsigned_byte) fun _ =>
    OnlyStruct.bind (only_unsigned_byte) fun _ =>
    OnlyStruct.pure _

theorem EngineFuelReload.sized (o : EngineFuelReload) : Sized (EngineFuelReload.serialize o) (EngineFuelReload.wireSize o) := by
  unfold EngineFuelReload.serialize
  refine Sized.of_eq (Sized.bind (sized_unsigned_int o.standardQuantity) <|
    Sized.bind (sized_unsigned_int o.maximumQuantity) <|
    Sized.bind (sized_unsigned_int o.standardQuantityReloadTime) <|
    Sized.bind (sized_unsigned_int o.maximumQuantityReloadTime) <|
    Sized.bind (sized_unsigned_byte o.fuelMeasurmentUnits) <|
    Sized.bind (sized_unsigned_byte o.fuelLocation) <|
    sized_unsigned_byte o.padding) ?_
  simp only [EngineFuelReload.wireSize]; try omega

theorem EngineFuelReload.ok_iff (o : EngineFuelReload) : (EngineFuelReload.serialize o).Ok ↔ EngineFuelReload.WireOk o := by
  unfold EngineFuelReload.serialize EngineFuelReload.WireOk
  exact ok_bind_iff (ok_unsigned_int) <|
    ok_bind_iff (ok_unsigned_int) <|
    ok_bind_iff (ok_unsigned_int) <|
    ok_bind_iff (ok_unsigned_int) <|
    ok_bind_iff (ok_unsigned_byte) <|
    ok_bind_iff (ok_unsigned_byte) <|
    ok_unsigned_byte

theorem EngineFuelReload.after_canon {o : EngineFuelReload} (h : EngineFuelReload.Canon o) : EngineFuelReload.after EngineFuelReload.init o = o := by
  cases o
  exact (EngineFuelReload.mk.injEq ..).mpr ⟨rfl,
    rfl,
    rfl,
    rfl,
    rfl,
    rfl,
    rfl⟩

theorem EngineFuelReload.post : Post (EngineFuelReload.parse EngineFuelReload.init) (fun b o => (EngineFuelReload.WireOk o ∧ EngineFuelReload.Canon o) ∧ (EngineFuelReload.NoNaN o → (EngineFuelReload.serialize o).Emits b)) := by
  unfold EngineFuelReload.parse
  refine Post.bind (post_unsigned_int) fun a0 b0 h0 => ?_
  refine Post.bind (post_unsigned_int) fun a1 b1 h1 => ?_
  refine Post.bind (post_unsigned_int) fun a2 b2 h2 => ?_
  refine Post.bind (post_unsigned_int) fun a3 b3 h3 => ?_
  refine Post.bind (post_unsigned_byte) fun a4 b4 h4 => ?_
  refine Post.bind (post_unsigned_byte) fun a5 b5 h5 => ?_
  refine Post.last (post_unsigned_byte) fun a6 b6 h6 => ?_
  refine ⟨⟨⟨h0.1, h1.1, h2.1, h3.1, h4.1, h5.1, h6.1⟩,
    trivial⟩, fun _ => ?_⟩
  exact W.Emits.bind (h0.2) <|
      W.Emits.bind (h1.2) <|
      W.Emits.bind (h2.2) <|
      W.Emits.bind (h3.2) <|
      W.Emits.bind (h4.2) <|
      W.Emits.bind (h5.2) <|
      h6.2

theorem UnattachedIdentifier.rt (s o : UnattachedIdentifier) : RT (UnattachedIdentifier.serialize o) (UnattachedIdentifier.parse s) (UnattachedIdentifier.after s o) := by
  unfold UnattachedIdentifier.serialize UnattachedIdentifier.parse
  exact RT.bind (SimulationAddress.rt s.simulationAddress o.simulationAddress) <|
    RT.last (rt_unsigned_short o.referenceNumber)

theorem UnattachedIdentifier.loc (s : UnattachedIdentifier) : Local (UnattachedIdentifier.parse s) := by
  unfold UnattachedIdentifier.parse
  exact Local.bind (SimulationAddress.loc _) fun _ =>
    Local.bind (loc_unsigned_short) fun _ =>
    Local.pure _

theorem UnattachedIdentifier.only (s : UnattachedIdentifier) : OnlyStruct (UnattachedIdentifier.parse s) := by
  unfold UnattachedIdentifier.parse
  exact OnlyStruct.bind (SimulationAddress.only _) fun _ =>
    OnlyStruct.bind (only_unsigned_short) fun _ =>
    OnlyStruct.pure _

theorem UnattachedIdentifier.sized (o : UnattachedIdentifier) : Sized (UnattachedIdentifier.serialize o) (UnattachedIdentifier.wireSize o) := by
  unfold UnattachedIdentifier.serialize
  refine Sized.of_eq (Sized.bind (SimulationAddress.sized o.simulationAddress) <|
    sized_unsigned_short o.referenceNumber) ?_
  simp only [UnattachedIdentifier.wireSize, SimulationAddress.wireSize]; try omega

theorem UnattachedIdentifier.ok_iff (o : UnattachedIdentifier) : (UnattachedIdentifier.serialize o).Ok ↔ UnattachedIdentifier.WireOk o := by
  unfold UnattachedIdentifier.serialize UnattachedIdentifier.WireOk
  exact ok_bind_iff (SimulationAddress.ok_iff o.simulationAddress) <|
    ok_unsigned_short

theorem UnattachedIdentifier.after_canon {o : UnattachedIdentifier} (h : UnattachedIdentifier.Canon o) : UnattachedIdentifier.after UnattachedIdentifier.init o = o := by
  cases o
  exact (UnattachedIdentifier.mk.injEq ..).mpr ⟨SimulationAddress.after_canon trivial,
    rfl⟩

theorem UnattachedIdentifier.post : Post (UnattachedIdentifier.parse UnattachedIdentifier.init) (fun b o => (UnattachedIdentifier.WireOk o ∧ UnattachedIdentifier.Canon o) ∧ (UnattachedIdentifier.NoNaN o → (UnattachedIdentifier.serialize o).Emits b)) := by
  unfold UnattachedIdentifier.parse
  refine Post.bind (SimulationAddress.post) fun a0 b0 h0 => ?_
  refine Post.last (post_unsigned_short) fun a1 b1 h1 => ?_
  refine ⟨⟨⟨h0.1.1, h1.1⟩,
    trivial⟩, fun _ => ?_⟩
  exact W.Emits.bind (h0.2 trivial) <|
      h1.2

theorem EntityTypeVP.rt (s o : EntityTypeVP) : RT (EntityTypeVP.serialize o) (EntityTypeVP.parse s) (EntityTypeVP.after s o) := by
  unfold EntityTypeVP.serialize EntityTypeVP.parse
  exact RT.bind (rt_unsigned_byte o.recordType) <|
    RT.bind (rt_unsigned_byte o.changeIndicator) <|
    RT.bind (EntityType.rt s.entityType o.entityType) <|
    RT.bind (rt_unsigned_short o.padding) <|
    RT.last (rt_unsigned_int o.padding1)

theorem EntityTypeVP.loc (s : EntityTypeVP) : Local (EntityTypeVP.parse s) := by
  unfold EntityTypeVP.parse
  exact Local.bind (loc_unsigned_byte) fun _ =>
    Local.bind (loc_unsigned_byte) fun _ =>
    Local.bind (EntityType.loc _) fun _ =>
    Local.bind (loc_unsigned_short) fun _ =>
    Local.bind (loc_unsigned_int) fun _ =>
    Local.pure _

theorem EntityTypeVP.only (s : EntityTypeVP) : OnlyStruct (EntityTypeVP.parse s) := by
  unfold EntityTypeVP.parse
  exact OnlyStruct.bind (only_unsigned_byte) fun _ =>
    OnlyStruct.bind (only_unsigned_byte) fun _ =>
    OnlyStruct.bind (EntityType.only _) fun _ =>
    OnlyStruct.bind (only_unsigned_short) fun _ =>
    OnlyStruct.bind (only_unsigned_int) fun _ =>
    OnlyStruct.pure _

theorem EntityTypeVP.sized (o : EntityTypeVP) : Sized (EntityTypeVP.serialize o) (EntityTypeVP.wireSize o) := by
  unfold EntityTypeVP.serialize
  refine Sized.of_eq (Sized.bind (sized_unsigned_byte o.recordType) <|
    Sized.bind (sized_unsigned_byte o.changeIndicator) <|
    Sized.bind (EntityType.sized o.entityType) <|
    Sized.bind (sized_unsigned_short o.padding) <|
    sized_unsigned_int o.padding1) ?_
  simp only [EntityTypeVP.wireSize, EntityType.wireSize]; try omega

theorem EntityTypeVP.ok_iff (o : EntityTypeVP) : (EntityTypeVP.serialize o).Ok ↔ EntityTypeVP.WireOk o := by
  unfold EntityTypeVP.serialize EntityTypeVP.WireOk
  exact ok_bind_iff (ok_unsigned_byte) <|
    ok_bind_iff (ok_unsigned_byte) <|
    ok_bind_iff (EntityType.ok_iff o.entityType) <|
    ok_bind_iff (ok_unsigned_short) <|
    ok_unsigned_int

theorem EntityTypeVP.after_canon {o : EntityTypeVP} (h : EntityTypeVP.Canon o) : EntityTypeVP.after EntityTypeVP.init o = o := by
  cases o
  exact (EntityTypeVP.mk.injEq ..).mpr ⟨rfl,
    rfl,
    EntityType.after_canon trivial,
    rfl,
    rfl⟩

theorem EntityTypeVP.post : Post (EntityTypeVP.parse EntityTypeVP.init) (fun b o => (EntityTypeVP.WireOk o ∧ EntityTypeVP.Canon o) ∧ (EntityTypeVP.NoNaN o → (EntityTypeVP.serialize o).Emits b)) := by
  unfold EntityTypeVP.parse
  refine Post.bind (post_unsigned_byte) fun a0 b0 h0 => ?_
  refine Post.bind (post_unsigned_byte) fun a1 b1 h1 => ?_
  refine Post.bind (EntityType.post) fun a2 b2 h2 => ?_
  refine Post.bind (post_unsigned_short) fun a3 b3 h3 => ?_
  refine Post.last (post_unsigned_int) fun a4 b4 h4 => ?_
  refine ⟨⟨⟨h0.1, h1.1, h2.1.1, h3.1, h4.1⟩,
    trivial⟩, fun _ => ?_⟩
  exact W.Emits.bind (h0.2) <|
      W.Emits.bind (h1.2) <|
      W.Emits.bind (h2.2 trivial) <|
      W.Emits.bind (h3.2) <|
      h4.2

theorem BeamStatus.rt (s o : BeamStatus) :
    RT (BeamStatus.serialize o) (BeamStatus.parse s) (BeamStatus.after s o) := by
  unfold BeamStatus.serialize BeamStatus.parse
  refine RT.of_eq (RT.last (rt_unsigned_byte (o.beamState % 2))) ?_
  unfold BeamStatus.after
  rw [Int.emod_emod_of_dvd _ (by decide)]

theorem BeamStatus.loc (s : BeamStatus) : Local (BeamStatus.parse s) := by
  unfold BeamStatus.parse
  exact Local.bind loc_unsigned_byte fun _ => Local.pure _

theorem BeamStatus.only (s : BeamStatus) : OnlyStruct (BeamStatus.parse s) := by
  unfold BeamStatus.parse
  exact OnlyStruct.bind only_unsigned_byte fun _ => OnlyStruct.pure _

theorem BeamStatus.sized (o : BeamStatus) : Sized (BeamStatus.serialize o) (BeamStatus.wireSize o) :=
  sized_unsigned_byte _

theorem BeamStatus.ok_iff (o : BeamStatus) : (BeamStatus.serialize o).Ok ↔ BeamStatus.WireOk o := by
  refine iff_of_true (ok_unsigned_byte.2 ?_) trivial
  unfold U8; omega

theorem BeamStatus.after_canon {o : BeamStatus} (h : BeamStatus.Canon o) :
    BeamStatus.after BeamStatus.init o = o := by
  cases o
  refine (BeamStatus.mk.injEq ..).mpr ?_
  rcases h with h | h <;> · simp only at h ⊢; subst h; rfl

theorem BeamStatus.post : Post (BeamStatus.parse BeamStatus.init)
    (fun _ o => BeamStatus.WireOk o ∧ BeamStatus.Canon o) := by
  unfold BeamStatus.parse
  refine Post.last post_unsigned_byte fun a0 b0 h0 => ⟨trivial, ?_⟩
  unfold BeamStatus.Canon
  simp only
  omega

end Dis
