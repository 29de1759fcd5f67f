import Verif.Spec.Records3
import Verif.Proof.Records2

/-!
# Proofs for: Records of `opendis/dis7.py`, part 3

Generated by `tools/genproof.py`.
-/

set_option linter.unusedVariables false
set_option linter.unusedSimpArgs false

namespace Dis

theorem EEFundamentalParameterData.rt (s o : EEFundamentalParameterData) : RT (EEFundamentalParameterData.serialize o) (EEFundamentalParameterData.parse s) (EEFundamentalParameterData.after s o) := by
  unfold EEFundamentalParameterData.serialize EEFundamentalParameterData.parse
  exact RT.bind (rt_float o.frequency) <|
    RT.bind (rt_float o.frequencyRange) <|
    RT.bind (rt_float o.effectiveRadiatedPower) <|
    RT.bind (rt_float o.pulseRepetitionFrequency) <|
    RT.bind (rt_float o.pulseWidth) <|
    RT.bind (rt_float o.beamAzimuthCenter) <|
    RT.bind (rt_float o.beamAzimuthSweep) <|
    RT.bind (rt_float o.beamElevationCenter) <|
    RT.bind (rt_float o.beamElevationSweep) <|
    RT.last (rt_float o.beamSweepSync)

theorem EEFundamentalParameterData.loc (s : EEFundamentalParameterData) : Local (EEFundamentalParameterData.parse s) := by
  unfold EEFundamentalParameterData.parse
  exact Local.bind (loc_float) fun _ =>
    Local.bind (loc_float) fun _ =>
    Local.bind (loc_float) fun _ =>
    Local.bind (loc_float) fun _ =>
    Local.bind (loc_float) fun _ =>
    Local.bind (loc_float) fun _ =>
    Local.bind (loc_float) fun _ =>
    Local.bind (loc_float) fun _ =>
    Local.bind (loc_float) fun _ =>
    Local.bind (loc_float) fun _ =>
    Local.pure _

theorem EEFundamentalParameterData.only (s : EEFundamentalParameterData) : OnlyStruct (EEFundamentalParameterData.parse s) := by
  unfold EEFundamentalParameterData.parse
  exact OnlyStruct.bind (only_float) fun _ =>
    OnlyStruct.bind (only_float) fun _ =>
    OnlyStruct.bind (only_float) fun _ =>
    OnlyStruct.bind (only_float) fun _ =>
    OnlyStruct.bind (only_float) fun _ =>
    OnlyStruct.bind (only_float) fun _ =>
    OnlyStruct.bind (only_float) fun _ =>
    OnlyStruct.bind (only_float) fun _ =>
    OnlyStruct.bind (only_float) fun _ =>
    OnlyStruct.bind (only_float) fun _ =>
    OnlyStruct.pure _

theorem EEFundamentalParameterData.sized (o : EEFundamentalParameterData) : Sized (EEFundamentalParameterData.serialize o) (EEFundamentalParameterData.wireSize o) := by
  unfold EEFundamentalParameterData.serialize
  refine Sized.of_eq (Sized.bind (sized_float o.frequency) <|
    Sized.bind (sized_float o.frequencyRange) <|
    Sized.bind (sized_float o.effectiveRadiatedPower) <|
    Sized.bind (sized_float o.pulseRepetitionFrequency) <|
    Sized.bind (sized_float o.pulseWidth) <|
    Sized.bind (sized_float o.beamAzimuthCenter) <|
    Sized.bind (sized_float o.beamAzimuthSweep) <|
    Sized.bind (sized_float o.beamElevationCenter) <|
    Sized.bind (sized_float o.beamElevationSweep) <|
    sized_float o.beamSweepSync) ?_
  simp only [EEFundamentalParameterData.wireSize]; try omega

theorem EEFundamentalParameterData.ok_iff (o : EEFundamentalParameterData) : (EEFundamentalParameterData.serialize o).Ok ↔ EEFundamentalParameterData.WireOk o := by
  unfold EEFundamentalParameterData.serialize EEFundamentalParameterData.WireOk
  exact ok_bind_iff (ok_float) <|
    ok_bind_iff (ok_float) <|
    ok_bind_iff (ok_float) <|
    ok_bind_iff (ok_float) <|
    ok_bind_iff (ok_float) <|
    ok_bind_iff (ok_float) <|
    ok_bind_iff (ok_float) <|
    ok_bind_iff (ok_float) <|
    ok_bind_iff (ok_float) <|
    ok_float

theorem EEFundamentalParameterData.after_canon {o : EEFundamentalParameterData} (h : EEFundamentalParameterData.Canon o) : EEFundamentalParameterData.after EEFundamentalParameterData.init o = o := by
  obtain ⟨h_frequency, h_frequencyRange, h_effectiveRadiatedPower, h_pulseRepetitionFrequency, h_pulseWidth, h_beamAzimuthCenter, h_beamAzimuthSweep, h_beamElevationCenter, h_beamElevationSweep, h_beamSweepSync⟩ := h
  cases o
  exact (EEFundamentalParameterData.mk.injEq ..).mpr ⟨h_frequency,
    h_frequencyRange,
    h_effectiveRadiatedPower,
    h_pulseRepetitionFrequency,
    h_pulseWidth,
    h_beamAzimuthCenter,
    h_beamAzimuthSweep,
    h_beamElevationCenter,
    h_beamElevationSweep,
    h_beamSweepSync⟩

theorem EEFundamentalParameterData.post : Post (EEFundamentalParameterData.parse EEFundamentalParameterData.init) (fun b o => (EEFundamentalParameterData.WireOk o ∧ EEFundamentalParameterData.Canon o) ∧ (EEFundamentalParameterData.NoNaN o → (EEFundamentalParameterData.serialize o).Emits b)) := by
  unfold EEFundamentalParameterData.parse
  refine Post.bind (post_float) fun a0 b0 h0 => ?_
  refine Post.bind (post_float) fun a1 b1 h1 => ?_
  refine Post.bind (post_float) fun a2 b2 h2 => ?_
  refine Post.bind (post_float) fun a3 b3 h3 => ?_
  refine Post.bind (post_float) fun a4 b4 h4 => ?_
  refine Post.bind (post_float) fun a5 b5 h5 => ?_
  refine Post.bind (post_float) fun a6 b6 h6 => ?_
  refine Post.bind (post_float) fun a7 b7 h7 => ?_
  refine Post.bind (post_float) fun a8 b8 h8 => ?_
  refine Post.last (post_float) fun a9 b9 h9 => ?_
  refine ⟨⟨⟨h0.1.1, h1.1.1, h2.1.1, h3.1.1, h4.1.1, h5.1.1, h6.1.1, h7.1.1, h8.1.1, h9.1.1⟩,
    ⟨h0.1.2, h1.1.2, h2.1.2, h3.1.2, h4.1.2, h5.1.2, h6.1.2, h7.1.2, h8.1.2, h9.1.2⟩⟩, fun hn => ?_⟩
  obtain ⟨n0, n1, n2, n3, n4, n5, n6, n7, n8, n9⟩ := hn
  exact W.Emits.bind (h0.2 n0) <|
      W.Emits.bind (h1.2 n1) <|
      W.Emits.bind (h2.2 n2) <|
      W.Emits.bind (h3.2 n3) <|
      W.Emits.bind (h4.2 n4) <|
      W.Emits.bind (h5.2 n5) <|
      W.Emits.bind (h6.2 n6) <|
      W.Emits.bind (h7.2 n7) <|
      W.Emits.bind (h8.2 n8) <|
      h9.2 n9

theorem JammingTechnique.rt (s o : JammingTechnique) : RT (JammingTechnique.serialize o) (JammingTechnique.parse s) (JammingTechnique.after s o) := by
  unfold JammingTechnique.serialize JammingTechnique.parse
  exact RT.bind (rt_unsigned_byte o.kind) <|
    RT.bind (rt_unsigned_byte o.category) <|
    RT.bind (rt_unsigned_byte o.subcategory) <|
    RT.last (rt_unsigned_byte o.specific)

theorem JammingTechnique.loc (s : JammingTechnique) : Local (JammingTechnique.parse s) := by
  unfold JammingTechnique.parse
  exact Local.bind (loc_unsigned_byte) fun _ =>
    Local.bind (loc_unsigned_byte) fun _ =>
    Local.bind (loc_unsigned_byte) fun _ =>
    Local.bind (loc_unsigned_byte) fun _ =>
    Local.pure _

theorem JammingTechnique.only (s : JammingTechnique) : OnlyStruct (JammingTechnique.parse s) := by
  unfold JammingTechnique.parse
  exact OnlyStruct.bind (only_unsigned_byte) fun _ =>
    OnlyStruct.bind (only_unsigned_byte) fun _ =>
    OnlyStruct.bind (only_unsigned_byte) fun _ =>
    OnlyStruct.bind (only_unsigned_byte) fun _ =>
    OnlyStruct.pure _

theorem JammingTechnique.sized (o : JammingTechnique) : Sized (JammingTechnique.serialize o) (JammingTechnique.wireSize o) := by
  unfold JammingTechnique.serialize
  refine Sized.of_eq (Sized.bind (sized_unsigned_byte o.kind) <|
    Sized.bind (sized_unsigned_byte o.category) <|
    Sized.bind (sized_unsigned_byte o.subcategory) <|
    sized_unsigned_byte o.specific) ?_
  simp only [JammingTechnique.wireSize]; try omega

theorem JammingTechnique.ok_iff (o : JammingTechnique) : (JammingTechnique.serialize o).Ok ↔ JammingTechnique.WireOk o := by
  unfold JammingTechnique.serialize JammingTechnique.WireOk
  exact ok_bind_iff (ok_unsigned_byte) <|
    ok_bind_iff (ok_unsigned_byte) <|
    ok_bind_iff (ok_unsigned_byte) <|
    ok_unsigned_byte

theorem JammingTechnique.after_canon {o : JammingTechnique} (h : JammingTechnique.Canon o) : JammingTechnique.after JammingTechnique.init o = o := by
  cases o
  exact (JammingTechnique.mk.injEq ..).mpr ⟨rfl,
    rfl,
    rfl,
    rfl⟩

theorem JammingTechnique.post : Post (JammingTechnique.parse JammingTechnique.init) (fun b o => (JammingTechnique.WireOk o ∧ JammingTechnique.Canon o) ∧ (JammingTechnique.NoNaN o → (JammingTechnique.serialize o).Emits b)) := by
  unfold JammingTechnique.parse
  refine Post.bind (post_unsigned_byte) fun a0 b0 h0 => ?_
  refine Post.bind (post_unsigned_byte) fun a1 b1 h1 => ?_
  refine Post.bind (post_unsigned_byte) fun a2 b2 h2 => ?_
  refine Post.last (post_unsigned_byte) fun a3 b3 h3 => ?_
  refine ⟨⟨⟨h0.1, h1.1, h2.1, h3.1⟩,
    trivial⟩, fun _ => ?_⟩
  exact W.Emits.bind (h0.2) <|
      W.Emits.bind (h1.2) <|
      W.Emits.bind (h2.2) <|
      h3.2

theorem VariableDatum.padding_eq (o : VariableDatum) :
    o.datumPaddingSizeInBits = (-o.variableDatumLength) % 64 := by
  unfold VariableDatum.datumPaddingSizeInBits
  split <;> omega

theorem VariableDatum.rt (s o : VariableDatum) :
    RT (VariableDatum.serialize o) (VariableDatum.parse s) (VariableDatum.after s o) := by
  unfold VariableDatum.serialize VariableDatum.parse
  exact RT.bind (rt_unsigned_int o.variableDatumID) <|
    RT.bind (rt_unsigned_int o.variableDatumLength) <|
    RT.bind (rt_array rt_unsigned_byte o.variableData _) <|
    RT.last (rt_pad rt_unsigned_byte 0 _ _)

theorem VariableDatum.loc (s : VariableDatum) : Local (VariableDatum.parse s) := by
  unfold VariableDatum.parse
  exact Local.bind loc_unsigned_int fun _ => Local.bind loc_unsigned_int fun _ =>
    Local.bind (Local.times loc_unsigned_byte _) fun _ =>
    Local.bind (Local.times loc_unsigned_byte _) fun _ => Local.pure _

theorem VariableDatum.only (s : VariableDatum) : OnlyStruct (VariableDatum.parse s) := by
  unfold VariableDatum.parse
  exact OnlyStruct.bind only_unsigned_int fun _ => OnlyStruct.bind only_unsigned_int fun _ =>
    OnlyStruct.bind (OnlyStruct.times only_unsigned_byte _) fun _ =>
    OnlyStruct.bind (OnlyStruct.times only_unsigned_byte _) fun _ => OnlyStruct.pure _

theorem VariableDatum.sized (o : VariableDatum) :
    Sized (VariableDatum.serialize o) (VariableDatum.wireSize o) := by
  unfold VariableDatum.serialize
  refine Sized.of_eq (Sized.bind (sized_unsigned_int _) <| Sized.bind (sized_unsigned_int _) <|
    Sized.bind (sized_array sized_unsigned_byte _ _ _) <| sized_pad (sized_unsigned_byte 0) _ _) ?_
  rw [VariableDatum.padding_eq]
  simp only [VariableDatum.wireSize]; omega

theorem VariableDatum.ok_iff (o : VariableDatum) :
    (VariableDatum.serialize o).Ok ↔ VariableDatum.WireOk o := by
  unfold VariableDatum.serialize VariableDatum.WireOk
  refine ok_bind_iff ok_unsigned_int <| ok_bind_iff ok_unsigned_int ?_
  rw [W.ok_bind, forRange_index_ok]
  have hp : (W.forRange 0 (o.datumPaddingSizeInBits / 8).toNat fun _ => write_unsigned_byte 0).Ok :=
    ok_pad (ok_unsigned_byte.2 ⟨by decide, by decide⟩) _ _
  simp only [List.drop_zero, Nat.zero_add, hp, and_true, ok_unsigned_byte]
  constructor
  · rintro ⟨h1, h2⟩; exact ⟨by omega, h2⟩
  · rintro ⟨h1, h2⟩; exact ⟨by omega, h2⟩

theorem VariableDatum.after_canon {o : VariableDatum} (h : VariableDatum.Canon o) :
    VariableDatum.after VariableDatum.init o = o := by
  cases o
  exact (VariableDatum.mk.injEq ..).mpr ⟨rfl, rfl, List.take_of_length_le (Nat.le_of_eq h)⟩

theorem VariableDatum.post : Post (VariableDatum.parse VariableDatum.init)
    (fun _ o => VariableDatum.WireOk o ∧ VariableDatum.Canon o) := by
  unfold VariableDatum.parse
  refine Post.bind post_unsigned_int fun a0 b0 h0 => ?_
  refine Post.bind post_unsigned_int fun a1 b1 h1 => ?_
  refine Post.bind (Post.times_all post_unsigned_byte _) fun a2 b2 h2 => ?_
  refine Post.last (Post.times_all post_unsigned_byte _) fun a3 b3 h3 => ?_
  exact ⟨⟨h0.1, h1.1, Nat.le_of_eq h2.1.symm, fun x hx => h2.2.1 x (List.mem_of_mem_take hx)⟩, h2.1⟩

theorem DatumSpecification.rt (s o : DatumSpecification) : RT (DatumSpecification.serialize o) (DatumSpecification.parse s) (DatumSpecification.after s o) := by
  unfold DatumSpecification.serialize DatumSpecification.parse
  exact RT.bind (rt_unsigned_int ((o.fixedDatumRecords.length : Int))) <|
    RT.bind (rt_unsigned_int ((o.variableDatumRecords.length : Int))) <|
    RT.bind (rt_list fun x _ => FixedDatum.rt _ x) <|
    RT.last (rt_list fun x _ => VariableDatum.rt _ x)

theorem DatumSpecification.loc (s : DatumSpecification) : Local (DatumSpecification.parse s) := by
  unfold DatumSpecification.parse
  exact Local.bind (loc_unsigned_int) fun _ =>
    Local.bind (loc_unsigned_int) fun _ =>
    Local.bind (Local.times (FixedDatum.loc _) _) fun _ =>
    Local.bind (Local.times (VariableDatum.loc _) _) fun _ =>
    Local.pure _

theorem DatumSpecification.only (s : DatumSpecification) : OnlyStruct (DatumSpecification.parse s) := by
  unfold DatumSpecification.parse
  exact OnlyStruct.bind (only_unsigned_int) fun _ =>
    OnlyStruct.bind (only_unsigned_int) fun _ =>
    OnlyStruct.bind (OnlyStruct.times (FixedDatum.only _) _) fun _ =>
    OnlyStruct.bind (OnlyStruct.times (VariableDatum.only _) _) fun _ =>
    OnlyStruct.pure _

theorem DatumSpecification.sized (o : DatumSpecification) : Sized (DatumSpecification.serialize o) (DatumSpecification.wireSize o) := by
  unfold DatumSpecification.serialize
  refine Sized.of_eq (Sized.bind (sized_unsigned_int _) <|
    Sized.bind (sized_unsigned_int _) <|
    Sized.bind (Sized.forEach_const FixedDatum.sized) <|
    Sized.forEach VariableDatum.sized) ?_
  simp only [DatumSpecification.wireSize]; try omega

theorem DatumSpecification.ok_iff (o : DatumSpecification) : (DatumSpecification.serialize o).Ok ↔ DatumSpecification.WireOk o := by
  unfold DatumSpecification.serialize DatumSpecification.WireOk
  exact ok_bind_iff (ok_unsigned_int) <|
    ok_bind_iff (ok_unsigned_int) <|
    ok_bind_iff (ok_list FixedDatum.ok_iff) <|
    ok_list VariableDatum.ok_iff

theorem DatumSpecification.after_canon {o : DatumSpecification} (h : DatumSpecification.Canon o) : DatumSpecification.after DatumSpecification.init o = o := by
  have h_variableDatumRecords := h
  cases o
  exact (DatumSpecification.mk.injEq ..).mpr ⟨canon_list fun x hx => FixedDatum.after_canon trivial,
    canon_list fun x hx => VariableDatum.after_canon (h_variableDatumRecords x hx)⟩

theorem DatumSpecification.post : Post (DatumSpecification.parse DatumSpecification.init) (fun _ o => DatumSpecification.WireOk o ∧ DatumSpecification.Canon o) := by
  unfold DatumSpecification.parse
  refine Post.bind (post_unsigned_int) fun a0 b0 h0 => ?_
  refine Post.bind (post_unsigned_int) fun a1 b1 h1 => ?_
  refine Post.bind (Post.times FixedDatum.post _) fun a2 b2 h2 => ?_
  refine Post.last (Post.times' VariableDatum.post _) fun a3 b3 h3 => ?_
  obtain rfl : a0 = (a2.length : Int) := count_eq h0.1.1 h2.1
  obtain rfl : a1 = (a3.length : Int) := count_eq h1.1.1 h3.1
  exact ⟨⟨h0.1, h1.1, fun x hx => (h2.2.1 x hx).1, fun x hx => (h3.2 x hx).1⟩,
    fun x hx => (h3.2 x hx).2⟩

theorem Expendable.rt (s o : Expendable) : RT (Expendable.serialize o) (Expendable.parse s) (Expendable.after s o) := by
  unfold Expendable.serialize Expendable.parse
  exact RT.bind (EntityType.rt s.expendable o.expendable) <|
    RT.bind (rt_unsigned_int o.station) <|
    RT.bind (rt_unsigned_short o.quantity) <|
    RT.bind (rt_unsigned_byte o.expendableStatus) <|
    RT.last (rt_unsigned_byte o.padding)

theorem Expendable.loc (s : Expendable) : Local (Expendable.parse s) := by
  unfold Expendable.parse
  exact Local.bind (EntityType.loc _) fun _ =>
    Local.bind (loc_unsigned_int) fun _ =>
    Local.bind (loc_unsigned_short) fun _ =>
    Local.bind (loc_unsigned_byte) fun _ =>
    Local.bind (loc_unsigned_byte) fun _ =>
    Local.pure _

theorem Expendable.only (s : Expendable) : OnlyStruct (Expendable.parse s) := by
  unfold Expendable.parse
  exact OnlyStruct.bind (EntityType.only _) fun _ =>
    OnlyStruct.bind (only_unsigned_int) fun _ =>
    OnlyStruct.bind (only_unsigned_short) fun _ =>
    OnlyStruct.bind (only_unsigned_byte) fun _ =>
    OnlyStruct.bind (only_unsigned_byte) fun _ =>
    OnlyStruct.pure _

theorem Expendable.sized (o : Expendable) : Sized (Expendable.serialize o) (Expendable.wireSize o) := by
  unfold Expendable.serialize
  refine Sized.of_eq (Sized.bind (EntityType.sized o.expendable) <|
    Sized.bind (sized_unsigned_int o.station) <|
    Sized.bind (sized_unsigned_short o.quantity) <|
    Sized.bind (sized_unsigned_byte o.expendableStatus) <|
    sized_unsigned_byte o.padding) ?_
  simp only [Expendable.wireSize, EntityType.wireSize]; try omega

theorem Expendable.ok_iff (o : Expendable) : (Expendable.serialize o).Ok ↔ Expendable.WireOk o := by
  unfold Expendable.serialize Expendable.WireOk
  exact ok_bind_iff (EntityType.ok_iff o.expendable) <|
    ok_bind_iff (ok_unsigned_int) <|
    ok_bind_iff (ok_unsigned_short) <|
    ok_bind_iff (ok_unsigned_byte) <|
    ok_unsigned_byte

theorem Expendable.after_canon {o : Expendable} (h : Expendable.Canon o) : Expendable.after Expendable.init o = o := by
  cases o
  exact (Expendable.mk.injEq ..).mpr ⟨EntityType.after_canon trivial,
    rfl,
    rfl,
    rfl,
    rfl⟩

theorem Expendable.post : Post (Expendable.parse Expendable.init) (fun b o => (Expendable.WireOk o ∧ Expendable.Canon o) ∧ (Expendable.NoNaN o → (Expendable.serialize o).Emits b)) := by
  unfold Expendable.parse
  refine Post.bind (EntityType.post) fun a0 b0 h0 => ?_
  refine Post.bind (post_unsigned_int) fun a1 b1 h1 => ?_
  refine Post.bind (post_unsigned_short) fun a2 b2 h2 => ?_
  refine Post.bind (post_unsigned_byte) fun a3 b3 h3 => ?_
  refine Post.last (post_unsigned_byte) fun a4 b4 h4 => ?_
  refine ⟨⟨⟨h0.1.1, h1.1, h2.1, h3.1, h4.1⟩,
    trivial⟩, fun _ => ?_⟩
  exact W.Emits.bind (h0.2 trivial) <|
      W.Emits.bind (h1.2) <|
      W.Emits.bind (h2.2) <|
      W.Emits.bind (h3.2) <|
      h4.2

theorem CommunicationsNodeID.rt (s o : CommunicationsNodeID) : RT (CommunicationsNodeID.serialize o) (CommunicationsNodeID.parse s) (CommunicationsNodeID.after s o) := by
  unfold CommunicationsNodeID.serialize CommunicationsNodeID.parse
  exact RT.bind (EntityIdentifier.rt s.entityID o.entityID) <|
    RT.last (rt_unsigned_short o.elementID)

theorem CommunicationsNodeID.loc (s : CommunicationsNodeID) : Local (CommunicationsNodeID.parse s) := by
  unfold CommunicationsNodeID.parse
  exact Local.bind (EntityIdentifier.loc _) fun _ =>
    Local.bind (loc_unsigned_short) fun _ =>
    Local.pure _

theorem CommunicationsNodeID.only (s : CommunicationsNodeID) : OnlyStruct (CommunicationsNodeID.parse s) := by
  unfold CommunicationsNodeID.parse
  exact OnlyStruct.bind (EntityIdentifier.only _) fun _ =>
    OnlyStruct.bind (only_unsigned_short) fun _ =>
    OnlyStruct.pure _

theorem CommunicationsNodeID.sized (o : CommunicationsNodeID) : Sized (CommunicationsNodeID.serialize o) (CommunicationsNodeID.wireSize o) := by
  unfold CommunicationsNodeID.serialize
  refine Sized.of_eq (Sized.bind (EntityIdentifier.sized o.entityID) <|
    sized_unsigned_short o.elementID) ?_
  simp only [CommunicationsNodeID.wireSize, EntityIdentifier.wireSize, SimulationAddress.wireSize]; try omega

theorem CommunicationsNodeID.ok_iff (o : CommunicationsNodeID) : (CommunicationsNodeID.serialize o).Ok ↔ CommunicationsNodeID.WireOk o := by
  unfold CommunicationsNodeID.serialize CommunicationsNodeID.WireOk
  exact ok_bind_iff (EntityIdentifier.ok_iff o.entityID) <|
    ok_unsigned_short

theorem CommunicationsNodeID.after_canon {o : CommunicationsNodeID} (h : CommunicationsNodeID.Canon o) : CommunicationsNodeID.after CommunicationsNodeID.init o = o := by
  cases o
  exact (CommunicationsNodeID.mk.injEq ..).mpr ⟨EntityIdentifier.after_canon trivial,
    rfl⟩

theorem CommunicationsNodeID.post : Post (CommunicationsNodeID.parse CommunicationsNodeID.init) (fun b o => (CommunicationsNodeID.WireOk o ∧ CommunicationsNodeID.Canon o) ∧ (CommunicationsNodeID.NoNaN o → (CommunicationsNodeID.serialize o).Emits b)) := by
  unfold CommunicationsNodeID.parse
  refine Post.bind (EntityIdentifier.post) fun a0 b0 h0 => ?_
  refine Post.last (post_unsigned_short) fun a1 b1 h1 => ?_
  refine ⟨⟨⟨h0.1.1, h1.1⟩,
    trivial⟩, fun _ => ?_⟩
  exact W.Emits.bind (h0.2 trivial) <|
      h1.2

theorem IOCommunicationsNode.rt (s o : IOCommunicationsNode) : RT (IOCommunicationsNode.serialize o) (IOCommunicationsNode.parse s) (IOCommunicationsNode.after s o) := by
  unfold IOCommunicationsNode.serialize IOCommunicationsNode.parse
  exact RT.bind (rt_unsigned_int o.recordType) <|
    RT.bind (rt_unsigned_short o.recordLength) <|
    RT.bind (rt_unsigned_byte o.communcationsNodeType) <|
    RT.bind (rt_unsigned_byte o.padding) <|
    RT.last (CommunicationsNodeID.rt s.communicationsNodeID o.communicationsNodeID)

theorem IOCommunicationsNode.loc (s : IOCommunicationsNode) : Local (IOCommunicationsNode.parse s) := by
  unfold IOCommunicationsNode.parse
  exact Local.bind (loc_unsigned_int) fun _ =>
    Local.bind (loc_unsigned_short) fun _ =>
    Local.bind (loc_unsigned_byte) fun _ =>
    Local.bind (loc_unsigned_byte) fun _ =>
    Local.bind (CommunicationsNodeID.loc _) fun _ =>
    Local.pure _

theorem IOCommunicationsNode.only (s : IOCommunicationsNode) : OnlyStruct (IOCommunicationsNode.parse s) := by
  unfold IOCommunicationsNode.parse
  exact OnlyStruct.bind (only_unsigned_int) fun _ =>
    OnlyStruct.bind (only_unsigned_short) fun _ =>
    OnlyStruct.bind (only_unsigned_byte) fun _ =>
    OnlyStruct.bind (only_unsigned_byte) fun _ =>
    OnlyStruct.bind (CommunicationsNodeID.only _) fun _ =>
    OnlyStruct.pure _

theorem IOCommunicationsNode.sized (o : IOCommunicationsNode) : Sized (IOCommunicationsNode.serialize o) (IOCommunicationsNode.wireSize o) := by
  unfold IOCommunicationsNode.serialize
  refine Sized.of_eq (Sized.bind (sized_unsigned_int o.recordType) <|
    Sized.bind (sized_unsigned_short o.recordLength) <|
    Sized.bind (sized_unsigned_byte o.communcationsNodeType) <|
    Sized.bind (sized_unsigned_byte o.padding) <|
    CommunicationsNodeID.sized o.communicationsNodeID) ?_
  simp only [IOCommunicationsNode.wireSize, CommunicationsNodeID.wireSize, EntityIdentifier.wireSize, SimulationAddress.wireSize]; try omega

theorem IOCommunicationsNode.ok_iff (o : IOCommunicationsNode) : (IOCommunicationsNode.serialize o).Ok ↔ IOCommunicationsNode.WireOk o := by
  unfold IOCommunicationsNode.serialize IOCommunicationsNode.WireOk
  exact ok_bind_iff (ok_unsigned_int) <|
    ok_bind_iff (ok_unsigned_short) <|
    ok_bind_iff (ok_unsigned_byte) <|
    ok_bind_iff (ok_unsigned_byte) <|
    CommunicationsNodeID.ok_iff o.communicationsNodeID

theorem IOCommunicationsNode.after_canon {o : IOCommunicationsNode} (h : IOCommunicationsNode.Canon o) : IOCommunicationsNode.after IOCommunicationsNode.init o = o := by
  cases o
  exact (IOCommunicationsNode.mk.injEq ..).mpr ⟨rfl,
    rfl,
    rfl,
    rfl,
    CommunicationsNodeID.after_canon trivial⟩

theorem IOCommunicationsNode.post : Post (IOCommunicationsNode.parse IOCommunicationsNode.init) (fun b o => (IOCommunicationsNode.WireOk o ∧ IOCommunicationsNode.Canon o) ∧ (IOCommunicationsNode.NoNaN o → (IOCommunicationsNode.serialize o).Emits b)) := by
  unfold IOCommunicationsNode.parse
  refine Post.bind (post_unsigned_int) fun a0 b0 h0 => ?_
  refine Post.bind (post_unsigned_short) fun a1 b1 h1 => ?_
  refine Post.bind (post_unsigned_byte) fun a2 b2 h2 => ?_
  refine Post.bind (post_unsigned_byte) fun a3 b3 h3 => ?_
  refine Post.last (CommunicationsNodeID.post) fun a4 b4 h4 => ?_
  refine ⟨⟨⟨h0.1, h1.1, h2.1, h3.1, h4.1.1⟩,
    trivial⟩, fun _ => ?_⟩
  exact W.Emits.bind (h0.2) <|
      W.Emits.bind (h1.2) <|
      W.Emits.bind (h2.2) <|
      W.Emits.bind (h3.2) <|
      h4.2 trivial

theorem LinearSegmentParameter.rt (s o : LinearSegmentParameter) : RT (LinearSegmentParameter.serialize o) (LinearSegmentParameter.parse s) (LinearSegmentParameter.after s o) := by
  unfold LinearSegmentParameter.serialize LinearSegmentParameter.parse
  exact RT.bind (rt_unsigned_byte o.segmentNumber) <|
    RT.bind (rt_unsigned_byte o.segmentModification) <|
    RT.bind (rt_unsigned_short o.generalSegmentAppearance) <|
    RT.bind (rt_unsigned_int o.specificSegmentAppearance) <|
    RT.bind (WorldCoordinates.rt s.segmentLocation o.segmentLocation) <|
    RT.bind (EulerAngles.rt s.segmentOrientation o.segmentOrientation) <|
    RT.bind (rt_float o.segmentLength) <|
    RT.bind (rt_float o.segmentWidth) <|
    RT.bind (rt_float o.segmentHeight) <|
    RT.bind (rt_float o.segmentDepth) <|
    RT.last (rt_unsigned_int o.padding)

theorem LinearSegmentParameter.loc (s : LinearSegmentParameter) : Local (LinearSegmentParameter.parse s) := by
  unfold LinearSegmentParameter.parse
  exact Local.bind (loc_unsigned_byte) fun _ =>
    Local.bind (loc_unsigned_byte) fun _ =>
    Local.bind (loc_unsigned_short) fun _ =>
    Local.bind (loc_unsigned_int) fun _ =>
    Local.bind (WorldCoordinates.loc _) fun _ =>
    Local.bind (EulerAngles.loc _) fun _ =>
    Local.bind (loc_float) fun _ =>
    Local.bind (loc_float) fun _ =>
    Local.bind (loc_float) fun _ =>
    Local.bind (loc_float) fun _ =>
    Local.bind (loc_unsigned_int) fun _ =>
    Local.pure _

theorem LinearSegmentParameter.only (s : LinearSegmentParameter) : OnlyStruct (LinearSegmentParameter.parse s) := by
  unfold LinearSegmentParameter.parse
  exact OnlyStruct.bind (only_unsigned_byte) fun _ =>
    OnlyStruct.bind (only_unsigned_byte) fun _ =>
    OnlyStruct.bind (only_unsigned_short) fun _ =>
    OnlyStruct.bind (only_unsigned_int) fun _ =>
    OnlyStruct.bind (WorldCoordinates.only _) fun _ =>
    OnlyStruct.bind (EulerAngles.only _) fun _ =>
    OnlyStruct.bind (only_float) fun _ =>
    OnlyStruct.bind (only_float) fun _ =>
    OnlyStruct.bind (only_float) fun _ =>
    OnlyStruct.bind (only_float) fun _ =>
    OnlyStruct.bind (only_unsigned_int) fun _ =>
    OnlyStruct.pure _

theorem LinearSegmentParameter.sized (o : LinearSegmentParameter) : Sized (LinearSegmentParameter.serialize o) (LinearSegmentParameter.wireSize o) := by
  unfold LinearSegmentParameter.serialize
  refine Sized.of_eq (Sized.bind (sized_unsigned_byte o.segmentNumber) <|
    Sized.bind (sized_unsigned_byte o.segmentModification) <|
    Sized.bind (sized_unsigned_short o.generalSegmentAppearance) <|
    Sized.bind (sized_unsigned_int o.specificSegmentAppearance) <|
    Sized.bind (WorldCoordinates.sized o.segmentLocation) <|
    Sized.bind (EulerAngles.sized o.segmentOrientation) <|
    Sized.bind (sized_float o.segmentLength) <|
    Sized.bind (sized_float o.segmentWidth) <|
    Sized.bind (sized_float o.segmentHeight) <|
    Sized.bind (sized_float o.segmentDepth) <|
    sized_unsigned_int o.padding) ?_
  simp only [LinearSegmentParameter.wireSize, WorldCoordinates.wireSize, EulerAngles.wireSize]; try omega

theorem LinearSegmentParameter.ok_iff (o : LinearSegmentParameter) : (LinearSegmentParameter.serialize o).Ok ↔ LinearSegmentParameter.WireOk o := by
  unfold LinearSegmentParameter.serialize LinearSegmentParameter.WireOk
  exact ok_bind_iff (ok_unsigned_byte) <|
    ok_bind_iff (ok_unsigned_byte) <|
    ok_bind_iff (ok_unsigned_short) <|
    ok_bind_iff (ok_unsigned_int) <|
    ok_bind_tl (WorldCoordinates.ok_iff o.segmentLocation) <|
    ok_bind_iff (EulerAngles.ok_iff o.segmentOrientation) <|
    ok_bind_iff (ok_float) <|
    ok_bind_iff (ok_float) <|
    ok_bind_iff (ok_float) <|
    ok_bind_iff (ok_float) <|
    ok_unsigned_int

theorem LinearSegmentParameter.after_canon {o : LinearSegmentParameter} (h : LinearSegmentParameter.Canon o) : LinearSegmentParameter.after LinearSegmentParameter.init o = o := by
  obtain ⟨h_segmentOrientation, h_segmentLength, h_segmentWidth, h_segmentHeight, h_segmentDepth⟩ := h
  cases o
  exact (LinearSegmentParameter.mk.injEq ..).mpr ⟨rfl,
    rfl,
    rfl,
    rfl,
    WorldCoordinates.after_canon trivial,
    EulerAngles.after_canon h_segmentOrientation,
    h_segmentLength,
    h_segmentWidth,
    h_segmentHeight,
    h_segmentDepth,
    rfl⟩

theorem LinearSegmentParameter.post : Post (LinearSegmentParameter.parse LinearSegmentParameter.init) (fun b o => (LinearSegmentParameter.WireOk o ∧ LinearSegmentParameter.Canon o) ∧ (LinearSegmentParameter.NoNaN o → (LinearSegmentParameter.serialize o).Emits b)) := by
  unfold LinearSegmentParameter.parse
  refine Post.bind (post_unsigned_byte) fun a0 b0 h0 => ?_
  refine Post.bind (post_unsigned_byte) fun a1 b1 h1 => ?_
  refine Post.bind (post_unsigned_short) fun a2 b2 h2 => ?_
  refine Post.bind (post_unsigned_int) fun a3 b3 h3 => ?_
  refine Post.bind (WorldCoordinates.post) fun a4 b4 h4 => ?_
  refine Post.bind (EulerAngles.post) fun a5 b5 h5 => ?_
  refine Post.bind (post_float) fun a6 b6 h6 => ?_
  refine Post.bind (post_float) fun a7 b7 h7 => ?_
  refine Post.bind (post_float) fun a8 b8 h8 => ?_
  refine Post.bind (post_float) fun a9 b9 h9 => ?_
  refine Post.last (post_unsigned_int) fun a10 b10 h10 => ?_
  refine ⟨⟨⟨h0.1, h1.1, h2.1, h3.1, h5.1.1, h6.1.1, h7.1.1, h8.1.1, h9.1.1, h10.1⟩,
    ⟨h5.1.2, h6.1.2, h7.1.2, h8.1.2, h9.1.2⟩⟩, fun hn => ?_⟩
  obtain ⟨n0, n1, n2, n3, n4⟩ := hn
  exact W.Emits.bind (h0.2) <|
      W.Emits.bind (h1.2) <|
      W.Emits.bind (h2.2) <|
      W.Emits.bind (h3.2) <|
      W.Emits.bind (h4.2 trivial) <|
      W.Emits.bind (h5.2 n0) <|
      W.Emits.bind (h6.2 n1) <|
      W.Emits.bind (h7.2 n2) <|
      W.Emits.bind (h8.2 n3) <|
      W.Emits.bind (h9.2 n4) <|
      h10.2

theorem SystemIdentifier.rt (s o : SystemIdentifier) : RT (SystemIdentifier.serialize o) (SystemIdentifier.parse s) (SystemIdentifier.after s o) := by
  unfold SystemIdentifier.serialize SystemIdentifier.parse
  exact RT.bind (rt_unsigned_short o.systemType) <|
    RT.bind (rt_unsigned_short o.systemName) <|
    RT.bind (rt_unsigned_short o.systemMode) <|
    RT.last (ChangeOptions.rt s.changeOptions o.changeOptions)

theorem SystemIdentifier.loc (s : SystemIdentifier) : Local (SystemIdentifier.parse s) := by
  unfold SystemIdentifier.parse
  exact Local.bind (loc_unsigned_short) fun _ =>
    Local.bind (loc_unsigned_short) fun _ =>
    Local.bind (loc_unsigned_short) fun _ =>
    Local.bind (ChangeOptions.loc _) fun _ =>
    Local.pure _

theorem SystemIdentifier.only (s : SystemIdentifier) : OnlyStruct (SystemIdentifier.parse s) := by
  unfold SystemIdentifier.parse
  exact OnlyStruct.bind (only_unsigned_short) fun _ =>
    OnlyStruct.bind (only_unsigned_short) fun _ =>
    OnlyStruct.bind (only_unsigned_short) fun _ =>
    OnlyStruct.bind (ChangeOptions.only _) fun _ =>
    OnlyStruct.pure _

theorem SystemIdentifier.sized (o : SystemIdentifier) : Sized (SystemIdentifier.serialize o) (SystemIdentifier.wireSize o) := by
  unfold SystemIdentifier.serialize
  refine Sized.of_eq (Sized.bind (sized_unsigned_short o.systemType) <|
    Sized.bind (sized_unsigned_short o.systemName) <|
    Sized.bind (sized_unsigned_short o.systemMode) <|
    ChangeOptions.sized o.changeOptions) ?_
  simp only [SystemIdentifier.wireSize, ChangeOptions.wireSize]; try omega

theorem SystemIdentifier.ok_iff (o : SystemIdentifier) : (SystemIdentifier.serialize o).Ok ↔ SystemIdentifier.WireOk o := by
  unfold SystemIdentifier.serialize SystemIdentifier.WireOk
  exact ok_bind_iff (ok_unsigned_short) <|
    ok_bind_iff (ok_unsigned_short) <|
    ok_bind_tr (ok_unsigned_short) <|
    ChangeOptions.ok_iff o.changeOptions

theorem SystemIdentifier.after_canon {o : SystemIdentifier} (h : SystemIdentifier.Canon o) : SystemIdentifier.after SystemIdentifier.init o = o := by
  cases o
  exact (SystemIdentifier.mk.injEq ..).mpr ⟨rfl,
    rfl,
    rfl,
    ChangeOptions.after_canon trivial⟩

theorem SystemIdentifier.post : Post (SystemIdentifier.parse SystemIdentifier.init) (fun b o => (SystemIdentifier.WireOk o ∧ SystemIdentifier.Canon o) ∧ (SystemIdentifier.NoNaN o → (SystemIdentifier.serialize o).Emits b)) := by
  unfold SystemIdentifier.parse
  refine Post.bind (post_unsigned_short) fun a0 b0 h0 => ?_
  refine Post.bind (post_unsigned_short) fun a1 b1 h1 => ?_
  refine Post.bind (post_unsigned_short) fun a2 b2 h2 => ?_
  refine Post.last (ChangeOptions.post) fun a3 b3 h3 => ?_
  refine ⟨⟨⟨h0.1, h1.1, h2.1⟩,
    trivial⟩, fun _ => ?_⟩
  exact W.Emits.bind (h0.2) <|
      W.Emits.bind (h1.2) <|
      W.Emits.bind (h2.2) <|
      h3.2 trivial

theorem TrackJamData.rt (s o : TrackJamData) : RT (TrackJamData.serialize o) (TrackJamData.parse s) (TrackJamData.after s o) := by
  unfold TrackJamData.serialize TrackJamData.parse
  exact RT.bind (EntityIdentifier.rt s.entityID o.entityID) <|
    RT.bind (rt_unsigned_byte o.emitterNumber) <|
    RT.last (rt_unsigned_byte o.beamNumber)

theorem TrackJamData.loc (s : TrackJamData) : Local (TrackJamData.parse s) := by
  unfold TrackJamData.parse
  exact Local.bind (EntityIdentifier.loc _) fun _ =>
    Local.bind (loc_unsigned_byte) fun _ =>
    Local.bind (loc_unsigned_byte) fun _ =>
    Local.pure _

theorem TrackJamData.only (s : TrackJamData) : OnlyStruct (TrackJamData.parse s) := by
  unfold TrackJamData.parse
  exact OnlyStruct.bind (EntityIdentifier.only _) fun _ =>
    OnlyStruct.bind (only_unsigned_byte) fun _ =>
    OnlyStruct.bind (only_unsigned_byte) fun _ =>
    OnlyStruct.pure _

theorem TrackJamData.sized (o : TrackJamData) : Sized (TrackJamData.serialize o) (TrackJamData.wireSize o) := by
  unfold TrackJamData.serialize
  refine Sized.of_eq (Sized.bind (EntityIdentifier.sized o.entityID) <|
    Sized.bind (sized_unsigned_byte o.emitterNumber) <|
    sized_unsigned_byte o.beamNumber) ?_
  simp only [TrackJamData.wireSize, EntityIdentifier.wireSize, SimulationAddress.wireSize]; try omega

theorem TrackJamData.ok_iff (o : TrackJamData) : (TrackJamData.serialize o).Ok ↔ TrackJamData.WireOk o := by
  unfold TrackJamData.serialize TrackJamData.WireOk
  exact ok_bind_iff (EntityIdentifier.ok_iff o.entityID) <|
    ok_bind_iff (ok_unsigned_byte) <|
    ok_unsigned_byte

theorem TrackJamData.after_canon {o : TrackJamData} (h : TrackJamData.Canon o) : TrackJamData.after TrackJamData.init o = o := by
  cases o
  exact (TrackJamData.mk.injEq ..).mpr ⟨EntityIdentifier.after_canon trivial,
    rfl,
    rfl⟩

theorem TrackJamData.post : Post (TrackJamData.parse TrackJamData.init) (fun b o => (TrackJamData.WireOk o ∧ TrackJamData.Canon o) ∧ (TrackJamData.NoNaN o → (TrackJamData.serialize o).Emits b)) := by
  unfold TrackJamData.parse
  refine Post.bind (EntityIdentifier.post) fun a0 b0 h0 => ?_
  refine Post.bind (post_unsigned_byte) fun a1 b1 h1 => ?_
  refine Post.last (post_unsigned_byte) fun a2 b2 h2 => ?_
  refine ⟨⟨⟨h0.1.1, h1.1, h2.1⟩,
    trivial⟩, fun _ => ?_⟩
  exact W.Emits.bind (h0.2 trivial) <|
      W.Emits.bind (h1.2) <|
      h2.2

theorem AggregateType.rt (s o : AggregateType) : RT (AggregateType.serialize o) (AggregateType.parse s) (AggregateType.after s o) := by
  unfold AggregateType.serialize AggregateType.parse
  exact RT.bind (rt_unsigned_byte o.aggregateKind) <|
    RT.bind (rt_unsigned_byte o.domain) <|
    RT.bind (rt_unsigned_short o.country) <|
    RT.bind (rt_unsigned_byte o.category) <|
    RT.bind (rt_unsigned_byte o.subcategory) <|
    RT.bind (rt_unsigned_byte o.specificInfo) <|
    RT.last (rt_unsigned_byte o.extra)

theorem AggregateType.loc (s : AggregateType) : Local (AggregateType.parse s) := by
  unfold AggregateType.parse
  exact Local.bind (loc_unsigned_byte) fun _ =>
    Local.bind (loc_unsigned_byte) fun _ =>
    Local.bind (loc_unsigned_short) fun _ =>
    Local.bind (loc_unsigned_byte) fun _ =>
    Local.bind (loc_unsigned_byte) fun _ =>
    Local.bind (loc_unsigned_byte) fun _ =>
    Local.bind (loc_unsigned_byte) fun _ =>
    Local.pure _

theorem AggregateType.only (s : AggregateType) : OnlyStruct (AggregateType.parse s) := by
  unfold AggregateType.parse
  exact OnlyStruct.bind (only_unsigned_byte) fun _ =>
    OnlyStruct.bind (only_unsigned_byte) fun _ =>
    OnlyStruct.bind (only_unsigned_short) fun _ =>
    OnlyStruct.bind (only_unsigned_byte) fun _ =>
    OnlyStruct.bind (only_unsigned_byte) fun _ =>
    OnlyStruct.bind (only_unsigned_byte) fun _ =>
    OnlyStruct.bind (only_unsigned_byte) fun _ =>
    OnlyStruct.pure _

theorem AggregateType.sized (o : AggregateType) : Sized (AggregateType.serialize o) (AggregateType.wireSize o) := by
  unfold AggregateType.serialize
  refine Sized.of_eq (Sized.bind (sized_unsigned_byte o.aggregateKind) <|
    Sized.bind (sized_unsigned_byte o.domain) <|
    Sized.bind (sized_unsigned_short o.country) <|
    Sized.bind (sized_unsigned_byte o.category) <|
    Sized.bind (sized_unsigned_byte o.subcategory) <|
    Sized.bind (sized_unsigned_byte o.specificInfo) <|
    sized_unsigned_byte o.extra) ?_
  simp only [AggregateType.wireSize]; try omega

theorem AggregateType.ok_iff (o : AggregateType) : (AggregateType.serialize o).Ok ↔ AggregateType.WireOk o := by
  unfold AggregateType.serialize AggregateType.WireOk
  exact ok_bind_iff (ok_unsigned_byte) <|
    ok_bind_iff (ok_unsigned_byte) <|
    ok_bind_iff (ok_unsigned_short) <|
    ok_bind_iff (ok_unsigned_byte) <|
    ok_bind_iff (ok_unsigned_byte) <|
    ok_bind_iff (ok_unsigned_byte) <|
    ok_unsigned_byte

theorem AggregateType.after_canon {o : AggregateType} (h : AggregateType.Canon o) : AggregateType.after AggregateType.init o = o := by
  cases o
  exact (AggregateType.mk.injEq ..).mpr ⟨rfl,
    rfl,
    rfl,
    rfl,
    rfl,
    rfl,
    rfl⟩

theorem AggregateType.post : Post (AggregateType.parse AggregateType.init) (fun b o => (AggregateType.WireOk o ∧ AggregateType.Canon o) ∧ (AggregateType.NoNaN o → (AggregateType.serialize o).Emits b)) := by
  unfold AggregateType.parse
  refine Post.bind (post_unsigned_byte) fun a0 b0 h0 => ?_
  refine Post.bind (post_unsigned_byte) fun a1 b1 h1 => ?_
  refine Post.bind (post_unsigned_short) fun a2 b2 h2 => ?_
  refine Post.bind (post_unsigned_byte) fun a3 b3 h3 => ?_
  refine Post.bind (post_unsigned_byte) fun a4 b4 h4 => ?_
  refine Post.bind (post_unsigned_byte) fun a5 b5 h5 => ?_
  refine Post.last (post_unsigned_byte) fun a6 b6 h6 => ?_
  refine ⟨⟨⟨h0.1, h1.1, h2.1, h3.1, h4.1, h5.1, h6.1⟩,
    trivial⟩, fun _ => ?_⟩
  exact W.Emits.bind (h0.2) <|
      W.Emits.bind (h1.2) <|
      W.Emits.bind (h2.2) <|
      W.Emits.bind (h3.2) <|
      W.Emits.bind (h4.2) <|
      W.Emits.bind (h5.2) <|
      h6.2

theorem SimulationIdentifier.rt (s o : SimulationIdentifier) : RT (SimulationIdentifier.serialize o) (SimulationIdentifier.parse s) (SimulationIdentifier.after s o) := by
  unfold SimulationIdentifier.serialize SimulationIdentifier.parse
  exact RT.bind (SimulationAddress.rt s.simulationAddress o.simulationAddress) <|
    RT.last (rt_unsigned_short o.referenceNumber)

theorem SimulationIdentifier.loc (s : SimulationIdentifier) : Local (SimulationIdentifier.parse s) := by
  unfold SimulationIdentifier.parse
  exact Local.bind (SimulationAddress.loc _) fun _ =>
    Local.bind (loc_unsigned_short) fun _ =>
    Local.pure _

theorem SimulationIdentifier.only (s : SimulationIdentifier) : OnlyStruct (SimulationIdentifier.parse s) := by
  unfold SimulationIdentifier.parse
  exact OnlyStruct.bind (SimulationAddress.only _) fun _ =>
    OnlyStruct.bind (only_unsigned_short) fun _ =>
    OnlyStruct.pure _

theorem SimulationIdentifier.sized (o : SimulationIdentifier) : Sized (SimulationIdentifier.serialize o) (SimulationIdentifier.wireSize o) := by
  unfold SimulationIdentifier.serialize
  refine Sized.of_eq (Sized.bind (SimulationAddress.sized o.simulationAddress) <|
    sized_unsigned_short o.referenceNumber) ?_
  simp only [SimulationIdentifier.wireSize, SimulationAddress.wireSize]; try omega

theorem SimulationIdentifier.ok_iff (o : SimulationIdentifier) : (SimulationIdentifier.serialize o).Ok ↔ SimulationIdentifier.WireOk o := by
  unfold SimulationIdentifier.serialize SimulationIdentifier.WireOk
  exact ok_bind_iff (SimulationAddress.ok_iff o.simulationAddress) <|
    ok_unsigned_short

theorem SimulationIdentifier.after_canon {o : SimulationIdentifier} (h : SimulationIdentifier.Canon o) : SimulationIdentifier.after SimulationIdentifier.init o = o := by
  cases o
  exact (SimulationIdentifier.mk.injEq ..).mpr ⟨SimulationAddress.after_canon trivial,
    rfl⟩

theorem SimulationIdentifier.post : Post (SimulationIdentifier.parse SimulationIdentifier.init) (fun b o => (SimulationIdentifier.WireOk o ∧ SimulationIdentifier.Canon o) ∧ (SimulationIdentifier.NoNaN o → (SimulationIdentifier.serialize o).Emits b)) := by
  unfold SimulationIdentifier.parse
  refine Post.bind (SimulationAddress.post) fun a0 b0 h0 => ?_
  refine Post.last (post_unsigned_short) fun a1 b1 h1 => ?_
  refine ⟨⟨⟨h0.1.1, h1.1⟩,
    trivial⟩, fun _ => ?_⟩
  exact W.Emits.bind (h0.2 trivial) <|
      h1.2

theorem PduHeader.rt (s o : PduHeader) : RT (PduHeader.serialize o) (PduHeader.parse s) (PduHeader.after s o) := by
  unfold PduHeader.serialize PduHeader.parse
  exact RT.bind (rt_unsigned_byte o.protocolVersion) <|
    RT.bind (rt_unsigned_byte o.exerciseID) <|
    RT.bind (rt_unsigned_byte o.pduType) <|
    RT.bind (rt_unsigned_byte o.protocolFamily) <|
    RT.bind (rt_unsigned_int o.timestamp) <|
    RT.bind (rt_unsigned_byte o.pduLength) <|
    RT.bind (rt_unsigned_short o.pduStatus) <|
    RT.last (rt_unsigned_byte o.padding)

theorem PduHeader.loc (s : PduHeader) : Local (PduHeader.parse s) := by
  unfold PduHeader.parse
  exact Local.bind (loc_unsigned_byte) fun _ =>
    Local.bind (loc_unsigned_byte) fun _ =>
    Local.bind (loc_unsigned_byte) fun _ =>
    Local.bind (loc_unsigned_byte) fun _ =>
    Local.bind (loc_unsigned_int) fun _ =>
    Local.bind (loc_unsigned_byte) fun _ =>
    Local.bind (loc_unsigned_short) fun _ =>
    Local.bind (loc_unsigned_byte) fun _ =>
    Local.pure _

theorem PduHeader.only (s : PduHeader) : OnlyStruct (PduHeader.parse s) := by
  unfold PduHeader.parse
  exact OnlyStruct.bind (only_unsigned_byte) fun _ =>
    OnlyStruct.bind (only_unsigned_byte) fun _ =>
    OnlyStruct.bind (only_unsigned_byte) fun _ =>
    OnlyStruct.bind (only_unsigned_byte) fun _ =>
    OnlyStruct.bind (only_unsigned_int) fun _ =>
    OnlyStruct.bind (only_unsigned_byte) fun _ =>
    OnlyStruct.bind (only_unsigned_short) fun _ =>
    OnlyStruct.bind (only_unsigned_byte) fun _ =>
    OnlyStruct.pure _

theorem PduHeader.sized (o : PduHeader) : Sized (PduHeader.serialize o) (PduHeader.wireSize o) := by
  unfold PduHeader.serialize
  refine Sized.of_eq (Sized.bind (sized_unsigned_byte o.protocolVersion) <|
    Sized.bind (sized_unsigned_byte o.exerciseID) <|
    Sized.bind (sized_unsigned_byte o.pduType) <|
    Sized.bind (sized_unsigned_byte o.protocolFamily) <|
    Sized.bind (sized_unsigned_int o.timestamp) <|
    Sized.bind (sized_unsigned_byte o.pduLength) <|
    Sized.bind (sized_unsigned_short o.pduStatus) <|
    sized_unsigned_byte o.padding) ?_
  simp only [PduHeader.wireSize]; try omega

theorem PduHeader.ok_iff (o : PduHeader) : (PduHeader.serialize o).Ok ↔ PduHeader.WireOk o := by
  unfold PduHeader.serialize PduHeader.WireOk
  exact ok_bind_iff (ok_unsigned_byte) <|
    ok_bind_iff (ok_unsigned_byte) <|
    ok_bind_iff (ok_unsigned_byte) <|
    ok_bind_iff (ok_unsigned_byte) <|
    ok_bind_iff (ok_unsigned_int) <|
    ok_bind_iff (ok_unsigned_byte) <|
    ok_bind_iff (ok_unsigned_short) <|
    ok_unsigned_byte

theorem PduHeader.after_canon {o : PduHeader} (h : PduHeader.Canon o) : PduHeader.after PduHeader.init o = o := by
  cases o
  exact (PduHeader.mk.injEq ..).mpr ⟨rfl,
    rfl,
    rfl,
    rfl,
    rfl,
    rfl,
    rfl,
    rfl⟩

theorem PduHeader.post : Post (PduHeader.parse PduHeader.init) (fun b o => (PduHeader.WireOk o ∧ PduHeader.Canon o) ∧ (PduHeader.NoNaN o → (PduHeader.serialize o).Emits b)) := by
  unfold PduHeader.parse
  refine Post.bind (post_unsigned_byte) fun a0 b0 h0 => ?_
  refine Post.bind (post_unsigned_byte) fun a1 b1 h1 => ?_
  refine Post.bind (post_unsigned_byte) fun a2 b2 h2 => ?_
  refine Post.bind (post_unsigned_byte) fun a3 b3 h3 => ?_
  refine Post.bind (post_unsigned_int) fun a4 b4 h4 => ?_
  refine Post.bind (post_unsigned_byte) fun a5 b5 h5 => ?_
  refine Post.bind (post_unsigned_short) fun a6 b6 h6 => ?_
  refine Post.last (post_unsigned_byte) fun a7 b7 h7 => ?_
  refine ⟨⟨⟨h0.1, h1.1, h2.1, h3.1, h4.1, h5.1, h6.1, h7.1⟩,
    trivial⟩, fun _ => ?_⟩
  exact W.Emits.bind (h0.2) <|
      W.Emits.bind (h1.2) <|
      W.Emits.bind (h2.2) <|
      W.Emits.bind (h3.2) <|
      W.Emits.bind (h4.2) <|
      W.Emits.bind (h5.2) <|
      W.Emits.bind (h6.2) <|
      h7.2

theorem SimulationManagementPduHeader.rt (s o : SimulationManagementPduHeader) : RT (SimulationManagementPduHeader.serialize o) (SimulationManagementPduHeader.parse s) (SimulationManagementPduHeader.after s o) := by
  unfold SimulationManagementPduHeader.serialize SimulationManagementPduHeader.parse
  exact RT.bind (PduHeader.rt s.pduHeader o.pduHeader) <|
    RT.bind (SimulationIdentifier.rt s.originatingID o.originatingID) <|
    RT.last (SimulationIdentifier.rt s.receivingID o.receivingID)

theorem SimulationManagementPduHeader.loc (s : SimulationManagementPduHeader) : Local (SimulationManagementPduHeader.parse s) := by
  unfold SimulationManagementPduHeader.parse
  exact Local.bind (PduHeader.loc _) fun _ =>
    Local.bind (SimulationIdentifier.loc _) fun _ =>
    Local.bind (SimulationIdentifier.loc _) fun _ =>
    Local.pure _

theorem SimulationManagementPduHeader.only (s : SimulationManagementPduHeader) : OnlyStruct (SimulationManagementPduHeader.parse s) := by
  unfold SimulationManagementPduHeader.parse
  exact OnlyStruct.bind (PduHeader.only _) fun _ =>
    OnlyStruct.bind (SimulationIdentifier.only _) fun _ =>
    OnlyStruct.bind (SimulationIdentifier.only _) fun _ =>
    OnlyStruct.pure _

theorem SimulationManagementPduHeader.sized (o : SimulationManagementPduHeader) : Sized (SimulationManagementPduHeader.serialize o) (SimulationManagementPduHeader.wireSize o) := by
  unfold SimulationManagementPduHeader.serialize
  refine Sized.of_eq (Sized.bind (PduHeader.sized o.pduHeader) <|
    Sized.bind (SimulationIdentifier.sized o.originatingID) <|
    SimulationIdentifier.sized o.receivingID) ?_
  simp only [SimulationManagementPduHeader.wireSize, PduHeader.wireSize, SimulationIdentifier.wireSize, SimulationAddress.wireSize]; try omega

theorem SimulationManagementPduHeader.ok_iff (o : SimulationManagementPduHeader) : (SimulationManagementPduHeader.serialize o).Ok ↔ SimulationManagementPduHeader.WireOk o := by
  unfold SimulationManagementPduHeader.serialize SimulationManagementPduHeader.WireOk
  exact ok_bind_iff (PduHeader.ok_iff o.pduHeader) <|
    ok_bind_iff (SimulationIdentifier.ok_iff o.originatingID) <|
    SimulationIdentifier.ok_iff o.receivingID

theorem SimulationManagementPduHeader.after_canon {o : SimulationManagementPduHeader} (h : SimulationManagementPduHeader.Canon o) : SimulationManagementPduHeader.after SimulationManagementPduHeader.init o = o := by
  cases o
  exact (SimulationManagementPduHeader.mk.injEq ..).mpr ⟨PduHeader.after_canon trivial,
    SimulationIdentifier.after_canon trivial,
    SimulationIdentifier.after_canon trivial⟩

theorem SimulationManagementPduHeader.post : Post (SimulationManagementPduHeader.parse SimulationManagementPduHeader.init) (fun b o => (SimulationManagementPduHeader.WireOk o ∧ SimulationManagementPduHeader.Canon o) ∧ (SimulationManagementPduHeader.NoNaN o → (SimulationManagementPduHeader.serialize o).Emits b)) := by
  unfold SimulationManagementPduHeader.parse
  refine Post.bind (PduHeader.post) fun a0 b0 h0 => ?_
  refine Post.bind (SimulationIdentifier.post) fun a1 b1 h1 => ?_
  refine Post.last (SimulationIdentifier.post) fun a2 b2 h2 => ?_
  refine ⟨⟨⟨h0.1.1, h1.1.1, h2.1.1⟩,
    trivial⟩, fun _ => ?_⟩
  exact W.Emits.bind (h0.2 trivial) <|
      W.Emits.bind (h1.2 trivial) <|
      h2.2 trivial

theorem BeamData.rt (s o : BeamData) : RT (BeamData.serialize o) (BeamData.parse s) (BeamData.after s o) := by
  unfold BeamData.serialize BeamData.parse
  exact RT.bind (rt_float o.beamAzimuthCenter) <|
    RT.bind (rt_float o.beamAzimuthSweep) <|
    RT.bind (rt_float o.beamElevationCenter) <|
    RT.bind (rt_float o.beamElevationSweep) <|
    RT.last (rt_float o.beamSweepSync)

theorem BeamData.loc (s : BeamData) : Local (BeamData.parse s) := by
  unfold BeamData.parse
  exact Local.bind (loc_float) fun _ =>
    Local.bind (loc_float) fun _ =>
    Local.bind (loc_float) fun _ =>
    Local.bind (loc_float) fun _ =>
    Local.bind (loc_float) fun _ =>
    Local.pure _

theorem BeamData.only (s : BeamData) : OnlyStruct (BeamData.parse s) := by
  unfold BeamData.parse
  exact OnlyStruct.bind (only_float) fun _ =>
    OnlyStruct.bind (only_float) fun _ =>
    OnlyStruct.bind (only_float) fun _ =>
    OnlyStruct.bind (only_float) fun _ =>
    OnlyStruct.bind (only_float) fun _ =>
    OnlyStruct.pure _

theorem BeamData.sized (o : BeamData) : Sized (BeamData.serialize o) (BeamData.wireSize o) := by
  unfold BeamData.serialize
  refine Sized.of_eq (Sized.bind (sized_float o.beamAzimuthCenter) <|
    Sized.bind (sized_float o.beamAzimuthSweep) <|
    Sized.bind (sized_float o.beamElevationCenter) <|
    Sized.bind (sized_float o.beamElevationSweep) <|
    sized_float o.beamSweepSync) ?_
  simp only [BeamData.wireSize]; try omega

theorem BeamData.ok_iff (o : BeamData) : (BeamData.serialize o).Ok ↔ BeamData.WireOk o := by
  unfold BeamData.serialize BeamData.WireOk
  exact ok_bind_iff (ok_float) <|
    ok_bind_iff (ok_float) <|
    ok_bind_iff (ok_float) <|
    ok_bind_iff (ok_float) <|
    ok_float

theorem BeamData.after_canon {o : BeamData} (h : BeamData.Canon o) : BeamData.after BeamData.init o = o := by
  obtain ⟨h_beamAzimuthCenter, h_beamAzimuthSweep, h_beamElevationCenter, h_beamElevationSweep, h_beamSweepSync⟩ := h
  cases o
  exact (BeamData.mk.injEq ..).mpr ⟨h_beamAzimuthCenter,
    h_beamAzimuthSweep,
    h_beamElevationCenter,
    h_beamElevationSweep,
    h_beamSweepSync⟩

theorem BeamData.post : Post (BeamData.parse BeamData.init) (fun b o => (BeamData.WireOk o ∧ BeamData.Canon o) ∧ (BeamData.NoNaN o → (BeamData.serialize o).Emits b)) := by
  unfold BeamData.parse
  refine Post.bind (post_float) fun a0 b0 h0 => ?_
  refine Post.bind (post_float) fun a1 b1 h1 => ?_
  refine Post.bind (post_float) fun a2 b2 h2 => ?_
  refine Post.bind (post_float) fun a3 b3 h3 => ?_
  refine Post.last (post_float) fun a4 b4 h4 => ?_
  refine ⟨⟨⟨h0.1.1, h1.1.1, h2.1.1, h3.1.1, h4.1.1⟩,
    ⟨h0.1.2, h1.1.2, h2.1.2, h3.1.2, h4.1.2⟩⟩, fun hn => ?_⟩
  obtain ⟨n0, n1, n2, n3, n4⟩ := hn
  exact W.Emits.bind (h0.2 n0) <|
      W.Emits.bind (h1.2 n1) <|
      W.Emits.bind (h2.2 n2) <|
      W.Emits.bind (h3.2 n3) <|
      h4.2 n4

theorem EngineFuel.rt (s o : EngineFuel) : RT (EngineFuel.serialize o) (EngineFuel.parse s) (EngineFuel.after s o) := by
  unfold EngineFuel.serialize EngineFuel.parse
  exact RT.bind (rt_unsigned_int o.fuelQuantity) <|
    RT.bind (rt_unsigned_byte o.fuelMeasurementUnits) <|
    RT.bind (rt_unsigned_byte o.fuelType) <|
    RT.bind (rt_unsigned_byte o.fuelLocation) <|
    RT.last (rt_unsigned_byte o.padding)

theorem EngineFuel.loc (s : EngineFuel) : Local (EngineFuel.parse s) := by
  unfold EngineFuel.parse
  exact Local.bind (loc_unsigned_int) fun _ =>
    Local.bind (loc_unsigned_byte) fun _ =>
    Local.bind (loc_unsigned_byte) fun _ =>
    Local.bind (loc_unsigned_byte) fun _ =>
    Local.bind (loc_unsigned_byte) fun _ =>
    Local.pure _

theorem EngineFuel.only (s : EngineFuel) : OnlyStruct (EngineFuel.parse s) := by
  unfold EngineFuel.parse
  exact OnlyStruct.bind (only_unsigned_int) fun _ =>
    OnlyStruct.bind (only_unsigned_byte) fun _ =>
    OnlyStruct.bind (only_unsigned_byte) fun _ =>
    OnlyStruct.bind (only_unsigned_byte) fun _ =>
    OnlyStruct.bind (only_unsigned_byte) fun _ =>
    OnlyStruct.pure _

theorem EngineFuel.sized (o : EngineFuel) : Sized (EngineFuel.serialize o) (EngineFuel.wireSize o) := by
  unfold EngineFuel.serialize
  refine Sized.of_eq (Sized.bind (sized_unsigned_int o.fuelQuantity) <|
    Sized.bind (sized_unsigned_byte o.fuelMeasurementUnits) <|
    Sized.bind (sized_unsigned_byte o.fuelType) <|
    Sized.bind (sized_unsigned_byte o.fuelLocation) <|
    sized_unsigned_byte o.padding) ?_
  simp only [EngineFuel.wireSize]; try omega

theorem EngineFuel.ok_iff (o : EngineFuel) : (EngineFuel.serialize o).Ok ↔ EngineFuel.WireOk o := by
  unfold EngineFuel.serialize EngineFuel.WireOk
  exact ok_bind_iff (ok_unsigned_int) <|
    ok_bind_iff (ok_unsigned_byte) <|
    ok_bind_iff (ok_unsigned_byte) <|
    ok_bind_iff (ok_unsigned_byte) <|
    ok_unsigned_byte

theorem EngineFuel.after_canon {o : EngineFuel} (h : EngineFuel.Canon o) : EngineFuel.after EngineFuel.init o = o := by
  cases o
  exact (EngineFuel.mk.injEq ..).mpr ⟨rfl,
    rfl,
    rfl,
    rfl,
    rfl⟩

theorem EngineFuel.post : Post (EngineFuel.parse EngineFuel.init) (fun b o => (EngineFuel.WireOk o ∧ EngineFuel.Canon o) ∧ (EngineFuel.NoNaN o → (EngineFuel.serialize o).Emits b)) := by
  unfold EngineFuel.parse
  refine Post.bind (post_unsigned_int) fun a0 b0 h0 => ?_
  refine Post.bind (post_unsigned_byte) fun a1 b1 h1 => ?_
  refine Post.bind (post_unsigned_byte) fun a2 b2 h2 => ?_
  refine Post.bind (post_unsigned_byte) fun a3 b3 h3 => ?_
  refine Post.last (post_unsigned_byte) fun a4 b4 h4 => ?_
  refine ⟨⟨⟨h0.1, h1.1, h2.1, h3.1, h4.1⟩,
    trivial⟩, fun _ => ?_⟩
  exact W.Emits.bind (h0.2) <|
      W.Emits.bind (h1.2) <|
      W.Emits.bind (h2.2) <|
      W.Emits.bind (h3.2) <|
      h4.2

theorem IOEffect.rt (s o : IOEffect) : RT (IOEffect.serialize o) (IOEffect.parse s) (IOEffect.after s o) := by
  unfold IOEffect.serialize IOEffect.parse
  exact RT.bind (rt_unsigned_int o.recordType) <|
    RT.bind (rt_unsigned_short o.recordLength) <|
    RT.bind (rt_unsigned_byte o.ioStatus) <|
    RT.bind (rt_unsigned_byte o.ioLinkType) <|
    RT.bind (rt_unsigned_byte o.ioEffect) <|
    RT.bind (rt_unsigned_byte o.ioEffectDutyCycle) <|
    RT.bind (rt_unsigned_short o.ioEffectDuration) <|
    RT.bind (rt_unsigned_short o.ioProcess) <|
    RT.last (rt_unsigned_short o.padding)

theorem IOEffect.loc (s : IOEffect) : Local (IOEffect.parse s) := by
  unfold IOEffect.parse
  exact Local.bind (loc_unsigned_int) fun _ =>
    Local.bind (loc_unsigned_short) fun _ =>
    Local.bind (loc_unsigned_byte) fun _ =>
    Local.bind (loc_unsigned_byte) fun _ =>
    Local.bind (loc_unsigned_byte) fun _ =>
    Local.bind (loc_unsigned_byte) fun _ =>
    Local.bind (loc_unsigned_short) fun _ =>
    Local.bind (loc_unsigned_short) fun _ =>
    Local.bind (loc_unsigned_short) fun _ =>
    Local.pure _

theorem IOEffect.only (s : IOEffect) : OnlyStruct (IOEffect.parse s) := by
  unfold IOEffect.parse
  exact OnlyStruct.bind (only_unsigned_int) fun _ =>
    OnlyStruct.bind (only_unsigned_short) fun _ =>
    OnlyStruct.bind (only_unsigned_byte) fun _ =>
    OnlyStruct.bind (only_unsigned_byte) fun _ =>
    OnlyStruct.bind (only_unsigned_byte) fun _ =>
    OnlyStruct.bind (only_unsigned_byte) fun _ =>
    OnlyStruct.bind (only_unsigned_short) fun _ =>
    OnlyStruct.bind (only_unsigned_short) fun _ =>
    OnlyStruct.bind (only_unsigned_short) fun _ =>
    OnlyStruct.pure _

theorem IOEffect.sized (o : IOEffect) : Sized (IOEffect.serialize o) (IOEffect.wireSize o) := by
  unfold IOEffect.serialize
  refine Sized.of_eq (Sized.bind (sized_unsigned_int o.recordType) <|
    Sized.bind (sized_unsigned_short o.recordLength) <|
    Sized.bind (sized_unsigned_byte o.ioStatus) <|
    Sized.bind (sized_unsigned_byte o.ioLinkType) <|
    Sized.bind (sized_unsigned_byte o.ioEffect) <|
    Sized.bind (sized_unsigned_byte o.ioEffectDutyCycle) <|
    Sized.bind (sized_unsigned_short o.ioEffectDuration) <|
    Sized.bind (sized_unsigned_short o.ioProcess) <|
    sized_unsigned_short o.padding) ?_
  simp only [IOEffect.wireSize]; try omega

theorem IOEffect.ok_iff (o : IOEffect) : (IOEffect.serialize o).Ok ↔ IOEffect.WireOk o := by
  unfold IOEffect.serialize IOEffect.WireOk
  exact ok_bind_iff (ok_unsigned_int) <|
    ok_bind_iff (ok_unsigned_short) <|
    ok_bind_iff (ok_unsigned_byte) <|
    ok_bind_iff (ok_unsigned_byte) <|
    ok_bind_iff (ok_unsigned_byte) <|
    ok_bind_iff (ok_unsigned_byte) <|
    ok_bind_iff (ok_unsigned_short) <|
    ok_bind_iff (ok_unsigned_short) <|
    ok_unsigned_short

theorem IOEffect.after_canon {o : IOEffect} (h : IOEffect.Canon o) : IOEffect.after IOEffect.init o = o := by
  cases o
  exact (IOEffect.mk.injEq ..).mpr ⟨rfl,
    rfl,
    rfl,
    rfl,
    rfl,
    rfl,
    rfl,
    rfl,
    rfl⟩

theorem IOEffect.post : Post (IOEffect.parse IOEffect.init) (fun b o => (IOEffect.WireOk o ∧ IOEffect.Canon o) ∧ (IOEffect.NoNaN o → (IOEffect.serialize o).Emits b)) := by
  unfold IOEffect.parse
  refine Post.bind (post_unsigned_int) fun a0 b0 h0 => ?_
  refine Post.bind (post_unsigned_short) fun a1 b1 h1 => ?_
  refine Post.bind (post_unsigned_byte) fun a2 b2 h2 => ?_
  refine Post.bind (post_unsigned_byte) fun a3 b3 h3 => ?_
  refine Post.bind (post_unsigned_byte) fun a4 b4 h4 => ?_
  refine Post.bind (post_unsigned_byte) fun a5 b5 h5 => ?_
  refine Post.bind (post_unsigned_short) fun a6 b6 h6 => ?_
  refine Post.bind (post_unsigned_short) fun a7 b7 h7 => ?_
  refine Post.last (post_unsigned_short) fun a8 b8 h8 => ?_
  refine ⟨⟨⟨h0.1, h1.1, h2.1, h3.1, h4.1, h5.1, h6.1, h7.1, h8.1⟩,
    trivial⟩, fun _ => ?_⟩
  exact W.Emits.bind (h0.2) <|
      W.Emits.bind (h1.2) <|
      W.Emits.bind (h2.2) <|
      W.Emits.bind (h3.2) <|
      W.Emits.bind (h4.2) <|
      W.Emits.bind (h5.2) <|
      W.Emits.bind (h6.2) <|
      W.Emits.bind (h7.2) <|
      h8.2

theorem GridAxisDescriptorVariable.rt (s o : GridAxisDescriptorVariable) : RT (GridAxisDescriptorVariable.serialize o) (GridAxisDescriptorVariable.parse s) (GridAxisDescriptorVariable.after s o) := by
  unfold GridAxisDescriptorVariable.serialize GridAxisDescriptorVariable.parse
  exact RT.bind (rt_double o.domainInitialXi) <|
    RT.bind (rt_double o.domainFinalXi) <|
    RT.bind (rt_unsigned_short o.domainPointsXi) <|
    RT.bind (rt_unsigned_byte o.interleafFactor) <|
    RT.bind (rt_unsigned_byte o.axisType) <|
    RT.bind (rt_unsigned_short ((o.xiValues.length : Int))) <|
    RT.bind (rt_unsigned_short o.initialIndex) <|
    RT.bind (rt_double o.coordinateScaleXi) <|
    RT.bind (rt_double o.coordinateOffsetXi) <|
    RT.last (rt_list_throw)

theorem GridAxisDescriptorVariable.loc (s : GridAxisDescriptorVariable) : Local (GridAxisDescriptorVariable.parse s) := by
  unfold GridAxisDescriptorVariable.parse
  exact Local.bind (loc_double) fun _ =>
    Local.bind (loc_double) fun _ =>
    Local.bind (loc_unsigned_short) fun _ =>
    Local.bind (loc_unsigned_byte) fun _ =>
    Local.bind (loc_unsigned_byte) fun _ =>
    Local.bind (loc_unsigned_short) fun _ =>
    Local.bind (loc_unsigned_short) fun _ =>
    Local.bind (loc_double) fun _ =>
    Local.bind (loc_double) fun _ =>
    Local.bind (local_throw_times _ _) fun _ =>
    Local.pure _

theorem GridAxisDescriptorVariable.sized (o : GridAxisDescriptorVariable) : Sized (GridAxisDescriptorVariable.serialize o) (GridAxisDescriptorVariable.wireSize o) := by
  unfold GridAxisDescriptorVariable.serialize
  refine Sized.of_eq (Sized.bind (sized_double o.domainInitialXi) <|
    Sized.bind (sized_double o.domainFinalXi) <|
    Sized.bind (sized_unsigned_short o.domainPointsXi) <|
    Sized.bind (sized_unsigned_byte o.interleafFactor) <|
    Sized.bind (sized_unsigned_byte o.axisType) <|
    Sized.bind (sized_unsigned_short _) <|
    Sized.bind (sized_unsigned_short o.initialIndex) <|
    Sized.bind (sized_double o.coordinateScaleXi) <|
    Sized.bind (sized_double o.coordinateOffsetXi) <|
    sized_list_throw) ?_
  simp only [GridAxisDescriptorVariable.wireSize]; try omega

theorem GridAxisDescriptorVariable.ok_iff (o : GridAxisDescriptorVariable) : (GridAxisDescriptorVariable.serialize o).Ok ↔ GridAxisDescriptorVariable.WireOk o := by
  unfold GridAxisDescriptorVariable.serialize GridAxisDescriptorVariable.WireOk
  exact ok_bind_tl (ok_double) <|
    ok_bind_tl (ok_double) <|
    ok_bind_iff (ok_unsigned_short) <|
    ok_bind_iff (ok_unsigned_byte) <|
    ok_bind_iff (ok_unsigned_byte) <|
    ok_bind_iff (ok_unsigned_short) <|
    ok_bind_iff (ok_unsigned_short) <|
    ok_bind_tl (ok_double) <|
    ok_bind_tl (ok_double) <|
    ok_list_throw

theorem GridAxisDescriptorVariable.after_canon {o : GridAxisDescriptorVariable} (h : GridAxisDescriptorVariable.Canon o) : GridAxisDescriptorVariable.after GridAxisDescriptorVariable.init o = o := by
  obtain ⟨h_numberOfPointsOnXiAxis, h_xiValues⟩ := h
  cases o
  exact (GridAxisDescriptorVariable.mk.injEq ..).mpr ⟨rfl,
    rfl,
    rfl,
    rfl,
    rfl,
    h_numberOfPointsOnXiAxis.symm,
    rfl,
    rfl,
    rfl,
    h_xiValues.symm⟩

theorem GridAxisDescriptorVariable.post : Post (GridAxisDescriptorVariable.parse GridAxisDescriptorVariable.init) (fun b o => (GridAxisDescriptorVariable.WireOk o ∧ GridAxisDescriptorVariable.Canon o) ∧ (GridAxisDescriptorVariable.NoNaN o → (GridAxisDescriptorVariable.serialize o).Emits b)) := by
  unfold GridAxisDescriptorVariable.parse
  refine Post.bind (post_double) fun a0 b0 h0 => ?_
  refine Post.bind (post_double) fun a1 b1 h1 => ?_
  refine Post.bind (post_unsigned_short) fun a2 b2 h2 => ?_
  refine Post.bind (post_unsigned_byte) fun a3 b3 h3 => ?_
  refine Post.bind (post_unsigned_byte) fun a4 b4 h4 => ?_
  refine Post.bind (post_unsigned_short) fun a5 b5 h5 => ?_
  refine Post.bind (post_unsigned_short) fun a6 b6 h6 => ?_
  refine Post.bind (post_double) fun a7 b7 h7 => ?_
  refine Post.bind (post_double) fun a8 b8 h8 => ?_
  refine Post.last (Post.times_throw _ _) fun a9 b9 h9 => ?_
  obtain rfl : a5 = 0 := zero_eq h5.1.1 h9.1
  obtain ⟨-, rfl, rfl⟩ := h9
  refine ⟨⟨⟨h2.1, h3.1, h4.1, h5.1, h6.1, rfl⟩,
    ⟨rfl, rfl⟩⟩, fun _ => ?_⟩
  exact W.Emits.bind (h0) <|
      W.Emits.bind (h1) <|
      W.Emits.bind (h2.2) <|
      W.Emits.bind (h3.2) <|
      W.Emits.bind (h4.2) <|
      W.Emits.bind (h5.2) <|
      W.Emits.bind (h6.2) <|
      W.Emits.bind (h7) <|
      W.Emits.bind (h8) <|
      W.emits_pure ()

theorem SupplyQuantity.rt (s o : SupplyQuantity) : RT (SupplyQuantity.serialize o) (SupplyQuantity.parse s) (SupplyQuantity.after s o) := by
  unfold SupplyQuantity.serialize SupplyQuantity.parse
  exact RT.bind (EntityType.rt s.supplyType o.supplyType) <|
    RT.last (rt_float o.quantity)

theorem SupplyQuantity.loc (s : SupplyQuantity) : Local (SupplyQuantity.parse s) := by
  unfold SupplyQuantity.parse
  exact Local.bind (EntityType.loc _) fun _ =>
    Local.bind (loc_float) fun _ =>
    Local.pure _

theorem SupplyQuantity.only (s : SupplyQuantity) : OnlyStruct (SupplyQuantity.parse s) := by
  unfold SupplyQuantity.parse
  exact OnlyStruct.bind (EntityType.only _) fun _ =>
    OnlyStruct.bind (only_float) fun _ =>
    OnlyStruct.pure _

theorem SupplyQuantity.sized (o : SupplyQuantity) : Sized (SupplyQuantity.serialize o) (SupplyQuantity.wireSize o) := by
  unfold SupplyQuantity.serialize
  refine Sized.of_eq (Sized.bind (EntityType.sized o.supplyType) <|
    sized_float o.quantity) ?_
  simp only [SupplyQuantity.wireSize, EntityType.wireSize]; try omega

theorem SupplyQuantity.ok_iff (o : SupplyQuantity) : (SupplyQuantity.serialize o).Ok ↔ SupplyQuantity.WireOk o := by
  unfold SupplyQuantity.serialize SupplyQuantity.WireOk
  exact ok_bind_iff (EntityType.ok_iff o.supplyType) <|
    ok_float

theorem SupplyQuantity.after_canon {o : SupplyQuantity} (h : SupplyQuantity.Canon o) : SupplyQuantity.after SupplyQuantity.init o = o := by
  have h_quantity := h
  cases o
  exact (SupplyQuantity.mk.injEq ..).mpr ⟨EntityType.after_canon trivial,
    h_quantity⟩

theorem SupplyQuantity.post : Post (SupplyQuantity.parse SupplyQuantity.init) (fun b o => (SupplyQuantity.WireOk o ∧ SupplyQuantity.Canon o) ∧ (SupplyQuantity.NoNaN o → (SupplyQuantity.serialize o).Emits b)) := by
  unfold SupplyQuantity.parse
  refine Post.bind (EntityType.post) fun a0 b0 h0 => ?_
  refine Post.last (post_float) fun a1 b1 h1 => ?_
  refine ⟨⟨⟨h0.1.1, h1.1.1⟩,
    h1.1.2⟩, fun n0 => ?_⟩
  exact W.Emits.bind (h0.2 trivial) <|
      h1.2 n0

theorem SilentEntitySystem.rt (s o : SilentEntitySystem) : RT (SilentEntitySystem.serialize o) (SilentEntitySystem.parse s) (SilentEntitySystem.after s o) := by
  unfold SilentEntitySystem.serialize SilentEntitySystem.parse
  exact RT.bind (rt_unsigned_short o.numberOfEntities) <|
    RT.bind (rt_unsigned_short ((o.appearanceRecordList.length : Int))) <|
    RT.bind (EntityType.rt s.entityType o.entityType) <|
    RT.last (rt_list_throw)

theorem SilentEntitySystem.loc (s : SilentEntitySystem) : Local (SilentEntitySystem.parse s) := by
  unfold SilentEntitySystem.parse
  exact Local.bind (loc_unsigned_short) fun _ =>
    Local.bind (loc_unsigned_short) fun _ =>
    Local.bind (EntityType.loc _) fun _ =>
    Local.bind (local_throw_times _ _) fun _ =>
    Local.pure _

theorem SilentEntitySystem.sized (o : SilentEntitySystem) : Sized (SilentEntitySystem.serialize o) (SilentEntitySystem.wireSize o) := by
  unfold SilentEntitySystem.serialize
  refine Sized.of_eq (Sized.bind (sized_unsigned_short o.numberOfEntities) <|
    Sized.bind (sized_unsigned_short _) <|
    Sized.bind (EntityType.sized o.entityType) <|
    sized_list_throw) ?_
  simp only [SilentEntitySystem.wireSize, EntityType.wireSize]; try omega

theorem SilentEntitySystem.ok_iff (o : SilentEntitySystem) : (SilentEntitySystem.serialize o).Ok ↔ SilentEntitySystem.WireOk o := by
  unfold SilentEntitySystem.serialize SilentEntitySystem.WireOk
  exact ok_bind_iff (ok_unsigned_short) <|
    ok_bind_iff (ok_unsigned_short) <|
    ok_bind_iff (EntityType.ok_iff o.entityType) <|
    ok_list_throw

theorem SilentEntitySystem.after_canon {o : SilentEntitySystem} (h : SilentEntitySystem.Canon o) : SilentEntitySystem.after SilentEntitySystem.init o = o := by
  have h_appearanceRecordList := h
  cases o
  exact (SilentEntitySystem.mk.injEq ..).mpr ⟨rfl,
    EntityType.after_canon trivial,
    h_appearanceRecordList.symm⟩

theorem SilentEntitySystem.post : Post (SilentEntitySystem.parse SilentEntitySystem.init) (fun b o => (SilentEntitySystem.WireOk o ∧ SilentEntitySystem.Canon o) ∧ (SilentEntitySystem.NoNaN o → (SilentEntitySystem.serialize o).Emits b)) := by
  unfold SilentEntitySystem.parse
  refine Post.bind (post_unsigned_short) fun a0 b0 h0 => ?_
  refine Post.bind (post_unsigned_short) fun a1 b1 h1 => ?_
  refine Post.bind (EntityType.post) fun a2 b2 h2 => ?_
  refine Post.last (Post.times_throw _ _) fun a3 b3 h3 => ?_
  obtain rfl : a1 = 0 := zero_eq h1.1.1 h3.1
  obtain ⟨-, rfl, rfl⟩ := h3
  refine ⟨⟨⟨h0.1, h1.1, h2.1.1, rfl⟩,
    rfl⟩, fun _ => ?_⟩
  exact W.Emits.bind (h0.2) <|
      W.Emits.bind (h1.2) <|
      W.Emits.bind (h2.2 trivial) <|
      W.emits_pure ()

theorem SilentAggregateSystem.rt (s o : SilentAggregateSystem) :
    RT (SilentAggregateSystem.serialize o) (SilentAggregateSystem.parse s)
      (SilentAggregateSystem.after s o) := by
  unfold SilentAggregateSystem.serialize SilentAggregateSystem.parse
  refine RT.bind (rt_unsigned_short o.numberOfAggregates) <| RT.last ?_
  cases o.entityType with
  | none => exact RT.of_not_ok (W.not_ok_throw _)
  | some t => exact AggregateType.rt _ t

theorem SilentAggregateSystem.loc (s : SilentAggregateSystem) :
    Local (SilentAggregateSystem.parse s) := by
  unfold SilentAggregateSystem.parse
  exact Local.bind loc_unsigned_short fun _ => Local.bind (AggregateType.loc _) fun _ => Local.pure _

theorem SilentAggregateSystem.only (s : SilentAggregateSystem) :
    OnlyStruct (SilentAggregateSystem.parse s) := by
  unfold SilentAggregateSystem.parse
  exact OnlyStruct.bind only_unsigned_short fun _ =>
    OnlyStruct.bind (AggregateType.only _) fun _ => OnlyStruct.pure _

theorem SilentAggregateSystem.sized (o : SilentAggregateSystem) :
    Sized (SilentAggregateSystem.serialize o) (SilentAggregateSystem.wireSize o) := by
  unfold SilentAggregateSystem.serialize
  exact Sized.bind (n := 2) (m := 8) (sized_unsigned_short _) (sized_using AggregateType.sized)

theorem SilentAggregateSystem.ok_iff (o : SilentAggregateSystem) :
    (SilentAggregateSystem.serialize o).Ok ↔ SilentAggregateSystem.WireOk o := by
  unfold SilentAggregateSystem.serialize SilentAggregateSystem.WireOk
  refine ok_bind_iff ok_unsigned_short ?_
  rw [ok_using_attr]
  simp only [AggregateType.ok_iff]

theorem SilentAggregateSystem.after_canon {o : SilentAggregateSystem}
    (h : SilentAggregateSystem.Canon o) :
    SilentAggregateSystem.after SilentAggregateSystem.init o = o := h.elim

theorem SilentAggregateSystem.post : Post (SilentAggregateSystem.parse SilentAggregateSystem.init)
    (fun b o => SilentAggregateSystem.Live o →
      (SilentAggregateSystem.WireOk o ∧ SilentAggregateSystem.Canon o) ∧
      (SilentAggregateSystem.NoNaN o → (SilentAggregateSystem.serialize o).Emits b)) := by
  unfold SilentAggregateSystem.parse
  refine Post.bind post_unsigned_short fun a0 b0 h0 => ?_
  refine Post.last AggregateType.post fun a1 b1 h1 hl => hl.elim

theorem BlankingSector.rt (s o : BlankingSector) : RT (BlankingSector.serialize o) (BlankingSector.parse s) (BlankingSector.after s o) := by
  unfold BlankingSector.serialize BlankingSector.parse
  exact RT.bind (rt_int o.recordType) <|
    RT.bind (rt_unsigned_short o.recordLength) <|
    RT.bind (rt_unsigned_short o.padding) <|
    RT.bind (rt_unsigned_byte o.emitterNumber) <|
    RT.bind (rt_unsigned_byte o.beamNumber) <|
    RT.bind (rt_unsigned_byte o.stateIndicator) <|
    RT.bind (rt_unsigned_byte o.padding2) <|
    RT.bind (rt_float o.leftAzimuth) <|
    RT.bind (rt_float o.rightAzimuth) <|
    RT.bind (rt_float o.lowerElevation) <|
    RT.bind (rt_float o.upperElevation) <|
    RT.bind (rt_float o.residualPower) <|
    RT.bind (rt_int o.padding3) <|
    RT.last (rt_int o.padding4)

theorem BlankingSector.loc (s : BlankingSector) : Local (BlankingSector.parse s) := by
  unfold BlankingSector.parse
  exact Local.bind (loc_int) fun _ =>
    Local.bind (loc_unsigned_short) fun _ =>
    Local.bind (loc_unsigned_short) fun _ =>
    Local.bind (loc_unsigned_byte) fun _ =>
    Local.bind (loc_unsigned_byte) fun _ =>
    Local.bind (loc_unsigned_byte) fun _ =>
    Local.bind (loc_unsigned_byte) fun _ =>
    Local.bind (loc_float) fun _ =>
    Local.bind (loc_float) fun _ =>
    Local.bind (loc_float) fun _ =>
    Local.bind (loc_float) fun _ =>
    Local.bind (loc_float) fun _ =>
    Local.bind (loc_int) fun _ =>
    Local.bind (loc_int) fun _ =>
    Local.pure _

theorem BlankingSector.only (s : BlankingSector) : OnlyStruct (BlankingSector.parse s) := by
  unfold BlankingSector.parse
  exact OnlyStruct.bind (only_int) fun _ =>
    OnlyStruct.bind (only_unsigned_short) fun _ =>
    OnlyStruct.bind (only_unsigned_short) fun _ =>
    OnlyStruct.bind (only_unsigned_byte) fun _ =>
    OnlyStruct.bind (only_unsigned_byte) fun _ =>
    OnlyStruct.bind (only_unsigned_byte) fun _ =>
    OnlyStruct.bind (only_unsigned_byte) fun _ =>
    OnlyStruct.bind (only_float) fun _ =>
    OnlyStruct.bind (only_float) fun _ =>
    OnlyStruct.bind (only_float) fun _ =>
    OnlyStruct.bind (only_float) fun _ =>
    OnlyStruct.bind (only_float) fun _ =>
    OnlyStruct.bind (only_int) fun _ =>
    OnlyStruct.bind (only_int) fun _ =>
    OnlyStruct.pure _

theorem BlankingSector.sized (o : BlankingSector) : Sized (BlankingSector.serialize o) (BlankingSector.wireSize o) := by
  unfold BlankingSector.serialize
  refine Sized.of_eq (Sized.bind (sized_int o.recordType) <|
    Sized.bind (sized_unsigned_short o.recordLength) <|
    Sized.bind (sized_unsigned_short o.padding) <|
    Sized.bind (sized_unsigned_byte o.emitterNumber) <|
    Sized.bind (sized_unsigned_byte o.beamNumber) <|
    Sized.bind (sized_unsigned_byte o.stateIndicator) <|
    Sized.bind (sized_unsigned_byte o.padding2) <|
    Sized.bind (sized_float o.leftAzimuth) <|
    Sized.bind (sized_float o.rightAzimuth) <|
    Sized.bind (sized_float o.lowerElevation) <|
    Sized.bind (sized_float o.upperElevation) <|
    Sized.bind (sized_float o.residualPower) <|
    Sized.bind (sized_int o.padding3) <|
    sized_int o.padding4) ?_
  simp only [BlankingSector.wireSize]; try omega

theorem BlankingSector.ok_iff (o : BlankingSector) : (BlankingSector.serialize o).Ok ↔ BlankingSector.WireOk o := by
  unfold BlankingSector.serialize BlankingSector.WireOk
  exact ok_bind_iff (ok_int) <|
    ok_bind_iff (ok_unsigned_short) <|
    ok_bind_iff (ok_unsigned_short) <|
    ok_bind_iff (ok_unsigned_byte) <|
    ok_bind_iff (ok_unsigned_byte) <|
    ok_bind_iff (ok_unsigned_byte) <|
    ok_bind_iff (ok_unsigned_byte) <|
    ok_bind_iff (ok_float) <|
    ok_bind_iff (ok_float) <|
    ok_bind_iff (ok_float) <|
    ok_bind_iff (ok_float) <|
    ok_bind_iff (ok_float) <|
    ok_bind_iff (ok_int) <|
    ok_int

theorem BlankingSector.after_canon {o : BlankingSector} (h : BlankingSector.Canon o) : BlankingSector.after BlankingSector.init o = o := by
  obtain ⟨h_leftAzimuth, h_rightAzimuth, h_lowerElevation, h_upperElevation, h_residualPower⟩ := h
  cases o
  exact (BlankingSector.mk.injEq ..).mpr ⟨rfl,
    rfl,
    rfl,
    rfl,
    rfl,
    rfl,
    rfl,
    h_leftAzimuth,
    h_rightAzimuth,
    h_lowerElevation,
    h_upperElevation,
    h_residualPower,
    rfl,
    rfl⟩

theorem BlankingSector.post : Post (BlankingSector.parse BlankingSector.init) (fun b o => (BlankingSector.WireOk o ∧ BlankingSector.Canon o) ∧ (BlankingSector.NoNaN o → (BlankingSector.serialize o).Emits b)) := by
  unfold BlankingSector.parse
  refine Post.bind (post_int) fun a0 b0 h0 => ?_
  refine Post.bind (post_unsigned_short) fun a1 b1 h1 => ?_
  refine Post.bind (post_unsigned_short) fun a2 b2 h2 => ?_
  refine Post.bind (post_unsigned_byte) fun a3 b3 h3 => ?_
  refine Post.bind (post_unsigned_byte) fun a4 b4 h4 => ?_
  refine Post.bind (post_unsigned_byte) fun a5 b5 h5 => ?_
  refine Post.bind (post_unsigned_byte) fun a6 b6 h6 => ?_
  refine Post.bind (post_float) fun a7 b7 h7 => ?_
  refine Post.bind (post_float) fun a8 b8 h8 => ?_
  refine Post.bind (post_float) fun a9 b9 h9 => ?_
  refine Post.bind (post_float) fun a10 b10 h10 => ?_
  refine Post.bind (post_float) fun a11 b11 h11 => ?_
  refine Post.bind (post_int) fun a12 b12 h12 => ?_
  refine Post.last (post_int) fun a13 b13 h13 => ?_
  refine ⟨⟨⟨h0.1, h1.1, h2.1, h3.1, h4.1, h5.1, h6.1, h7.1.1, h8.1.1, h9.1.1, h10.1.1, h11.1.1, h12.1, h13.1⟩,
    ⟨h7.1.2, h8.1.2, h9.1.2, h10.1.2, h11.1.2⟩⟩, fun hn => ?_⟩
  obtain ⟨n0, n1, n2, n3, n4⟩ := hn
  exact W.Emits.bind (h0.2) <|
      W.Emits.bind (h1.2) <|
      W.Emits.bind (h2.2) <|
      W.Emits.bind (h3.2) <|
      W.Emits.bind (h4.2) <|
      W.Emits.bind (h5.2) <|
      W.Emits.bind (h6.2) <|
      W.Emits.bind (h7.2 n0) <|
      W.Emits.bind (h8.2 n1) <|
      W.Emits.bind (h9.2 n2) <|
      W.Emits.bind (h10.2 n3) <|
      W.Emits.bind (h11.2 n4) <|
      W.Emits.bind (h12.2) <|
      h13.2

end Dis
