import Verif.Model.InPlace4
import Verif.Proof.InPlace3

/-!
# Parses in place, part 4

Generated by `tools/geninplace.py`.
-/

set_option linter.unusedVariables false
set_option linter.unusedSimpArgs false

namespace Dis

theorem MinefieldStatePdu.Since.refl (o : MinefieldStatePdu) : MinefieldStatePdu.Since o o :=
  ⟨MinefieldFamilyPdu.Since.refl _, MinefieldIdentifier.Since.refl _, EntityType.Since.refl _, WorldCoordinates.Since.refl _, EulerAngles.Since.refl _, List.prefix_refl _, List.prefix_refl _⟩

theorem MinefieldStatePdu.Since.trans {o x y : MinefieldStatePdu} (h : MinefieldStatePdu.Since o x) (g : MinefieldStatePdu.Since x y) : MinefieldStatePdu.Since o y :=
  ⟨MinefieldFamilyPdu.Since.trans h.1 g.1, MinefieldIdentifier.Since.trans h.2.1 g.2.1, EntityType.Since.trans h.2.2.1 g.2.2.1, WorldCoordinates.Since.trans h.2.2.2.1 g.2.2.2.1, EulerAngles.Since.trans h.2.2.2.2.1 g.2.2.2.2.1, List.IsPrefix.trans (h.2.2.2.2.2.1) (g.2.2.2.2.2.1), List.IsPrefix.trans (h.2.2.2.2.2.2) (g.2.2.2.2.2.2)⟩

theorem MinefieldStatePdu.since  (o : MinefieldStatePdu) (s : InStream) : MinefieldStatePdu.Since o (MinefieldStatePdu.parseInto o s).2.1 := by
  refine (?_ : P.Keeps (MinefieldStatePdu.Since o) MinefieldStatePdu.parseInto) o s (.refl o)
  unfold MinefieldStatePdu.parseInto
  refine .call MinefieldFamilyPdu.since (fun _ _ h g => ⟨MinefieldFamilyPdu.Since.trans h.1 g, h.2.1, h.2.2.1, h.2.2.2.1, h.2.2.2.2.1, h.2.2.2.2.2.1, h.2.2.2.2.2.2⟩) ?_
  refine .call MinefieldIdentifier.since (fun _ _ h g => ⟨h.1, MinefieldIdentifier.Since.trans h.2.1 g, h.2.2.1, h.2.2.2.1, h.2.2.2.2.1, h.2.2.2.2.2.1, h.2.2.2.2.2.2⟩) ?_
  refine .read fun _ => ?_
  refine .set (fun _ h => h) ?_
  refine .read fun _ => ?_
  refine .set (fun _ h => h) ?_
  refine .read fun _ => ?_
  refine .call EntityType.since (fun _ _ h g => ⟨h.1, h.2.1, EntityType.Since.trans h.2.2.1 g, h.2.2.2.1, h.2.2.2.2.1, h.2.2.2.2.2.1, h.2.2.2.2.2.2⟩) ?_
  refine .read fun _ => ?_
  refine .call WorldCoordinates.since (fun _ _ h g => ⟨h.1, h.2.1, h.2.2.1, WorldCoordinates.Since.trans h.2.2.2.1 g, h.2.2.2.2.1, h.2.2.2.2.2.1, h.2.2.2.2.2.2⟩) ?_
  refine .call EulerAngles.since (fun _ _ h g => ⟨h.1, h.2.1, h.2.2.1, h.2.2.2.1, EulerAngles.Since.trans h.2.2.2.2.1 g, h.2.2.2.2.2.1, h.2.2.2.2.2.2⟩) ?_
  refine .read fun _ => ?_
  refine .set (fun _ h => h) ?_
  refine .read fun _ => ?_
  refine .set (fun _ h => h) ?_
  refine .appendObjs (fun _ _ h => ⟨h.1, h.2.1, h.2.2.1, h.2.2.2.1, h.2.2.2.2.1, List.IsPrefix.trans (h.2.2.2.2.2.1) (List.prefix_append _ _), h.2.2.2.2.2.2⟩) ?_
  refine .appendObjs (fun _ _ h => ⟨h.1, h.2.1, h.2.2.1, h.2.2.2.1, h.2.2.2.2.1, h.2.2.2.2.2.1, List.IsPrefix.trans (h.2.2.2.2.2.2) (List.prefix_append _ _)⟩) ?_
  exact .pure

theorem MinefieldStatePdu.into (o : MinefieldStatePdu) : P.run MinefieldStatePdu.parseInto o = MinefieldStatePdu.parse o := by
  unfold MinefieldStatePdu.parseInto MinefieldStatePdu.parse
  simp (maxSteps := 1000000) (disch := exact ⟨fun _ _ => rfl, fun _ _ _ => rfl, fun _ => rfl⟩) only [P.run_pure, P.run_read, P.run_set, P.run_call, P.run_appendObjs, EntityType.into, EulerAngles.into, MinefieldFamilyPdu.into, MinefieldIdentifier.into, Vector2Float.into, WorldCoordinates.into]

theorem MinefieldStatePdu.again {o x : MinefieldStatePdu} (h : MinefieldStatePdu.Since o x) : MinefieldStatePdu.parse (MinefieldStatePdu.trim o x) = MinefieldStatePdu.parse o := by
  unfold MinefieldStatePdu.parse MinefieldStatePdu.trim
  simp only [MinefieldFamilyPdu.again h.1, MinefieldIdentifier.again h.2.1, EntityType.again h.2.2.1, WorldCoordinates.again h.2.2.2.1, EulerAngles.again h.2.2.2.2.1, ← List.prefix_iff_eq_take.mp (h.2.2.2.2.2.1), ← List.prefix_iff_eq_take.mp (h.2.2.2.2.2.2)]

theorem MinefieldStatePdu.blind : Blind (MinefieldStatePdu.parse) := by
  intro o x
  unfold MinefieldStatePdu.parse
  refine .bind (MinefieldFamilyPdu.blind _ _) fun _ _ _ => ?_
  refine .bind (MinefieldIdentifier.blind _ _) fun _ _ _ => ?_
  refine .read fun _ => ?_
  refine .read fun _ => ?_
  refine .read fun _ => ?_
  refine .bind (EntityType.blind _ _) fun _ _ _ => ?_
  refine .read fun _ => ?_
  refine .bind (WorldCoordinates.blind _ _) fun _ _ _ => ?_
  refine .bind (EulerAngles.blind _ _) fun _ _ _ => ?_
  refine .read fun _ => ?_
  refine .read fun _ => ?_
  refine .read fun _ => ?_
  refine .read fun _ => ?_
  exact .pure trivial

theorem DataReliablePdu.Since.refl (o : DataReliablePdu) : DataReliablePdu.Since o o :=
  ⟨SimulationManagementWithReliabilityFamilyPdu.Since.refl _, DatumSpecification.Since.refl _⟩

theorem DataReliablePdu.Since.trans {o x y : DataReliablePdu} (h : DataReliablePdu.Since o x) (g : DataReliablePdu.Since x y) : DataReliablePdu.Since o y :=
  ⟨SimulationManagementWithReliabilityFamilyPdu.Since.trans h.1 g.1, DatumSpecification.Since.trans h.2 g.2⟩

theorem DataReliablePdu.since  (o : DataReliablePdu) (s : InStream) : DataReliablePdu.Since o (DataReliablePdu.parseInto o s).2.1 := by
  refine (?_ : P.Keeps (DataReliablePdu.Since o) DataReliablePdu.parseInto) o s (.refl o)
  unfold DataReliablePdu.parseInto
  refine .call SimulationManagementWithReliabilityFamilyPdu.since (fun _ _ h g => ⟨SimulationManagementWithReliabilityFamilyPdu.Since.trans h.1 g, h.2⟩) ?_
  refine .read fun _ => ?_
  refine .set (fun _ h => h) ?_
  refine .read fun _ => ?_
  refine .set (fun _ h => h) ?_
  refine .read fun _ => ?_
  refine .set (fun _ h => h) ?_
  refine .read fun _ => ?_
  refine .set (fun _ h => h) ?_
  refine .call DatumSpecification.since (fun _ _ h g => ⟨h.1, DatumSpecification.Since.trans h.2 g⟩) ?_
  exact .pure

theorem DataReliablePdu.into (o : DataReliablePdu) : P.run DataReliablePdu.parseInto o = DataReliablePdu.parse o := by
  unfold DataReliablePdu.parseInto DataReliablePdu.parse
  simp (maxSteps := 1000000) only [P.run_pure, P.run_read, P.run_set, P.run_call, DatumSpecification.into, SimulationManagementWithReliabilityFamilyPdu.into]

theorem DataReliablePdu.again {o x : DataReliablePdu} (h : DataReliablePdu.Since o x) : DataReliablePdu.parse (DataReliablePdu.trim o x) = DataReliablePdu.parse o := by
  unfold DataReliablePdu.parse DataReliablePdu.trim
  simp only [SimulationManagementWithReliabilityFamilyPdu.again h.1, DatumSpecification.again h.2]

theorem DataReliablePdu.blind : Blind (DataReliablePdu.parse) := by
  intro o x
  unfold DataReliablePdu.parse
  refine .bind (SimulationManagementWithReliabilityFamilyPdu.blind _ _) fun _ _ _ => ?_
  refine .read fun _ => ?_
  refine .read fun _ => ?_
  refine .read fun _ => ?_
  refine .read fun _ => ?_
  refine .bind (DatumSpecification.blind _ _) fun _ _ _ => ?_
  exact .pure trivial

theorem CommentPdu.Since.refl (o : CommentPdu) : CommentPdu.Since o o :=
  ⟨SimulationManagementFamilyPdu.Since.refl _, DatumSpecification.Since.refl _⟩

theorem CommentPdu.Since.trans {o x y : CommentPdu} (h : CommentPdu.Since o x) (g : CommentPdu.Since x y) : CommentPdu.Since o y :=
  ⟨SimulationManagementFamilyPdu.Since.trans h.1 g.1, DatumSpecification.Since.trans h.2 g.2⟩

theorem CommentPdu.since  (o : CommentPdu) (s : InStream) : CommentPdu.Since o (CommentPdu.parseInto o s).2.1 := by
  refine (?_ : P.Keeps (CommentPdu.Since o) CommentPdu.parseInto) o s (.refl o)
  unfold CommentPdu.parseInto
  refine .call SimulationManagementFamilyPdu.since (fun _ _ h g => ⟨SimulationManagementFamilyPdu.Since.trans h.1 g, h.2⟩) ?_
  refine .call DatumSpecification.since (fun _ _ h g => ⟨h.1, DatumSpecification.Since.trans h.2 g⟩) ?_
  exact .pure

theorem CommentPdu.into (o : CommentPdu) : P.run CommentPdu.parseInto o = CommentPdu.parse o := by
  unfold CommentPdu.parseInto CommentPdu.parse
  simp (maxSteps := 1000000) only [P.run_pure, P.run_call, DatumSpecification.into, SimulationManagementFamilyPdu.into]

theorem CommentPdu.again {o x : CommentPdu} (h : CommentPdu.Since o x) : CommentPdu.parse (CommentPdu.trim o x) = CommentPdu.parse o := by
  unfold CommentPdu.parse CommentPdu.trim
  simp only [SimulationManagementFamilyPdu.again h.1, DatumSpecification.again h.2]

theorem CommentPdu.blind : Blind (CommentPdu.parse) := by
  intro o x
  unfold CommentPdu.parse
  refine .bind (SimulationManagementFamilyPdu.blind _ _) fun _ _ _ => ?_
  refine .bind (DatumSpecification.blind _ _) fun _ _ _ => ?_
  exact .pure trivial

theorem CommentReliablePdu.Since.refl (o : CommentReliablePdu) : CommentReliablePdu.Since o o :=
  ⟨SimulationManagementWithReliabilityFamilyPdu.Since.refl _, DatumSpecification.Since.refl _⟩

theorem CommentReliablePdu.Since.trans {o x y : CommentReliablePdu} (h : CommentReliablePdu.Since o x) (g : CommentReliablePdu.Since x y) : CommentReliablePdu.Since o y :=
  ⟨SimulationManagementWithReliabilityFamilyPdu.Since.trans h.1 g.1, DatumSpecification.Since.trans h.2 g.2⟩

theorem CommentReliablePdu.since  (o : CommentReliablePdu) (s : InStream) : CommentReliablePdu.Since o (CommentReliablePdu.parseInto o s).2.1 := by
  refine (?_ : P.Keeps (CommentReliablePdu.Since o) CommentReliablePdu.parseInto) o s (.refl o)
  unfold CommentReliablePdu.parseInto
  refine .call SimulationManagementWithReliabilityFamilyPdu.since (fun _ _ h g => ⟨SimulationManagementWithReliabilityFamilyPdu.Since.trans h.1 g, h.2⟩) ?_
  refine .call DatumSpecification.since (fun _ _ h g => ⟨h.1, DatumSpecification.Since.trans h.2 g⟩) ?_
  exact .pure

theorem CommentReliablePdu.into (o : CommentReliablePdu) : P.run CommentReliablePdu.parseInto o = CommentReliablePdu.parse o := by
  unfold CommentReliablePdu.parseInto CommentReliablePdu.parse
  simp (maxSteps := 1000000) only [P.run_pure, P.run_call, DatumSpecification.into, SimulationManagementWithReliabilityFamilyPdu.into]

theorem CommentReliablePdu.again {o x : CommentReliablePdu} (h : CommentReliablePdu.Since o x) : CommentReliablePdu.parse (CommentReliablePdu.trim o x) = CommentReliablePdu.parse o := by
  unfold CommentReliablePdu.parse CommentReliablePdu.trim
  simp only [SimulationManagementWithReliabilityFamilyPdu.again h.1, DatumSpecification.again h.2]

theorem CommentReliablePdu.blind : Blind (CommentReliablePdu.parse) := by
  intro o x
  unfold CommentReliablePdu.parse
  refine .bind (SimulationManagementWithReliabilityFamilyPdu.blind _ _) fun _ _ _ => ?_
  refine .bind (DatumSpecification.blind _ _) fun _ _ _ => ?_
  exact .pure trivial

theorem DetonationPdu.Since.refl (o : DetonationPdu) : DetonationPdu.Since o o :=
  ⟨WarfareFamilyPdu.Since.refl _, EntityIdentifier.Since.refl _, EventIdentifier.Since.refl _, Vector3Float.Since.refl _, WorldCoordinates.Since.refl _, MunitionDescriptor.Since.refl _, Vector3Float.Since.refl _, List.prefix_refl _⟩

theorem DetonationPdu.Since.trans {o x y : DetonationPdu} (h : DetonationPdu.Since o x) (g : DetonationPdu.Since x y) : DetonationPdu.Since o y :=
  ⟨WarfareFamilyPdu.Since.trans h.1 g.1, EntityIdentifier.Since.trans h.2.1 g.2.1, EventIdentifier.Since.trans h.2.2.1 g.2.2.1, Vector3Float.Since.trans h.2.2.2.1 g.2.2.2.1, WorldCoordinates.Since.trans h.2.2.2.2.1 g.2.2.2.2.1, MunitionDescriptor.Since.trans h.2.2.2.2.2.1 g.2.2.2.2.2.1, Vector3Float.Since.trans h.2.2.2.2.2.2.1 g.2.2.2.2.2.2.1, List.IsPrefix.trans (h.2.2.2.2.2.2.2) (g.2.2.2.2.2.2.2)⟩

theorem DetonationPdu.since  (o : DetonationPdu) (s : InStream) : DetonationPdu.Since o (DetonationPdu.parseInto o s).2.1 := by
  refine (?_ : P.Keeps (DetonationPdu.Since o) DetonationPdu.parseInto) o s (.refl o)
  unfold DetonationPdu.parseInto
  refine .call WarfareFamilyPdu.since (fun _ _ h g => ⟨WarfareFamilyPdu.Since.trans h.1 g, h.2.1, h.2.2.1, h.2.2.2.1, h.2.2.2.2.1, h.2.2.2.2.2.1, h.2.2.2.2.2.2.1, h.2.2.2.2.2.2.2⟩) ?_
  refine .call EntityIdentifier.since (fun _ _ h g => ⟨h.1, EntityIdentifier.Since.trans h.2.1 g, h.2.2.1, h.2.2.2.1, h.2.2.2.2.1, h.2.2.2.2.2.1, h.2.2.2.2.2.2.1, h.2.2.2.2.2.2.2⟩) ?_
  refine .call EventIdentifier.since (fun _ _ h g => ⟨h.1, h.2.1, EventIdentifier.Since.trans h.2.2.1 g, h.2.2.2.1, h.2.2.2.2.1, h.2.2.2.2.2.1, h.2.2.2.2.2.2.1, h.2.2.2.2.2.2.2⟩) ?_
  refine .call Vector3Float.since (fun _ _ h g => ⟨h.1, h.2.1, h.2.2.1, Vector3Float.Since.trans h.2.2.2.1 g, h.2.2.2.2.1, h.2.2.2.2.2.1, h.2.2.2.2.2.2.1, h.2.2.2.2.2.2.2⟩) ?_
  refine .call WorldCoordinates.since (fun _ _ h g => ⟨h.1, h.2.1, h.2.2.1, h.2.2.2.1, WorldCoordinates.Since.trans h.2.2.2.2.1 g, h.2.2.2.2.2.1, h.2.2.2.2.2.2.1, h.2.2.2.2.2.2.2⟩) ?_
  refine .call MunitionDescriptor.since (fun _ _ h g => ⟨h.1, h.2.1, h.2.2.1, h.2.2.2.1, h.2.2.2.2.1, MunitionDescriptor.Since.trans h.2.2.2.2.2.1 g, h.2.2.2.2.2.2.1, h.2.2.2.2.2.2.2⟩) ?_
  refine .call Vector3Float.since (fun _ _ h g => ⟨h.1, h.2.1, h.2.2.1, h.2.2.2.1, h.2.2.2.2.1, h.2.2.2.2.2.1, Vector3Float.Since.trans h.2.2.2.2.2.2.1 g, h.2.2.2.2.2.2.2⟩) ?_
  refine .read fun _ => ?_
  refine .set (fun _ h => h) ?_
  refine .read fun _ => ?_
  refine .read fun _ => ?_
  refine .set (fun _ h => h) ?_
  refine .appendObjs (fun _ _ h => ⟨h.1, h.2.1, h.2.2.1, h.2.2.2.1, h.2.2.2.2.1, h.2.2.2.2.2.1, h.2.2.2.2.2.2.1, List.IsPrefix.trans (h.2.2.2.2.2.2.2) (List.prefix_append _ _)⟩) ?_
  exact .pure

theorem DetonationPdu.into (o : DetonationPdu) : P.run DetonationPdu.parseInto o = DetonationPdu.parse o := by
  unfold DetonationPdu.parseInto DetonationPdu.parse
  simp (maxSteps := 1000000) (disch := exact ⟨fun _ _ => rfl, fun _ _ _ => rfl, fun _ => rfl⟩) only [P.run_pure, P.run_read, P.run_set, P.run_call, P.run_appendObjs, EntityIdentifier.into, EventIdentifier.into, MunitionDescriptor.into, VariableParameter.into, Vector3Float.into, WarfareFamilyPdu.into, WorldCoordinates.into]

theorem DetonationPdu.again {o x : DetonationPdu} (h : DetonationPdu.Since o x) : DetonationPdu.parse (DetonationPdu.trim o x) = DetonationPdu.parse o := by
  unfold DetonationPdu.parse DetonationPdu.trim
  simp only [WarfareFamilyPdu.again h.1, EntityIdentifier.again h.2.1, EventIdentifier.again h.2.2.1, Vector3Float.again h.2.2.2.1, WorldCoordinates.again h.2.2.2.2.1, MunitionDescriptor.again h.2.2.2.2.2.1, Vector3Float.again h.2.2.2.2.2.2.1, ← List.prefix_iff_eq_take.mp (h.2.2.2.2.2.2.2)]

theorem DetonationPdu.blind : Blind (DetonationPdu.parse) := by
  intro o x
  unfold DetonationPdu.parse
  refine .bind (WarfareFamilyPdu.blind _ _) fun _ _ _ => ?_
  refine .bind (EntityIdentifier.blind _ _) fun _ _ _ => ?_
  refine .bind (EventIdentifier.blind _ _) fun _ _ _ => ?_
  refine .bind (Vector3Float.blind _ _) fun _ _ _ => ?_
  refine .bind (WorldCoordinates.blind _ _) fun _ _ _ => ?_
  refine .bind (MunitionDescriptor.blind _ _) fun _ _ _ => ?_
  refine .bind (Vector3Float.blind _ _) fun _ _ _ => ?_
  refine .read fun _ => ?_
  refine .read fun _ => ?_
  refine .read fun _ => ?_
  refine .read fun _ => ?_
  exact .pure trivial

theorem SetDataPdu.Since.refl (o : SetDataPdu) : SetDataPdu.Since o o :=
  ⟨SimulationManagementFamilyPdu.Since.refl _, DatumSpecification.Since.refl _⟩

theorem SetDataPdu.Since.trans {o x y : SetDataPdu} (h : SetDataPdu.Since o x) (g : SetDataPdu.Since x y) : SetDataPdu.Since o y :=
  ⟨SimulationManagementFamilyPdu.Since.trans h.1 g.1, DatumSpecification.Since.trans h.2 g.2⟩

theorem SetDataPdu.since  (o : SetDataPdu) (s : InStream) : SetDataPdu.Since o (SetDataPdu.parseInto o s).2.1 := by
  refine (?_ : P.Keeps (SetDataPdu.Since o) SetDataPdu.parseInto) o s (.refl o)
  unfold SetDataPdu.parseInto
  refine .call SimulationManagementFamilyPdu.since (fun _ _ h g => ⟨SimulationManagementFamilyPdu.Since.trans h.1 g, h.2⟩) ?_
  refine .read fun _ => ?_
  refine .set (fun _ h => h) ?_
  refine .read fun _ => ?_
  refine .set (fun _ h => h) ?_
  refine .call DatumSpecification.since (fun _ _ h g => ⟨h.1, DatumSpecification.Since.trans h.2 g⟩) ?_
  exact .pure

theorem SetDataPdu.into (o : SetDataPdu) : P.run SetDataPdu.parseInto o = SetDataPdu.parse o := by
  unfold SetDataPdu.parseInto SetDataPdu.parse
  simp (maxSteps := 1000000) only [P.run_pure, P.run_read, P.run_set, P.run_call, DatumSpecification.into, SimulationManagementFamilyPdu.into]

theorem SetDataPdu.again {o x : SetDataPdu} (h : SetDataPdu.Since o x) : SetDataPdu.parse (SetDataPdu.trim o x) = SetDataPdu.parse o := by
  unfold SetDataPdu.parse SetDataPdu.trim
  simp only [SimulationManagementFamilyPdu.again h.1, DatumSpecification.again h.2]

theorem SetDataPdu.blind : Blind (SetDataPdu.parse) := by
  intro o x
  unfold SetDataPdu.parse
  refine .bind (SimulationManagementFamilyPdu.blind _ _) fun _ _ _ => ?_
  refine .read fun _ => ?_
  refine .read fun _ => ?_
  refine .bind (DatumSpecification.blind _ _) fun _ _ _ => ?_
  exact .pure trivial

theorem RecordQueryReliablePdu.Since.refl (o : RecordQueryReliablePdu) : RecordQueryReliablePdu.Since o o :=
  ⟨SimulationManagementWithReliabilityFamilyPdu.Since.refl _, List.prefix_refl _⟩

theorem RecordQueryReliablePdu.Since.trans {o x y : RecordQueryReliablePdu} (h : RecordQueryReliablePdu.Since o x) (g : RecordQueryReliablePdu.Since x y) : RecordQueryReliablePdu.Since o y :=
  ⟨SimulationManagementWithReliabilityFamilyPdu.Since.trans h.1 g.1, List.IsPrefix.trans (h.2) (g.2)⟩

theorem RecordQueryReliablePdu.since  (o : RecordQueryReliablePdu) (s : InStream) : RecordQueryReliablePdu.Since o (RecordQueryReliablePdu.parseInto o s).2.1 := by
  refine (?_ : P.Keeps (RecordQueryReliablePdu.Since o) RecordQueryReliablePdu.parseInto) o s (.refl o)
  unfold RecordQueryReliablePdu.parseInto
  refine .call SimulationManagementWithReliabilityFamilyPdu.since (fun _ _ h g => ⟨SimulationManagementWithReliabilityFamilyPdu.Since.trans h.1 g, h.2⟩) ?_
  refine .read fun _ => ?_
  refine .set (fun _ h => h) ?_
  refine .read fun _ => ?_
  refine .set (fun _ h => h) ?_
  refine .read fun _ => ?_
  refine .set (fun _ h => h) ?_
  refine .read fun _ => ?_
  refine .set (fun _ h => h) ?_
  refine .read fun _ => ?_
  refine .set (fun _ h => h) ?_
  refine .read fun _ => ?_
  refine .set (fun _ h => h) ?_
  refine .read fun _ => ?_
  refine .appendReads (fun _ _ h => ⟨h.1, List.IsPrefix.trans (h.2) (List.prefix_append _ _)⟩) ?_
  exact .pure

theorem RecordQueryReliablePdu.into (o : RecordQueryReliablePdu) : P.run RecordQueryReliablePdu.parseInto o = RecordQueryReliablePdu.parse o := by
  unfold RecordQueryReliablePdu.parseInto RecordQueryReliablePdu.parse
  simp (maxSteps := 1000000) (disch := exact ⟨fun _ _ => rfl, fun _ _ _ => rfl, fun _ => rfl⟩) only [P.run_pure, P.run_read, P.run_set, P.run_call, P.run_appendReads, SimulationManagementWithReliabilityFamilyPdu.into]

theorem RecordQueryReliablePdu.again {o x : RecordQueryReliablePdu} (h : RecordQueryReliablePdu.Since o x) : RecordQueryReliablePdu.parse (RecordQueryReliablePdu.trim o x) = RecordQueryReliablePdu.parse o := by
  unfold RecordQueryReliablePdu.parse RecordQueryReliablePdu.trim
  simp only [SimulationManagementWithReliabilityFamilyPdu.again h.1, ← List.prefix_iff_eq_take.mp (h.2)]

theorem RecordQueryReliablePdu.blind : Blind (RecordQueryReliablePdu.parse) := by
  intro o x
  unfold RecordQueryReliablePdu.parse
  refine .bind (SimulationManagementWithReliabilityFamilyPdu.blind _ _) fun _ _ _ => ?_
  refine .read fun _ => ?_
  refine .read fun _ => ?_
  refine .read fun _ => ?_
  refine .read fun _ => ?_
  refine .read fun _ => ?_
  refine .read fun _ => ?_
  refine .read fun _ => ?_
  refine .read fun _ => ?_
  exact .pure trivial

theorem ActionResponsePdu.Since.refl (o : ActionResponsePdu) : ActionResponsePdu.Since o o :=
  ⟨SimulationManagementFamilyPdu.Since.refl _, DatumSpecification.Since.refl _⟩

theorem ActionResponsePdu.Since.trans {o x y : ActionResponsePdu} (h : ActionResponsePdu.Since o x) (g : ActionResponsePdu.Since x y) : ActionResponsePdu.Since o y :=
  ⟨SimulationManagementFamilyPdu.Since.trans h.1 g.1, DatumSpecification.Since.trans h.2 g.2⟩

theorem ActionResponsePdu.since  (o : ActionResponsePdu) (s : InStream) : ActionResponsePdu.Since o (ActionResponsePdu.parseInto o s).2.1 := by
  refine (?_ : P.Keeps (ActionResponsePdu.Since o) ActionResponsePdu.parseInto) o s (.refl o)
  unfold ActionResponsePdu.parseInto
  refine .call SimulationManagementFamilyPdu.since (fun _ _ h g => ⟨SimulationManagementFamilyPdu.Since.trans h.1 g, h.2⟩) ?_
  refine .read fun _ => ?_
  refine .set (fun _ h => h) ?_
  refine .read fun _ => ?_
  refine .set (fun _ h => h) ?_
  refine .call DatumSpecification.since (fun _ _ h g => ⟨h.1, DatumSpecification.Since.trans h.2 g⟩) ?_
  exact .pure

theorem ActionResponsePdu.into (o : ActionResponsePdu) : P.run ActionResponsePdu.parseInto o = ActionResponsePdu.parse o := by
  unfold ActionResponsePdu.parseInto ActionResponsePdu.parse
  simp (maxSteps := 1000000) only [P.run_pure, P.run_read, P.run_set, P.run_call, DatumSpecification.into, SimulationManagementFamilyPdu.into]

theorem ActionResponsePdu.again {o x : ActionResponsePdu} (h : ActionResponsePdu.Since o x) : ActionResponsePdu.parse (ActionResponsePdu.trim o x) = ActionResponsePdu.parse o := by
  unfold ActionResponsePdu.parse ActionResponsePdu.trim
  simp only [SimulationManagementFamilyPdu.again h.1, DatumSpecification.again h.2]

theorem ActionResponsePdu.blind : Blind (ActionResponsePdu.parse) := by
  intro o x
  unfold ActionResponsePdu.parse
  refine .bind (SimulationManagementFamilyPdu.blind _ _) fun _ _ _ => ?_
  refine .read fun _ => ?_
  refine .read fun _ => ?_
  refine .bind (DatumSpecification.blind _ _) fun _ _ _ => ?_
  exact .pure trivial

theorem FirePdu.Since.refl (o : FirePdu) : FirePdu.Since o o :=
  ⟨WarfareFamilyPdu.Since.refl _, EntityIdentifier.Since.refl _, EventIdentifier.Since.refl _, WorldCoordinates.Since.refl _, MunitionDescriptor.Since.refl _, Vector3Float.Since.refl _⟩

theorem FirePdu.Since.trans {o x y : FirePdu} (h : FirePdu.Since o x) (g : FirePdu.Since x y) : FirePdu.Since o y :=
  ⟨WarfareFamilyPdu.Since.trans h.1 g.1, EntityIdentifier.Since.trans h.2.1 g.2.1, EventIdentifier.Since.trans h.2.2.1 g.2.2.1, WorldCoordinates.Since.trans h.2.2.2.1 g.2.2.2.1, MunitionDescriptor.Since.trans h.2.2.2.2.1 g.2.2.2.2.1, Vector3Float.Since.trans h.2.2.2.2.2 g.2.2.2.2.2⟩

theorem FirePdu.since  (o : FirePdu) (s : InStream) : FirePdu.Since o (FirePdu.parseInto o s).2.1 := by
  refine (?_ : P.Keeps (FirePdu.Since o) FirePdu.parseInto) o s (.refl o)
  unfold FirePdu.parseInto
  refine .call WarfareFamilyPdu.since (fun _ _ h g => ⟨WarfareFamilyPdu.Since.trans h.1 g, h.2.1, h.2.2.1, h.2.2.2.1, h.2.2.2.2.1, h.2.2.2.2.2⟩) ?_
  refine .call EntityIdentifier.since (fun _ _ h g => ⟨h.1, EntityIdentifier.Since.trans h.2.1 g, h.2.2.1, h.2.2.2.1, h.2.2.2.2.1, h.2.2.2.2.2⟩) ?_
  refine .call EventIdentifier.since (fun _ _ h g => ⟨h.1, h.2.1, EventIdentifier.Since.trans h.2.2.1 g, h.2.2.2.1, h.2.2.2.2.1, h.2.2.2.2.2⟩) ?_
  refine .read fun _ => ?_
  refine .set (fun _ h => h) ?_
  refine .call WorldCoordinates.since (fun _ _ h g => ⟨h.1, h.2.1, h.2.2.1, WorldCoordinates.Since.trans h.2.2.2.1 g, h.2.2.2.2.1, h.2.2.2.2.2⟩) ?_
  refine .call MunitionDescriptor.since (fun _ _ h g => ⟨h.1, h.2.1, h.2.2.1, h.2.2.2.1, MunitionDescriptor.Since.trans h.2.2.2.2.1 g, h.2.2.2.2.2⟩) ?_
  refine .call Vector3Float.since (fun _ _ h g => ⟨h.1, h.2.1, h.2.2.1, h.2.2.2.1, h.2.2.2.2.1, Vector3Float.Since.trans h.2.2.2.2.2 g⟩) ?_
  refine .read fun _ => ?_
  refine .set (fun _ h => h) ?_
  exact .pure

theorem FirePdu.into (o : FirePdu) : P.run FirePdu.parseInto o = FirePdu.parse o := by
  unfold FirePdu.parseInto FirePdu.parse
  simp (maxSteps := 1000000) only [P.run_pure, P.run_read, P.run_set, P.run_call, EntityIdentifier.into, EventIdentifier.into, MunitionDescriptor.into, Vector3Float.into, WarfareFamilyPdu.into, WorldCoordinates.into]

theorem FirePdu.again {o x : FirePdu} (h : FirePdu.Since o x) : FirePdu.parse x = FirePdu.parse o := by
  unfold FirePdu.parse
  simp only [WarfareFamilyPdu.again h.1, EntityIdentifier.again h.2.1, EventIdentifier.again h.2.2.1, WorldCoordinates.again h.2.2.2.1, MunitionDescriptor.again h.2.2.2.2.1, Vector3Float.again h.2.2.2.2.2]

theorem FirePdu.blind : Blind (FirePdu.parse) := by
  intro o x
  unfold FirePdu.parse
  refine .bind (WarfareFamilyPdu.blind _ _) fun _ _ _ => ?_
  refine .bind (EntityIdentifier.blind _ _) fun _ _ _ => ?_
  refine .bind (EventIdentifier.blind _ _) fun _ _ _ => ?_
  refine .read fun _ => ?_
  refine .bind (WorldCoordinates.blind _ _) fun _ _ _ => ?_
  refine .bind (MunitionDescriptor.blind _ _) fun _ _ _ => ?_
  refine .bind (Vector3Float.blind _ _) fun _ _ _ => ?_
  refine .read fun _ => ?_
  exact .pure trivial

theorem ReceiverPdu.Since.refl (o : ReceiverPdu) : ReceiverPdu.Since o o :=
  ⟨RadioCommunicationsFamilyPdu.Since.refl _, EntityIdentifier.Since.refl _⟩

theorem ReceiverPdu.Since.trans {o x y : ReceiverPdu} (h : ReceiverPdu.Since o x) (g : ReceiverPdu.Since x y) : ReceiverPdu.Since o y :=
  ⟨RadioCommunicationsFamilyPdu.Since.trans h.1 g.1, EntityIdentifier.Since.trans h.2 g.2⟩

theorem ReceiverPdu.since  (o : ReceiverPdu) (s : InStream) : ReceiverPdu.Since o (ReceiverPdu.parseInto o s).2.1 := by
  refine (?_ : P.Keeps (ReceiverPdu.Since o) ReceiverPdu.parseInto) o s (.refl o)
  unfold ReceiverPdu.parseInto
  refine .call RadioCommunicationsFamilyPdu.since (fun _ _ h g => ⟨RadioCommunicationsFamilyPdu.Since.trans h.1 g, h.2⟩) ?_
  refine .read fun _ => ?_
  refine .set (fun _ h => h) ?_
  refine .read fun _ => ?_
  refine .set (fun _ h => h) ?_
  refine .read fun _ => ?_
  refine .set (fun _ h => h) ?_
  refine .call EntityIdentifier.since (fun _ _ h g => ⟨h.1, EntityIdentifier.Since.trans h.2 g⟩) ?_
  refine .read fun _ => ?_
  refine .set (fun _ h => h) ?_
  exact .pure

theorem ReceiverPdu.into (o : ReceiverPdu) : P.run ReceiverPdu.parseInto o = ReceiverPdu.parse o := by
  unfold ReceiverPdu.parseInto ReceiverPdu.parse
  simp (maxSteps := 1000000) only [P.run_pure, P.run_read, P.run_set, P.run_call, EntityIdentifier.into, RadioCommunicationsFamilyPdu.into]

theorem ReceiverPdu.again {o x : ReceiverPdu} (h : ReceiverPdu.Since o x) : ReceiverPdu.parse x = ReceiverPdu.parse o := by
  unfold ReceiverPdu.parse
  simp only [RadioCommunicationsFamilyPdu.again h.1, EntityIdentifier.again h.2]

theorem ReceiverPdu.blind : Blind (ReceiverPdu.parse) := by
  intro o x
  unfold ReceiverPdu.parse
  refine .bind (RadioCommunicationsFamilyPdu.blind _ _) fun _ _ _ => ?_
  refine .read fun _ => ?_
  refine .read fun _ => ?_
  refine .read fun _ => ?_
  refine .bind (EntityIdentifier.blind _ _) fun _ _ _ => ?_
  refine .read fun _ => ?_
  exact .pure trivial

theorem UaPdu.Since.refl (o : UaPdu) : UaPdu.Since o o :=
  ⟨DistributedEmissionsFamilyPdu.Since.refl _, EntityIdentifier.Since.refl _, EventIdentifier.Since.refl _, List.prefix_refl _, List.prefix_refl _, List.prefix_refl _⟩

theorem UaPdu.Since.trans {o x y : UaPdu} (h : UaPdu.Since o x) (g : UaPdu.Since x y) : UaPdu.Since o y :=
  ⟨DistributedEmissionsFamilyPdu.Since.trans h.1 g.1, EntityIdentifier.Since.trans h.2.1 g.2.1, EventIdentifier.Since.trans h.2.2.1 g.2.2.1, List.IsPrefix.trans (h.2.2.2.1) (g.2.2.2.1), List.IsPrefix.trans (h.2.2.2.2.1) (g.2.2.2.2.1), List.IsPrefix.trans (h.2.2.2.2.2) (g.2.2.2.2.2)⟩

theorem UaPdu.since  (o : UaPdu) (s : InStream) : UaPdu.Since o (UaPdu.parseInto o s).2.1 := by
  refine (?_ : P.Keeps (UaPdu.Since o) UaPdu.parseInto) o s (.refl o)
  unfold UaPdu.parseInto
  refine .call DistributedEmissionsFamilyPdu.since (fun _ _ h g => ⟨DistributedEmissionsFamilyPdu.Since.trans h.1 g, h.2.1, h.2.2.1, h.2.2.2.1, h.2.2.2.2.1, h.2.2.2.2.2⟩) ?_
  refine .call EntityIdentifier.since (fun _ _ h g => ⟨h.1, EntityIdentifier.Since.trans h.2.1 g, h.2.2.1, h.2.2.2.1, h.2.2.2.2.1, h.2.2.2.2.2⟩) ?_
  refine .call EventIdentifier.since (fun _ _ h g => ⟨h.1, h.2.1, EventIdentifier.Since.trans h.2.2.1 g, h.2.2.2.1, h.2.2.2.2.1, h.2.2.2.2.2⟩) ?_
  refine .read fun _ => ?_
  refine .set (fun _ h => h) ?_
  refine .read fun _ => ?_
  refine .set (fun _ h => h) ?_
  refine .read fun _ => ?_
  refine .set (fun _ h => h) ?_
  refine .read fun _ => ?_
  refine .set (fun _ h => h) ?_
  refine .read fun _ => ?_
  refine .read fun _ => ?_
  refine .read fun _ => ?_
  refine .appendReads (fun _ _ h => ⟨h.1, h.2.1, h.2.2.1, List.IsPrefix.trans (h.2.2.2.1) (List.prefix_append _ _), h.2.2.2.2.1, h.2.2.2.2.2⟩) ?_
  refine .appendReads (fun _ _ h => ⟨h.1, h.2.1, h.2.2.1, h.2.2.2.1, List.IsPrefix.trans (h.2.2.2.2.1) (List.prefix_append _ _), h.2.2.2.2.2⟩) ?_
  refine .appendReads (fun _ _ h => ⟨h.1, h.2.1, h.2.2.1, h.2.2.2.1, h.2.2.2.2.1, List.IsPrefix.trans (h.2.2.2.2.2) (List.prefix_append _ _)⟩) ?_
  exact .pure

theorem UaPdu.into (o : UaPdu) : P.run UaPdu.parseInto o = UaPdu.parse o := by
  unfold UaPdu.parseInto UaPdu.parse
  simp (maxSteps := 1000000) (disch := exact ⟨fun _ _ => rfl, fun _ _ _ => rfl, fun _ => rfl⟩) only [P.run_pure, P.run_read, P.run_set, P.run_call, P.run_appendReads, DistributedEmissionsFamilyPdu.into, EntityIdentifier.into, EventIdentifier.into]

theorem UaPdu.again {o x : UaPdu} (h : UaPdu.Since o x) : UaPdu.parse (UaPdu.trim o x) = UaPdu.parse o := by
  unfold UaPdu.parse UaPdu.trim
  simp only [DistributedEmissionsFamilyPdu.again h.1, EntityIdentifier.again h.2.1, EventIdentifier.again h.2.2.1, ← List.prefix_iff_eq_take.mp (h.2.2.2.1), ← List.prefix_iff_eq_take.mp (h.2.2.2.2.1), ← List.prefix_iff_eq_take.mp (h.2.2.2.2.2)]

theorem UaPdu.blind : Blind (UaPdu.parse) := by
  intro o x
  unfold UaPdu.parse
  refine .bind (DistributedEmissionsFamilyPdu.blind _ _) fun _ _ _ => ?_
  refine .bind (EntityIdentifier.blind _ _) fun _ _ _ => ?_
  refine .bind (EventIdentifier.blind _ _) fun _ _ _ => ?_
  refine .read fun _ => ?_
  refine .read fun _ => ?_
  refine .read fun _ => ?_
  refine .read fun _ => ?_
  refine .read fun _ => ?_
  refine .read fun _ => ?_
  refine .read fun _ => ?_
  refine .read fun _ => ?_
  refine .read fun _ => ?_
  refine .read fun _ => ?_
  exact .pure trivial

theorem SignalPdu.Since.refl (o : SignalPdu) : SignalPdu.Since o o :=
  ⟨RadioCommunicationsFamilyPdu.Since.refl _, EntityIdentifier.Since.refl _, List.prefix_refl _⟩

theorem SignalPdu.Since.trans {o x y : SignalPdu} (h : SignalPdu.Since o x) (g : SignalPdu.Since x y) : SignalPdu.Since o y :=
  ⟨RadioCommunicationsFamilyPdu.Since.trans h.1 g.1, EntityIdentifier.Since.trans h.2.1 g.2.1, List.IsPrefix.trans (h.2.2) (g.2.2)⟩

theorem SignalPdu.since  (o : SignalPdu) (s : InStream) : SignalPdu.Since o (SignalPdu.parseInto o s).2.1 := by
  refine (?_ : P.Keeps (SignalPdu.Since o) SignalPdu.parseInto) o s (.refl o)
  unfold SignalPdu.parseInto
  refine .call RadioCommunicationsFamilyPdu.since (fun _ _ h g => ⟨RadioCommunicationsFamilyPdu.Since.trans h.1 g, h.2.1, h.2.2⟩) ?_
  refine .call EntityIdentifier.since (fun _ _ h g => ⟨h.1, EntityIdentifier.Since.trans h.2.1 g, h.2.2⟩) ?_
  refine .read fun _ => ?_
  refine .set (fun _ h => h) ?_
  refine .read fun _ => ?_
  refine .set (fun _ h => h) ?_
  refine .read fun _ => ?_
  refine .set (fun _ h => h) ?_
  refine .read fun _ => ?_
  refine .set (fun _ h => h) ?_
  refine .read fun _ => ?_
  refine .read fun _ => ?_
  refine .set (fun _ h => h) ?_
  refine .appendReads (fun _ _ h => ⟨h.1, h.2.1, List.IsPrefix.trans (h.2.2) (List.prefix_append _ _)⟩) ?_
  exact .pure

theorem SignalPdu.into (o : SignalPdu) : P.run SignalPdu.parseInto o = SignalPdu.parse o := by
  unfold SignalPdu.parseInto SignalPdu.parse
  simp (maxSteps := 1000000) (disch := exact ⟨fun _ _ => rfl, fun _ _ _ => rfl, fun _ => rfl⟩) only [P.run_pure, P.run_read, P.run_set, P.run_call, P.run_appendReads, EntityIdentifier.into, RadioCommunicationsFamilyPdu.into]

theorem SignalPdu.again {o x : SignalPdu} (h : SignalPdu.Since o x) : SignalPdu.parse (SignalPdu.trim o x) = SignalPdu.parse o := by
  unfold SignalPdu.parse SignalPdu.trim
  simp only [RadioCommunicationsFamilyPdu.again h.1, EntityIdentifier.again h.2.1, ← List.prefix_iff_eq_take.mp (h.2.2)]

theorem SignalPdu.blind : Blind (SignalPdu.parse) := by
  intro o x
  unfold SignalPdu.parse
  refine .bind (RadioCommunicationsFamilyPdu.blind _ _) fun _ _ _ => ?_
  refine .bind (EntityIdentifier.blind _ _) fun _ _ _ => ?_
  refine .read fun _ => ?_
  refine .read fun _ => ?_
  refine .read fun _ => ?_
  refine .read fun _ => ?_
  refine .read fun _ => ?_
  refine .read fun _ => ?_
  refine .read fun _ => ?_
  exact .pure trivial

theorem RemoveEntityReliablePdu.Since.refl (o : RemoveEntityReliablePdu) : RemoveEntityReliablePdu.Since o o :=
  SimulationManagementWithReliabilityFamilyPdu.Since.refl _

theorem RemoveEntityReliablePdu.Since.trans {o x y : RemoveEntityReliablePdu} (h : RemoveEntityReliablePdu.Since o x) (g : RemoveEntityReliablePdu.Since x y) : RemoveEntityReliablePdu.Since o y :=
  SimulationManagementWithReliabilityFamilyPdu.Since.trans h g

theorem RemoveEntityReliablePdu.since  (o : RemoveEntityReliablePdu) (s : InStream) : RemoveEntityReliablePdu.Since o (RemoveEntityReliablePdu.parseInto o s).2.1 := by
  refine (?_ : P.Keeps (RemoveEntityReliablePdu.Since o) RemoveEntityReliablePdu.parseInto) o s (.refl o)
  unfold RemoveEntityReliablePdu.parseInto
  refine .call SimulationManagementWithReliabilityFamilyPdu.since (fun _ _ h g => SimulationManagementWithReliabilityFamilyPdu.Since.trans h g) ?_
  refine .read fun _ => ?_
  refine .set (fun _ h => h) ?_
  refine .read fun _ => ?_
  refine .set (fun _ h => h) ?_
  refine .read fun _ => ?_
  refine .set (fun _ h => h) ?_
  refine .read fun _ => ?_
  refine .set (fun _ h => h) ?_
  exact .pure

theorem RemoveEntityReliablePdu.into (o : RemoveEntityReliablePdu) : P.run RemoveEntityReliablePdu.parseInto o = RemoveEntityReliablePdu.parse o := by
  unfold RemoveEntityReliablePdu.parseInto RemoveEntityReliablePdu.parse
  simp (maxSteps := 1000000) only [P.run_pure, P.run_read, P.run_set, P.run_call, SimulationManagementWithReliabilityFamilyPdu.into]

theorem RemoveEntityReliablePdu.again {o x : RemoveEntityReliablePdu} (h : RemoveEntityReliablePdu.Since o x) : RemoveEntityReliablePdu.parse x = RemoveEntityReliablePdu.parse o := by
  unfold RemoveEntityReliablePdu.parse
  simp only [SimulationManagementWithReliabilityFamilyPdu.again h]

theorem RemoveEntityReliablePdu.blind : Blind (RemoveEntityReliablePdu.parse) := by
  intro o x
  unfold RemoveEntityReliablePdu.parse
  refine .bind (SimulationManagementWithReliabilityFamilyPdu.blind _ _) fun _ _ _ => ?_
  refine .read fun _ => ?_
  refine .read fun _ => ?_
  refine .read fun _ => ?_
  refine .read fun _ => ?_
  exact .pure trivial

theorem SeesPdu.Since.refl (o : SeesPdu) : SeesPdu.Since o o :=
  ⟨DistributedEmissionsFamilyPdu.Since.refl _, EntityIdentifier.Since.refl _, List.prefix_refl _, List.prefix_refl _⟩

theorem SeesPdu.Since.trans {o x y : SeesPdu} (h : SeesPdu.Since o x) (g : SeesPdu.Since x y) : SeesPdu.Since o y :=
  ⟨DistributedEmissionsFamilyPdu.Since.trans h.1 g.1, EntityIdentifier.Since.trans h.2.1 g.2.1, List.IsPrefix.trans (h.2.2.1) (g.2.2.1), List.IsPrefix.trans (h.2.2.2) (g.2.2.2)⟩

theorem SeesPdu.since  (o : SeesPdu) (s : InStream) : SeesPdu.Since o (SeesPdu.parseInto o s).2.1 := by
  refine (?_ : P.Keeps (SeesPdu.Since o) SeesPdu.parseInto) o s (.refl o)
  unfold SeesPdu.parseInto
  refine .call DistributedEmissionsFamilyPdu.since (fun _ _ h g => ⟨DistributedEmissionsFamilyPdu.Since.trans h.1 g, h.2.1, h.2.2.1, h.2.2.2⟩) ?_
  refine .call EntityIdentifier.since (fun _ _ h g => ⟨h.1, EntityIdentifier.Since.trans h.2.1 g, h.2.2.1, h.2.2.2⟩) ?_
  refine .read fun _ => ?_
  refine .set (fun _ h => h) ?_
  refine .read fun _ => ?_
  refine .set (fun _ h => h) ?_
  refine .read fun _ => ?_
  refine .set (fun _ h => h) ?_
  refine .read fun _ => ?_
  refine .read fun _ => ?_
  refine .appendReads (fun _ _ h => ⟨h.1, h.2.1, List.IsPrefix.trans (h.2.2.1) (List.prefix_append _ _), h.2.2.2⟩) ?_
  refine .appendReads (fun _ _ h => ⟨h.1, h.2.1, h.2.2.1, List.IsPrefix.trans (h.2.2.2) (List.prefix_append _ _)⟩) ?_
  exact .pure

theorem SeesPdu.into (o : SeesPdu) : P.run SeesPdu.parseInto o = SeesPdu.parse o := by
  unfold SeesPdu.parseInto SeesPdu.parse
  simp (maxSteps := 1000000) (disch := exact ⟨fun _ _ => rfl, fun _ _ _ => rfl, fun _ => rfl⟩) only [P.run_pure, P.run_read, P.run_set, P.run_call, P.run_appendReads, DistributedEmissionsFamilyPdu.into, EntityIdentifier.into]

theorem SeesPdu.again {o x : SeesPdu} (h : SeesPdu.Since o x) : SeesPdu.parse (SeesPdu.trim o x) = SeesPdu.parse o := by
  unfold SeesPdu.parse SeesPdu.trim
  simp only [DistributedEmissionsFamilyPdu.again h.1, EntityIdentifier.again h.2.1, ← List.prefix_iff_eq_take.mp (h.2.2.1), ← List.prefix_iff_eq_take.mp (h.2.2.2)]

theorem SeesPdu.blind : Blind (SeesPdu.parse) := by
  intro o x
  unfold SeesPdu.parse
  refine .bind (DistributedEmissionsFamilyPdu.blind _ _) fun _ _ _ => ?_
  refine .bind (EntityIdentifier.blind _ _) fun _ _ _ => ?_
  refine .read fun _ => ?_
  refine .read fun _ => ?_
  refine .read fun _ => ?_
  refine .read fun _ => ?_
  refine .read fun _ => ?_
  refine .read fun _ => ?_
  refine .read fun _ => ?_
  exact .pure trivial

theorem CreateEntityReliablePdu.Since.refl (o : CreateEntityReliablePdu) : CreateEntityReliablePdu.Since o o :=
  SimulationManagementWithReliabilityFamilyPdu.Since.refl _

theorem CreateEntityReliablePdu.Since.trans {o x y : CreateEntityReliablePdu} (h : CreateEntityReliablePdu.Since o x) (g : CreateEntityReliablePdu.Since x y) : CreateEntityReliablePdu.Since o y :=
  SimulationManagementWithReliabilityFamilyPdu.Since.trans h g

theorem CreateEntityReliablePdu.since  (o : CreateEntityReliablePdu) (s : InStream) : CreateEntityReliablePdu.Since o (CreateEntityReliablePdu.parseInto o s).2.1 := by
  refine (?_ : P.Keeps (CreateEntityReliablePdu.Since o) CreateEntityReliablePdu.parseInto) o s (.refl o)
  unfold CreateEntityReliablePdu.parseInto
  refine .call SimulationManagementWithReliabilityFamilyPdu.since (fun _ _ h g => SimulationManagementWithReliabilityFamilyPdu.Since.trans h g) ?_
  refine .read fun _ => ?_
  refine .set (fun _ h => h) ?_
  refine .read fun _ => ?_
  refine .set (fun _ h => h) ?_
  refine .read fun _ => ?_
  refine .set (fun _ h => h) ?_
  refine .read fun _ => ?_
  refine .set (fun _ h => h) ?_
  exact .pure

theorem CreateEntityReliablePdu.into (o : CreateEntityReliablePdu) : P.run CreateEntityReliablePdu.parseInto o = CreateEntityReliablePdu.parse o := by
  unfold CreateEntityReliablePdu.parseInto CreateEntityReliablePdu.parse
  simp (maxSteps := 1000000) only [P.run_pure, P.run_read, P.run_set, P.run_call, SimulationManagementWithReliabilityFamilyPdu.into]

theorem CreateEntityReliablePdu.again {o x : CreateEntityReliablePdu} (h : CreateEntityReliablePdu.Since o x) : CreateEntityReliablePdu.parse x = CreateEntityReliablePdu.parse o := by
  unfold CreateEntityReliablePdu.parse
  simp only [SimulationManagementWithReliabilityFamilyPdu.again h]

theorem CreateEntityReliablePdu.blind : Blind (CreateEntityReliablePdu.parse) := by
  intro o x
  unfold CreateEntityReliablePdu.parse
  refine .bind (SimulationManagementWithReliabilityFamilyPdu.blind _ _) fun _ _ _ => ?_
  refine .read fun _ => ?_
  refine .read fun _ => ?_
  refine .read fun _ => ?_
  refine .read fun _ => ?_
  exact .pure trivial

theorem StopFreezeReliablePdu.Since.refl (o : StopFreezeReliablePdu) : StopFreezeReliablePdu.Since o o :=
  ⟨SimulationManagementWithReliabilityFamilyPdu.Since.refl _, ClockTime.Since.refl _⟩

theorem StopFreezeReliablePdu.Since.trans {o x y : StopFreezeReliablePdu} (h : StopFreezeReliablePdu.Since o x) (g : StopFreezeReliablePdu.Since x y) : StopFreezeReliablePdu.Since o y :=
  ⟨SimulationManagementWithReliabilityFamilyPdu.Since.trans h.1 g.1, ClockTime.Since.trans h.2 g.2⟩

theorem StopFreezeReliablePdu.since  (o : StopFreezeReliablePdu) (s : InStream) : StopFreezeReliablePdu.Since o (StopFreezeReliablePdu.parseInto o s).2.1 := by
  refine (?_ : P.Keeps (StopFreezeReliablePdu.Since o) StopFreezeReliablePdu.parseInto) o s (.refl o)
  unfold StopFreezeReliablePdu.parseInto
  refine .call SimulationManagementWithReliabilityFamilyPdu.since (fun _ _ h g => ⟨SimulationManagementWithReliabilityFamilyPdu.Since.trans h.1 g, h.2⟩) ?_
  refine .call ClockTime.since (fun _ _ h g => ⟨h.1, ClockTime.Since.trans h.2 g⟩) ?_
  refine .read fun _ => ?_
  refine .set (fun _ h => h) ?_
  refine .read fun _ => ?_
  refine .set (fun _ h => h) ?_
  refine .read fun _ => ?_
  refine .set (fun _ h => h) ?_
  refine .read fun _ => ?_
  refine .set (fun _ h => h) ?_
  refine .read fun _ => ?_
  refine .set (fun _ h => h) ?_
  exact .pure

theorem StopFreezeReliablePdu.into (o : StopFreezeReliablePdu) : P.run StopFreezeReliablePdu.parseInto o = StopFreezeReliablePdu.parse o := by
  unfold StopFreezeReliablePdu.parseInto StopFreezeReliablePdu.parse
  simp (maxSteps := 1000000) only [P.run_pure, P.run_read, P.run_set, P.run_call, ClockTime.into, SimulationManagementWithReliabilityFamilyPdu.into]

theorem StopFreezeReliablePdu.again {o x : StopFreezeReliablePdu} (h : StopFreezeReliablePdu.Since o x) : StopFreezeReliablePdu.parse x = StopFreezeReliablePdu.parse o := by
  unfold StopFreezeReliablePdu.parse
  simp only [SimulationManagementWithReliabilityFamilyPdu.again h.1, ClockTime.again h.2]

theorem StopFreezeReliablePdu.blind : Blind (StopFreezeReliablePdu.parse) := by
  intro o x
  unfold StopFreezeReliablePdu.parse
  refine .bind (SimulationManagementWithReliabilityFamilyPdu.blind _ _) fun _ _ _ => ?_
  refine .bind (ClockTime.blind _ _) fun _ _ _ => ?_
  refine .read fun _ => ?_
  refine .read fun _ => ?_
  refine .read fun _ => ?_
  refine .read fun _ => ?_
  refine .read fun _ => ?_
  exact .pure trivial

theorem EventReportReliablePdu.Since.refl (o : EventReportReliablePdu) : EventReportReliablePdu.Since o o :=
  ⟨SimulationManagementWithReliabilityFamilyPdu.Since.refl _, DatumSpecification.Since.refl _⟩

theorem EventReportReliablePdu.Since.trans {o x y : EventReportReliablePdu} (h : EventReportReliablePdu.Since o x) (g : EventReportReliablePdu.Since x y) : EventReportReliablePdu.Since o y :=
  ⟨SimulationManagementWithReliabilityFamilyPdu.Since.trans h.1 g.1, DatumSpecification.Since.trans h.2 g.2⟩

theorem EventReportReliablePdu.since  (o : EventReportReliablePdu) (s : InStream) : EventReportReliablePdu.Since o (EventReportReliablePdu.parseInto o s).2.1 := by
  refine (?_ : P.Keeps (EventReportReliablePdu.Since o) EventReportReliablePdu.parseInto) o s (.refl o)
  unfold EventReportReliablePdu.parseInto
  refine .call SimulationManagementWithReliabilityFamilyPdu.since (fun _ _ h g => ⟨SimulationManagementWithReliabilityFamilyPdu.Since.trans h.1 g, h.2⟩) ?_
  refine .read fun _ => ?_
  refine .set (fun _ h => h) ?_
  refine .read fun _ => ?_
  refine .set (fun _ h => h) ?_
  refine .call DatumSpecification.since (fun _ _ h g => ⟨h.1, DatumSpecification.Since.trans h.2 g⟩) ?_
  exact .pure

theorem EventReportReliablePdu.into (o : EventReportReliablePdu) : P.run EventReportReliablePdu.parseInto o = EventReportReliablePdu.parse o := by
  unfold EventReportReliablePdu.parseInto EventReportReliablePdu.parse
  simp (maxSteps := 1000000) only [P.run_pure, P.run_read, P.run_set, P.run_call, DatumSpecification.into, SimulationManagementWithReliabilityFamilyPdu.into]

theorem EventReportReliablePdu.again {o x : EventReportReliablePdu} (h : EventReportReliablePdu.Since o x) : EventReportReliablePdu.parse (EventReportReliablePdu.trim o x) = EventReportReliablePdu.parse o := by
  unfold EventReportReliablePdu.parse EventReportReliablePdu.trim
  simp only [SimulationManagementWithReliabilityFamilyPdu.again h.1, DatumSpecification.again h.2]

theorem EventReportReliablePdu.blind : Blind (EventReportReliablePdu.parse) := by
  intro o x
  unfold EventReportReliablePdu.parse
  refine .bind (SimulationManagementWithReliabilityFamilyPdu.blind _ _) fun _ _ _ => ?_
  refine .read fun _ => ?_
  refine .read fun _ => ?_
  refine .bind (DatumSpecification.blind _ _) fun _ _ _ => ?_
  exact .pure trivial

theorem MinefieldResponseNackPdu.Since.refl (o : MinefieldResponseNackPdu) : MinefieldResponseNackPdu.Since o o :=
  ⟨MinefieldFamilyPdu.Since.refl _, EntityIdentifier.Since.refl _, EntityIdentifier.Since.refl _, List.prefix_refl _⟩

theorem MinefieldResponseNackPdu.Since.trans {o x y : MinefieldResponseNackPdu} (h : MinefieldResponseNackPdu.Since o x) (g : MinefieldResponseNackPdu.Since x y) : MinefieldResponseNackPdu.Since o y :=
  ⟨MinefieldFamilyPdu.Since.trans h.1 g.1, EntityIdentifier.Since.trans h.2.1 g.2.1, EntityIdentifier.Since.trans h.2.2.1 g.2.2.1, List.IsPrefix.trans (h.2.2.2) (g.2.2.2)⟩

theorem MinefieldResponseNackPdu.since  (o : MinefieldResponseNackPdu) (s : InStream) : MinefieldResponseNackPdu.Since o (MinefieldResponseNackPdu.parseInto o s).2.1 := by
  refine (?_ : P.Keeps (MinefieldResponseNackPdu.Since o) MinefieldResponseNackPdu.parseInto) o s (.refl o)
  unfold MinefieldResponseNackPdu.parseInto
  refine .call MinefieldFamilyPdu.since (fun _ _ h g => ⟨MinefieldFamilyPdu.Since.trans h.1 g, h.2.1, h.2.2.1, h.2.2.2⟩) ?_
  refine .call EntityIdentifier.since (fun _ _ h g => ⟨h.1, EntityIdentifier.Since.trans h.2.1 g, h.2.2.1, h.2.2.2⟩) ?_
  refine .call EntityIdentifier.since (fun _ _ h g => ⟨h.1, h.2.1, EntityIdentifier.Since.trans h.2.2.1 g, h.2.2.2⟩) ?_
  refine .read fun _ => ?_
  refine .set (fun _ h => h) ?_
  refine .read fun _ => ?_
  refine .appendReads (fun _ _ h => ⟨h.1, h.2.1, h.2.2.1, List.IsPrefix.trans (h.2.2.2) (List.prefix_append _ _)⟩) ?_
  exact .pure

theorem MinefieldResponseNackPdu.into (o : MinefieldResponseNackPdu) : P.run MinefieldResponseNackPdu.parseInto o = MinefieldResponseNackPdu.parse o := by
  unfold MinefieldResponseNackPdu.parseInto MinefieldResponseNackPdu.parse
  simp (maxSteps := 1000000) (disch := exact ⟨fun _ _ => rfl, fun _ _ _ => rfl, fun _ => rfl⟩) only [P.run_pure, P.run_read, P.run_set, P.run_call, P.run_appendReads, EntityIdentifier.into, MinefieldFamilyPdu.into]

theorem MinefieldResponseNackPdu.again {o x : MinefieldResponseNackPdu} (h : MinefieldResponseNackPdu.Since o x) : MinefieldResponseNackPdu.parse (MinefieldResponseNackPdu.trim o x) = MinefieldResponseNackPdu.parse o := by
  unfold MinefieldResponseNackPdu.parse MinefieldResponseNackPdu.trim
  simp only [MinefieldFamilyPdu.again h.1, EntityIdentifier.again h.2.1, EntityIdentifier.again h.2.2.1, ← List.prefix_iff_eq_take.mp (h.2.2.2)]

theorem MinefieldResponseNackPdu.blind : Blind (MinefieldResponseNackPdu.parse) := by
  intro o x
  unfold MinefieldResponseNackPdu.parse
  refine .bind (MinefieldFamilyPdu.blind _ _) fun _ _ _ => ?_
  refine .bind (EntityIdentifier.blind _ _) fun _ _ _ => ?_
  refine .bind (EntityIdentifier.blind _ _) fun _ _ _ => ?_
  refine .read fun _ => ?_
  refine .read fun _ => ?_
  refine .read fun _ => ?_
  exact .pure trivial

theorem ActionResponseReliablePdu.Since.refl (o : ActionResponseReliablePdu) : ActionResponseReliablePdu.Since o o :=
  ⟨SimulationManagementWithReliabilityFamilyPdu.Since.refl _, DatumSpecification.Since.refl _⟩

theorem ActionResponseReliablePdu.Since.trans {o x y : ActionResponseReliablePdu} (h : ActionResponseReliablePdu.Since o x) (g : ActionResponseReliablePdu.Since x y) : ActionResponseReliablePdu.Since o y :=
  ⟨SimulationManagementWithReliabilityFamilyPdu.Since.trans h.1 g.1, DatumSpecification.Since.trans h.2 g.2⟩

theorem ActionResponseReliablePdu.since  (o : ActionResponseReliablePdu) (s : InStream) : ActionResponseReliablePdu.Since o (ActionResponseReliablePdu.parseInto o s).2.1 := by
  refine (?_ : P.Keeps (ActionResponseReliablePdu.Since o) ActionResponseReliablePdu.parseInto) o s (.refl o)
  unfold ActionResponseReliablePdu.parseInto
  refine .call SimulationManagementWithReliabilityFamilyPdu.since (fun _ _ h g => ⟨SimulationManagementWithReliabilityFamilyPdu.Since.trans h.1 g, h.2⟩) ?_
  refine .read fun _ => ?_
  refine .set (fun _ h => h) ?_
  refine .read fun _ => ?_
  refine .set (fun _ h => h) ?_
  refine .call DatumSpecification.since (fun _ _ h g => ⟨h.1, DatumSpecification.Since.trans h.2 g⟩) ?_
  exact .pure

theorem ActionResponseReliablePdu.into (o : ActionResponseReliablePdu) : P.run ActionResponseReliablePdu.parseInto o = ActionResponseReliablePdu.parse o := by
  unfold ActionResponseReliablePdu.parseInto ActionResponseReliablePdu.parse
  simp (maxSteps := 1000000) only [P.run_pure, P.run_read, P.run_set, P.run_call, DatumSpecification.into, SimulationManagementWithReliabilityFamilyPdu.into]

theorem ActionResponseReliablePdu.again {o x : ActionResponseReliablePdu} (h : ActionResponseReliablePdu.Since o x) : ActionResponseReliablePdu.parse (ActionResponseReliablePdu.trim o x) = ActionResponseReliablePdu.parse o := by
  unfold ActionResponseReliablePdu.parse ActionResponseReliablePdu.trim
  simp only [SimulationManagementWithReliabilityFamilyPdu.again h.1, DatumSpecification.again h.2]

theorem ActionResponseReliablePdu.blind : Blind (ActionResponseReliablePdu.parse) := by
  intro o x
  unfold ActionResponseReliablePdu.parse
  refine .bind (SimulationManagementWithReliabilityFamilyPdu.blind _ _) fun _ _ _ => ?_
  refine .read fun _ => ?_
  refine .read fun _ => ?_
  refine .bind (DatumSpecification.blind _ _) fun _ _ _ => ?_
  exact .pure trivial

theorem IsPartOfPdu.Since.refl (o : IsPartOfPdu) : IsPartOfPdu.Since o o :=
  ⟨EntityManagementFamilyPdu.Since.refl _, EntityIdentifier.Since.refl _, EntityIdentifier.Since.refl _, Relationship.Since.refl _, Vector3Float.Since.refl _, NamedLocationIdentification.Since.refl _, EntityType.Since.refl _⟩

theorem IsPartOfPdu.Since.trans {o x y : IsPartOfPdu} (h : IsPartOfPdu.Since o x) (g : IsPartOfPdu.Since x y) : IsPartOfPdu.Since o y :=
  ⟨EntityManagementFamilyPdu.Since.trans h.1 g.1, EntityIdentifier.Since.trans h.2.1 g.2.1, EntityIdentifier.Since.trans h.2.2.1 g.2.2.1, Relationship.Since.trans h.2.2.2.1 g.2.2.2.1, Vector3Float.Since.trans h.2.2.2.2.1 g.2.2.2.2.1, NamedLocationIdentification.Since.trans h.2.2.2.2.2.1 g.2.2.2.2.2.1, EntityType.Since.trans h.2.2.2.2.2.2 g.2.2.2.2.2.2⟩

theorem IsPartOfPdu.since  (o : IsPartOfPdu) (s : InStream) : IsPartOfPdu.Since o (IsPartOfPdu.parseInto o s).2.1 := by
  refine (?_ : P.Keeps (IsPartOfPdu.Since o) IsPartOfPdu.parseInto) o s (.refl o)
  unfold IsPartOfPdu.parseInto
  refine .call EntityManagementFamilyPdu.since (fun _ _ h g => ⟨EntityManagementFamilyPdu.Since.trans h.1 g, h.2.1, h.2.2.1, h.2.2.2.1, h.2.2.2.2.1, h.2.2.2.2.2.1, h.2.2.2.2.2.2⟩) ?_
  refine .call EntityIdentifier.since (fun _ _ h g => ⟨h.1, EntityIdentifier.Since.trans h.2.1 g, h.2.2.1, h.2.2.2.1, h.2.2.2.2.1, h.2.2.2.2.2.1, h.2.2.2.2.2.2⟩) ?_
  refine .call EntityIdentifier.since (fun _ _ h g => ⟨h.1, h.2.1, EntityIdentifier.Since.trans h.2.2.1 g, h.2.2.2.1, h.2.2.2.2.1, h.2.2.2.2.2.1, h.2.2.2.2.2.2⟩) ?_
  refine .call Relationship.since (fun _ _ h g => ⟨h.1, h.2.1, h.2.2.1, Relationship.Since.trans h.2.2.2.1 g, h.2.2.2.2.1, h.2.2.2.2.2.1, h.2.2.2.2.2.2⟩) ?_
  refine .call Vector3Float.since (fun _ _ h g => ⟨h.1, h.2.1, h.2.2.1, h.2.2.2.1, Vector3Float.Since.trans h.2.2.2.2.1 g, h.2.2.2.2.2.1, h.2.2.2.2.2.2⟩) ?_
  refine .call NamedLocationIdentification.since (fun _ _ h g => ⟨h.1, h.2.1, h.2.2.1, h.2.2.2.1, h.2.2.2.2.1, NamedLocationIdentification.Since.trans h.2.2.2.2.2.1 g, h.2.2.2.2.2.2⟩) ?_
  refine .call EntityType.since (fun _ _ h g => ⟨h.1, h.2.1, h.2.2.1, h.2.2.2.1, h.2.2.2.2.1, h.2.2.2.2.2.1, EntityType.Since.trans h.2.2.2.2.2.2 g⟩) ?_
  exact .pure

theorem IsPartOfPdu.into (o : IsPartOfPdu) : P.run IsPartOfPdu.parseInto o = IsPartOfPdu.parse o := by
  unfold IsPartOfPdu.parseInto IsPartOfPdu.parse
  simp (maxSteps := 1000000) only [P.run_pure, P.run_call, EntityIdentifier.into, EntityManagementFamilyPdu.into, EntityType.into, NamedLocationIdentification.into, Relationship.into, Vector3Float.into]

theorem IsPartOfPdu.again {o x : IsPartOfPdu} (h : IsPartOfPdu.Since o x) : IsPartOfPdu.parse x = IsPartOfPdu.parse o := by
  unfold IsPartOfPdu.parse
  simp only [EntityManagementFamilyPdu.again h.1, EntityIdentifier.again h.2.1, EntityIdentifier.again h.2.2.1, Relationship.again h.2.2.2.1, Vector3Float.again h.2.2.2.2.1, NamedLocationIdentification.again h.2.2.2.2.2.1, EntityType.again h.2.2.2.2.2.2]

theorem IsPartOfPdu.blind : Blind (IsPartOfPdu.parse) := by
  intro o x
  unfold IsPartOfPdu.parse
  refine .bind (EntityManagementFamilyPdu.blind _ _) fun _ _ _ => ?_
  refine .bind (EntityIdentifier.blind _ _) fun _ _ _ => ?_
  refine .bind (EntityIdentifier.blind _ _) fun _ _ _ => ?_
  refine .bind (Relationship.blind _ _) fun _ _ _ => ?_
  refine .bind (Vector3Float.blind _ _) fun _ _ _ => ?_
  refine .bind (NamedLocationIdentification.blind _ _) fun _ _ _ => ?_
  refine .bind (EntityType.blind _ _) fun _ _ _ => ?_
  exact .pure trivial

theorem AggregateStatePdu.Since.refl (o : AggregateStatePdu) : AggregateStatePdu.Since o o :=
  ⟨EntityManagementFamilyPdu.Since.refl _, AggregateIdentifier.Since.refl _, AggregateType.Since.refl _, AggregateMarking.Since.refl _, Vector3Float.Since.refl _, EulerAngles.Since.refl _, Vector3Float.Since.refl _, WorldCoordinates.Since.refl _, List.prefix_refl _, List.prefix_refl _, List.prefix_refl _, List.prefix_refl _, List.prefix_refl _⟩

theorem AggregateStatePdu.Since.trans {o x y : AggregateStatePdu} (h : AggregateStatePdu.Since o x) (g : AggregateStatePdu.Since x y) : AggregateStatePdu.Since o y :=
  ⟨EntityManagementFamilyPdu.Since.trans h.1 g.1, AggregateIdentifier.Since.trans h.2.1 g.2.1, AggregateType.Since.trans h.2.2.1 g.2.2.1, AggregateMarking.Since.trans h.2.2.2.1 g.2.2.2.1, Vector3Float.Since.trans h.2.2.2.2.1 g.2.2.2.2.1, EulerAngles.Since.trans h.2.2.2.2.2.1 g.2.2.2.2.2.1, Vector3Float.Since.trans h.2.2.2.2.2.2.1 g.2.2.2.2.2.2.1, WorldCoordinates.Since.trans h.2.2.2.2.2.2.2.1 g.2.2.2.2.2.2.2.1, List.IsPrefix.trans (h.2.2.2.2.2.2.2.2.1) (g.2.2.2.2.2.2.2.2.1), List.IsPrefix.trans (h.2.2.2.2.2.2.2.2.2.1) (g.2.2.2.2.2.2.2.2.2.1), List.IsPrefix.trans (h.2.2.2.2.2.2.2.2.2.2.1) (g.2.2.2.2.2.2.2.2.2.2.1), List.IsPrefix.trans (h.2.2.2.2.2.2.2.2.2.2.2.1) (g.2.2.2.2.2.2.2.2.2.2.2.1), List.IsPrefix.trans (h.2.2.2.2.2.2.2.2.2.2.2.2) (g.2.2.2.2.2.2.2.2.2.2.2.2)⟩

theorem AggregateStatePdu.since  (o : AggregateStatePdu) (s : InStream) : AggregateStatePdu.Since o (AggregateStatePdu.parseInto o s).2.1 := by
  refine (?_ : P.Keeps (AggregateStatePdu.Since o) AggregateStatePdu.parseInto) o s (.refl o)
  unfold AggregateStatePdu.parseInto
  refine .call EntityManagementFamilyPdu.since (fun _ _ h g => ⟨EntityManagementFamilyPdu.Since.trans h.1 g, h.2.1, h.2.2.1, h.2.2.2.1, h.2.2.2.2.1, h.2.2.2.2.2.1, h.2.2.2.2.2.2.1, h.2.2.2.2.2.2.2.1, h.2.2.2.2.2.2.2.2.1, h.2.2.2.2.2.2.2.2.2.1, h.2.2.2.2.2.2.2.2.2.2.1, h.2.2.2.2.2.2.2.2.2.2.2.1, h.2.2.2.2.2.2.2.2.2.2.2.2⟩) ?_
  refine .call AggregateIdentifier.since (fun _ _ h g => ⟨h.1, AggregateIdentifier.Since.trans h.2.1 g, h.2.2.1, h.2.2.2.1, h.2.2.2.2.1, h.2.2.2.2.2.1, h.2.2.2.2.2.2.1, h.2.2.2.2.2.2.2.1, h.2.2.2.2.2.2.2.2.1, h.2.2.2.2.2.2.2.2.2.1, h.2.2.2.2.2.2.2.2.2.2.1, h.2.2.2.2.2.2.2.2.2.2.2.1, h.2.2.2.2.2.2.2.2.2.2.2.2⟩) ?_
  refine .read fun _ => ?_
  refine .set (fun _ h => h) ?_
  refine .read fun _ => ?_
  refine .set (fun _ h => h) ?_
  refine .call AggregateType.since (fun _ _ h g => ⟨h.1, h.2.1, AggregateType.Since.trans h.2.2.1 g, h.2.2.2.1, h.2.2.2.2.1, h.2.2.2.2.2.1, h.2.2.2.2.2.2.1, h.2.2.2.2.2.2.2.1, h.2.2.2.2.2.2.2.2.1, h.2.2.2.2.2.2.2.2.2.1, h.2.2.2.2.2.2.2.2.2.2.1, h.2.2.2.2.2.2.2.2.2.2.2.1, h.2.2.2.2.2.2.2.2.2.2.2.2⟩) ?_
  refine .read fun _ => ?_
  refine .set (fun _ h => h) ?_
  refine .call AggregateMarking.since (fun _ _ h g => ⟨h.1, h.2.1, h.2.2.1, AggregateMarking.Since.trans h.2.2.2.1 g, h.2.2.2.2.1, h.2.2.2.2.2.1, h.2.2.2.2.2.2.1, h.2.2.2.2.2.2.2.1, h.2.2.2.2.2.2.2.2.1, h.2.2.2.2.2.2.2.2.2.1, h.2.2.2.2.2.2.2.2.2.2.1, h.2.2.2.2.2.2.2.2.2.2.2.1, h.2.2.2.2.2.2.2.2.2.2.2.2⟩) ?_
  refine .call Vector3Float.since (fun _ _ h g => ⟨h.1, h.2.1, h.2.2.1, h.2.2.2.1, Vector3Float.Since.trans h.2.2.2.2.1 g, h.2.2.2.2.2.1, h.2.2.2.2.2.2.1, h.2.2.2.2.2.2.2.1, h.2.2.2.2.2.2.2.2.1, h.2.2.2.2.2.2.2.2.2.1, h.2.2.2.2.2.2.2.2.2.2.1, h.2.2.2.2.2.2.2.2.2.2.2.1, h.2.2.2.2.2.2.2.2.2.2.2.2⟩) ?_
  refine .call EulerAngles.since (fun _ _ h g => ⟨h.1, h.2.1, h.2.2.1, h.2.2.2.1, h.2.2.2.2.1, EulerAngles.Since.trans h.2.2.2.2.2.1 g, h.2.2.2.2.2.2.1, h.2.2.2.2.2.2.2.1, h.2.2.2.2.2.2.2.2.1, h.2.2.2.2.2.2.2.2.2.1, h.2.2.2.2.2.2.2.2.2.2.1, h.2.2.2.2.2.2.2.2.2.2.2.1, h.2.2.2.2.2.2.2.2.2.2.2.2⟩) ?_
  refine .call Vector3Float.since (fun _ _ h g => ⟨h.1, h.2.1, h.2.2.1, h.2.2.2.1, h.2.2.2.2.1, h.2.2.2.2.2.1, Vector3Float.Since.trans h.2.2.2.2.2.2.1 g, h.2.2.2.2.2.2.2.1, h.2.2.2.2.2.2.2.2.1, h.2.2.2.2.2.2.2.2.2.1, h.2.2.2.2.2.2.2.2.2.2.1, h.2.2.2.2.2.2.2.2.2.2.2.1, h.2.2.2.2.2.2.2.2.2.2.2.2⟩) ?_
  refine .call WorldCoordinates.since (fun _ _ h g => ⟨h.1, h.2.1, h.2.2.1, h.2.2.2.1, h.2.2.2.2.1, h.2.2.2.2.2.1, h.2.2.2.2.2.2.1, WorldCoordinates.Since.trans h.2.2.2.2.2.2.2.1 g, h.2.2.2.2.2.2.2.2.1, h.2.2.2.2.2.2.2.2.2.1, h.2.2.2.2.2.2.2.2.2.2.1, h.2.2.2.2.2.2.2.2.2.2.2.1, h.2.2.2.2.2.2.2.2.2.2.2.2⟩) ?_
  refine .read fun _ => ?_
  refine .read fun _ => ?_
  refine .read fun _ => ?_
  refine .read fun _ => ?_
  refine .appendObjs (fun _ _ h => ⟨h.1, h.2.1, h.2.2.1, h.2.2.2.1, h.2.2.2.2.1, h.2.2.2.2.2.1, h.2.2.2.2.2.2.1, h.2.2.2.2.2.2.2.1, List.IsPrefix.trans (h.2.2.2.2.2.2.2.2.1) (List.prefix_append _ _), h.2.2.2.2.2.2.2.2.2.1, h.2.2.2.2.2.2.2.2.2.2.1, h.2.2.2.2.2.2.2.2.2.2.2.1, h.2.2.2.2.2.2.2.2.2.2.2.2⟩) ?_
  refine .appendObjs (fun _ _ h => ⟨h.1, h.2.1, h.2.2.1, h.2.2.2.1, h.2.2.2.2.1, h.2.2.2.2.2.1, h.2.2.2.2.2.2.1, h.2.2.2.2.2.2.2.1, h.2.2.2.2.2.2.2.2.1, List.IsPrefix.trans (h.2.2.2.2.2.2.2.2.2.1) (List.prefix_append _ _), h.2.2.2.2.2.2.2.2.2.2.1, h.2.2.2.2.2.2.2.2.2.2.2.1, h.2.2.2.2.2.2.2.2.2.2.2.2⟩) ?_
  refine .appendObjs (fun _ _ h => ⟨h.1, h.2.1, h.2.2.1, h.2.2.2.1, h.2.2.2.2.1, h.2.2.2.2.2.1, h.2.2.2.2.2.2.1, h.2.2.2.2.2.2.2.1, h.2.2.2.2.2.2.2.2.1, h.2.2.2.2.2.2.2.2.2.1, List.IsPrefix.trans (h.2.2.2.2.2.2.2.2.2.2.1) (List.prefix_append _ _), h.2.2.2.2.2.2.2.2.2.2.2.1, h.2.2.2.2.2.2.2.2.2.2.2.2⟩) ?_
  refine .appendObjs (fun _ _ h => ⟨h.1, h.2.1, h.2.2.1, h.2.2.2.1, h.2.2.2.2.1, h.2.2.2.2.2.1, h.2.2.2.2.2.2.1, h.2.2.2.2.2.2.2.1, h.2.2.2.2.2.2.2.2.1, h.2.2.2.2.2.2.2.2.2.1, h.2.2.2.2.2.2.2.2.2.2.1, List.IsPrefix.trans (h.2.2.2.2.2.2.2.2.2.2.2.1) (List.prefix_append _ _), h.2.2.2.2.2.2.2.2.2.2.2.2⟩) ?_
  refine .read fun _ => ?_
  refine .appendObjs (fun _ _ h => ⟨h.1, h.2.1, h.2.2.1, h.2.2.2.1, h.2.2.2.2.1, h.2.2.2.2.2.1, h.2.2.2.2.2.2.1, h.2.2.2.2.2.2.2.1, h.2.2.2.2.2.2.2.2.1, h.2.2.2.2.2.2.2.2.2.1, h.2.2.2.2.2.2.2.2.2.2.1, h.2.2.2.2.2.2.2.2.2.2.2.1, List.IsPrefix.trans (h.2.2.2.2.2.2.2.2.2.2.2.2) (List.prefix_append _ _)⟩) ?_
  exact .pure

theorem AggregateStatePdu.into (o : AggregateStatePdu) : P.run AggregateStatePdu.parseInto o = AggregateStatePdu.parse o := by
  unfold AggregateStatePdu.parseInto AggregateStatePdu.parse
  simp (maxSteps := 1000000) (disch := exact ⟨fun _ _ => rfl, fun _ _ _ => rfl, fun _ => rfl⟩) only [P.run_pure, P.run_read, P.run_set, P.run_call, P.run_appendObjs, AggregateIdentifier.into, AggregateMarking.into, AggregateType.into, EntityIdentifier.into, EntityManagementFamilyPdu.into, EulerAngles.into, SilentAggregateSystem.into, SilentEntitySystem.into, VariableDatum.into, Vector3Float.into, WorldCoordinates.into]

theorem AggregateStatePdu.again {o x : AggregateStatePdu} (h : AggregateStatePdu.Since o x) : AggregateStatePdu.parse (AggregateStatePdu.trim o x) = AggregateStatePdu.parse o := by
  unfold AggregateStatePdu.parse AggregateStatePdu.trim
  simp only [EntityManagementFamilyPdu.again h.1, AggregateIdentifier.again h.2.1, AggregateType.again h.2.2.1, AggregateMarking.again h.2.2.2.1, Vector3Float.again h.2.2.2.2.1, EulerAngles.again h.2.2.2.2.2.1, Vector3Float.again h.2.2.2.2.2.2.1, WorldCoordinates.again h.2.2.2.2.2.2.2.1, ← List.prefix_iff_eq_take.mp (h.2.2.2.2.2.2.2.2.1), ← List.prefix_iff_eq_take.mp (h.2.2.2.2.2.2.2.2.2.1), ← List.prefix_iff_eq_take.mp (h.2.2.2.2.2.2.2.2.2.2.1), ← List.prefix_iff_eq_take.mp (h.2.2.2.2.2.2.2.2.2.2.2.1), ← List.prefix_iff_eq_take.mp (h.2.2.2.2.2.2.2.2.2.2.2.2)]

theorem AggregateStatePdu.blind : Blind (AggregateStatePdu.parse) := by
  intro o x
  unfold AggregateStatePdu.parse
  refine .bind (EntityManagementFamilyPdu.blind _ _) fun _ _ _ => ?_
  refine .bind (AggregateIdentifier.blind _ _) fun _ _ _ => ?_
  refine .read fun _ => ?_
  refine .read fun _ => ?_
  refine .bind (AggregateType.blind _ _) fun _ _ _ => ?_
  refine .read fun _ => ?_
  refine .bind (AggregateMarking.blind _ _) fun _ _ _ => ?_
  refine .bind (Vector3Float.blind _ _) fun _ _ _ => ?_
  refine .bind (EulerAngles.blind _ _) fun _ _ _ => ?_
  refine .bind (Vector3Float.blind _ _) fun _ _ _ => ?_
  refine .bind (WorldCoordinates.blind _ _) fun _ _ _ => ?_
  refine .read fun _ => ?_
  refine .read fun _ => ?_
  refine .read fun _ => ?_
  refine .read fun _ => ?_
  refine .read fun _ => ?_
  refine .read fun _ => ?_
  refine .read fun _ => ?_
  refine .read fun _ => ?_
  refine .read fun _ => ?_
  refine .read fun _ => ?_
  exact .pure trivial

end Dis
