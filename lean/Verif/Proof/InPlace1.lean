import Verif.Model.InPlace1
import Verif.Proof.InPlace
import Verif.Spec.InPlace

/-!
# Parses in place, part 1

Generated by `tools/geninplace.py`.
-/

set_option linter.unusedVariables false
set_option linter.unusedSimpArgs false

namespace Dis

theorem SimulationAddress.Since.refl (o : SimulationAddress) : SimulationAddress.Since o o :=
  trivial

theorem SimulationAddress.Since.trans {o x y : SimulationAddress} (h : SimulationAddress.Since o x) (g : SimulationAddress.Since x y) : SimulationAddress.Since o y :=
  trivial

theorem SimulationAddress.since  (o : SimulationAddress) (s : InStream) : SimulationAddress.Since o (SimulationAddress.parseInto o s).2.1 := by
  refine (?_ : P.Keeps (SimulationAddress.Since o) SimulationAddress.parseInto) o s (.refl o)
  unfold SimulationAddress.parseInto
  refine .read fun _ => ?_
  refine .set (fun _ h => h) ?_
  refine .read fun _ => ?_
  refine .set (fun _ h => h) ?_
  exact .pure

theorem SimulationAddress.into (o : SimulationAddress) : P.run SimulationAddress.parseInto o = SimulationAddress.parse o := by
  unfold SimulationAddress.parseInto SimulationAddress.parse
  simp (maxSteps := 1000000) only [P.run_pure, P.run_read, P.run_set]

theorem SimulationAddress.again {o x : SimulationAddress} (h : SimulationAddress.Since o x) : SimulationAddress.parse x = SimulationAddress.parse o := by
  rfl

theorem SimulationAddress.blind : Blind (SimulationAddress.parse) := by
  intro o x
  unfold SimulationAddress.parse
  refine .read fun _ => ?_
  refine .read fun _ => ?_
  exact .pure trivial

theorem EntityIdentifier.Since.refl (o : EntityIdentifier) : EntityIdentifier.Since o o :=
  SimulationAddress.Since.refl _

theorem EntityIdentifier.Since.trans {o x y : EntityIdentifier} (h : EntityIdentifier.Since o x) (g : EntityIdentifier.Since x y) : EntityIdentifier.Since o y :=
  SimulationAddress.Since.trans h g

theorem EntityIdentifier.since  (o : EntityIdentifier) (s : InStream) : EntityIdentifier.Since o (EntityIdentifier.parseInto o s).2.1 := by
  refine (?_ : P.Keeps (EntityIdentifier.Since o) EntityIdentifier.parseInto) o s (.refl o)
  unfold EntityIdentifier.parseInto
  refine .call SimulationAddress.since (fun _ _ h g => SimulationAddress.Since.trans h g) ?_
  refine .read fun _ => ?_
  refine .set (fun _ h => h) ?_
  exact .pure

theorem EntityIdentifier.into (o : EntityIdentifier) : P.run EntityIdentifier.parseInto o = EntityIdentifier.parse o := by
  unfold EntityIdentifier.parseInto EntityIdentifier.parse
  simp (maxSteps := 1000000) only [P.run_pure, P.run_read, P.run_set, P.run_call, SimulationAddress.into]

theorem EntityIdentifier.again {o x : EntityIdentifier} (h : EntityIdentifier.Since o x) : EntityIdentifier.parse x = EntityIdentifier.parse o := by
  unfold EntityIdentifier.parse
  simp only [SimulationAddress.again h]

theorem EntityIdentifier.blind : Blind (EntityIdentifier.parse) := by
  intro o x
  unfold EntityIdentifier.parse
  refine .bind (SimulationAddress.blind _ _) fun _ _ _ => ?_
  refine .read fun _ => ?_
  exact .pure trivial

theorem EulerAngles.Since.refl (o : EulerAngles) : EulerAngles.Since o o :=
  trivial

theorem EulerAngles.Since.trans {o x y : EulerAngles} (h : EulerAngles.Since o x) (g : EulerAngles.Since x y) : EulerAngles.Since o y :=
  trivial

theorem EulerAngles.since  (o : EulerAngles) (s : InStream) : EulerAngles.Since o (EulerAngles.parseInto o s).2.1 := by
  refine (?_ : P.Keeps (EulerAngles.Since o) EulerAngles.parseInto) o s (.refl o)
  unfold EulerAngles.parseInto
  refine .read fun _ => ?_
  refine .set (fun _ h => h) ?_
  refine .read fun _ => ?_
  refine .set (fun _ h => h) ?_
  refine .read fun _ => ?_
  refine .set (fun _ h => h) ?_
  exact .pure

theorem EulerAngles.into (o : EulerAngles) : P.run EulerAngles.parseInto o = EulerAngles.parse o := by
  unfold EulerAngles.parseInto EulerAngles.parse
  simp (maxSteps := 1000000) only [P.run_pure, P.run_read, P.run_set]

theorem EulerAngles.again {o x : EulerAngles} (h : EulerAngles.Since o x) : EulerAngles.parse x = EulerAngles.parse o := by
  rfl

theorem EulerAngles.blind : Blind (EulerAngles.parse) := by
  intro o x
  unfold EulerAngles.parse
  refine .read fun _ => ?_
  refine .read fun _ => ?_
  refine .read fun _ => ?_
  exact .pure trivial

theorem EventIdentifier.Since.refl (o : EventIdentifier) : EventIdentifier.Since o o :=
  SimulationAddress.Since.refl _

theorem EventIdentifier.Since.trans {o x y : EventIdentifier} (h : EventIdentifier.Since o x) (g : EventIdentifier.Since x y) : EventIdentifier.Since o y :=
  SimulationAddress.Since.trans h g

theorem EventIdentifier.since  (o : EventIdentifier) (s : InStream) : EventIdentifier.Since o (EventIdentifier.parseInto o s).2.1 := by
  refine (?_ : P.Keeps (EventIdentifier.Since o) EventIdentifier.parseInto) o s (.refl o)
  unfold EventIdentifier.parseInto
  refine .call SimulationAddress.since (fun _ _ h g => SimulationAddress.Since.trans h g) ?_
  refine .read fun _ => ?_
  refine .set (fun _ h => h) ?_
  exact .pure

theorem EventIdentifier.into (o : EventIdentifier) : P.run EventIdentifier.parseInto o = EventIdentifier.parse o := by
  unfold EventIdentifier.parseInto EventIdentifier.parse
  simp (maxSteps := 1000000) only [P.run_pure, P.run_read, P.run_set, P.run_call, SimulationAddress.into]

theorem EventIdentifier.again {o x : EventIdentifier} (h : EventIdentifier.Since o x) : EventIdentifier.parse x = EventIdentifier.parse o := by
  unfold EventIdentifier.parse
  simp only [SimulationAddress.again h]

theorem EventIdentifier.blind : Blind (EventIdentifier.parse) := by
  intro o x
  unfold EventIdentifier.parse
  refine .bind (SimulationAddress.blind _ _) fun _ _ _ => ?_
  refine .read fun _ => ?_
  exact .pure trivial

theorem Vector3Float.Since.refl (o : Vector3Float) : Vector3Float.Since o o :=
  trivial

theorem Vector3Float.Since.trans {o x y : Vector3Float} (h : Vector3Float.Since o x) (g : Vector3Float.Since x y) : Vector3Float.Since o y :=
  trivial

theorem Vector3Float.since  (o : Vector3Float) (s : InStream) : Vector3Float.Since o (Vector3Float.parseInto o s).2.1 := by
  refine (?_ : P.Keeps (Vector3Float.Since o) Vector3Float.parseInto) o s (.refl o)
  unfold Vector3Float.parseInto
  refine .read fun _ => ?_
  refine .set (fun _ h => h) ?_
  refine .read fun _ => ?_
  refine .set (fun _ h => h) ?_
  refine .read fun _ => ?_
  refine .set (fun _ h => h) ?_
  exact .pure

theorem Vector3Float.into (o : Vector3Float) : P.run Vector3Float.parseInto o = Vector3Float.parse o := by
  unfold Vector3Float.parseInto Vector3Float.parse
  simp (maxSteps := 1000000) only [P.run_pure, P.run_read, P.run_set]

theorem Vector3Float.again {o x : Vector3Float} (h : Vector3Float.Since o x) : Vector3Float.parse x = Vector3Float.parse o := by
  rfl

theorem Vector3Float.blind : Blind (Vector3Float.parse) := by
  intro o x
  unfold Vector3Float.parse
  refine .read fun _ => ?_
  refine .read fun _ => ?_
  refine .read fun _ => ?_
  exact .pure trivial

theorem WorldCoordinates.Since.refl (o : WorldCoordinates) : WorldCoordinates.Since o o :=
  trivial

theorem WorldCoordinates.Since.trans {o x y : WorldCoordinates} (h : WorldCoordinates.Since o x) (g : WorldCoordinates.Since x y) : WorldCoordinates.Since o y :=
  trivial

theorem WorldCoordinates.since  (o : WorldCoordinates) (s : InStream) : WorldCoordinates.Since o (WorldCoordinates.parseInto o s).2.1 := by
  refine (?_ : P.Keeps (WorldCoordinates.Since o) WorldCoordinates.parseInto) o s (.refl o)
  unfold WorldCoordinates.parseInto
  refine .read fun _ => ?_
  refine .set (fun _ h => h) ?_
  refine .read fun _ => ?_
  refine .set (fun _ h => h) ?_
  refine .read fun _ => ?_
  refine .set (fun _ h => h) ?_
  exact .pure

theorem WorldCoordinates.into (o : WorldCoordinates) : P.run WorldCoordinates.parseInto o = WorldCoordinates.parse o := by
  unfold WorldCoordinates.parseInto WorldCoordinates.parse
  simp (maxSteps := 1000000) only [P.run_pure, P.run_read, P.run_set]

theorem WorldCoordinates.again {o x : WorldCoordinates} (h : WorldCoordinates.Since o x) : WorldCoordinates.parse x = WorldCoordinates.parse o := by
  rfl

theorem WorldCoordinates.blind : Blind (WorldCoordinates.parse) := by
  intro o x
  unfold WorldCoordinates.parse
  refine .read fun _ => ?_
  refine .read fun _ => ?_
  refine .read fun _ => ?_
  exact .pure trivial

theorem DataQueryDatumSpecification.Since.refl (o : DataQueryDatumSpecification) : DataQueryDatumSpecification.Since o o :=
  ⟨List.prefix_refl _, List.prefix_refl _⟩

theorem DataQueryDatumSpecification.Since.trans {o x y : DataQueryDatumSpecification} (h : DataQueryDatumSpecification.Since o x) (g : DataQueryDatumSpecification.Since x y) : DataQueryDatumSpecification.Since o y :=
  ⟨List.IsPrefix.trans (h.1) (g.1), List.IsPrefix.trans (h.2) (g.2)⟩

theorem DataQueryDatumSpecification.since  (o : DataQueryDatumSpecification) (s : InStream) : DataQueryDatumSpecification.Since o (DataQueryDatumSpecification.parseInto o s).2.1 := by
  refine (?_ : P.Keeps (DataQueryDatumSpecification.Since o) DataQueryDatumSpecification.parseInto) o s (.refl o)
  unfold DataQueryDatumSpecification.parseInto
  refine .read fun _ => ?_
  refine .read fun _ => ?_
  refine .appendReads (fun _ _ h => ⟨List.IsPrefix.trans (h.1) (List.prefix_append _ _), h.2⟩) ?_
  refine .appendReads (fun _ _ h => ⟨h.1, List.IsPrefix.trans (h.2) (List.prefix_append _ _)⟩) ?_
  exact .pure

theorem DataQueryDatumSpecification.into (o : DataQueryDatumSpecification) : P.run DataQueryDatumSpecification.parseInto o = DataQueryDatumSpecification.parse o := by
  unfold DataQueryDatumSpecification.parseInto DataQueryDatumSpecification.parse
  simp (maxSteps := 1000000) (disch := exact ⟨fun _ _ => rfl, fun _ _ _ => rfl, fun _ => rfl⟩) only [P.run_pure, P.run_read, P.run_appendReads]

theorem DataQueryDatumSpecification.again {o x : DataQueryDatumSpecification} (h : DataQueryDatumSpecification.Since o x) : DataQueryDatumSpecification.parse (DataQueryDatumSpecification.trim o x) = DataQueryDatumSpecification.parse o := by
  unfold DataQueryDatumSpecification.parse DataQueryDatumSpecification.trim
  simp only [← List.prefix_iff_eq_take.mp (h.1), ← List.prefix_iff_eq_take.mp (h.2)]

theorem DataQueryDatumSpecification.blind : Blind (DataQueryDatumSpecification.parse) := by
  intro o x
  unfold DataQueryDatumSpecification.parse
  refine .read fun _ => ?_
  refine .read fun _ => ?_
  refine .read fun _ => ?_
  refine .read fun _ => ?_
  exact .pure trivial

theorem RadioIdentifier.Since.refl (o : RadioIdentifier) : RadioIdentifier.Since o o :=
  trivial

theorem RadioIdentifier.Since.trans {o x y : RadioIdentifier} (h : RadioIdentifier.Since o x) (g : RadioIdentifier.Since x y) : RadioIdentifier.Since o y :=
  trivial

theorem RadioIdentifier.since  (o : RadioIdentifier) (s : InStream) : RadioIdentifier.Since o (RadioIdentifier.parseInto o s).2.1 := by
  refine (?_ : P.Keeps (RadioIdentifier.Since o) RadioIdentifier.parseInto) o s (.refl o)
  unfold RadioIdentifier.parseInto
  refine .read fun _ => ?_
  refine .set (fun _ h => h) ?_
  refine .read fun _ => ?_
  refine .set (fun _ h => h) ?_
  refine .read fun _ => ?_
  refine .set (fun _ h => h) ?_
  refine .read fun _ => ?_
  refine .set (fun _ h => h) ?_
  exact .pure

theorem RadioIdentifier.into (o : RadioIdentifier) : P.run RadioIdentifier.parseInto o = RadioIdentifier.parse o := by
  unfold RadioIdentifier.parseInto RadioIdentifier.parse
  simp (maxSteps := 1000000) only [P.run_pure, P.run_read, P.run_set]

theorem RadioIdentifier.again {o x : RadioIdentifier} (h : RadioIdentifier.Since o x) : RadioIdentifier.parse x = RadioIdentifier.parse o := by
  rfl

theorem RadioIdentifier.blind : Blind (RadioIdentifier.parse) := by
  intro o x
  unfold RadioIdentifier.parse
  refine .read fun _ => ?_
  refine .read fun _ => ?_
  refine .read fun _ => ?_
  refine .read fun _ => ?_
  exact .pure trivial

theorem RequestID.Since.refl (o : RequestID) : RequestID.Since o o :=
  trivial

theorem RequestID.Since.trans {o x y : RequestID} (h : RequestID.Since o x) (g : RequestID.Since x y) : RequestID.Since o y :=
  trivial

theorem RequestID.since  (o : RequestID) (s : InStream) : RequestID.Since o (RequestID.parseInto o s).2.1 := by
  refine (?_ : P.Keeps (RequestID.Since o) RequestID.parseInto) o s (.refl o)
  unfold RequestID.parseInto
  refine .read fun _ => ?_
  refine .set (fun _ h => h) ?_
  exact .pure

theorem RequestID.into (o : RequestID) : P.run RequestID.parseInto o = RequestID.parse o := by
  unfold RequestID.parseInto RequestID.parse
  simp (maxSteps := 1000000) only [P.run_pure, P.run_read, P.run_set]

theorem RequestID.again {o x : RequestID} (h : RequestID.Since o x) : RequestID.parse x = RequestID.parse o := by
  rfl

theorem RequestID.blind : Blind (RequestID.parse) := by
  intro o x
  unfold RequestID.parse
  refine .read fun _ => ?_
  exact .pure trivial

theorem IFFData.Since.refl (o : IFFData) : IFFData.Since o o :=
  List.prefix_refl _

theorem IFFData.Since.trans {o x y : IFFData} (h : IFFData.Since o x) (g : IFFData.Since x y) : IFFData.Since o y :=
  List.IsPrefix.trans (h) (g)

theorem IFFData.since  (o : IFFData) (s : InStream) : IFFData.Since o (IFFData.parseInto o s).2.1 := by
  refine (?_ : P.Keeps (IFFData.Since o) IFFData.parseInto) o s (.refl o)
  unfold IFFData.parseInto
  refine .read fun _ => ?_
  refine .set (fun _ h => h) ?_
  refine .read fun _ => ?_
  refine .set (fun _ h => h) ?_
  refine .appendReads (fun _ _ h => List.IsPrefix.trans (h) (List.prefix_append _ _)) ?_
  exact .pure

theorem IFFData.into (o : IFFData) : P.run IFFData.parseInto o = IFFData.parse o := by
  unfold IFFData.parseInto IFFData.parse
  simp (maxSteps := 1000000) (disch := exact ⟨fun _ _ => rfl, fun _ _ _ => rfl, fun _ => rfl⟩) only [P.run_pure, P.run_read, P.run_set, P.run_appendReads]

theorem IFFData.again {o x : IFFData} (h : IFFData.Since o x) : IFFData.parse (IFFData.trim o x) = IFFData.parse o := by
  unfold IFFData.parse IFFData.trim
  simp only [← List.prefix_iff_eq_take.mp (h)]

theorem IFFData.blind : Blind (IFFData.parse) := by
  intro o x
  unfold IFFData.parse
  refine .read fun _ => ?_
  refine .read fun _ => ?_
  refine .read fun _ => ?_
  exact .pure trivial

theorem EntityType.Since.refl (o : EntityType) : EntityType.Since o o :=
  trivial

theorem EntityType.Since.trans {o x y : EntityType} (h : EntityType.Since o x) (g : EntityType.Since x y) : EntityType.Since o y :=
  trivial

theorem EntityType.since  (o : EntityType) (s : InStream) : EntityType.Since o (EntityType.parseInto o s).2.1 := by
  refine (?_ : P.Keeps (EntityType.Since o) EntityType.parseInto) o s (.refl o)
  unfold EntityType.parseInto
  refine .read fun _ => ?_
  refine .set (fun _ h => h) ?_
  refine .read fun _ => ?_
  refine .set (fun _ h => h) ?_
  refine .read fun _ => ?_
  refine .set (fun _ h => h) ?_
  refine .read fun _ => ?_
  refine .set (fun _ h => h) ?_
  refine .read fun _ => ?_
  refine .set (fun _ h => h) ?_
  refine .read fun _ => ?_
  refine .set (fun _ h => h) ?_
  refine .read fun _ => ?_
  refine .set (fun _ h => h) ?_
  exact .pure

theorem EntityType.into (o : EntityType) : P.run EntityType.parseInto o = EntityType.parse o := by
  unfold EntityType.parseInto EntityType.parse
  simp (maxSteps := 1000000) only [P.run_pure, P.run_read, P.run_set]

theorem EntityType.again {o x : EntityType} (h : EntityType.Since o x) : EntityType.parse x = EntityType.parse o := by
  rfl

theorem EntityType.blind : Blind (EntityType.parse) := by
  intro o x
  unfold EntityType.parse
  refine .read fun _ => ?_
  refine .read fun _ => ?_
  refine .read fun _ => ?_
  refine .read fun _ => ?_
  refine .read fun _ => ?_
  refine .read fun _ => ?_
  refine .read fun _ => ?_
  exact .pure trivial

theorem MunitionDescriptor.Since.refl (o : MunitionDescriptor) : MunitionDescriptor.Since o o :=
  EntityType.Since.refl _

theorem MunitionDescriptor.Since.trans {o x y : MunitionDescriptor} (h : MunitionDescriptor.Since o x) (g : MunitionDescriptor.Since x y) : MunitionDescriptor.Since o y :=
  EntityType.Since.trans h g

theorem MunitionDescriptor.since  (o : MunitionDescriptor) (s : InStream) : MunitionDescriptor.Since o (MunitionDescriptor.parseInto o s).2.1 := by
  refine (?_ : P.Keeps (MunitionDescriptor.Since o) MunitionDescriptor.parseInto) o s (.refl o)
  unfold MunitionDescriptor.parseInto
  refine .call EntityType.since (fun _ _ h g => EntityType.Since.trans h g) ?_
  refine .read fun _ => ?_
  refine .set (fun _ h => h) ?_
  refine .read fun _ => ?_
  refine .set (fun _ h => h) ?_
  refine .read fun _ => ?_
  refine .set (fun _ h => h) ?_
  refine .read fun _ => ?_
  refine .set (fun _ h => h) ?_
  exact .pure

theorem MunitionDescriptor.into (o : MunitionDescriptor) : P.run MunitionDescriptor.parseInto o = MunitionDescriptor.parse o := by
  unfold MunitionDescriptor.parseInto MunitionDescriptor.parse
  simp (maxSteps := 1000000) only [P.run_pure, P.run_read, P.run_set, P.run_call, EntityType.into]

theorem MunitionDescriptor.again {o x : MunitionDescriptor} (h : MunitionDescriptor.Since o x) : MunitionDescriptor.parse x = MunitionDescriptor.parse o := by
  unfold MunitionDescriptor.parse
  simp only [EntityType.again h]

theorem MunitionDescriptor.blind : Blind (MunitionDescriptor.parse) := by
  intro o x
  unfold MunitionDescriptor.parse
  refine .bind (EntityType.blind _ _) fun _ _ _ => ?_
  refine .read fun _ => ?_
  refine .read fun _ => ?_
  refine .read fun _ => ?_
  refine .read fun _ => ?_
  exact .pure trivial

theorem MinefieldSensorType.Since.refl (o : MinefieldSensorType) : MinefieldSensorType.Since o o :=
  trivial

theorem MinefieldSensorType.Since.trans {o x y : MinefieldSensorType} (h : MinefieldSensorType.Since o x) (g : MinefieldSensorType.Since x y) : MinefieldSensorType.Since o y :=
  trivial

theorem MinefieldSensorType.since  (o : MinefieldSensorType) (s : InStream) : MinefieldSensorType.Since o (MinefieldSensorType.parseInto o s).2.1 := by
  refine (?_ : P.Keeps (MinefieldSensorType.Since o) MinefieldSensorType.parseInto) o s (.refl o)
  unfold MinefieldSensorType.parseInto
  refine .read fun _ => ?_
  refine .set (fun _ h => h) ?_
  exact .pure

theorem MinefieldSensorType.into (o : MinefieldSensorType) : P.run MinefieldSensorType.parseInto o = MinefieldSensorType.parse o := by
  unfold MinefieldSensorType.parseInto MinefieldSensorType.parse
  simp (maxSteps := 1000000) only [P.run_pure, P.run_read, P.run_set]

theorem MinefieldSensorType.again {o x : MinefieldSensorType} (h : MinefieldSensorType.Since o x) : MinefieldSensorType.parse x = MinefieldSensorType.parse o := by
  rfl

theorem MinefieldSensorType.blind : Blind (MinefieldSensorType.parse) := by
  intro o x
  unfold MinefieldSensorType.parse
  refine .read fun _ => ?_
  exact .pure trivial

theorem GroupID.Since.refl (o : GroupID) : GroupID.Since o o :=
  SimulationAddress.Since.refl _

theorem GroupID.Since.trans {o x y : GroupID} (h : GroupID.Since o x) (g : GroupID.Since x y) : GroupID.Since o y :=
  SimulationAddress.Since.trans h g

theorem GroupID.since  (o : GroupID) (s : InStream) : GroupID.Since o (GroupID.parseInto o s).2.1 := by
  refine (?_ : P.Keeps (GroupID.Since o) GroupID.parseInto) o s (.refl o)
  unfold GroupID.parseInto
  refine .call SimulationAddress.since (fun _ _ h g => SimulationAddress.Since.trans h g) ?_
  refine .read fun _ => ?_
  refine .set (fun _ h => h) ?_
  exact .pure

theorem GroupID.into (o : GroupID) : P.run GroupID.parseInto o = GroupID.parse o := by
  unfold GroupID.parseInto GroupID.parse
  simp (maxSteps := 1000000) only [P.run_pure, P.run_read, P.run_set, P.run_call, SimulationAddress.into]

theorem GroupID.again {o x : GroupID} (h : GroupID.Since o x) : GroupID.parse x = GroupID.parse o := by
  unfold GroupID.parse
  simp only [SimulationAddress.again h]

theorem GroupID.blind : Blind (GroupID.parse) := by
  intro o x
  unfold GroupID.parse
  refine .bind (SimulationAddress.blind _ _) fun _ _ _ => ?_
  refine .read fun _ => ?_
  exact .pure trivial

theorem LayerHeader.Since.refl (o : LayerHeader) : LayerHeader.Since o o :=
  trivial

theorem LayerHeader.Since.trans {o x y : LayerHeader} (h : LayerHeader.Since o x) (g : LayerHeader.Since x y) : LayerHeader.Since o y :=
  trivial

theorem LayerHeader.since  (o : LayerHeader) (s : InStream) : LayerHeader.Since o (LayerHeader.parseInto o s).2.1 := by
  refine (?_ : P.Keeps (LayerHeader.Since o) LayerHeader.parseInto) o s (.refl o)
  unfold LayerHeader.parseInto
  refine .read fun _ => ?_
  refine .set (fun _ h => h) ?_
  refine .read fun _ => ?_
  refine .set (fun _ h => h) ?_
  refine .read fun _ => ?_
  refine .set (fun _ h => h) ?_
  exact .pure

theorem LayerHeader.into (o : LayerHeader) : P.run LayerHeader.parseInto o = LayerHeader.parse o := by
  unfold LayerHeader.parseInto LayerHeader.parse
  simp (maxSteps := 1000000) only [P.run_pure, P.run_read, P.run_set]

theorem LayerHeader.again {o x : LayerHeader} (h : LayerHeader.Since o x) : LayerHeader.parse x = LayerHeader.parse o := by
  rfl

theorem LayerHeader.blind : Blind (LayerHeader.parse) := by
  intro o x
  unfold LayerHeader.parse
  refine .read fun _ => ?_
  refine .read fun _ => ?_
  refine .read fun _ => ?_
  exact .pure trivial

theorem UnsignedDISInteger.Since.refl (o : UnsignedDISInteger) : UnsignedDISInteger.Since o o :=
  trivial

theorem UnsignedDISInteger.Since.trans {o x y : UnsignedDISInteger} (h : UnsignedDISInteger.Since o x) (g : UnsignedDISInteger.Since x y) : UnsignedDISInteger.Since o y :=
  trivial

theorem UnsignedDISInteger.since  (o : UnsignedDISInteger) (s : InStream) : UnsignedDISInteger.Since o (UnsignedDISInteger.parseInto o s).2.1 := by
  refine (?_ : P.Keeps (UnsignedDISInteger.Since o) UnsignedDISInteger.parseInto) o s (.refl o)
  unfold UnsignedDISInteger.parseInto
  refine .read fun _ => ?_
  refine .set (fun _ h => h) ?_
  exact .pure

theorem UnsignedDISInteger.into (o : UnsignedDISInteger) : P.run UnsignedDISInteger.parseInto o = UnsignedDISInteger.parse o := by
  unfold UnsignedDISInteger.parseInto UnsignedDISInteger.parse
  simp (maxSteps := 1000000) only [P.run_pure, P.run_read, P.run_set]

theorem UnsignedDISInteger.again {o x : UnsignedDISInteger} (h : UnsignedDISInteger.Since o x) : UnsignedDISInteger.parse x = UnsignedDISInteger.parse o := by
  rfl

theorem UnsignedDISInteger.blind : Blind (UnsignedDISInteger.parse) := by
  intro o x
  unfold UnsignedDISInteger.parse
  refine .read fun _ => ?_
  exact .pure trivial

theorem DeadReckoningParameters.Since.refl (o : DeadReckoningParameters) : DeadReckoningParameters.Since o o :=
  ⟨Vector3Float.Since.refl _, Vector3Float.Since.refl _⟩

theorem DeadReckoningParameters.Since.trans {o x y : DeadReckoningParameters} (h : DeadReckoningParameters.Since o x) (g : DeadReckoningParameters.Since x y) : DeadReckoningParameters.Since o y :=
  ⟨Vector3Float.Since.trans h.1 g.1, Vector3Float.Since.trans h.2 g.2⟩

theorem DeadReckoningParameters.since  (o : DeadReckoningParameters) (s : InStream) : DeadReckoningParameters.Since o (DeadReckoningParameters.parseInto o s).2.1 := by
  refine (?_ : P.Keeps (DeadReckoningParameters.Since o) DeadReckoningParameters.parseInto) o s (.refl o)
  unfold DeadReckoningParameters.parseInto
  refine .read fun _ => ?_
  refine .set (fun _ h => h) ?_
  refine .fillReads (fun _ _ h => h) ?_
  refine .call Vector3Float.since (fun _ _ h g => ⟨Vector3Float.Since.trans h.1 g, h.2⟩) ?_
  refine .call Vector3Float.since (fun _ _ h g => ⟨h.1, Vector3Float.Since.trans h.2 g⟩) ?_
  exact .pure

theorem DeadReckoningParameters.into (o : DeadReckoningParameters) : P.run DeadReckoningParameters.parseInto o = DeadReckoningParameters.parse o := by
  unfold DeadReckoningParameters.parseInto DeadReckoningParameters.parse
  simp (maxSteps := 1000000) (disch := exact ⟨fun _ _ => rfl, fun _ _ _ => rfl, fun _ => rfl⟩) only [P.run_pure, P.run_read, P.run_set, P.run_call, P.run_fillReads, Vector3Float.into]

theorem DeadReckoningParameters.again {o x : DeadReckoningParameters} (h : DeadReckoningParameters.Since o x) : DeadReckoningParameters.parse x = DeadReckoningParameters.parse o := by
  unfold DeadReckoningParameters.parse
  simp only [Vector3Float.again h.1, Vector3Float.again h.2]

theorem DeadReckoningParameters.blind : Blind (DeadReckoningParameters.parse) := by
  intro o x
  unfold DeadReckoningParameters.parse
  refine .read fun _ => ?_
  refine .read fun _ => ?_
  refine .bind (Vector3Float.blind _ _) fun _ _ _ => ?_
  refine .bind (Vector3Float.blind _ _) fun _ _ _ => ?_
  exact .pure trivial

theorem ProtocolMode.Since.refl (o : ProtocolMode) : ProtocolMode.Since o o :=
  trivial

theorem ProtocolMode.Since.trans {o x y : ProtocolMode} (h : ProtocolMode.Since o x) (g : ProtocolMode.Since x y) : ProtocolMode.Since o y :=
  trivial

theorem ProtocolMode.since  (o : ProtocolMode) (s : InStream) : ProtocolMode.Since o (ProtocolMode.parseInto o s).2.1 := by
  refine (?_ : P.Keeps (ProtocolMode.Since o) ProtocolMode.parseInto) o s (.refl o)
  unfold ProtocolMode.parseInto
  refine .read fun _ => ?_
  refine .set (fun _ h => h) ?_
  exact .pure

theorem ProtocolMode.into (o : ProtocolMode) : P.run ProtocolMode.parseInto o = ProtocolMode.parse o := by
  unfold ProtocolMode.parseInto ProtocolMode.parse
  simp (maxSteps := 1000000) only [P.run_pure, P.run_read, P.run_set]

theorem ProtocolMode.again {o x : ProtocolMode} (h : ProtocolMode.Since o x) : ProtocolMode.parse x = ProtocolMode.parse o := by
  rfl

theorem ProtocolMode.blind : Blind (ProtocolMode.parse) := by
  intro o x
  unfold ProtocolMode.parse
  refine .read fun _ => ?_
  exact .pure trivial

theorem AngleDeception.Since.refl (o : AngleDeception) : AngleDeception.Since o o :=
  trivial

theorem AngleDeception.Since.trans {o x y : AngleDeception} (h : AngleDeception.Since o x) (g : AngleDeception.Since x y) : AngleDeception.Since o y :=
  trivial

theorem AngleDeception.since  (o : AngleDeception) (s : InStream) : AngleDeception.Since o (AngleDeception.parseInto o s).2.1 := by
  refine (?_ : P.Keeps (AngleDeception.Since o) AngleDeception.parseInto) o s (.refl o)
  unfold AngleDeception.parseInto
  refine .read fun _ => ?_
  refine .set (fun _ h => h) ?_
  refine .read fun _ => ?_
  refine .set (fun _ h => h) ?_
  refine .read fun _ => ?_
  refine .set (fun _ h => h) ?_
  refine .read fun _ => ?_
  refine .set (fun _ h => h) ?_
  refine .read fun _ => ?_
  refine .set (fun _ h => h) ?_
  refine .read fun _ => ?_
  refine .set (fun _ h => h) ?_
  refine .read fun _ => ?_
  refine .set (fun _ h => h) ?_
  refine .read fun _ => ?_
  refine .set (fun _ h => h) ?_
  refine .read fun _ => ?_
  refine .set (fun _ h => h) ?_
  refine .read fun _ => ?_
  refine .set (fun _ h => h) ?_
  refine .read fun _ => ?_
  refine .set (fun _ h => h) ?_
  refine .read fun _ => ?_
  refine .set (fun _ h => h) ?_
  refine .read fun _ => ?_
  refine .set (fun _ h => h) ?_
  refine .read fun _ => ?_
  refine .set (fun _ h => h) ?_
  refine .read fun _ => ?_
  refine .set (fun _ h => h) ?_
  refine .read fun _ => ?_
  refine .set (fun _ h => h) ?_
  exact .pure

theorem AngleDeception.into (o : AngleDeception) : P.run AngleDeception.parseInto o = AngleDeception.parse o := by
  unfold AngleDeception.parseInto AngleDeception.parse
  simp (maxSteps := 1000000) only [P.run_pure, P.run_read, P.run_set]

theorem AngleDeception.again {o x : AngleDeception} (h : AngleDeception.Since o x) : AngleDeception.parse x = AngleDeception.parse o := by
  rfl

theorem AngleDeception.blind : Blind (AngleDeception.parse) := by
  intro o x
  unfold AngleDeception.parse
  refine .read fun _ => ?_
  refine .read fun _ => ?_
  refine .read fun _ => ?_
  refine .read fun _ => ?_
  refine .read fun _ => ?_
  refine .read fun _ => ?_
  refine .read fun _ => ?_
  refine .read fun _ => ?_
  refine .read fun _ => ?_
  refine .read fun _ => ?_
  refine .read fun _ => ?_
  refine .read fun _ => ?_
  refine .read fun _ => ?_
  refine .read fun _ => ?_
  refine .read fun _ => ?_
  refine .read fun _ => ?_
  exact .pure trivial

theorem EntityAssociation.Since.refl (o : EntityAssociation) : EntityAssociation.Since o o :=
  EntityIdentifier.Since.refl _

theorem EntityAssociation.Since.trans {o x y : EntityAssociation} (h : EntityAssociation.Since o x) (g : EntityAssociation.Since x y) : EntityAssociation.Since o y :=
  EntityIdentifier.Since.trans h g

theorem EntityAssociation.since  (o : EntityAssociation) (s : InStream) : EntityAssociation.Since o (EntityAssociation.parseInto o s).2.1 := by
  refine (?_ : P.Keeps (EntityAssociation.Since o) EntityAssociation.parseInto) o s (.refl o)
  unfold EntityAssociation.parseInto
  refine .read fun _ => ?_
  refine .set (fun _ h => h) ?_
  refine .read fun _ => ?_
  refine .set (fun _ h => h) ?_
  refine .read fun _ => ?_
  refine .set (fun _ h => h) ?_
  refine .read fun _ => ?_
  refine .set (fun _ h => h) ?_
  refine .call EntityIdentifier.since (fun _ _ h g => EntityIdentifier.Since.trans h g) ?_
  refine .read fun _ => ?_
  refine .set (fun _ h => h) ?_
  refine .read fun _ => ?_
  refine .set (fun _ h => h) ?_
  refine .read fun _ => ?_
  refine .set (fun _ h => h) ?_
  refine .read fun _ => ?_
  refine .set (fun _ h => h) ?_
  exact .pure

theorem EntityAssociation.into (o : EntityAssociation) : P.run EntityAssociation.parseInto o = EntityAssociation.parse o := by
  unfold EntityAssociation.parseInto EntityAssociation.parse
  simp (maxSteps := 1000000) only [P.run_pure, P.run_read, P.run_set, P.run_call, EntityIdentifier.into]

theorem EntityAssociation.again {o x : EntityAssociation} (h : EntityAssociation.Since o x) : EntityAssociation.parse x = EntityAssociation.parse o := by
  unfold EntityAssociation.parse
  simp only [EntityIdentifier.again h]

theorem EntityAssociation.blind : Blind (EntityAssociation.parse) := by
  intro o x
  unfold EntityAssociation.parse
  refine .read fun _ => ?_
  refine .read fun _ => ?_
  refine .read fun _ => ?_
  refine .read fun _ => ?_
  refine .bind (EntityIdentifier.blind _ _) fun _ _ _ => ?_
  refine .read fun _ => ?_
  refine .read fun _ => ?_
  refine .read fun _ => ?_
  refine .read fun _ => ?_
  exact .pure trivial

theorem VectoringNozzleSystem.Since.refl (o : VectoringNozzleSystem) : VectoringNozzleSystem.Since o o :=
  trivial

theorem VectoringNozzleSystem.Since.trans {o x y : VectoringNozzleSystem} (h : VectoringNozzleSystem.Since o x) (g : VectoringNozzleSystem.Since x y) : VectoringNozzleSystem.Since o y :=
  trivial

theorem VectoringNozzleSystem.since  (o : VectoringNozzleSystem) (s : InStream) : VectoringNozzleSystem.Since o (VectoringNozzleSystem.parseInto o s).2.1 := by
  refine (?_ : P.Keeps (VectoringNozzleSystem.Since o) VectoringNozzleSystem.parseInto) o s (.refl o)
  unfold VectoringNozzleSystem.parseInto
  refine .read fun _ => ?_
  refine .set (fun _ h => h) ?_
  refine .read fun _ => ?_
  refine .set (fun _ h => h) ?_
  exact .pure

theorem VectoringNozzleSystem.into (o : VectoringNozzleSystem) : P.run VectoringNozzleSystem.parseInto o = VectoringNozzleSystem.parse o := by
  unfold VectoringNozzleSystem.parseInto VectoringNozzleSystem.parse
  simp (maxSteps := 1000000) only [P.run_pure, P.run_read, P.run_set]

theorem VectoringNozzleSystem.again {o x : VectoringNozzleSystem} (h : VectoringNozzleSystem.Since o x) : VectoringNozzleSystem.parse x = VectoringNozzleSystem.parse o := by
  rfl

theorem VectoringNozzleSystem.blind : Blind (VectoringNozzleSystem.parse) := by
  intro o x
  unfold VectoringNozzleSystem.parse
  refine .read fun _ => ?_
  refine .read fun _ => ?_
  exact .pure trivial

theorem FalseTargetsAttribute.Since.refl (o : FalseTargetsAttribute) : FalseTargetsAttribute.Since o o :=
  trivial

theorem FalseTargetsAttribute.Since.trans {o x y : FalseTargetsAttribute} (h : FalseTargetsAttribute.Since o x) (g : FalseTargetsAttribute.Since x y) : FalseTargetsAttribute.Since o y :=
  trivial

theorem FalseTargetsAttribute.since  (o : FalseTargetsAttribute) (s : InStream) : FalseTargetsAttribute.Since o (FalseTargetsAttribute.parseInto o s).2.1 := by
  refine (?_ : P.Keeps (FalseTargetsAttribute.Since o) FalseTargetsAttribute.parseInto) o s (.refl o)
  unfold FalseTargetsAttribute.parseInto
  refine .read fun _ => ?_
  refine .set (fun _ h => h) ?_
  refine .read fun _ => ?_
  refine .set (fun _ h => h) ?_
  refine .read fun _ => ?_
  refine .set (fun _ h => h) ?_
  refine .read fun _ => ?_
  refine .set (fun _ h => h) ?_
  refine .read fun _ => ?_
  refine .set (fun _ h => h) ?_
  refine .read fun _ => ?_
  refine .set (fun _ h => h) ?_
  refine .read fun _ => ?_
  refine .set (fun _ h => h) ?_
  refine .read fun _ => ?_
  refine .set (fun _ h => h) ?_
  refine .read fun _ => ?_
  refine .set (fun _ h => h) ?_
  refine .read fun _ => ?_
  refine .set (fun _ h => h) ?_
  refine .read fun _ => ?_
  refine .set (fun _ h => h) ?_
  refine .read fun _ => ?_
  refine .set (fun _ h => h) ?_
  refine .read fun _ => ?_
  refine .set (fun _ h => h) ?_
  exact .pure

theorem FalseTargetsAttribute.into (o : FalseTargetsAttribute) : P.run FalseTargetsAttribute.parseInto o = FalseTargetsAttribute.parse o := by
  unfold FalseTargetsAttribute.parseInto FalseTargetsAttribute.parse
  simp (maxSteps := 1000000) only [P.run_pure, P.run_read, P.run_set]

theorem FalseTargetsAttribute.again {o x : FalseTargetsAttribute} (h : FalseTargetsAttribute.Since o x) : FalseTargetsAttribute.parse x = FalseTargetsAttribute.parse o := by
  rfl

theorem FalseTargetsAttribute.blind : Blind (FalseTargetsAttribute.parse) := by
  intro o x
  unfold FalseTargetsAttribute.parse
  refine .read fun _ => ?_
  refine .read fun _ => ?_
  refine .read fun _ => ?_
  refine .read fun _ => ?_
  refine .read fun _ => ?_
  refine .read fun _ => ?_
  refine .read fun _ => ?_
  refine .read fun _ => ?_
  refine .read fun _ => ?_
  refine .read fun _ => ?_
  refine .read fun _ => ?_
  refine .read fun _ => ?_
  refine .read fun _ => ?_
  exact .pure trivial

theorem MinefieldIdentifier.Since.refl (o : MinefieldIdentifier) : MinefieldIdentifier.Since o o :=
  SimulationAddress.Since.refl _

theorem MinefieldIdentifier.Since.trans {o x y : MinefieldIdentifier} (h : MinefieldIdentifier.Since o x) (g : MinefieldIdentifier.Since x y) : MinefieldIdentifier.Since o y :=
  SimulationAddress.Since.trans h g

theorem MinefieldIdentifier.since  (o : MinefieldIdentifier) (s : InStream) : MinefieldIdentifier.Since o (MinefieldIdentifier.parseInto o s).2.1 := by
  refine (?_ : P.Keeps (MinefieldIdentifier.Since o) MinefieldIdentifier.parseInto) o s (.refl o)
  unfold MinefieldIdentifier.parseInto
  refine .call SimulationAddress.since (fun _ _ h g => SimulationAddress.Since.trans h g) ?_
  refine .read fun _ => ?_
  refine .set (fun _ h => h) ?_
  exact .pure

theorem MinefieldIdentifier.into (o : MinefieldIdentifier) : P.run MinefieldIdentifier.parseInto o = MinefieldIdentifier.parse o := by
  unfold MinefieldIdentifier.parseInto MinefieldIdentifier.parse
  simp (maxSteps := 1000000) only [P.run_pure, P.run_read, P.run_set, P.run_call, SimulationAddress.into]

theorem MinefieldIdentifier.again {o x : MinefieldIdentifier} (h : MinefieldIdentifier.Since o x) : MinefieldIdentifier.parse x = MinefieldIdentifier.parse o := by
  unfold MinefieldIdentifier.parse
  simp only [SimulationAddress.again h]

theorem MinefieldIdentifier.blind : Blind (MinefieldIdentifier.parse) := by
  intro o x
  unfold MinefieldIdentifier.parse
  refine .bind (SimulationAddress.blind _ _) fun _ _ _ => ?_
  refine .read fun _ => ?_
  exact .pure trivial

theorem RadioType.Since.refl (o : RadioType) : RadioType.Since o o :=
  trivial

theorem RadioType.Since.trans {o x y : RadioType} (h : RadioType.Since o x) (g : RadioType.Since x y) : RadioType.Since o y :=
  trivial

theorem RadioType.since  (o : RadioType) (s : InStream) : RadioType.Since o (RadioType.parseInto o s).2.1 := by
  refine (?_ : P.Keeps (RadioType.Since o) RadioType.parseInto) o s (.refl o)
  unfold RadioType.parseInto
  refine .read fun _ => ?_
  refine .set (fun _ h => h) ?_
  refine .read fun _ => ?_
  refine .set (fun _ h => h) ?_
  refine .read fun _ => ?_
  refine .set (fun _ h => h) ?_
  refine .read fun _ => ?_
  refine .set (fun _ h => h) ?_
  refine .read fun _ => ?_
  refine .set (fun _ h => h) ?_
  refine .read fun _ => ?_
  refine .set (fun _ h => h) ?_
  refine .read fun _ => ?_
  refine .set (fun _ h => h) ?_
  exact .pure

theorem RadioType.into (o : RadioType) : P.run RadioType.parseInto o = RadioType.parse o := by
  unfold RadioType.parseInto RadioType.parse
  simp (maxSteps := 1000000) only [P.run_pure, P.run_read, P.run_set]

theorem RadioType.again {o x : RadioType} (h : RadioType.Since o x) : RadioType.parse x = RadioType.parse o := by
  rfl

theorem RadioType.blind : Blind (RadioType.parse) := by
  intro o x
  unfold RadioType.parse
  refine .read fun _ => ?_
  refine .read fun _ => ?_
  refine .read fun _ => ?_
  refine .read fun _ => ?_
  refine .read fun _ => ?_
  refine .read fun _ => ?_
  refine .read fun _ => ?_
  exact .pure trivial

theorem NamedLocationIdentification.Since.refl (o : NamedLocationIdentification) : NamedLocationIdentification.Since o o :=
  trivial

theorem NamedLocationIdentification.Since.trans {o x y : NamedLocationIdentification} (h : NamedLocationIdentification.Since o x) (g : NamedLocationIdentification.Since x y) : NamedLocationIdentification.Since o y :=
  trivial

theorem NamedLocationIdentification.since  (o : NamedLocationIdentification) (s : InStream) : NamedLocationIdentification.Since o (NamedLocationIdentification.parseInto o s).2.1 := by
  refine (?_ : P.Keeps (NamedLocationIdentification.Since o) NamedLocationIdentification.parseInto) o s (.refl o)
  unfold NamedLocationIdentification.parseInto
  refine .read fun _ => ?_
  refine .set (fun _ h => h) ?_
  refine .read fun _ => ?_
  refine .set (fun _ h => h) ?_
  exact .pure

theorem NamedLocationIdentification.into (o : NamedLocationIdentification) : P.run NamedLocationIdentification.parseInto o = NamedLocationIdentification.parse o := by
  unfold NamedLocationIdentification.parseInto NamedLocationIdentification.parse
  simp (maxSteps := 1000000) only [P.run_pure, P.run_read, P.run_set]

theorem NamedLocationIdentification.again {o x : NamedLocationIdentification} (h : NamedLocationIdentification.Since o x) : NamedLocationIdentification.parse x = NamedLocationIdentification.parse o := by
  rfl

theorem NamedLocationIdentification.blind : Blind (NamedLocationIdentification.parse) := by
  intro o x
  unfold NamedLocationIdentification.parse
  refine .read fun _ => ?_
  refine .read fun _ => ?_
  exact .pure trivial

theorem IFFDataSpecification.Since.refl (o : IFFDataSpecification) : IFFDataSpecification.Since o o :=
  List.prefix_refl _

theorem IFFDataSpecification.Since.trans {o x y : IFFDataSpecification} (h : IFFDataSpecification.Since o x) (g : IFFDataSpecification.Since x y) : IFFDataSpecification.Since o y :=
  List.IsPrefix.trans (h) (g)

theorem IFFDataSpecification.since  (o : IFFDataSpecification) (s : InStream) : IFFDataSpecification.Since o (IFFDataSpecification.parseInto o s).2.1 := by
  refine (?_ : P.Keeps (IFFDataSpecification.Since o) IFFDataSpecification.parseInto) o s (.refl o)
  unfold IFFDataSpecification.parseInto
  refine .read fun _ => ?_
  refine .appendObjs (fun _ _ h => List.IsPrefix.trans (h) (List.prefix_append _ _)) ?_
  exact .pure

theorem IFFDataSpecification.into (o : IFFDataSpecification) : P.run IFFDataSpecification.parseInto o = IFFDataSpecification.parse o := by
  unfold IFFDataSpecification.parseInto IFFDataSpecification.parse
  simp (maxSteps := 1000000) (disch := exact ⟨fun _ _ => rfl, fun _ _ _ => rfl, fun _ => rfl⟩) only [P.run_pure, P.run_read, P.run_appendObjs, IFFData.into]

theorem IFFDataSpecification.again {o x : IFFDataSpecification} (h : IFFDataSpecification.Since o x) : IFFDataSpecification.parse (IFFDataSpecification.trim o x) = IFFDataSpecification.parse o := by
  unfold IFFDataSpecification.parse IFFDataSpecification.trim
  simp only [← List.prefix_iff_eq_take.mp (h)]

theorem IFFDataSpecification.blind : Blind (IFFDataSpecification.parse) := by
  intro o x
  unfold IFFDataSpecification.parse
  refine .read fun _ => ?_
  refine .read fun _ => ?_
  exact .pure trivial

theorem OwnershipStatus.Since.refl (o : OwnershipStatus) : OwnershipStatus.Since o o :=
  EntityIdentifier.Since.refl _

theorem OwnershipStatus.Since.trans {o x y : OwnershipStatus} (h : OwnershipStatus.Since o x) (g : OwnershipStatus.Since x y) : OwnershipStatus.Since o y :=
  EntityIdentifier.Since.trans h g

theorem OwnershipStatus.since  (o : OwnershipStatus) (s : InStream) : OwnershipStatus.Since o (OwnershipStatus.parseInto o s).2.1 := by
  refine (?_ : P.Keeps (OwnershipStatus.Since o) OwnershipStatus.parseInto) o s (.refl o)
  unfold OwnershipStatus.parseInto
  refine .call EntityIdentifier.since (fun _ _ h g => EntityIdentifier.Since.trans h g) ?_
  refine .read fun _ => ?_
  refine .set (fun _ h => h) ?_
  refine .read fun _ => ?_
  refine .set (fun _ h => h) ?_
  exact .pure

theorem OwnershipStatus.into (o : OwnershipStatus) : P.run OwnershipStatus.parseInto o = OwnershipStatus.parse o := by
  unfold OwnershipStatus.parseInto OwnershipStatus.parse
  simp (maxSteps := 1000000) only [P.run_pure, P.run_read, P.run_set, P.run_call, EntityIdentifier.into]

theorem OwnershipStatus.again {o x : OwnershipStatus} (h : OwnershipStatus.Since o x) : OwnershipStatus.parse x = OwnershipStatus.parse o := by
  unfold OwnershipStatus.parse
  simp only [EntityIdentifier.again h]

theorem OwnershipStatus.blind : Blind (OwnershipStatus.parse) := by
  intro o x
  unfold OwnershipStatus.parse
  refine .bind (EntityIdentifier.blind _ _) fun _ _ _ => ?_
  refine .read fun _ => ?_
  refine .read fun _ => ?_
  exact .pure trivial

theorem AttachedParts.Since.refl (o : AttachedParts) : AttachedParts.Since o o :=
  rfl

theorem AttachedParts.Since.trans {o x y : AttachedParts} (h : AttachedParts.Since o x) (g : AttachedParts.Since x y) : AttachedParts.Since o y :=
  Eq.trans (g) (h)

theorem AttachedParts.since  (o : AttachedParts) (s : InStream) : AttachedParts.Since o (AttachedParts.parseInto o s).2.1 := by
  refine (?_ : P.Keeps (AttachedParts.Since o) AttachedParts.parseInto) o s (.refl o)
  unfold AttachedParts.parseInto
  refine .read fun _ => ?_
  refine .set (fun _ h => h) ?_
  refine .read fun _ => ?_
  refine .set (fun _ h => h) ?_
  refine .read fun _ => ?_
  refine .set (fun _ h => h) ?_
  refine .read fun _ => ?_
  refine .set (fun _ h => h) ?_
  refine .read fun _ => ?_
  refine .set (fun _ h => h) ?_
  exact .pure

theorem AttachedParts.into (o : AttachedParts) : P.run AttachedParts.parseInto o = AttachedParts.parse o := by
  unfold AttachedParts.parseInto AttachedParts.parse
  simp (maxSteps := 1000000) only [P.run_pure, P.run_read, P.run_set]

theorem AttachedParts.again {o x : AttachedParts} (h : AttachedParts.Since o x) : AttachedParts.parse x = AttachedParts.parse o := by
  unfold AttachedParts.parse
  simp only [h]

theorem AttachedParts.blind : Blind (AttachedParts.parse) := by
  intro o x
  unfold AttachedParts.parse
  refine .read fun _ => ?_
  refine .read fun _ => ?_
  refine .read fun _ => ?_
  refine .read fun _ => ?_
  refine .read fun _ => ?_
  exact .pure trivial

theorem Attribute.Since.refl (o : Attribute) : Attribute.Since o o :=
  trivial

theorem Attribute.Since.trans {o x y : Attribute} (h : Attribute.Since o x) (g : Attribute.Since x y) : Attribute.Since o y :=
  trivial

theorem Attribute.since  (o : Attribute) (s : InStream) : Attribute.Since o (Attribute.parseInto o s).2.1 := by
  refine (?_ : P.Keeps (Attribute.Since o) Attribute.parseInto) o s (.refl o)
  unfold Attribute.parseInto
  refine .read fun _ => ?_
  refine .set (fun _ h => h) ?_
  refine .read fun _ => ?_
  refine .set (fun _ h => h) ?_
  refine .read fun _ => ?_
  refine .set (fun _ h => h) ?_
  exact .pure

theorem Attribute.into (o : Attribute) : P.run Attribute.parseInto o = Attribute.parse o := by
  unfold Attribute.parseInto Attribute.parse
  simp (maxSteps := 1000000) only [P.run_pure, P.run_read, P.run_set]

theorem Attribute.again {o x : Attribute} (h : Attribute.Since o x) : Attribute.parse x = Attribute.parse o := by
  rfl

theorem Attribute.blind : Blind (Attribute.parse) := by
  intro o x
  unfold Attribute.parse
  refine .read fun _ => ?_
  refine .read fun _ => ?_
  refine .read fun _ => ?_
  exact .pure trivial

theorem RecordQuerySpecification.Since.refl (o : RecordQuerySpecification) : RecordQuerySpecification.Since o o :=
  List.prefix_refl _

theorem RecordQuerySpecification.Since.trans {o x y : RecordQuerySpecification} (h : RecordQuerySpecification.Since o x) (g : RecordQuerySpecification.Since x y) : RecordQuerySpecification.Since o y :=
  List.IsPrefix.trans (h) (g)

theorem RecordQuerySpecification.since  (o : RecordQuerySpecification) (s : InStream) : RecordQuerySpecification.Since o (RecordQuerySpecification.parseInto o s).2.1 := by
  refine (?_ : P.Keeps (RecordQuerySpecification.Since o) RecordQuerySpecification.parseInto) o s (.refl o)
  unfold RecordQuerySpecification.parseInto
  refine .read fun _ => ?_
  refine .appendReads (fun _ _ h => List.IsPrefix.trans (h) (List.prefix_append _ _)) ?_
  exact .pure

theorem RecordQuerySpecification.into (o : RecordQuerySpecification) : P.run RecordQuerySpecification.parseInto o = RecordQuerySpecification.parse o := by
  unfold RecordQuerySpecification.parseInto RecordQuerySpecification.parse
  simp (maxSteps := 1000000) (disch := exact ⟨fun _ _ => rfl, fun _ _ _ => rfl, fun _ => rfl⟩) only [P.run_pure, P.run_read, P.run_appendReads]

theorem RecordQuerySpecification.again {o x : RecordQuerySpecification} (h : RecordQuerySpecification.Since o x) : RecordQuerySpecification.parse (RecordQuerySpecification.trim o x) = RecordQuerySpecification.parse o := by
  unfold RecordQuerySpecification.parse RecordQuerySpecification.trim
  simp only [← List.prefix_iff_eq_take.mp (h)]

theorem RecordQuerySpecification.blind : Blind (RecordQuerySpecification.parse) := by
  intro o x
  unfold RecordQuerySpecification.parse
  refine .read fun _ => ?_
  refine .read fun _ => ?_
  exact .pure trivial

theorem ArticulatedParts.Since.refl (o : ArticulatedParts) : ArticulatedParts.Since o o :=
  trivial

theorem ArticulatedParts.Since.trans {o x y : ArticulatedParts} (h : ArticulatedParts.Since o x) (g : ArticulatedParts.Since x y) : ArticulatedParts.Since o y :=
  trivial

theorem ArticulatedParts.since  (o : ArticulatedParts) (s : InStream) : ArticulatedParts.Since o (ArticulatedParts.parseInto o s).2.1 := by
  refine (?_ : P.Keeps (ArticulatedParts.Since o) ArticulatedParts.parseInto) o s (.refl o)
  unfold ArticulatedParts.parseInto
  refine .read fun _ => ?_
  refine .set (fun _ h => h) ?_
  refine .read fun _ => ?_
  refine .set (fun _ h => h) ?_
  refine .read fun _ => ?_
  refine .set (fun _ h => h) ?_
  refine .read fun _ => ?_
  refine .set (fun _ h => h) ?_
  refine .read fun _ => ?_
  refine .set (fun _ h => h) ?_
  exact .pure

theorem ArticulatedParts.into (o : ArticulatedParts) : P.run ArticulatedParts.parseInto o = ArticulatedParts.parse o := by
  unfold ArticulatedParts.parseInto ArticulatedParts.parse
  simp (maxSteps := 1000000) only [P.run_pure, P.run_read, P.run_set]

theorem ArticulatedParts.again {o x : ArticulatedParts} (h : ArticulatedParts.Since o x) : ArticulatedParts.parse x = ArticulatedParts.parse o := by
  rfl

theorem ArticulatedParts.blind : Blind (ArticulatedParts.parse) := by
  intro o x
  unfold ArticulatedParts.parse
  refine .read fun _ => ?_
  refine .read fun _ => ?_
  refine .read fun _ => ?_
  refine .read fun _ => ?_
  refine .read fun _ => ?_
  exact .pure trivial

theorem ObjectType.Since.refl (o : ObjectType) : ObjectType.Since o o :=
  trivial

theorem ObjectType.Since.trans {o x y : ObjectType} (h : ObjectType.Since o x) (g : ObjectType.Since x y) : ObjectType.Since o y :=
  trivial

theorem ObjectType.since  (o : ObjectType) (s : InStream) : ObjectType.Since o (ObjectType.parseInto o s).2.1 := by
  refine (?_ : P.Keeps (ObjectType.Since o) ObjectType.parseInto) o s (.refl o)
  unfold ObjectType.parseInto
  refine .read fun _ => ?_
  refine .set (fun _ h => h) ?_
  refine .read fun _ => ?_
  refine .set (fun _ h => h) ?_
  refine .read fun _ => ?_
  refine .set (fun _ h => h) ?_
  refine .read fun _ => ?_
  refine .set (fun _ h => h) ?_
  exact .pure

theorem ObjectType.into (o : ObjectType) : P.run ObjectType.parseInto o = ObjectType.parse o := by
  unfold ObjectType.parseInto ObjectType.parse
  simp (maxSteps := 1000000) only [P.run_pure, P.run_read, P.run_set]

theorem ObjectType.again {o x : ObjectType} (h : ObjectType.Since o x) : ObjectType.parse x = ObjectType.parse o := by
  rfl

theorem ObjectType.blind : Blind (ObjectType.parse) := by
  intro o x
  unfold ObjectType.parse
  refine .read fun _ => ?_
  refine .read fun _ => ?_
  refine .read fun _ => ?_
  refine .read fun _ => ?_
  exact .pure trivial

theorem Association.Since.refl (o : Association) : Association.Since o o :=
  ⟨EntityIdentifier.Since.refl _, WorldCoordinates.Since.refl _⟩

theorem Association.Since.trans {o x y : Association} (h : Association.Since o x) (g : Association.Since x y) : Association.Since o y :=
  ⟨EntityIdentifier.Since.trans h.1 g.1, WorldCoordinates.Since.trans h.2 g.2⟩

theorem Association.since  (o : Association) (s : InStream) : Association.Since o (Association.parseInto o s).2.1 := by
  refine (?_ : P.Keeps (Association.Since o) Association.parseInto) o s (.refl o)
  unfold Association.parseInto
  refine .read fun _ => ?_
  refine .set (fun _ h => h) ?_
  refine .read fun _ => ?_
  refine .set (fun _ h => h) ?_
  refine .call EntityIdentifier.since (fun _ _ h g => ⟨EntityIdentifier.Since.trans h.1 g, h.2⟩) ?_
  refine .call WorldCoordinates.since (fun _ _ h g => ⟨h.1, WorldCoordinates.Since.trans h.2 g⟩) ?_
  exact .pure

theorem Association.into (o : Association) : P.run Association.parseInto o = Association.parse o := by
  unfold Association.parseInto Association.parse
  simp (maxSteps := 1000000) only [P.run_pure, P.run_read, P.run_set, P.run_call, EntityIdentifier.into, WorldCoordinates.into]

theorem Association.again {o x : Association} (h : Association.Since o x) : Association.parse x = Association.parse o := by
  unfold Association.parse
  simp only [EntityIdentifier.again h.1, WorldCoordinates.again h.2]

theorem Association.blind : Blind (Association.parse) := by
  intro o x
  unfold Association.parse
  refine .read fun _ => ?_
  refine .read fun _ => ?_
  refine .bind (EntityIdentifier.blind _ _) fun _ _ _ => ?_
  refine .bind (WorldCoordinates.blind _ _) fun _ _ _ => ?_
  exact .pure trivial

theorem RecordSpecificationElement.Since.refl (o : RecordSpecificationElement) : RecordSpecificationElement.Since o o :=
  trivial

theorem RecordSpecificationElement.Since.trans {o x y : RecordSpecificationElement} (h : RecordSpecificationElement.Since o x) (g : RecordSpecificationElement.Since x y) : RecordSpecificationElement.Since o y :=
  trivial

theorem RecordSpecificationElement.since  (o : RecordSpecificationElement) (s : InStream) : RecordSpecificationElement.Since o (RecordSpecificationElement.parseInto o s).2.1 := by
  refine (?_ : P.Keeps (RecordSpecificationElement.Since o) RecordSpecificationElement.parseInto) o s (.refl o)
  unfold RecordSpecificationElement.parseInto
  refine .read fun _ => ?_
  refine .set (fun _ h => h) ?_
  refine .read fun _ => ?_
  refine .set (fun _ h => h) ?_
  refine .read fun _ => ?_
  refine .set (fun _ h => h) ?_
  refine .read fun _ => ?_
  refine .set (fun _ h => h) ?_
  refine .read fun _ => ?_
  refine .set (fun _ h => h) ?_
  refine .read fun _ => ?_
  refine .set (fun _ h => h) ?_
  exact .pure

theorem RecordSpecificationElement.into (o : RecordSpecificationElement) : P.run RecordSpecificationElement.parseInto o = RecordSpecificationElement.parse o := by
  unfold RecordSpecificationElement.parseInto RecordSpecificationElement.parse
  simp (maxSteps := 1000000) only [P.run_pure, P.run_read, P.run_set]

theorem RecordSpecificationElement.again {o x : RecordSpecificationElement} (h : RecordSpecificationElement.Since o x) : RecordSpecificationElement.parse x = RecordSpecificationElement.parse o := by
  rfl

theorem RecordSpecificationElement.blind : Blind (RecordSpecificationElement.parse) := by
  intro o x
  unfold RecordSpecificationElement.parse
  refine .read fun _ => ?_
  refine .read fun _ => ?_
  refine .read fun _ => ?_
  refine .read fun _ => ?_
  refine .read fun _ => ?_
  refine .read fun _ => ?_
  exact .pure trivial

theorem AntennaLocation.Since.refl (o : AntennaLocation) : AntennaLocation.Since o o :=
  ⟨WorldCoordinates.Since.refl _, Vector3Float.Since.refl _⟩

theorem AntennaLocation.Since.trans {o x y : AntennaLocation} (h : AntennaLocation.Since o x) (g : AntennaLocation.Since x y) : AntennaLocation.Since o y :=
  ⟨WorldCoordinates.Since.trans h.1 g.1, Vector3Float.Since.trans h.2 g.2⟩

theorem AntennaLocation.since  (o : AntennaLocation) (s : InStream) : AntennaLocation.Since o (AntennaLocation.parseInto o s).2.1 := by
  refine (?_ : P.Keeps (AntennaLocation.Since o) AntennaLocation.parseInto) o s (.refl o)
  unfold AntennaLocation.parseInto
  refine .call WorldCoordinates.since (fun _ _ h g => ⟨WorldCoordinates.Since.trans h.1 g, h.2⟩) ?_
  refine .call Vector3Float.since (fun _ _ h g => ⟨h.1, Vector3Float.Since.trans h.2 g⟩) ?_
  exact .pure

theorem AntennaLocation.into (o : AntennaLocation) : P.run AntennaLocation.parseInto o = AntennaLocation.parse o := by
  unfold AntennaLocation.parseInto AntennaLocation.parse
  simp (maxSteps := 1000000) only [P.run_pure, P.run_call, Vector3Float.into, WorldCoordinates.into]

theorem AntennaLocation.again {o x : AntennaLocation} (h : AntennaLocation.Since o x) : AntennaLocation.parse x = AntennaLocation.parse o := by
  unfold AntennaLocation.parse
  simp only [WorldCoordinates.again h.1, Vector3Float.again h.2]

theorem AntennaLocation.blind : Blind (AntennaLocation.parse) := by
  intro o x
  unfold AntennaLocation.parse
  refine .bind (WorldCoordinates.blind _ _) fun _ _ _ => ?_
  refine .bind (Vector3Float.blind _ _) fun _ _ _ => ?_
  exact .pure trivial

theorem ObjectIdentifier.Since.refl (o : ObjectIdentifier) : ObjectIdentifier.Since o o :=
  SimulationAddress.Since.refl _

theorem ObjectIdentifier.Since.trans {o x y : ObjectIdentifier} (h : ObjectIdentifier.Since o x) (g : ObjectIdentifier.Since x y) : ObjectIdentifier.Since o y :=
  SimulationAddress.Since.trans h g

theorem ObjectIdentifier.since  (o : ObjectIdentifier) (s : InStream) : ObjectIdentifier.Since o (ObjectIdentifier.parseInto o s).2.1 := by
  refine (?_ : P.Keeps (ObjectIdentifier.Since o) ObjectIdentifier.parseInto) o s (.refl o)
  unfold ObjectIdentifier.parseInto
  refine .call SimulationAddress.since (fun _ _ h g => SimulationAddress.Since.trans h g) ?_
  refine .read fun _ => ?_
  refine .set (fun _ h => h) ?_
  exact .pure

theorem ObjectIdentifier.into (o : ObjectIdentifier) : P.run ObjectIdentifier.parseInto o = ObjectIdentifier.parse o := by
  unfold ObjectIdentifier.parseInto ObjectIdentifier.parse
  simp (maxSteps := 1000000) only [P.run_pure, P.run_read, P.run_set, P.run_call, SimulationAddress.into]

theorem ObjectIdentifier.again {o x : ObjectIdentifier} (h : ObjectIdentifier.Since o x) : ObjectIdentifier.parse x = ObjectIdentifier.parse o := by
  unfold ObjectIdentifier.parse
  simp only [SimulationAddress.again h]

theorem ObjectIdentifier.blind : Blind (ObjectIdentifier.parse) := by
  intro o x
  unfold ObjectIdentifier.parse
  refine .bind (SimulationAddress.blind _ _) fun _ _ _ => ?_
  refine .read fun _ => ?_
  exact .pure trivial

theorem AggregateIdentifier.Since.refl (o : AggregateIdentifier) : AggregateIdentifier.Since o o :=
  SimulationAddress.Since.refl _

theorem AggregateIdentifier.Since.trans {o x y : AggregateIdentifier} (h : AggregateIdentifier.Since o x) (g : AggregateIdentifier.Since x y) : AggregateIdentifier.Since o y :=
  SimulationAddress.Since.trans h g

theorem AggregateIdentifier.since  (o : AggregateIdentifier) (s : InStream) : AggregateIdentifier.Since o (AggregateIdentifier.parseInto o s).2.1 := by
  refine (?_ : P.Keeps (AggregateIdentifier.Since o) AggregateIdentifier.parseInto) o s (.refl o)
  unfold AggregateIdentifier.parseInto
  refine .call SimulationAddress.since (fun _ _ h g => SimulationAddress.Since.trans h g) ?_
  refine .read fun _ => ?_
  refine .set (fun _ h => h) ?_
  exact .pure

theorem AggregateIdentifier.into (o : AggregateIdentifier) : P.run AggregateIdentifier.parseInto o = AggregateIdentifier.parse o := by
  unfold AggregateIdentifier.parseInto AggregateIdentifier.parse
  simp (maxSteps := 1000000) only [P.run_pure, P.run_read, P.run_set, P.run_call, SimulationAddress.into]

theorem AggregateIdentifier.again {o x : AggregateIdentifier} (h : AggregateIdentifier.Since o x) : AggregateIdentifier.parse x = AggregateIdentifier.parse o := by
  unfold AggregateIdentifier.parse
  simp only [SimulationAddress.again h]

theorem AggregateIdentifier.blind : Blind (AggregateIdentifier.parse) := by
  intro o x
  unfold AggregateIdentifier.parse
  refine .bind (SimulationAddress.blind _ _) fun _ _ _ => ?_
  refine .read fun _ => ?_
  exact .pure trivial

theorem FixedDatum.Since.refl (o : FixedDatum) : FixedDatum.Since o o :=
  trivial

theorem FixedDatum.Since.trans {o x y : FixedDatum} (h : FixedDatum.Since o x) (g : FixedDatum.Since x y) : FixedDatum.Since o y :=
  trivial

theorem FixedDatum.since  (o : FixedDatum) (s : InStream) : FixedDatum.Since o (FixedDatum.parseInto o s).2.1 := by
  refine (?_ : P.Keeps (FixedDatum.Since o) FixedDatum.parseInto) o s (.refl o)
  unfold FixedDatum.parseInto
  refine .read fun _ => ?_
  refine .set (fun _ h => h) ?_
  refine .read fun _ => ?_
  refine .set (fun _ h => h) ?_
  exact .pure

theorem FixedDatum.into (o : FixedDatum) : P.run FixedDatum.parseInto o = FixedDatum.parse o := by
  unfold FixedDatum.parseInto FixedDatum.parse
  simp (maxSteps := 1000000) only [P.run_pure, P.run_read, P.run_set]

theorem FixedDatum.again {o x : FixedDatum} (h : FixedDatum.Since o x) : FixedDatum.parse x = FixedDatum.parse o := by
  rfl

theorem FixedDatum.blind : Blind (FixedDatum.parse) := by
  intro o x
  unfold FixedDatum.parse
  refine .read fun _ => ?_
  refine .read fun _ => ?_
  exact .pure trivial

theorem VariableParameter.Since.refl (o : VariableParameter) : VariableParameter.Since o o :=
  trivial

theorem VariableParameter.Since.trans {o x y : VariableParameter} (h : VariableParameter.Since o x) (g : VariableParameter.Since x y) : VariableParameter.Since o y :=
  trivial

theorem VariableParameter.since  (o : VariableParameter) (s : InStream) : VariableParameter.Since o (VariableParameter.parseInto o s).2.1 := by
  refine (?_ : P.Keeps (VariableParameter.Since o) VariableParameter.parseInto) o s (.refl o)
  unfold VariableParameter.parseInto
  refine .read fun _ => ?_
  refine .set (fun _ h => h) ?_
  refine .read fun _ => ?_
  refine .set (fun _ h => h) ?_
  refine .read fun _ => ?_
  refine .set (fun _ h => h) ?_
  refine .read fun _ => ?_
  refine .set (fun _ h => h) ?_
  refine .read fun _ => ?_
  refine .set (fun _ h => h) ?_
  exact .pure

theorem VariableParameter.into (o : VariableParameter) : P.run VariableParameter.parseInto o = VariableParameter.parse o := by
  unfold VariableParameter.parseInto VariableParameter.parse
  simp (maxSteps := 1000000) only [P.run_pure, P.run_read, P.run_set]

theorem VariableParameter.again {o x : VariableParameter} (h : VariableParameter.Since o x) : VariableParameter.parse x = VariableParameter.parse o := by
  rfl

theorem VariableParameter.blind : Blind (VariableParameter.parse) := by
  intro o x
  unfold VariableParameter.parse
  refine .read fun _ => ?_
  refine .read fun _ => ?_
  refine .read fun _ => ?_
  refine .read fun _ => ?_
  refine .read fun _ => ?_
  exact .pure trivial

theorem ChangeOptions.Since.refl (o : ChangeOptions) : ChangeOptions.Since o o :=
  trivial

theorem ChangeOptions.Since.trans {o x y : ChangeOptions} (h : ChangeOptions.Since o x) (g : ChangeOptions.Since x y) : ChangeOptions.Since o y :=
  trivial

theorem ChangeOptions.since  (o : ChangeOptions) (s : InStream) : ChangeOptions.Since o (ChangeOptions.parseInto o s).2.1 := by
  refine (?_ : P.Keeps (ChangeOptions.Since o) ChangeOptions.parseInto) o s (.refl o)
  unfold ChangeOptions.parseInto
  exact .pure

theorem ChangeOptions.into (o : ChangeOptions) : P.run ChangeOptions.parseInto o = ChangeOptions.parse o := by
  unfold ChangeOptions.parseInto ChangeOptions.parse
  rfl

theorem ChangeOptions.again {o x : ChangeOptions} (h : ChangeOptions.Since o x) : ChangeOptions.parse x = ChangeOptions.parse o := by
  cases o; cases x
  simp_all only [ChangeOptions.Since]

theorem ChangeOptions.blind : Blind (ChangeOptions.parse) := by
  intro o x
  unfold ChangeOptions.parse
  exact .pure trivial

theorem LiveSimulationAddress.Since.refl (o : LiveSimulationAddress) : LiveSimulationAddress.Since o o :=
  trivial

theorem LiveSimulationAddress.Since.trans {o x y : LiveSimulationAddress} (h : LiveSimulationAddress.Since o x) (g : LiveSimulationAddress.Since x y) : LiveSimulationAddress.Since o y :=
  trivial

theorem LiveSimulationAddress.since  (o : LiveSimulationAddress) (s : InStream) : LiveSimulationAddress.Since o (LiveSimulationAddress.parseInto o s).2.1 := by
  refine (?_ : P.Keeps (LiveSimulationAddress.Since o) LiveSimulationAddress.parseInto) o s (.refl o)
  unfold LiveSimulationAddress.parseInto
  refine .read fun _ => ?_
  refine .set (fun _ h => h) ?_
  refine .read fun _ => ?_
  refine .set (fun _ h => h) ?_
  exact .pure

theorem LiveSimulationAddress.into (o : LiveSimulationAddress) : P.run LiveSimulationAddress.parseInto o = LiveSimulationAddress.parse o := by
  unfold LiveSimulationAddress.parseInto LiveSimulationAddress.parse
  simp (maxSteps := 1000000) only [P.run_pure, P.run_read, P.run_set]

theorem LiveSimulationAddress.again {o x : LiveSimulationAddress} (h : LiveSimulationAddress.Since o x) : LiveSimulationAddress.parse x = LiveSimulationAddress.parse o := by
  rfl

theorem LiveSimulationAddress.blind : Blind (LiveSimulationAddress.parse) := by
  intro o x
  unfold LiveSimulationAddress.parse
  refine .read fun _ => ?_
  refine .read fun _ => ?_
  exact .pure trivial

theorem EntityMarking.Since.refl (o : EntityMarking) : EntityMarking.Since o o :=
  trivial

theorem EntityMarking.Since.trans {o x y : EntityMarking} (h : EntityMarking.Since o x) (g : EntityMarking.Since x y) : EntityMarking.Since o y :=
  trivial

theorem EntityMarking.since  (o : EntityMarking) (s : InStream) : EntityMarking.Since o (EntityMarking.parseInto o s).2.1 := by
  refine (?_ : P.Keeps (EntityMarking.Since o) EntityMarking.parseInto) o s (.refl o)
  unfold EntityMarking.parseInto
  refine .read fun _ => ?_
  refine .set (fun _ h => h) ?_
  refine .fillReads (fun _ _ h => h) ?_
  exact .pure

theorem EntityMarking.into (o : EntityMarking) : P.run EntityMarking.parseInto o = EntityMarking.parse o := by
  unfold EntityMarking.parseInto EntityMarking.parse
  simp (maxSteps := 1000000) (disch := exact ⟨fun _ _ => rfl, fun _ _ _ => rfl, fun _ => rfl⟩) only [P.run_pure, P.run_read, P.run_set, P.run_fillReads]

theorem EntityMarking.again {o x : EntityMarking} (h : EntityMarking.Since o x) : EntityMarking.parse x = EntityMarking.parse o := by
  rfl

theorem EntityMarking.blind : Blind (EntityMarking.parse) := by
  intro o x
  unfold EntityMarking.parse
  refine .read fun _ => ?_
  refine .read fun _ => ?_
  exact .pure trivial

theorem UAFundamentalParameter.Since.refl (o : UAFundamentalParameter) : UAFundamentalParameter.Since o o :=
  trivial

theorem UAFundamentalParameter.Since.trans {o x y : UAFundamentalParameter} (h : UAFundamentalParameter.Since o x) (g : UAFundamentalParameter.Since x y) : UAFundamentalParameter.Since o y :=
  trivial

theorem UAFundamentalParameter.since  (o : UAFundamentalParameter) (s : InStream) : UAFundamentalParameter.Since o (UAFundamentalParameter.parseInto o s).2.1 := by
  refine (?_ : P.Keeps (UAFundamentalParameter.Since o) UAFundamentalParameter.parseInto) o s (.refl o)
  unfold UAFundamentalParameter.parseInto
  refine .read fun _ => ?_
  refine .set (fun _ h => h) ?_
  refine .read fun _ => ?_
  refine .set (fun _ h => h) ?_
  refine .read fun _ => ?_
  refine .set (fun _ h => h) ?_
  refine .read fun _ => ?_
  refine .set (fun _ h => h) ?_
  refine .read fun _ => ?_
  refine .set (fun _ h => h) ?_
  refine .read fun _ => ?_
  refine .set (fun _ h => h) ?_
  exact .pure

theorem UAFundamentalParameter.into (o : UAFundamentalParameter) : P.run UAFundamentalParameter.parseInto o = UAFundamentalParameter.parse o := by
  unfold UAFundamentalParameter.parseInto UAFundamentalParameter.parse
  simp (maxSteps := 1000000) only [P.run_pure, P.run_read, P.run_set]

theorem UAFundamentalParameter.again {o x : UAFundamentalParameter} (h : UAFundamentalParameter.Since o x) : UAFundamentalParameter.parse x = UAFundamentalParameter.parse o := by
  rfl

theorem UAFundamentalParameter.blind : Blind (UAFundamentalParameter.parse) := by
  intro o x
  unfold UAFundamentalParameter.parse
  refine .read fun _ => ?_
  refine .read fun _ => ?_
  refine .read fun _ => ?_
  refine .read fun _ => ?_
  refine .read fun _ => ?_
  refine .read fun _ => ?_
  exact .pure trivial

theorem ExplosionDescriptor.Since.refl (o : ExplosionDescriptor) : ExplosionDescriptor.Since o o :=
  EntityType.Since.refl _

theorem ExplosionDescriptor.Since.trans {o x y : ExplosionDescriptor} (h : ExplosionDescriptor.Since o x) (g : ExplosionDescriptor.Since x y) : ExplosionDescriptor.Since o y :=
  EntityType.Since.trans h g

theorem ExplosionDescriptor.since  (o : ExplosionDescriptor) (s : InStream) : ExplosionDescriptor.Since o (ExplosionDescriptor.parseInto o s).2.1 := by
  refine (?_ : P.Keeps (ExplosionDescriptor.Since o) ExplosionDescriptor.parseInto) o s (.refl o)
  unfold ExplosionDescriptor.parseInto
  refine .call EntityType.since (fun _ _ h g => EntityType.Since.trans h g) ?_
  refine .read fun _ => ?_
  refine .set (fun _ h => h) ?_
  refine .read fun _ => ?_
  refine .set (fun _ h => h) ?_
  refine .read fun _ => ?_
  refine .set (fun _ h => h) ?_
  exact .pure

theorem ExplosionDescriptor.into (o : ExplosionDescriptor) : P.run ExplosionDescriptor.parseInto o = ExplosionDescriptor.parse o := by
  unfold ExplosionDescriptor.parseInto ExplosionDescriptor.parse
  simp (maxSteps := 1000000) only [P.run_pure, P.run_read, P.run_set, P.run_call, EntityType.into]

theorem ExplosionDescriptor.again {o x : ExplosionDescriptor} (h : ExplosionDescriptor.Since o x) : ExplosionDescriptor.parse x = ExplosionDescriptor.parse o := by
  unfold ExplosionDescriptor.parse
  simp only [EntityType.again h]

theorem ExplosionDescriptor.blind : Blind (ExplosionDescriptor.parse) := by
  intro o x
  unfold ExplosionDescriptor.parse
  refine .bind (EntityType.blind _ _) fun _ _ _ => ?_
  refine .read fun _ => ?_
  refine .read fun _ => ?_
  refine .read fun _ => ?_
  exact .pure trivial

theorem ClockTime.Since.refl (o : ClockTime) : ClockTime.Since o o :=
  trivial

theorem ClockTime.Since.trans {o x y : ClockTime} (h : ClockTime.Since o x) (g : ClockTime.Since x y) : ClockTime.Since o y :=
  trivial

theorem ClockTime.since  (o : ClockTime) (s : InStream) : ClockTime.Since o (ClockTime.parseInto o s).2.1 := by
  refine (?_ : P.Keeps (ClockTime.Since o) ClockTime.parseInto) o s (.refl o)
  unfold ClockTime.parseInto
  refine .read fun _ => ?_
  refine .set (fun _ h => h) ?_
  refine .read fun _ => ?_
  refine .set (fun _ h => h) ?_
  exact .pure

theorem ClockTime.into (o : ClockTime) : P.run ClockTime.parseInto o = ClockTime.parse o := by
  unfold ClockTime.parseInto ClockTime.parse
  simp (maxSteps := 1000000) only [P.run_pure, P.run_read, P.run_set]

theorem ClockTime.again {o x : ClockTime} (h : ClockTime.Since o x) : ClockTime.parse x = ClockTime.parse o := by
  rfl

theorem ClockTime.blind : Blind (ClockTime.parse) := by
  intro o x
  unfold ClockTime.parse
  refine .read fun _ => ?_
  refine .read fun _ => ?_
  exact .pure trivial

theorem SecondaryOperationalData.Since.refl (o : SecondaryOperationalData) : SecondaryOperationalData.Since o o :=
  trivial

theorem SecondaryOperationalData.Since.trans {o x y : SecondaryOperationalData} (h : SecondaryOperationalData.Since o x) (g : SecondaryOperationalData.Since x y) : SecondaryOperationalData.Since o y :=
  trivial

theorem SecondaryOperationalData.since  (o : SecondaryOperationalData) (s : InStream) : SecondaryOperationalData.Since o (SecondaryOperationalData.parseInto o s).2.1 := by
  refine (?_ : P.Keeps (SecondaryOperationalData.Since o) SecondaryOperationalData.parseInto) o s (.refl o)
  unfold SecondaryOperationalData.parseInto
  refine .read fun _ => ?_
  refine .set (fun _ h => h) ?_
  refine .read fun _ => ?_
  refine .set (fun _ h => h) ?_
  refine .read fun _ => ?_
  refine .set (fun _ h => h) ?_
  exact .pure

theorem SecondaryOperationalData.into (o : SecondaryOperationalData) : P.run SecondaryOperationalData.parseInto o = SecondaryOperationalData.parse o := by
  unfold SecondaryOperationalData.parseInto SecondaryOperationalData.parse
  simp (maxSteps := 1000000) only [P.run_pure, P.run_read, P.run_set]

theorem SecondaryOperationalData.again {o x : SecondaryOperationalData} (h : SecondaryOperationalData.Since o x) : SecondaryOperationalData.parse x = SecondaryOperationalData.parse o := by
  rfl

theorem SecondaryOperationalData.blind : Blind (SecondaryOperationalData.parse) := by
  intro o x
  unfold SecondaryOperationalData.parse
  refine .read fun _ => ?_
  refine .read fun _ => ?_
  refine .read fun _ => ?_
  exact .pure trivial

theorem EnvironmentType.Since.refl (o : EnvironmentType) : EnvironmentType.Since o o :=
  trivial

theorem EnvironmentType.Since.trans {o x y : EnvironmentType} (h : EnvironmentType.Since o x) (g : EnvironmentType.Since x y) : EnvironmentType.Since o y :=
  trivial

theorem EnvironmentType.since  (o : EnvironmentType) (s : InStream) : EnvironmentType.Since o (EnvironmentType.parseInto o s).2.1 := by
  refine (?_ : P.Keeps (EnvironmentType.Since o) EnvironmentType.parseInto) o s (.refl o)
  unfold EnvironmentType.parseInto
  refine .read fun _ => ?_
  refine .set (fun _ h => h) ?_
  refine .read fun _ => ?_
  refine .set (fun _ h => h) ?_
  refine .read fun _ => ?_
  refine .set (fun _ h => h) ?_
  refine .read fun _ => ?_
  refine .set (fun _ h => h) ?_
  refine .read fun _ => ?_
  refine .set (fun _ h => h) ?_
  refine .read fun _ => ?_
  refine .set (fun _ h => h) ?_
  refine .read fun _ => ?_
  refine .set (fun _ h => h) ?_
  exact .pure

theorem EnvironmentType.into (o : EnvironmentType) : P.run EnvironmentType.parseInto o = EnvironmentType.parse o := by
  unfold EnvironmentType.parseInto EnvironmentType.parse
  simp (maxSteps := 1000000) only [P.run_pure, P.run_read, P.run_set]

theorem EnvironmentType.again {o x : EnvironmentType} (h : EnvironmentType.Since o x) : EnvironmentType.parse x = EnvironmentType.parse o := by
  rfl

theorem EnvironmentType.blind : Blind (EnvironmentType.parse) := by
  intro o x
  unfold EnvironmentType.parse
  refine .read fun _ => ?_
  refine .read fun _ => ?_
  refine .read fun _ => ?_
  refine .read fun _ => ?_
  refine .read fun _ => ?_
  refine .read fun _ => ?_
  refine .read fun _ => ?_
  exact .pure trivial

theorem TotalRecordSets.Since.refl (o : TotalRecordSets) : TotalRecordSets.Since o o :=
  trivial

theorem TotalRecordSets.Since.trans {o x y : TotalRecordSets} (h : TotalRecordSets.Since o x) (g : TotalRecordSets.Since x y) : TotalRecordSets.Since o y :=
  trivial

theorem TotalRecordSets.since  (o : TotalRecordSets) (s : InStream) : TotalRecordSets.Since o (TotalRecordSets.parseInto o s).2.1 := by
  refine (?_ : P.Keeps (TotalRecordSets.Since o) TotalRecordSets.parseInto) o s (.refl o)
  unfold TotalRecordSets.parseInto
  refine .read fun _ => ?_
  refine .set (fun _ h => h) ?_
  refine .read fun _ => ?_
  refine .set (fun _ h => h) ?_
  exact .pure

theorem TotalRecordSets.into (o : TotalRecordSets) : P.run TotalRecordSets.parseInto o = TotalRecordSets.parse o := by
  unfold TotalRecordSets.parseInto TotalRecordSets.parse
  simp (maxSteps := 1000000) only [P.run_pure, P.run_read, P.run_set]

theorem TotalRecordSets.again {o x : TotalRecordSets} (h : TotalRecordSets.Since o x) : TotalRecordSets.parse x = TotalRecordSets.parse o := by
  rfl

theorem TotalRecordSets.blind : Blind (TotalRecordSets.parse) := by
  intro o x
  unfold TotalRecordSets.parse
  refine .read fun _ => ?_
  refine .read fun _ => ?_
  exact .pure trivial

theorem MineEntityIdentifier.Since.refl (o : MineEntityIdentifier) : MineEntityIdentifier.Since o o :=
  SimulationAddress.Since.refl _

theorem MineEntityIdentifier.Since.trans {o x y : MineEntityIdentifier} (h : MineEntityIdentifier.Since o x) (g : MineEntityIdentifier.Since x y) : MineEntityIdentifier.Since o y :=
  SimulationAddress.Since.trans h g

theorem MineEntityIdentifier.since  (o : MineEntityIdentifier) (s : InStream) : MineEntityIdentifier.Since o (MineEntityIdentifier.parseInto o s).2.1 := by
  refine (?_ : P.Keeps (MineEntityIdentifier.Since o) MineEntityIdentifier.parseInto) o s (.refl o)
  unfold MineEntityIdentifier.parseInto
  refine .call SimulationAddress.since (fun _ _ h g => SimulationAddress.Since.trans h g) ?_
  refine .read fun _ => ?_
  refine .set (fun _ h => h) ?_
  exact .pure

theorem MineEntityIdentifier.into (o : MineEntityIdentifier) : P.run MineEntityIdentifier.parseInto o = MineEntityIdentifier.parse o := by
  unfold MineEntityIdentifier.parseInto MineEntityIdentifier.parse
  simp (maxSteps := 1000000) only [P.run_pure, P.run_read, P.run_set, P.run_call, SimulationAddress.into]

theorem MineEntityIdentifier.again {o x : MineEntityIdentifier} (h : MineEntityIdentifier.Since o x) : MineEntityIdentifier.parse x = MineEntityIdentifier.parse o := by
  unfold MineEntityIdentifier.parse
  simp only [SimulationAddress.again h]

theorem MineEntityIdentifier.blind : Blind (MineEntityIdentifier.parse) := by
  intro o x
  unfold MineEntityIdentifier.parse
  refine .bind (SimulationAddress.blind _ _) fun _ _ _ => ?_
  refine .read fun _ => ?_
  exact .pure trivial

theorem Relationship.Since.refl (o : Relationship) : Relationship.Since o o :=
  trivial

theorem Relationship.Since.trans {o x y : Relationship} (h : Relationship.Since o x) (g : Relationship.Since x y) : Relationship.Since o y :=
  trivial

theorem Relationship.since  (o : Relationship) (s : InStream) : Relationship.Since o (Relationship.parseInto o s).2.1 := by
  refine (?_ : P.Keeps (Relationship.Since o) Relationship.parseInto) o s (.refl o)
  unfold Relationship.parseInto
  refine .read fun _ => ?_
  refine .set (fun _ h => h) ?_
  refine .read fun _ => ?_
  refine .set (fun _ h => h) ?_
  exact .pure

theorem Relationship.into (o : Relationship) : P.run Relationship.parseInto o = Relationship.parse o := by
  unfold Relationship.parseInto Relationship.parse
  simp (maxSteps := 1000000) only [P.run_pure, P.run_read, P.run_set]

theorem Relationship.again {o x : Relationship} (h : Relationship.Since o x) : Relationship.parse x = Relationship.parse o := by
  rfl

theorem Relationship.blind : Blind (Relationship.parse) := by
  intro o x
  unfold Relationship.parse
  refine .read fun _ => ?_
  refine .read fun _ => ?_
  exact .pure trivial

end Dis
