import Verif.Model.InPlace2
import Verif.Proof.InPlace1

/-!
# Parses in place, part 2

Generated by `tools/geninplace.py`.
-/

set_option linter.unusedVariables false
set_option linter.unusedSimpArgs false

namespace Dis

theorem EEFundamentalParameterData.Since.refl (o : EEFundamentalParameterData) : EEFundamentalParameterData.Since o o :=
  trivial

theorem EEFundamentalParameterData.Since.trans {o x y : EEFundamentalParameterData} (h : EEFundamentalParameterData.Since o x) (g : EEFundamentalParameterData.Since x y) : EEFundamentalParameterData.Since o y :=
  trivial

theorem EEFundamentalParameterData.since  (o : EEFundamentalParameterData) (s : InStream) : EEFundamentalParameterData.Since o (EEFundamentalParameterData.parseInto o s).2.1 := by
  refine (?_ : P.Keeps (EEFundamentalParameterData.Since o) EEFundamentalParameterData.parseInto) o s (.refl o)
  unfold EEFundamentalParameterData.parseInto
  refine .read fun _ => ?_
  refine .set (fun _ h => h) ?_
  refine .read fun _ => ?_
  refine .set (fun _ h => h) ?_
  refine .read fun _ => ?_
  refine .set (fun _ h => h) ?_
  refine .read fun _ => ?_
  refine .set (fun _ h => h) ?_
  refine .read fun _ => ?_
  refine .set (fun _ h => h) ?_
  refine .read fun _ => ?_
  refine .set (fun _ h => h) ?_
  refine .read fun _ => ?_
  refine .set (fun _ h => h) ?_
  refine .read fun _ => ?_
  refine .set (fun _ h => h) ?_
  refine .read fun _ => ?_
  refine .set (fun _ h => h) ?_
  refine .read fun _ => ?_
  refine .set (fun _ h => h) ?_
  exact .pure

theorem EEFundamentalParameterData.into (o : EEFundamentalParameterData) : P.run EEFundamentalParameterData.parseInto o = EEFundamentalParameterData.parse o := by
  unfold EEFundamentalParameterData.parseInto EEFundamentalParameterData.parse
  simp (maxSteps := 1000000) only [P.run_pure, P.run_read, P.run_set]

theorem EEFundamentalParameterData.again {o x : EEFundamentalParameterData} (h : EEFundamentalParameterData.Since o x) : EEFundamentalParameterData.parse x = EEFundamentalParameterData.parse o := by
  rfl

theorem EEFundamentalParameterData.blind : Blind (EEFundamentalParameterData.parse) := by
  intro o x
  unfold EEFundamentalParameterData.parse
  refine .read fun _ => ?_
  refine .read fun _ => ?_
  refine .read fun _ => ?_
  refine .read fun _ => ?_
  refine .read fun _ => ?_
  refine .read fun _ => ?_
  refine .read fun _ => ?_
  refine .read fun _ => ?_
  refine .read fun _ => ?_
  refine .read fun _ => ?_
  exact .pure trivial

theorem JammingTechnique.Since.refl (o : JammingTechnique) : JammingTechnique.Since o o :=
  trivial

theorem JammingTechnique.Since.trans {o x y : JammingTechnique} (h : JammingTechnique.Since o x) (g : JammingTechnique.Since x y) : JammingTechnique.Since o y :=
  trivial

theorem JammingTechnique.since  (o : JammingTechnique) (s : InStream) : JammingTechnique.Since o (JammingTechnique.parseInto o s).2.1 := by
  refine (?_ : P.Keeps (JammingTechnique.Since o) JammingTechnique.parseInto) o s (.refl o)
  unfold JammingTechnique.parseInto
  refine .read fun _ => ?_
  refine .set (fun _ h => h) ?_
  refine .read fun _ => ?_
  refine .set (fun _ h => h) ?_
  refine .read fun _ => ?_
  refine .set (fun _ h => h) ?_
  refine .read fun _ => ?_
  refine .set (fun _ h => h) ?_
  exact .pure

theorem JammingTechnique.into (o : JammingTechnique) : P.run JammingTechnique.parseInto o = JammingTechnique.parse o := by
  unfold JammingTechnique.parseInto JammingTechnique.parse
  simp (maxSteps := 1000000) only [P.run_pure, P.run_read, P.run_set]

theorem JammingTechnique.again {o x : JammingTechnique} (h : JammingTechnique.Since o x) : JammingTechnique.parse x = JammingTechnique.parse o := by
  rfl

theorem JammingTechnique.blind : Blind (JammingTechnique.parse) := by
  intro o x
  unfold JammingTechnique.parse
  refine .read fun _ => ?_
  refine .read fun _ => ?_
  refine .read fun _ => ?_
  refine .read fun _ => ?_
  exact .pure trivial

theorem VariableDatum.Since.refl (o : VariableDatum) : VariableDatum.Since o o :=
  List.prefix_refl _

theorem VariableDatum.Since.trans {o x y : VariableDatum} (h : VariableDatum.Since o x) (g : VariableDatum.Since x y) : VariableDatum.Since o y :=
  List.IsPrefix.trans (h) (g)

theorem VariableDatum.since  (o : VariableDatum) (s : InStream) : VariableDatum.Since o (VariableDatum.parseInto o s).2.1 := by
  refine (?_ : P.Keeps (VariableDatum.Since o) VariableDatum.parseInto) o s (.refl o)
  unfold VariableDatum.parseInto
  refine .read fun _ => ?_
  refine .set (fun _ h => h) ?_
  refine .read fun _ => ?_
  refine .set (fun _ h => h) ?_
  refine .appendReads (fun _ _ h => List.IsPrefix.trans (h) (List.prefix_append _ _)) ?_
  refine .read fun _ => ?_
  exact .pure

theorem VariableDatum.into (o : VariableDatum) : P.run VariableDatum.parseInto o = VariableDatum.parse o := by
  unfold VariableDatum.parseInto VariableDatum.parse
  simp (maxSteps := 1000000) (disch := exact ⟨fun _ _ => rfl, fun _ _ _ => rfl, fun _ => rfl⟩) only [P.run_pure, P.run_read, P.run_set, P.run_appendReads, VariableDatum.datumPaddingSizeInBits]

theorem VariableDatum.again {o x : VariableDatum} (h : VariableDatum.Since o x) : VariableDatum.parse (VariableDatum.trim o x) = VariableDatum.parse o := by
  unfold VariableDatum.parse VariableDatum.trim
  simp only [← List.prefix_iff_eq_take.mp (h), VariableDatum.datumPaddingSizeInBits]

theorem VariableDatum.blind : Blind (VariableDatum.parse) := by
  intro o x
  unfold VariableDatum.parse
  refine .read fun _ => ?_
  refine .read fun _ => ?_
  refine .read fun _ => ?_
  refine .read fun _ => ?_
  exact .pure trivial

theorem DatumSpecification.Since.refl (o : DatumSpecification) : DatumSpecification.Since o o :=
  ⟨List.prefix_refl _, List.prefix_refl _⟩

theorem DatumSpecification.Since.trans {o x y : DatumSpecification} (h : DatumSpecification.Since o x) (g : DatumSpecification.Since x y) : DatumSpecification.Since o y :=
  ⟨List.IsPrefix.trans (h.1) (g.1), List.IsPrefix.trans (h.2) (g.2)⟩

theorem DatumSpecification.since  (o : DatumSpecification) (s : InStream) : DatumSpecification.Since o (DatumSpecification.parseInto o s).2.1 := by
  refine (?_ : P.Keeps (DatumSpecification.Since o) DatumSpecification.parseInto) o s (.refl o)
  unfold DatumSpecification.parseInto
  refine .read fun _ => ?_
  refine .read fun _ => ?_
  refine .appendObjs (fun _ _ h => ⟨List.IsPrefix.trans (h.1) (List.prefix_append _ _), h.2⟩) ?_
  refine .appendObjs (fun _ _ h => ⟨h.1, List.IsPrefix.trans (h.2) (List.prefix_append _ _)⟩) ?_
  exact .pure

theorem DatumSpecification.into (o : DatumSpecification) : P.run DatumSpecification.parseInto o = DatumSpecification.parse o := by
  unfold DatumSpecification.parseInto DatumSpecification.parse
  simp (maxSteps := 1000000) (disch := exact ⟨fun _ _ => rfl, fun _ _ _ => rfl, fun _ => rfl⟩) only [P.run_pure, P.run_read, P.run_appendObjs, FixedDatum.into, VariableDatum.into]

theorem DatumSpecification.again {o x : DatumSpecification} (h : DatumSpecification.Since o x) : DatumSpecification.parse (DatumSpecification.trim o x) = DatumSpecification.parse o := by
  unfold DatumSpecification.parse DatumSpecification.trim
  simp only [← List.prefix_iff_eq_take.mp (h.1), ← List.prefix_iff_eq_take.mp (h.2)]

theorem DatumSpecification.blind : Blind (DatumSpecification.parse) := by
  intro o x
  unfold DatumSpecification.parse
  refine .read fun _ => ?_
  refine .read fun _ => ?_
  refine .read fun _ => ?_
  refine .read fun _ => ?_
  exact .pure trivial

theorem Expendable.Since.refl (o : Expendable) : Expendable.Since o o :=
  EntityType.Since.refl _

theorem Expendable.Since.trans {o x y : Expendable} (h : Expendable.Since o x) (g : Expendable.Since x y) : Expendable.Since o y :=
  EntityType.Since.trans h g

theorem Expendable.since  (o : Expendable) (s : InStream) : Expendable.Since o (Expendable.parseInto o s).2.1 := by
  refine (?_ : P.Keeps (Expendable.Since o) Expendable.parseInto) o s (.refl o)
  unfold Expendable.parseInto
  refine .call EntityType.since (fun _ _ h g => EntityType.Since.trans h g) ?_
  refine .read fun _ => ?_
  refine .set (fun _ h => h) ?_
  refine .read fun _ => ?_
  refine .set (fun _ h => h) ?_
  refine .read fun _ => ?_
  refine .set (fun _ h => h) ?_
  refine .read fun _ => ?_
  refine .set (fun _ h => h) ?_
  exact .pure

theorem Expendable.into (o : Expendable) : P.run Expendable.parseInto o = Expendable.parse o := by
  unfold Expendable.parseInto Expendable.parse
  simp (maxSteps := 1000000) only [P.run_pure, P.run_read, P.run_set, P.run_call, EntityType.into]

theorem Expendable.again {o x : Expendable} (h : Expendable.Since o x) : Expendable.parse x = Expendable.parse o := by
  unfold Expendable.parse
  simp only [EntityType.again h]

theorem Expendable.blind : Blind (Expendable.parse) := by
  intro o x
  unfold Expendable.parse
  refine .bind (EntityType.blind _ _) fun _ _ _ => ?_
  refine .read fun _ => ?_
  refine .read fun _ => ?_
  refine .read fun _ => ?_
  refine .read fun _ => ?_
  exact .pure trivial

theorem CommunicationsNodeID.Since.refl (o : CommunicationsNodeID) : CommunicationsNodeID.Since o o :=
  EntityIdentifier.Since.refl _

theorem CommunicationsNodeID.Since.trans {o x y : CommunicationsNodeID} (h : CommunicationsNodeID.Since o x) (g : CommunicationsNodeID.Since x y) : CommunicationsNodeID.Since o y :=
  EntityIdentifier.Since.trans h g

theorem CommunicationsNodeID.since  (o : CommunicationsNodeID) (s : InStream) : CommunicationsNodeID.Since o (CommunicationsNodeID.parseInto o s).2.1 := by
  refine (?_ : P.Keeps (CommunicationsNodeID.Since o) CommunicationsNodeID.parseInto) o s (.refl o)
  unfold CommunicationsNodeID.parseInto
  refine .call EntityIdentifier.since (fun _ _ h g => EntityIdentifier.Since.trans h g) ?_
  refine .read fun _ => ?_
  refine .set (fun _ h => h) ?_
  exact .pure

theorem CommunicationsNodeID.into (o : CommunicationsNodeID) : P.run CommunicationsNodeID.parseInto o = CommunicationsNodeID.parse o := by
  unfold CommunicationsNodeID.parseInto CommunicationsNodeID.parse
  simp (maxSteps := 1000000) only [P.run_pure, P.run_read, P.run_set, P.run_call, EntityIdentifier.into]

theorem CommunicationsNodeID.again {o x : CommunicationsNodeID} (h : CommunicationsNodeID.Since o x) : CommunicationsNodeID.parse x = CommunicationsNodeID.parse o := by
  unfold CommunicationsNodeID.parse
  simp only [EntityIdentifier.again h]

theorem CommunicationsNodeID.blind : Blind (CommunicationsNodeID.parse) := by
  intro o x
  unfold CommunicationsNodeID.parse
  refine .bind (EntityIdentifier.blind _ _) fun _ _ _ => ?_
  refine .read fun _ => ?_
  exact .pure trivial

theorem IOCommunicationsNode.Since.refl (o : IOCommunicationsNode) : IOCommunicationsNode.Since o o :=
  CommunicationsNodeID.Since.refl _

theorem IOCommunicationsNode.Since.trans {o x y : IOCommunicationsNode} (h : IOCommunicationsNode.Since o x) (g : IOCommunicationsNode.Since x y) : IOCommunicationsNode.Since o y :=
  CommunicationsNodeID.Since.trans h g

theorem IOCommunicationsNode.since  (o : IOCommunicationsNode) (s : InStream) : IOCommunicationsNode.Since o (IOCommunicationsNode.parseInto o s).2.1 := by
  refine (?_ : P.Keeps (IOCommunicationsNode.Since o) IOCommunicationsNode.parseInto) o s (.refl o)
  unfold IOCommunicationsNode.parseInto
  refine .read fun _ => ?_
  refine .set (fun _ h => h) ?_
  refine .read fun _ => ?_
  refine .set (fun _ h => h) ?_
  refine .read fun _ => ?_
  refine .set (fun _ h => h) ?_
  refine .read fun _ => ?_
  refine .set (fun _ h => h) ?_
  refine .call CommunicationsNodeID.since (fun _ _ h g => CommunicationsNodeID.Since.trans h g) ?_
  exact .pure

theorem IOCommunicationsNode.into (o : IOCommunicationsNode) : P.run IOCommunicationsNode.parseInto o = IOCommunicationsNode.parse o := by
  unfold IOCommunicationsNode.parseInto IOCommunicationsNode.parse
  simp (maxSteps := 1000000) only [P.run_pure, P.run_read, P.run_set, P.run_call, CommunicationsNodeID.into]

theorem IOCommunicationsNode.again {o x : IOCommunicationsNode} (h : IOCommunicationsNode.Since o x) : IOCommunicationsNode.parse x = IOCommunicationsNode.parse o := by
  unfold IOCommunicationsNode.parse
  simp only [CommunicationsNodeID.again h]

theorem IOCommunicationsNode.blind : Blind (IOCommunicationsNode.parse) := by
  intro o x
  unfold IOCommunicationsNode.parse
  refine .read fun _ => ?_
  refine .read fun _ => ?_
  refine .read fun _ => ?_
  refine .read fun _ => ?_
  refine .bind (CommunicationsNodeID.blind _ _) fun _ _ _ => ?_
  exact .pure trivial

theorem LinearSegmentParameter.Since.refl (o : LinearSegmentParameter) : LinearSegmentParameter.Since o o :=
  ⟨WorldCoordinates.Since.refl _, EulerAngles.Since.refl _⟩

theorem LinearSegmentParameter.Since.trans {o x y : LinearSegmentParameter} (h : LinearSegmentParameter.Since o x) (g : LinearSegmentParameter.Since x y) : LinearSegmentParameter.Since o y :=
  ⟨WorldCoordinates.Since.trans h.1 g.1, EulerAngles.Since.trans h.2 g.2⟩

theorem LinearSegmentParameter.since  (o : LinearSegmentParameter) (s : InStream) : LinearSegmentParameter.Since o (LinearSegmentParameter.parseInto o s).2.1 := by
  refine (?_ : P.Keeps (LinearSegmentParameter.Since o) LinearSegmentParameter.parseInto) o s (.refl o)
  unfold LinearSegmentParameter.parseInto
  refine .read fun _ => ?_
  refine .set (fun _ h => h) ?_
  refine .read fun _ => ?_
  refine .set (fun _ h => h) ?_
  refine .read fun _ => ?_
  refine .set (fun _ h => h) ?_
  refine .read fun _ => ?_
  refine .set (fun _ h => h) ?_
  refine .call WorldCoordinates.since (fun _ _ h g => ⟨WorldCoordinates.Since.trans h.1 g, h.2⟩) ?_
  refine .call EulerAngles.since (fun _ _ h g => ⟨h.1, EulerAngles.Since.trans h.2 g⟩) ?_
  refine .read fun _ => ?_
  refine .set (fun _ h => h) ?_
  refine .read fun _ => ?_
  refine .set (fun _ h => h) ?_
  refine .read fun _ => ?_
  refine .set (fun _ h => h) ?_
  refine .read fun _ => ?_
  refine .set (fun _ h => h) ?_
  refine .read fun _ => ?_
  refine .set (fun _ h => h) ?_
  exact .pure

theorem LinearSegmentParameter.into (o : LinearSegmentParameter) : P.run LinearSegmentParameter.parseInto o = LinearSegmentParameter.parse o := by
  unfold LinearSegmentParameter.parseInto LinearSegmentParameter.parse
  simp (maxSteps := 1000000) only [P.run_pure, P.run_read, P.run_set, P.run_call, EulerAngles.into, WorldCoordinates.into]

theorem LinearSegmentParameter.again {o x : LinearSegmentParameter} (h : LinearSegmentParameter.Since o x) : LinearSegmentParameter.parse x = LinearSegmentParameter.parse o := by
  unfold LinearSegmentParameter.parse
  simp only [WorldCoordinates.again h.1, EulerAngles.again h.2]

theorem LinearSegmentParameter.blind : Blind (LinearSegmentParameter.parse) := by
  intro o x
  unfold LinearSegmentParameter.parse
  refine .read fun _ => ?_
  refine .read fun _ => ?_
  refine .read fun _ => ?_
  refine .read fun _ => ?_
  refine .bind (WorldCoordinates.blind _ _) fun _ _ _ => ?_
  refine .bind (EulerAngles.blind _ _) fun _ _ _ => ?_
  refine .read fun _ => ?_
  refine .read fun _ => ?_
  refine .read fun _ => ?_
  refine .read fun _ => ?_
  refine .read fun _ => ?_
  exact .pure trivial

theorem SystemIdentifier.Since.refl (o : SystemIdentifier) : SystemIdentifier.Since o o :=
  ChangeOptions.Since.refl _

theorem SystemIdentifier.Since.trans {o x y : SystemIdentifier} (h : SystemIdentifier.Since o x) (g : SystemIdentifier.Since x y) : SystemIdentifier.Since o y :=
  ChangeOptions.Since.trans h g

theorem SystemIdentifier.since  (o : SystemIdentifier) (s : InStream) : SystemIdentifier.Since o (SystemIdentifier.parseInto o s).2.1 := by
  refine (?_ : P.Keeps (SystemIdentifier.Since o) SystemIdentifier.parseInto) o s (.refl o)
  unfold SystemIdentifier.parseInto
  refine .read fun _ => ?_
  refine .set (fun _ h => h) ?_
  refine .read fun _ => ?_
  refine .set (fun _ h => h) ?_
  refine .read fun _ => ?_
  refine .set (fun _ h => h) ?_
  refine .call ChangeOptions.since (fun _ _ h g => ChangeOptions.Since.trans h g) ?_
  exact .pure

theorem SystemIdentifier.into (o : SystemIdentifier) : P.run SystemIdentifier.parseInto o = SystemIdentifier.parse o := by
  unfold SystemIdentifier.parseInto SystemIdentifier.parse
  simp (maxSteps := 1000000) only [P.run_pure, P.run_read, P.run_set, P.run_call, ChangeOptions.into]

theorem SystemIdentifier.again {o x : SystemIdentifier} (h : SystemIdentifier.Since o x) : SystemIdentifier.parse x = SystemIdentifier.parse o := by
  unfold SystemIdentifier.parse
  simp only [ChangeOptions.again h]

theorem SystemIdentifier.blind : Blind (SystemIdentifier.parse) := by
  intro o x
  unfold SystemIdentifier.parse
  refine .read fun _ => ?_
  refine .read fun _ => ?_
  refine .read fun _ => ?_
  refine .bind (ChangeOptions.blind _ _) fun _ _ _ => ?_
  exact .pure trivial

theorem TrackJamData.Since.refl (o : TrackJamData) : TrackJamData.Since o o :=
  EntityIdentifier.Since.refl _

theorem TrackJamData.Since.trans {o x y : TrackJamData} (h : TrackJamData.Since o x) (g : TrackJamData.Since x y) : TrackJamData.Since o y :=
  EntityIdentifier.Since.trans h g

theorem TrackJamData.since  (o : TrackJamData) (s : InStream) : TrackJamData.Since o (TrackJamData.parseInto o s).2.1 := by
  refine (?_ : P.Keeps (TrackJamData.Since o) TrackJamData.parseInto) o s (.refl o)
  unfold TrackJamData.parseInto
  refine .call EntityIdentifier.since (fun _ _ h g => EntityIdentifier.Since.trans h g) ?_
  refine .read fun _ => ?_
  refine .set (fun _ h => h) ?_
  refine .read fun _ => ?_
  refine .set (fun _ h => h) ?_
  exact .pure

theorem TrackJamData.into (o : TrackJamData) : P.run TrackJamData.parseInto o = TrackJamData.parse o := by
  unfold TrackJamData.parseInto TrackJamData.parse
  simp (maxSteps := 1000000) only [P.run_pure, P.run_read, P.run_set, P.run_call, EntityIdentifier.into]

theorem TrackJamData.again {o x : TrackJamData} (h : TrackJamData.Since o x) : TrackJamData.parse x = TrackJamData.parse o := by
  unfold TrackJamData.parse
  simp only [EntityIdentifier.again h]

theorem TrackJamData.blind : Blind (TrackJamData.parse) := by
  intro o x
  unfold TrackJamData.parse
  refine .bind (EntityIdentifier.blind _ _) fun _ _ _ => ?_
  refine .read fun _ => ?_
  refine .read fun _ => ?_
  exact .pure trivial

theorem AggregateType.Since.refl (o : AggregateType) : AggregateType.Since o o :=
  trivial

theorem AggregateType.Since.trans {o x y : AggregateType} (h : AggregateType.Since o x) (g : AggregateType.Since x y) : AggregateType.Since o y :=
  trivial

theorem AggregateType.since  (o : AggregateType) (s : InStream) : AggregateType.Since o (AggregateType.parseInto o s).2.1 := by
  refine (?_ : P.Keeps (AggregateType.Since o) AggregateType.parseInto) o s (.refl o)
  unfold AggregateType.parseInto
  refine .read fun _ => ?_
  refine .set (fun _ h => h) ?_
  refine .read fun _ => ?_
  refine .set (fun _ h => h) ?_
  refine .read fun _ => ?_
  refine .set (fun _ h => h) ?_
  refine .read fun _ => ?_
  refine .set (fun _ h => h) ?_
  refine .read fun _ => ?_
  refine .set (fun _ h => h) ?_
  refine .read fun _ => ?_
  refine .set (fun _ h => h) ?_
  refine .read fun _ => ?_
  refine .set (fun _ h => h) ?_
  exact .pure

theorem AggregateType.into (o : AggregateType) : P.run AggregateType.parseInto o = AggregateType.parse o := by
  unfold AggregateType.parseInto AggregateType.parse
  simp (maxSteps := 1000000) only [P.run_pure, P.run_read, P.run_set]

theorem AggregateType.again {o x : AggregateType} (h : AggregateType.Since o x) : AggregateType.parse x = AggregateType.parse o := by
  rfl

theorem AggregateType.blind : Blind (AggregateType.parse) := by
  intro o x
  unfold AggregateType.parse
  refine .read fun _ => ?_
  refine .read fun _ => ?_
  refine .read fun _ => ?_
  refine .read fun _ => ?_
  refine .read fun _ => ?_
  refine .read fun _ => ?_
  refine .read fun _ => ?_
  exact .pure trivial

theorem SimulationIdentifier.Since.refl (o : SimulationIdentifier) : SimulationIdentifier.Since o o :=
  SimulationAddress.Since.refl _

theorem SimulationIdentifier.Since.trans {o x y : SimulationIdentifier} (h : SimulationIdentifier.Since o x) (g : SimulationIdentifier.Since x y) : SimulationIdentifier.Since o y :=
  SimulationAddress.Since.trans h g

theorem SimulationIdentifier.since  (o : SimulationIdentifier) (s : InStream) : SimulationIdentifier.Since o (SimulationIdentifier.parseInto o s).2.1 := by
  refine (?_ : P.Keeps (SimulationIdentifier.Since o) SimulationIdentifier.parseInto) o s (.refl o)
  unfold SimulationIdentifier.parseInto
  refine .call SimulationAddress.since (fun _ _ h g => SimulationAddress.Since.trans h g) ?_
  refine .read fun _ => ?_
  refine .set (fun _ h => h) ?_
  exact .pure

theorem SimulationIdentifier.into (o : SimulationIdentifier) : P.run SimulationIdentifier.parseInto o = SimulationIdentifier.parse o := by
  unfold SimulationIdentifier.parseInto SimulationIdentifier.parse
  simp (maxSteps := 1000000) only [P.run_pure, P.run_read, P.run_set, P.run_call, SimulationAddress.into]

theorem SimulationIdentifier.again {o x : SimulationIdentifier} (h : SimulationIdentifier.Since o x) : SimulationIdentifier.parse x = SimulationIdentifier.parse o := by
  unfold SimulationIdentifier.parse
  simp only [SimulationAddress.again h]

theorem SimulationIdentifier.blind : Blind (SimulationIdentifier.parse) := by
  intro o x
  unfold SimulationIdentifier.parse
  refine .bind (SimulationAddress.blind _ _) fun _ _ _ => ?_
  refine .read fun _ => ?_
  exact .pure trivial

theorem PduHeader.Since.refl (o : PduHeader) : PduHeader.Since o o :=
  trivial

theorem PduHeader.Since.trans {o x y : PduHeader} (h : PduHeader.Since o x) (g : PduHeader.Since x y) : PduHeader.Since o y :=
  trivial

theorem PduHeader.since  (o : PduHeader) (s : InStream) : PduHeader.Since o (PduHeader.parseInto o s).2.1 := by
  refine (?_ : P.Keeps (PduHeader.Since o) PduHeader.parseInto) o s (.refl o)
  unfold PduHeader.parseInto
  refine .read fun _ => ?_
  refine .set (fun _ h => h) ?_
  refine .read fun _ => ?_
  refine .set (fun _ h => h) ?_
  refine .read fun _ => ?_
  refine .set (fun _ h => h) ?_
  refine .read fun _ => ?_
  refine .set (fun _ h => h) ?_
  refine .read fun _ => ?_
  refine .set (fun _ h => h) ?_
  refine .read fun _ => ?_
  refine .set (fun _ h => h) ?_
  refine .read fun _ => ?_
  refine .set (fun _ h => h) ?_
  refine .read fun _ => ?_
  refine .set (fun _ h => h) ?_
  exact .pure

theorem PduHeader.into (o : PduHeader) : P.run PduHeader.parseInto o = PduHeader.parse o := by
  unfold PduHeader.parseInto PduHeader.parse
  simp (maxSteps := 1000000) only [P.run_pure, P.run_read, P.run_set]

theorem PduHeader.again {o x : PduHeader} (h : PduHeader.Since o x) : PduHeader.parse x = PduHeader.parse o := by
  rfl

theorem PduHeader.blind : Blind (PduHeader.parse) := by
  intro o x
  unfold PduHeader.parse
  refine .read fun _ => ?_
  refine .read fun _ => ?_
  refine .read fun _ => ?_
  refine .read fun _ => ?_
  refine .read fun _ => ?_
  refine .read fun _ => ?_
  refine .read fun _ => ?_
  refine .read fun _ => ?_
  exact .pure trivial

theorem SimulationManagementPduHeader.Since.refl (o : SimulationManagementPduHeader) : SimulationManagementPduHeader.Since o o :=
  ⟨PduHeader.Since.refl _, SimulationIdentifier.Since.refl _, SimulationIdentifier.Since.refl _⟩

theorem SimulationManagementPduHeader.Since.trans {o x y : SimulationManagementPduHeader} (h : SimulationManagementPduHeader.Since o x) (g : SimulationManagementPduHeader.Since x y) : SimulationManagementPduHeader.Since o y :=
  ⟨PduHeader.Since.trans h.1 g.1, SimulationIdentifier.Since.trans h.2.1 g.2.1, SimulationIdentifier.Since.trans h.2.2 g.2.2⟩

theorem SimulationManagementPduHeader.since  (o : SimulationManagementPduHeader) (s : InStream) : SimulationManagementPduHeader.Since o (SimulationManagementPduHeader.parseInto o s).2.1 := by
  refine (?_ : P.Keeps (SimulationManagementPduHeader.Since o) SimulationManagementPduHeader.parseInto) o s (.refl o)
  unfold SimulationManagementPduHeader.parseInto
  refine .call PduHeader.since (fun _ _ h g => ⟨PduHeader.Since.trans h.1 g, h.2.1, h.2.2⟩) ?_
  refine .call SimulationIdentifier.since (fun _ _ h g => ⟨h.1, SimulationIdentifier.Since.trans h.2.1 g, h.2.2⟩) ?_
  refine .call SimulationIdentifier.since (fun _ _ h g => ⟨h.1, h.2.1, SimulationIdentifier.Since.trans h.2.2 g⟩) ?_
  exact .pure

theorem SimulationManagementPduHeader.into (o : SimulationManagementPduHeader) : P.run SimulationManagementPduHeader.parseInto o = SimulationManagementPduHeader.parse o := by
  unfold SimulationManagementPduHeader.parseInto SimulationManagementPduHeader.parse
  simp (maxSteps := 1000000) only [P.run_pure, P.run_call, PduHeader.into, SimulationIdentifier.into]

theorem SimulationManagementPduHeader.again {o x : SimulationManagementPduHeader} (h : SimulationManagementPduHeader.Since o x) : SimulationManagementPduHeader.parse x = SimulationManagementPduHeader.parse o := by
  unfold SimulationManagementPduHeader.parse
  simp only [PduHeader.again h.1, SimulationIdentifier.again h.2.1, SimulationIdentifier.again h.2.2]

theorem SimulationManagementPduHeader.blind : Blind (SimulationManagementPduHeader.parse) := by
  intro o x
  unfold SimulationManagementPduHeader.parse
  refine .bind (PduHeader.blind _ _) fun _ _ _ => ?_
  refine .bind (SimulationIdentifier.blind _ _) fun _ _ _ => ?_
  refine .bind (SimulationIdentifier.blind _ _) fun _ _ _ => ?_
  exact .pure trivial

theorem BeamData.Since.refl (o : BeamData) : BeamData.Since o o :=
  trivial

theorem BeamData.Since.trans {o x y : BeamData} (h : BeamData.Since o x) (g : BeamData.Since x y) : BeamData.Since o y :=
  trivial

theorem BeamData.since  (o : BeamData) (s : InStream) : BeamData.Since o (BeamData.parseInto o s).2.1 := by
  refine (?_ : P.Keeps (BeamData.Since o) BeamData.parseInto) o s (.refl o)
  unfold BeamData.parseInto
  refine .read fun _ => ?_
  refine .set (fun _ h => h) ?_
  refine .read fun _ => ?_
  refine .set (fun _ h => h) ?_
  refine .read fun _ => ?_
  refine .set (fun _ h => h) ?_
  refine .read fun _ => ?_
  refine .set (fun _ h => h) ?_
  refine .read fun _ => ?_
  refine .set (fun _ h => h) ?_
  exact .pure

theorem BeamData.into (o : BeamData) : P.run BeamData.parseInto o = BeamData.parse o := by
  unfold BeamData.parseInto BeamData.parse
  simp (maxSteps := 1000000) only [P.run_pure, P.run_read, P.run_set]

theorem BeamData.again {o x : BeamData} (h : BeamData.Since o x) : BeamData.parse x = BeamData.parse o := by
  rfl

theorem BeamData.blind : Blind (BeamData.parse) := by
  intro o x
  unfold BeamData.parse
  refine .read fun _ => ?_
  refine .read fun _ => ?_
  refine .read fun _ => ?_
  refine .read fun _ => ?_
  refine .read fun _ => ?_
  exact .pure trivial

theorem EngineFuel.Since.refl (o : EngineFuel) : EngineFuel.Since o o :=
  trivial

theorem EngineFuel.Since.trans {o x y : EngineFuel} (h : EngineFuel.Since o x) (g : EngineFuel.Since x y) : EngineFuel.Since o y :=
  trivial

theorem EngineFuel.since  (o : EngineFuel) (s : InStream) : EngineFuel.Since o (EngineFuel.parseInto o s).2.1 := by
  refine (?_ : P.Keeps (EngineFuel.Since o) EngineFuel.parseInto) o s (.refl o)
  unfold EngineFuel.parseInto
  refine .read fun _ => ?_
  refine .set (fun _ h => h) ?_
  refine .read fun _ => ?_
  refine .set (fun _ h => h) ?_
  refine .read fun _ => ?_
  refine .set (fun _ h => h) ?_
  refine .read fun _ => ?_
  refine .set (fun _ h => h) ?_
  refine .read fun _ => ?_
  refine .set (fun _ h => h) ?_
  exact .pure

theorem EngineFuel.into (o : EngineFuel) : P.run EngineFuel.parseInto o = EngineFuel.parse o := by
  unfold EngineFuel.parseInto EngineFuel.parse
  simp (maxSteps := 1000000) only [P.run_pure, P.run_read, P.run_set]

theorem EngineFuel.again {o x : EngineFuel} (h : EngineFuel.Since o x) : EngineFuel.parse x = EngineFuel.parse o := by
  rfl

theorem EngineFuel.blind : Blind (EngineFuel.parse) := by
  intro o x
  unfold EngineFuel.parse
  refine .read fun _ => ?_
  refine .read fun _ => ?_
  refine .read fun _ => ?_
  refine .read fun _ => ?_
  refine .read fun _ => ?_
  exact .pure trivial

theorem IOEffect.Since.refl (o : IOEffect) : IOEffect.Since o o :=
  trivial

theorem IOEffect.Since.trans {o x y : IOEffect} (h : IOEffect.Since o x) (g : IOEffect.Since x y) : IOEffect.Since o y :=
  trivial

theorem IOEffect.since  (o : IOEffect) (s : InStream) : IOEffect.Since o (IOEffect.parseInto o s).2.1 := by
  refine (?_ : P.Keeps (IOEffect.Since o) IOEffect.parseInto) o s (.refl o)
  unfold IOEffect.parseInto
  refine .read fun _ => ?_
  refine .set (fun _ h => h) ?_
  refine .read fun _ => ?_
  refine .set (fun _ h => h) ?_
  refine .read fun _ => ?_
  refine .set (fun _ h => h) ?_
  refine .read fun _ => ?_
  refine .set (fun _ h => h) ?_
  refine .read fun _ => ?_
  refine .set (fun _ h => h) ?_
  refine .read fun _ => ?_
  refine .set (fun _ h => h) ?_
  refine .read fun _ => ?_
  refine .set (fun _ h => h) ?_
  refine .read fun _ => ?_
  refine .set (fun _ h => h) ?_
  refine .read fun _ => ?_
  refine .set (fun _ h => h) ?_
  exact .pure

theorem IOEffect.into (o : IOEffect) : P.run IOEffect.parseInto o = IOEffect.parse o := by
  unfold IOEffect.parseInto IOEffect.parse
  simp (maxSteps := 1000000) only [P.run_pure, P.run_read, P.run_set]

theorem IOEffect.again {o x : IOEffect} (h : IOEffect.Since o x) : IOEffect.parse x = IOEffect.parse o := by
  rfl

theorem IOEffect.blind : Blind (IOEffect.parse) := by
  intro o x
  unfold IOEffect.parse
  refine .read fun _ => ?_
  refine .read fun _ => ?_
  refine .read fun _ => ?_
  refine .read fun _ => ?_
  refine .read fun _ => ?_
  refine .read fun _ => ?_
  refine .read fun _ => ?_
  refine .read fun _ => ?_
  refine .read fun _ => ?_
  exact .pure trivial

theorem GridAxisDescriptorVariable.Since.refl (o : GridAxisDescriptorVariable) : GridAxisDescriptorVariable.Since o o :=
  List.prefix_refl _

theorem GridAxisDescriptorVariable.Since.trans {o x y : GridAxisDescriptorVariable} (h : GridAxisDescriptorVariable.Since o x) (g : GridAxisDescriptorVariable.Since x y) : GridAxisDescriptorVariable.Since o y :=
  List.IsPrefix.trans (h) (g)

theorem GridAxisDescriptorVariable.since  (o : GridAxisDescriptorVariable) (s : InStream) : GridAxisDescriptorVariable.Since o (GridAxisDescriptorVariable.parseInto o s).2.1 := by
  refine (?_ : P.Keeps (GridAxisDescriptorVariable.Since o) GridAxisDescriptorVariable.parseInto) o s (.refl o)
  unfold GridAxisDescriptorVariable.parseInto
  refine .read fun _ => ?_
  refine .set (fun _ h => h) ?_
  refine .read fun _ => ?_
  refine .set (fun _ h => h) ?_
  refine .read fun _ => ?_
  refine .set (fun _ h => h) ?_
  refine .read fun _ => ?_
  refine .set (fun _ h => h) ?_
  refine .read fun _ => ?_
  refine .set (fun _ h => h) ?_
  refine .read fun _ => ?_
  refine .set (fun _ h => h) ?_
  refine .read fun _ => ?_
  refine .set (fun _ h => h) ?_
  refine .read fun _ => ?_
  refine .set (fun _ h => h) ?_
  refine .read fun _ => ?_
  refine .set (fun _ h => h) ?_
  refine .appendReads (fun _ _ h => List.IsPrefix.trans (h) (List.prefix_append _ _)) ?_
  exact .pure

theorem GridAxisDescriptorVariable.into (o : GridAxisDescriptorVariable) : P.run GridAxisDescriptorVariable.parseInto o = GridAxisDescriptorVariable.parse o := by
  unfold GridAxisDescriptorVariable.parseInto GridAxisDescriptorVariable.parse
  simp (maxSteps := 1000000) (disch := exact ⟨fun _ _ => rfl, fun _ _ _ => rfl, fun _ => rfl⟩) only [P.run_pure, P.run_read, P.run_set, P.run_appendReads]

theorem GridAxisDescriptorVariable.again {o x : GridAxisDescriptorVariable} (h : GridAxisDescriptorVariable.Since o x) : GridAxisDescriptorVariable.parse (GridAxisDescriptorVariable.trim o x) = GridAxisDescriptorVariable.parse o := by
  unfold GridAxisDescriptorVariable.parse GridAxisDescriptorVariable.trim
  simp only [← List.prefix_iff_eq_take.mp (h)]

theorem GridAxisDescriptorVariable.blind : Blind (GridAxisDescriptorVariable.parse) := by
  intro o x
  unfold GridAxisDescriptorVariable.parse
  refine .read fun _ => ?_
  refine .read fun _ => ?_
  refine .read fun _ => ?_
  refine .read fun _ => ?_
  refine .read fun _ => ?_
  refine .read fun _ => ?_
  refine .read fun _ => ?_
  refine .read fun _ => ?_
  refine .read fun _ => ?_
  refine .read fun _ => ?_
  exact .pure trivial

theorem SupplyQuantity.Since.refl (o : SupplyQuantity) : SupplyQuantity.Since o o :=
  EntityType.Since.refl _

theorem SupplyQuantity.Since.trans {o x y : SupplyQuantity} (h : SupplyQuantity.Since o x) (g : SupplyQuantity.Since x y) : SupplyQuantity.Since o y :=
  EntityType.Since.trans h g

theorem SupplyQuantity.since  (o : SupplyQuantity) (s : InStream) : SupplyQuantity.Since o (SupplyQuantity.parseInto o s).2.1 := by
  refine (?_ : P.Keeps (SupplyQuantity.Since o) SupplyQuantity.parseInto) o s (.refl o)
  unfold SupplyQuantity.parseInto
  refine .call EntityType.since (fun _ _ h g => EntityType.Since.trans h g) ?_
  refine .read fun _ => ?_
  refine .set (fun _ h => h) ?_
  exact .pure

theorem SupplyQuantity.into (o : SupplyQuantity) : P.run SupplyQuantity.parseInto o = SupplyQuantity.parse o := by
  unfold SupplyQuantity.parseInto SupplyQuantity.parse
  simp (maxSteps := 1000000) only [P.run_pure, P.run_read, P.run_set, P.run_call, EntityType.into]

theorem SupplyQuantity.again {o x : SupplyQuantity} (h : SupplyQuantity.Since o x) : SupplyQuantity.parse x = SupplyQuantity.parse o := by
  unfold SupplyQuantity.parse
  simp only [EntityType.again h]

theorem SupplyQuantity.blind : Blind (SupplyQuantity.parse) := by
  intro o x
  unfold SupplyQuantity.parse
  refine .bind (EntityType.blind _ _) fun _ _ _ => ?_
  refine .read fun _ => ?_
  exact .pure trivial

theorem SilentEntitySystem.Since.refl (o : SilentEntitySystem) : SilentEntitySystem.Since o o :=
  ⟨EntityType.Since.refl _, List.prefix_refl _⟩

theorem SilentEntitySystem.Since.trans {o x y : SilentEntitySystem} (h : SilentEntitySystem.Since o x) (g : SilentEntitySystem.Since x y) : SilentEntitySystem.Since o y :=
  ⟨EntityType.Since.trans h.1 g.1, List.IsPrefix.trans (h.2) (g.2)⟩

theorem SilentEntitySystem.since  (o : SilentEntitySystem) (s : InStream) : SilentEntitySystem.Since o (SilentEntitySystem.parseInto o s).2.1 := by
  refine (?_ : P.Keeps (SilentEntitySystem.Since o) SilentEntitySystem.parseInto) o s (.refl o)
  unfold SilentEntitySystem.parseInto
  refine .read fun _ => ?_
  refine .set (fun _ h => h) ?_
  refine .read fun _ => ?_
  refine .call EntityType.since (fun _ _ h g => ⟨EntityType.Since.trans h.1 g, h.2⟩) ?_
  refine .appendReads (fun _ _ h => ⟨h.1, List.IsPrefix.trans (h.2) (List.prefix_append _ _)⟩) ?_
  exact .pure

theorem SilentEntitySystem.into (o : SilentEntitySystem) : P.run SilentEntitySystem.parseInto o = SilentEntitySystem.parse o := by
  unfold SilentEntitySystem.parseInto SilentEntitySystem.parse
  simp (maxSteps := 1000000) (disch := exact ⟨fun _ _ => rfl, fun _ _ _ => rfl, fun _ => rfl⟩) only [P.run_pure, P.run_read, P.run_set, P.run_call, P.run_appendReads, EntityType.into]

theorem SilentEntitySystem.again {o x : SilentEntitySystem} (h : SilentEntitySystem.Since o x) : SilentEntitySystem.parse (SilentEntitySystem.trim o x) = SilentEntitySystem.parse o := by
  unfold SilentEntitySystem.parse SilentEntitySystem.trim
  simp only [EntityType.again h.1, ← List.prefix_iff_eq_take.mp (h.2)]

theorem SilentEntitySystem.blind : Blind (SilentEntitySystem.parse) := by
  intro o x
  unfold SilentEntitySystem.parse
  refine .read fun _ => ?_
  refine .read fun _ => ?_
  refine .bind (EntityType.blind _ _) fun _ _ _ => ?_
  refine .read fun _ => ?_
  exact .pure trivial

theorem SilentAggregateSystem.Since.refl (o : SilentAggregateSystem) : SilentAggregateSystem.Since o o :=
  ⟨AggregateType.Since.refl _, rfl⟩

theorem SilentAggregateSystem.Since.trans {o x y : SilentAggregateSystem} (h : SilentAggregateSystem.Since o x) (g : SilentAggregateSystem.Since x y) : SilentAggregateSystem.Since o y :=
  ⟨AggregateType.Since.trans h.1 g.1, Eq.trans (g.2) (h.2)⟩

theorem SilentAggregateSystem.since  (o : SilentAggregateSystem) (s : InStream) : SilentAggregateSystem.Since o (SilentAggregateSystem.parseInto o s).2.1 := by
  refine (?_ : P.Keeps (SilentAggregateSystem.Since o) SilentAggregateSystem.parseInto) o s (.refl o)
  unfold SilentAggregateSystem.parseInto
  refine .read fun _ => ?_
  refine .set (fun _ h => h) ?_
  refine .call AggregateType.since (fun _ _ h g => ⟨AggregateType.Since.trans h.1 g, h.2⟩) ?_
  exact .pure

theorem SilentAggregateSystem.into (o : SilentAggregateSystem) : P.run SilentAggregateSystem.parseInto o = SilentAggregateSystem.parse o := by
  unfold SilentAggregateSystem.parseInto SilentAggregateSystem.parse
  simp (maxSteps := 1000000) only [P.run_pure, P.run_read, P.run_set, P.run_call, AggregateType.into]

theorem SilentAggregateSystem.again {o x : SilentAggregateSystem} (h : SilentAggregateSystem.Since o x) : SilentAggregateSystem.parse x = SilentAggregateSystem.parse o := by
  unfold SilentAggregateSystem.parse
  simp only [AggregateType.again h.1, h.2]

theorem SilentAggregateSystem.blind : Blind (SilentAggregateSystem.parse) := by
  intro o x
  unfold SilentAggregateSystem.parse
  refine .read fun _ => ?_
  refine .bind (AggregateType.blind _ _) fun _ _ _ => ?_
  exact .pure trivial

theorem BlankingSector.Since.refl (o : BlankingSector) : BlankingSector.Since o o :=
  trivial

theorem BlankingSector.Since.trans {o x y : BlankingSector} (h : BlankingSector.Since o x) (g : BlankingSector.Since x y) : BlankingSector.Since o y :=
  trivial

theorem BlankingSector.since  (o : BlankingSector) (s : InStream) : BlankingSector.Since o (BlankingSector.parseInto o s).2.1 := by
  refine (?_ : P.Keeps (BlankingSector.Since o) BlankingSector.parseInto) o s (.refl o)
  unfold BlankingSector.parseInto
  refine .read fun _ => ?_
  refine .set (fun _ h => h) ?_
  refine .read fun _ => ?_
  refine .set (fun _ h => h) ?_
  refine .read fun _ => ?_
  refine .set (fun _ h => h) ?_
  refine .read fun _ => ?_
  refine .set (fun _ h => h) ?_
  refine .read fun _ => ?_
  refine .set (fun _ h => h) ?_
  refine .read fun _ => ?_
  refine .set (fun _ h => h) ?_
  refine .read fun _ => ?_
  refine .set (fun _ h => h) ?_
  refine .read fun _ => ?_
  refine .set (fun _ h => h) ?_
  refine .read fun _ => ?_
  refine .set (fun _ h => h) ?_
  refine .read fun _ => ?_
  refine .set (fun _ h => h) ?_
  refine .read fun _ => ?_
  refine .set (fun _ h => h) ?_
  refine .read fun _ => ?_
  refine .set (fun _ h => h) ?_
  refine .read fun _ => ?_
  refine .set (fun _ h => h) ?_
  refine .read fun _ => ?_
  refine .set (fun _ h => h) ?_
  exact .pure

theorem BlankingSector.into (o : BlankingSector) : P.run BlankingSector.parseInto o = BlankingSector.parse o := by
  unfold BlankingSector.parseInto BlankingSector.parse
  simp (maxSteps := 1000000) only [P.run_pure, P.run_read, P.run_set]

theorem BlankingSector.again {o x : BlankingSector} (h : BlankingSector.Since o x) : BlankingSector.parse x = BlankingSector.parse o := by
  rfl

theorem BlankingSector.blind : Blind (BlankingSector.parse) := by
  intro o x
  unfold BlankingSector.parse
  refine .read fun _ => ?_
  refine .read fun _ => ?_
  refine .read fun _ => ?_
  refine .read fun _ => ?_
  refine .read fun _ => ?_
  refine .read fun _ => ?_
  refine .read fun _ => ?_
  refine .read fun _ => ?_
  refine .read fun _ => ?_
  refine .read fun _ => ?_
  refine .read fun _ => ?_
  refine .read fun _ => ?_
  refine .read fun _ => ?_
  refine .read fun _ => ?_
  exact .pure trivial

theorem LaunchedMunitionRecord.Since.refl (o : LaunchedMunitionRecord) : LaunchedMunitionRecord.Since o o :=
  ⟨EventIdentifier.Since.refl _, EventIdentifier.Since.refl _, EventIdentifier.Since.refl _, WorldCoordinates.Since.refl _⟩

theorem LaunchedMunitionRecord.Since.trans {o x y : LaunchedMunitionRecord} (h : LaunchedMunitionRecord.Since o x) (g : LaunchedMunitionRecord.Since x y) : LaunchedMunitionRecord.Since o y :=
  ⟨EventIdentifier.Since.trans h.1 g.1, EventIdentifier.Since.trans h.2.1 g.2.1, EventIdentifier.Since.trans h.2.2.1 g.2.2.1, WorldCoordinates.Since.trans h.2.2.2 g.2.2.2⟩

theorem LaunchedMunitionRecord.since  (o : LaunchedMunitionRecord) (s : InStream) : LaunchedMunitionRecord.Since o (LaunchedMunitionRecord.parseInto o s).2.1 := by
  refine (?_ : P.Keeps (LaunchedMunitionRecord.Since o) LaunchedMunitionRecord.parseInto) o s (.refl o)
  unfold LaunchedMunitionRecord.parseInto
  refine .call EventIdentifier.since (fun _ _ h g => ⟨EventIdentifier.Since.trans h.1 g, h.2.1, h.2.2.1, h.2.2.2⟩) ?_
  refine .read fun _ => ?_
  refine .set (fun _ h => h) ?_
  refine .call EventIdentifier.since (fun _ _ h g => ⟨h.1, EventIdentifier.Since.trans h.2.1 g, h.2.2.1, h.2.2.2⟩) ?_
  refine .read fun _ => ?_
  refine .set (fun _ h => h) ?_
  refine .call EventIdentifier.since (fun _ _ h g => ⟨h.1, h.2.1, EventIdentifier.Since.trans h.2.2.1 g, h.2.2.2⟩) ?_
  refine .read fun _ => ?_
  refine .set (fun _ h => h) ?_
  refine .call WorldCoordinates.since (fun _ _ h g => ⟨h.1, h.2.1, h.2.2.1, WorldCoordinates.Since.trans h.2.2.2 g⟩) ?_
  exact .pure

theorem LaunchedMunitionRecord.into (o : LaunchedMunitionRecord) : P.run LaunchedMunitionRecord.parseInto o = LaunchedMunitionRecord.parse o := by
  unfold LaunchedMunitionRecord.parseInto LaunchedMunitionRecord.parse
  simp (maxSteps := 1000000) only [P.run_pure, P.run_read, P.run_set, P.run_call, EventIdentifier.into, WorldCoordinates.into]

theorem LaunchedMunitionRecord.again {o x : LaunchedMunitionRecord} (h : LaunchedMunitionRecord.Since o x) : LaunchedMunitionRecord.parse x = LaunchedMunitionRecord.parse o := by
  unfold LaunchedMunitionRecord.parse
  simp only [EventIdentifier.again h.1, EventIdentifier.again h.2.1, EventIdentifier.again h.2.2.1, WorldCoordinates.again h.2.2.2]

theorem LaunchedMunitionRecord.blind : Blind (LaunchedMunitionRecord.parse) := by
  intro o x
  unfold LaunchedMunitionRecord.parse
  refine .bind (EventIdentifier.blind _ _) fun _ _ _ => ?_
  refine .read fun _ => ?_
  refine .bind (EventIdentifier.blind _ _) fun _ _ _ => ?_
  refine .read fun _ => ?_
  refine .bind (EventIdentifier.blind _ _) fun _ _ _ => ?_
  refine .read fun _ => ?_
  refine .bind (WorldCoordinates.blind _ _) fun _ _ _ => ?_
  exact .pure trivial

theorem IFFFundamentalParameterData.Since.refl (o : IFFFundamentalParameterData) : IFFFundamentalParameterData.Since o o :=
  trivial

theorem IFFFundamentalParameterData.Since.trans {o x y : IFFFundamentalParameterData} (h : IFFFundamentalParameterData.Since o x) (g : IFFFundamentalParameterData.Since x y) : IFFFundamentalParameterData.Since o y :=
  trivial

theorem IFFFundamentalParameterData.since  (o : IFFFundamentalParameterData) (s : InStream) : IFFFundamentalParameterData.Since o (IFFFundamentalParameterData.parseInto o s).2.1 := by
  refine (?_ : P.Keeps (IFFFundamentalParameterData.Since o) IFFFundamentalParameterData.parseInto) o s (.refl o)
  unfold IFFFundamentalParameterData.parseInto
  refine .read fun _ => ?_
  refine .set (fun _ h => h) ?_
  refine .read fun _ => ?_
  refine .set (fun _ h => h) ?_
  refine .read fun _ => ?_
  refine .set (fun _ h => h) ?_
  refine .read fun _ => ?_
  refine .set (fun _ h => h) ?_
  refine .read fun _ => ?_
  refine .set (fun _ h => h) ?_
  refine .read fun _ => ?_
  refine .set (fun _ h => h) ?_
  refine .fillReads (fun _ _ h => h) ?_
  exact .pure

theorem IFFFundamentalParameterData.into (o : IFFFundamentalParameterData) : P.run IFFFundamentalParameterData.parseInto o = IFFFundamentalParameterData.parse o := by
  unfold IFFFundamentalParameterData.parseInto IFFFundamentalParameterData.parse
  simp (maxSteps := 1000000) (disch := exact ⟨fun _ _ => rfl, fun _ _ _ => rfl, fun _ => rfl⟩) only [P.run_pure, P.run_read, P.run_set, P.run_fillReads]

theorem IFFFundamentalParameterData.again {o x : IFFFundamentalParameterData} (h : IFFFundamentalParameterData.Since o x) : IFFFundamentalParameterData.parse x = IFFFundamentalParameterData.parse o := by
  rfl

theorem IFFFundamentalParameterData.blind : Blind (IFFFundamentalParameterData.parse) := by
  intro o x
  unfold IFFFundamentalParameterData.parse
  refine .read fun _ => ?_
  refine .read fun _ => ?_
  refine .read fun _ => ?_
  refine .read fun _ => ?_
  refine .read fun _ => ?_
  refine .read fun _ => ?_
  refine .read fun _ => ?_
  exact .pure trivial

theorem FundamentalOperationalData.Since.refl (o : FundamentalOperationalData) : FundamentalOperationalData.Since o o :=
  trivial

theorem FundamentalOperationalData.Since.trans {o x y : FundamentalOperationalData} (h : FundamentalOperationalData.Since o x) (g : FundamentalOperationalData.Since x y) : FundamentalOperationalData.Since o y :=
  trivial

theorem FundamentalOperationalData.since  (o : FundamentalOperationalData) (s : InStream) : FundamentalOperationalData.Since o (FundamentalOperationalData.parseInto o s).2.1 := by
  refine (?_ : P.Keeps (FundamentalOperationalData.Since o) FundamentalOperationalData.parseInto) o s (.refl o)
  unfold FundamentalOperationalData.parseInto
  refine .read fun _ => ?_
  refine .set (fun _ h => h) ?_
  refine .read fun _ => ?_
  refine .set (fun _ h => h) ?_
  refine .read fun _ => ?_
  refine .set (fun _ h => h) ?_
  refine .read fun _ => ?_
  refine .set (fun _ h => h) ?_
  refine .read fun _ => ?_
  refine .set (fun _ h => h) ?_
  refine .read fun _ => ?_
  refine .set (fun _ h => h) ?_
  refine .read fun _ => ?_
  refine .set (fun _ h => h) ?_
  refine .read fun _ => ?_
  refine .set (fun _ h => h) ?_
  refine .read fun _ => ?_
  refine .set (fun _ h => h) ?_
  refine .read fun _ => ?_
  refine .set (fun _ h => h) ?_
  exact .pure

theorem FundamentalOperationalData.into (o : FundamentalOperationalData) : P.run FundamentalOperationalData.parseInto o = FundamentalOperationalData.parse o := by
  unfold FundamentalOperationalData.parseInto FundamentalOperationalData.parse
  simp (maxSteps := 1000000) only [P.run_pure, P.run_read, P.run_set]

theorem FundamentalOperationalData.again {o x : FundamentalOperationalData} (h : FundamentalOperationalData.Since o x) : FundamentalOperationalData.parse x = FundamentalOperationalData.parse o := by
  rfl

theorem FundamentalOperationalData.blind : Blind (FundamentalOperationalData.parse) := by
  intro o x
  unfold FundamentalOperationalData.parse
  refine .read fun _ => ?_
  refine .read fun _ => ?_
  refine .read fun _ => ?_
  refine .read fun _ => ?_
  refine .read fun _ => ?_
  refine .read fun _ => ?_
  refine .read fun _ => ?_
  refine .read fun _ => ?_
  refine .read fun _ => ?_
  refine .read fun _ => ?_
  exact .pure trivial

theorem IntercomCommunicationsParameters.Since.refl (o : IntercomCommunicationsParameters) : IntercomCommunicationsParameters.Since o o :=
  trivial

theorem IntercomCommunicationsParameters.Since.trans {o x y : IntercomCommunicationsParameters} (h : IntercomCommunicationsParameters.Since o x) (g : IntercomCommunicationsParameters.Since x y) : IntercomCommunicationsParameters.Since o y :=
  trivial

theorem IntercomCommunicationsParameters.since  (o : IntercomCommunicationsParameters) (s : InStream) : IntercomCommunicationsParameters.Since o (IntercomCommunicationsParameters.parseInto o s).2.1 := by
  refine (?_ : P.Keeps (IntercomCommunicationsParameters.Since o) IntercomCommunicationsParameters.parseInto) o s (.refl o)
  unfold IntercomCommunicationsParameters.parseInto
  refine .read fun _ => ?_
  refine .set (fun _ h => h) ?_
  refine .read fun _ => ?_
  refine .set (fun _ h => h) ?_
  refine .read fun _ => ?_
  refine .set (fun _ h => h) ?_
  exact .pure

theorem IntercomCommunicationsParameters.into (o : IntercomCommunicationsParameters) : P.run IntercomCommunicationsParameters.parseInto o = IntercomCommunicationsParameters.parse o := by
  unfold IntercomCommunicationsParameters.parseInto IntercomCommunicationsParameters.parse
  simp (maxSteps := 1000000) only [P.run_pure, P.run_read, P.run_set]

theorem IntercomCommunicationsParameters.again {o x : IntercomCommunicationsParameters} (h : IntercomCommunicationsParameters.Since o x) : IntercomCommunicationsParameters.parse x = IntercomCommunicationsParameters.parse o := by
  rfl

theorem IntercomCommunicationsParameters.blind : Blind (IntercomCommunicationsParameters.parse) := by
  intro o x
  unfold IntercomCommunicationsParameters.parse
  refine .read fun _ => ?_
  refine .read fun _ => ?_
  refine .read fun _ => ?_
  exact .pure trivial

theorem Munition.Since.refl (o : Munition) : Munition.Since o o :=
  EntityType.Since.refl _

theorem Munition.Since.trans {o x y : Munition} (h : Munition.Since o x) (g : Munition.Since x y) : Munition.Since o y :=
  EntityType.Since.trans h g

theorem Munition.since  (o : Munition) (s : InStream) : Munition.Since o (Munition.parseInto o s).2.1 := by
  refine (?_ : P.Keeps (Munition.Since o) Munition.parseInto) o s (.refl o)
  unfold Munition.parseInto
  refine .call EntityType.since (fun _ _ h g => EntityType.Since.trans h g) ?_
  refine .read fun _ => ?_
  refine .set (fun _ h => h) ?_
  refine .read fun _ => ?_
  refine .set (fun _ h => h) ?_
  refine .read fun _ => ?_
  refine .set (fun _ h => h) ?_
  refine .read fun _ => ?_
  refine .set (fun _ h => h) ?_
  exact .pure

theorem Munition.into (o : Munition) : P.run Munition.parseInto o = Munition.parse o := by
  unfold Munition.parseInto Munition.parse
  simp (maxSteps := 1000000) only [P.run_pure, P.run_read, P.run_set, P.run_call, EntityType.into]

theorem Munition.again {o x : Munition} (h : Munition.Since o x) : Munition.parse x = Munition.parse o := by
  unfold Munition.parse
  simp only [EntityType.again h]

theorem Munition.blind : Blind (Munition.parse) := by
  intro o x
  unfold Munition.parse
  refine .bind (EntityType.blind _ _) fun _ _ _ => ?_
  refine .read fun _ => ?_
  refine .read fun _ => ?_
  refine .read fun _ => ?_
  refine .read fun _ => ?_
  exact .pure trivial

theorem StandardVariableSpecification.Since.refl (o : StandardVariableSpecification) : StandardVariableSpecification.Since o o :=
  List.prefix_refl _

theorem StandardVariableSpecification.Since.trans {o x y : StandardVariableSpecification} (h : StandardVariableSpecification.Since o x) (g : StandardVariableSpecification.Since x y) : StandardVariableSpecification.Since o y :=
  List.IsPrefix.trans (h) (g)

theorem StandardVariableSpecification.since  (o : StandardVariableSpecification) (s : InStream) : StandardVariableSpecification.Since o (StandardVariableSpecification.parseInto o s).2.1 := by
  refine (?_ : P.Keeps (StandardVariableSpecification.Since o) StandardVariableSpecification.parseInto) o s (.refl o)
  unfold StandardVariableSpecification.parseInto
  refine .read fun _ => ?_
  refine .appendReads (fun _ _ h => List.IsPrefix.trans (h) (List.prefix_append _ _)) ?_
  exact .pure

theorem StandardVariableSpecification.into (o : StandardVariableSpecification) : P.run StandardVariableSpecification.parseInto o = StandardVariableSpecification.parse o := by
  unfold StandardVariableSpecification.parseInto StandardVariableSpecification.parse
  simp (maxSteps := 1000000) (disch := exact ⟨fun _ _ => rfl, fun _ _ _ => rfl, fun _ => rfl⟩) only [P.run_pure, P.run_read, P.run_appendReads]

theorem StandardVariableSpecification.again {o x : StandardVariableSpecification} (h : StandardVariableSpecification.Since o x) : StandardVariableSpecification.parse (StandardVariableSpecification.trim o x) = StandardVariableSpecification.parse o := by
  unfold StandardVariableSpecification.parse StandardVariableSpecification.trim
  simp only [← List.prefix_iff_eq_take.mp (h)]

theorem StandardVariableSpecification.blind : Blind (StandardVariableSpecification.parse) := by
  intro o x
  unfold StandardVariableSpecification.parse
  refine .read fun _ => ?_
  refine .read fun _ => ?_
  exact .pure trivial

theorem Vector2Float.Since.refl (o : Vector2Float) : Vector2Float.Since o o :=
  trivial

theorem Vector2Float.Since.trans {o x y : Vector2Float} (h : Vector2Float.Since o x) (g : Vector2Float.Since x y) : Vector2Float.Since o y :=
  trivial

theorem Vector2Float.since  (o : Vector2Float) (s : InStream) : Vector2Float.Since o (Vector2Float.parseInto o s).2.1 := by
  refine (?_ : P.Keeps (Vector2Float.Since o) Vector2Float.parseInto) o s (.refl o)
  unfold Vector2Float.parseInto
  refine .read fun _ => ?_
  refine .set (fun _ h => h) ?_
  refine .read fun _ => ?_
  refine .set (fun _ h => h) ?_
  exact .pure

theorem Vector2Float.into (o : Vector2Float) : P.run Vector2Float.parseInto o = Vector2Float.parse o := by
  unfold Vector2Float.parseInto Vector2Float.parse
  simp (maxSteps := 1000000) only [P.run_pure, P.run_read, P.run_set]

theorem Vector2Float.again {o x : Vector2Float} (h : Vector2Float.Since o x) : Vector2Float.parse x = Vector2Float.parse o := by
  rfl

theorem Vector2Float.blind : Blind (Vector2Float.parse) := by
  intro o x
  unfold Vector2Float.parse
  refine .read fun _ => ?_
  refine .read fun _ => ?_
  exact .pure trivial

theorem Environment.Since.refl (o : Environment) : Environment.Since o o :=
  ⟨rfl, rfl⟩

theorem Environment.Since.trans {o x y : Environment} (h : Environment.Since o x) (g : Environment.Since x y) : Environment.Since o y :=
  ⟨Eq.trans (g.1) (h.1), Eq.trans (g.2) (h.2)⟩

theorem Environment.since  (o : Environment) (s : InStream) : Environment.Since o (Environment.parseInto o s).2.1 := by
  refine (?_ : P.Keeps (Environment.Since o) Environment.parseInto) o s (.refl o)
  unfold Environment.parseInto
  refine .read fun _ => ?_
  refine .set (fun _ h => h) ?_
  refine .read fun _ => ?_
  refine .set (fun _ h => h) ?_
  refine .read fun _ => ?_
  refine .set (fun _ h => h) ?_
  refine .read fun _ => ?_
  refine .set (fun _ h => h) ?_
  exact .pure

theorem Environment.into (o : Environment) : P.run Environment.parseInto o = Environment.parse o := by
  unfold Environment.parseInto Environment.parse
  simp (maxSteps := 1000000) only [P.run_pure, P.run_read, P.run_set]

theorem Environment.again {o x : Environment} (h : Environment.Since o x) : Environment.parse x = Environment.parse o := by
  unfold Environment.parse
  simp only [h.1, h.2]

theorem Environment.blind : Blind (Environment.parse) := by
  intro o x
  unfold Environment.parse
  refine .read fun _ => ?_
  refine .read fun _ => ?_
  refine .read fun _ => ?_
  refine .read fun _ => ?_
  exact .pure trivial

theorem AcousticEmitter.Since.refl (o : AcousticEmitter) : AcousticEmitter.Since o o :=
  trivial

theorem AcousticEmitter.Since.trans {o x y : AcousticEmitter} (h : AcousticEmitter.Since o x) (g : AcousticEmitter.Since x y) : AcousticEmitter.Since o y :=
  trivial

theorem AcousticEmitter.since  (o : AcousticEmitter) (s : InStream) : AcousticEmitter.Since o (AcousticEmitter.parseInto o s).2.1 := by
  refine (?_ : P.Keeps (AcousticEmitter.Since o) AcousticEmitter.parseInto) o s (.refl o)
  unfold AcousticEmitter.parseInto
  refine .read fun _ => ?_
  refine .set (fun _ h => h) ?_
  refine .read fun _ => ?_
  refine .set (fun _ h => h) ?_
  refine .read fun _ => ?_
  refine .set (fun _ h => h) ?_
  exact .pure

theorem AcousticEmitter.into (o : AcousticEmitter) : P.run AcousticEmitter.parseInto o = AcousticEmitter.parse o := by
  unfold AcousticEmitter.parseInto AcousticEmitter.parse
  simp (maxSteps := 1000000) only [P.run_pure, P.run_read, P.run_set]

theorem AcousticEmitter.again {o x : AcousticEmitter} (h : AcousticEmitter.Since o x) : AcousticEmitter.parse x = AcousticEmitter.parse o := by
  rfl

theorem AcousticEmitter.blind : Blind (AcousticEmitter.parse) := by
  intro o x
  unfold AcousticEmitter.parse
  refine .read fun _ => ?_
  refine .read fun _ => ?_
  refine .read fun _ => ?_
  exact .pure trivial

theorem AngularVelocityVector.Since.refl (o : AngularVelocityVector) : AngularVelocityVector.Since o o :=
  trivial

theorem AngularVelocityVector.Since.trans {o x y : AngularVelocityVector} (h : AngularVelocityVector.Since o x) (g : AngularVelocityVector.Since x y) : AngularVelocityVector.Since o y :=
  trivial

theorem AngularVelocityVector.since  (o : AngularVelocityVector) (s : InStream) : AngularVelocityVector.Since o (AngularVelocityVector.parseInto o s).2.1 := by
  refine (?_ : P.Keeps (AngularVelocityVector.Since o) AngularVelocityVector.parseInto) o s (.refl o)
  unfold AngularVelocityVector.parseInto
  refine .read fun _ => ?_
  refine .set (fun _ h => h) ?_
  refine .read fun _ => ?_
  refine .set (fun _ h => h) ?_
  refine .read fun _ => ?_
  refine .set (fun _ h => h) ?_
  exact .pure

theorem AngularVelocityVector.into (o : AngularVelocityVector) : P.run AngularVelocityVector.parseInto o = AngularVelocityVector.parse o := by
  unfold AngularVelocityVector.parseInto AngularVelocityVector.parse
  simp (maxSteps := 1000000) only [P.run_pure, P.run_read, P.run_set]

theorem AngularVelocityVector.again {o x : AngularVelocityVector} (h : AngularVelocityVector.Since o x) : AngularVelocityVector.parse x = AngularVelocityVector.parse o := by
  rfl

theorem AngularVelocityVector.blind : Blind (AngularVelocityVector.parse) := by
  intro o x
  unfold AngularVelocityVector.parse
  refine .read fun _ => ?_
  refine .read fun _ => ?_
  refine .read fun _ => ?_
  exact .pure trivial

theorem AggregateMarking.Since.refl (o : AggregateMarking) : AggregateMarking.Since o o :=
  trivial

theorem AggregateMarking.Since.trans {o x y : AggregateMarking} (h : AggregateMarking.Since o x) (g : AggregateMarking.Since x y) : AggregateMarking.Since o y :=
  trivial

theorem AggregateMarking.since  (o : AggregateMarking) (s : InStream) : AggregateMarking.Since o (AggregateMarking.parseInto o s).2.1 := by
  refine (?_ : P.Keeps (AggregateMarking.Since o) AggregateMarking.parseInto) o s (.refl o)
  unfold AggregateMarking.parseInto
  refine .read fun _ => ?_
  refine .set (fun _ h => h) ?_
  refine .fillReads (fun _ _ h => h) ?_
  exact .pure

theorem AggregateMarking.into (o : AggregateMarking) : P.run AggregateMarking.parseInto o = AggregateMarking.parse o := by
  unfold AggregateMarking.parseInto AggregateMarking.parse
  simp (maxSteps := 1000000) (disch := exact ⟨fun _ _ => rfl, fun _ _ _ => rfl, fun _ => rfl⟩) only [P.run_pure, P.run_read, P.run_set, P.run_fillReads]

theorem AggregateMarking.again {o x : AggregateMarking} (h : AggregateMarking.Since o x) : AggregateMarking.parse x = AggregateMarking.parse o := by
  rfl

theorem AggregateMarking.blind : Blind (AggregateMarking.parse) := by
  intro o x
  unfold AggregateMarking.parse
  refine .read fun _ => ?_
  refine .read fun _ => ?_
  exact .pure trivial

theorem DataFilterRecord.Since.refl (o : DataFilterRecord) : DataFilterRecord.Since o o :=
  trivial

theorem DataFilterRecord.Since.trans {o x y : DataFilterRecord} (h : DataFilterRecord.Since o x) (g : DataFilterRecord.Since x y) : DataFilterRecord.Since o y :=
  trivial

theorem DataFilterRecord.since  (o : DataFilterRecord) (s : InStream) : DataFilterRecord.Since o (DataFilterRecord.parseInto o s).2.1 := by
  refine (?_ : P.Keeps (DataFilterRecord.Since o) DataFilterRecord.parseInto) o s (.refl o)
  unfold DataFilterRecord.parseInto
  refine .read fun _ => ?_
  refine .set (fun _ h => h) ?_
  exact .pure

theorem DataFilterRecord.into (o : DataFilterRecord) : P.run DataFilterRecord.parseInto o = DataFilterRecord.parse o := by
  unfold DataFilterRecord.parseInto DataFilterRecord.parse
  simp (maxSteps := 1000000) only [P.run_pure, P.run_read, P.run_set]

theorem DataFilterRecord.again {o x : DataFilterRecord} (h : DataFilterRecord.Since o x) : DataFilterRecord.parse x = DataFilterRecord.parse o := by
  rfl

theorem DataFilterRecord.blind : Blind (DataFilterRecord.parse) := by
  intro o x
  unfold DataFilterRecord.parse
  refine .read fun _ => ?_
  exact .pure trivial

theorem IntercomIdentifier.Since.refl (o : IntercomIdentifier) : IntercomIdentifier.Since o o :=
  trivial

theorem IntercomIdentifier.Since.trans {o x y : IntercomIdentifier} (h : IntercomIdentifier.Since o x) (g : IntercomIdentifier.Since x y) : IntercomIdentifier.Since o y :=
  trivial

theorem IntercomIdentifier.since  (o : IntercomIdentifier) (s : InStream) : IntercomIdentifier.Since o (IntercomIdentifier.parseInto o s).2.1 := by
  refine (?_ : P.Keeps (IntercomIdentifier.Since o) IntercomIdentifier.parseInto) o s (.refl o)
  unfold IntercomIdentifier.parseInto
  refine .read fun _ => ?_
  refine .set (fun _ h => h) ?_
  refine .read fun _ => ?_
  refine .set (fun _ h => h) ?_
  refine .read fun _ => ?_
  refine .set (fun _ h => h) ?_
  refine .read fun _ => ?_
  refine .set (fun _ h => h) ?_
  exact .pure

theorem IntercomIdentifier.into (o : IntercomIdentifier) : P.run IntercomIdentifier.parseInto o = IntercomIdentifier.parse o := by
  unfold IntercomIdentifier.parseInto IntercomIdentifier.parse
  simp (maxSteps := 1000000) only [P.run_pure, P.run_read, P.run_set]

theorem IntercomIdentifier.again {o x : IntercomIdentifier} (h : IntercomIdentifier.Since o x) : IntercomIdentifier.parse x = IntercomIdentifier.parse o := by
  rfl

theorem IntercomIdentifier.blind : Blind (IntercomIdentifier.parse) := by
  intro o x
  unfold IntercomIdentifier.parse
  refine .read fun _ => ?_
  refine .read fun _ => ?_
  refine .read fun _ => ?_
  refine .read fun _ => ?_
  exact .pure trivial

theorem StorageFuel.Since.refl (o : StorageFuel) : StorageFuel.Since o o :=
  trivial

theorem StorageFuel.Since.trans {o x y : StorageFuel} (h : StorageFuel.Since o x) (g : StorageFuel.Since x y) : StorageFuel.Since o y :=
  trivial

theorem StorageFuel.since  (o : StorageFuel) (s : InStream) : StorageFuel.Since o (StorageFuel.parseInto o s).2.1 := by
  refine (?_ : P.Keeps (StorageFuel.Since o) StorageFuel.parseInto) o s (.refl o)
  unfold StorageFuel.parseInto
  refine .read fun _ => ?_
  refine .set (fun _ h => h) ?_
  refine .read fun _ => ?_
  refine .set (fun _ h => h) ?_
  refine .read fun _ => ?_
  refine .set (fun _ h => h) ?_
  refine .read fun _ => ?_
  refine .set (fun _ h => h) ?_
  refine .read fun _ => ?_
  refine .set (fun _ h => h) ?_
  exact .pure

theorem StorageFuel.into (o : StorageFuel) : P.run StorageFuel.parseInto o = StorageFuel.parse o := by
  unfold StorageFuel.parseInto StorageFuel.parse
  simp (maxSteps := 1000000) only [P.run_pure, P.run_read, P.run_set]

theorem StorageFuel.again {o x : StorageFuel} (h : StorageFuel.Since o x) : StorageFuel.parse x = StorageFuel.parse o := by
  rfl

theorem StorageFuel.blind : Blind (StorageFuel.parse) := by
  intro o x
  unfold StorageFuel.parse
  refine .read fun _ => ?_
  refine .read fun _ => ?_
  refine .read fun _ => ?_
  refine .read fun _ => ?_
  refine .read fun _ => ?_
  exact .pure trivial

theorem Sensor.Since.refl (o : Sensor) : Sensor.Since o o :=
  trivial

theorem Sensor.Since.trans {o x y : Sensor} (h : Sensor.Since o x) (g : Sensor.Since x y) : Sensor.Since o y :=
  trivial

theorem Sensor.since  (o : Sensor) (s : InStream) : Sensor.Since o (Sensor.parseInto o s).2.1 := by
  refine (?_ : P.Keeps (Sensor.Since o) Sensor.parseInto) o s (.refl o)
  unfold Sensor.parseInto
  refine .read fun _ => ?_
  refine .set (fun _ h => h) ?_
  refine .read fun _ => ?_
  refine .set (fun _ h => h) ?_
  refine .read fun _ => ?_
  refine .set (fun _ h => h) ?_
  refine .read fun _ => ?_
  refine .set (fun _ h => h) ?_
  refine .read fun _ => ?_
  refine .set (fun _ h => h) ?_
  refine .read fun _ => ?_
  refine .set (fun _ h => h) ?_
  exact .pure

theorem Sensor.into (o : Sensor) : P.run Sensor.parseInto o = Sensor.parse o := by
  unfold Sensor.parseInto Sensor.parse
  simp (maxSteps := 1000000) only [P.run_pure, P.run_read, P.run_set]

theorem Sensor.again {o x : Sensor} (h : Sensor.Since o x) : Sensor.parse x = Sensor.parse o := by
  rfl

theorem Sensor.blind : Blind (Sensor.parse) := by
  intro o x
  unfold Sensor.parse
  refine .read fun _ => ?_
  refine .read fun _ => ?_
  refine .read fun _ => ?_
  refine .read fun _ => ?_
  refine .read fun _ => ?_
  refine .read fun _ => ?_
  exact .pure trivial

theorem MunitionReload.Since.refl (o : MunitionReload) : MunitionReload.Since o o :=
  EntityType.Since.refl _

theorem MunitionReload.Since.trans {o x y : MunitionReload} (h : MunitionReload.Since o x) (g : MunitionReload.Since x y) : MunitionReload.Since o y :=
  EntityType.Since.trans h g

theorem MunitionReload.since  (o : MunitionReload) (s : InStream) : MunitionReload.Since o (MunitionReload.parseInto o s).2.1 := by
  refine (?_ : P.Keeps (MunitionReload.Since o) MunitionReload.parseInto) o s (.refl o)
  unfold MunitionReload.parseInto
  refine .call EntityType.since (fun _ _ h g => EntityType.Since.trans h g) ?_
  refine .read fun _ => ?_
  refine .set (fun _ h => h) ?_
  refine .read fun _ => ?_
  refine .set (fun _ h => h) ?_
  refine .read fun _ => ?_
  refine .set (fun _ h => h) ?_
  refine .read fun _ => ?_
  refine .set (fun _ h => h) ?_
  refine .read fun _ => ?_
  refine .set (fun _ h => h) ?_
  exact .pure

theorem MunitionReload.into (o : MunitionReload) : P.run MunitionReload.parseInto o = MunitionReload.parse o := by
  unfold MunitionReload.parseInto MunitionReload.parse
  simp (maxSteps := 1000000) only [P.run_pure, P.run_read, P.run_set, P.run_call, EntityType.into]

theorem MunitionReload.again {o x : MunitionReload} (h : MunitionReload.Since o x) : MunitionReload.parse x = MunitionReload.parse o := by
  unfold MunitionReload.parse
  simp only [EntityType.again h]

theorem MunitionReload.blind : Blind (MunitionReload.parse) := by
  intro o x
  unfold MunitionReload.parse
  refine .bind (EntityType.blind _ _) fun _ _ _ => ?_
  refine .read fun _ => ?_
  refine .read fun _ => ?_
  refine .read fun _ => ?_
  refine .read fun _ => ?_
  refine .read fun _ => ?_
  exact .pure trivial

theorem StorageFuelReload.Since.refl (o : StorageFuelReload) : StorageFuelReload.Since o o :=
  trivial

theorem StorageFuelReload.Since.trans {o x y : StorageFuelReload} (h : StorageFuelReload.Since o x) (g : StorageFuelReload.Since x y) : StorageFuelReload.Since o y :=
  trivial

theorem StorageFuelReload.since  (o : StorageFuelReload) (s : InStream) : StorageFuelReload.Since o (StorageFuelReload.parseInto o s).2.1 := by
  refine (?_ : P.Keeps (StorageFuelReload.Since o) StorageFuelReload.parseInto) o s (.refl o)
  unfold StorageFuelReload.parseInto
  refine .read fun _ => ?_
  refine .set (fun _ h => h) ?_
  refine .read fun _ => ?_
  refine .set (fun _ h => h) ?_
  refine .read fun _ => ?_
  refine .set (fun _ h => h) ?_
  refine .read fun _ => ?_
  refine .set (fun _ h => h) ?_
  refine .read fun _ => ?_
  refine .set (fun _ h => h) ?_
  refine .read fun _ => ?_
  refine .set (fun _ h => h) ?_
  refine .read fun _ => ?_
  refine .set (fun _ h => h) ?_
  refine .read fun _ => ?_
  refine .set (fun _ h => h) ?_
  exact .pure

theorem StorageFuelReload.into (o : StorageFuelReload) : P.run StorageFuelReload.parseInto o = StorageFuelReload.parse o := by
  unfold StorageFuelReload.parseInto StorageFuelReload.parse
  simp (maxSteps := 1000000) only [P.run_pure, P.run_read, P.run_set]

theorem StorageFuelReload.again {o x : StorageFuelReload} (h : StorageFuelReload.Since o x) : StorageFuelReload.parse x = StorageFuelReload.parse o := by
  rfl

theorem StorageFuelReload.blind : Blind (StorageFuelReload.parse) := by
  intro o x
  unfold StorageFuelReload.parse
  refine .read fun _ => ?_
  refine .read fun _ => ?_
  refine .read fun _ => ?_
  refine .read fun _ => ?_
  refine .read fun _ => ?_
  refine .read fun _ => ?_
  refine .read fun _ => ?_
  refine .read fun _ => ?_
  exact .pure trivial

theorem ExpendableReload.Since.refl (o : ExpendableReload) : ExpendableReload.Since o o :=
  EntityType.Since.refl _

theorem ExpendableReload.Since.trans {o x y : ExpendableReload} (h : ExpendableReload.Since o x) (g : ExpendableReload.Since x y) : ExpendableReload.Since o y :=
  EntityType.Since.trans h g

theorem ExpendableReload.since  (o : ExpendableReload) (s : InStream) : ExpendableReload.Since o (ExpendableReload.parseInto o s).2.1 := by
  refine (?_ : P.Keeps (ExpendableReload.Since o) ExpendableReload.parseInto) o s (.refl o)
  unfold ExpendableReload.parseInto
  refine .call EntityType.since (fun _ _ h g => EntityType.Since.trans h g) ?_
  refine .read fun _ => ?_
  refine .set (fun _ h => h) ?_
  refine .read fun _ => ?_
  refine .set (fun _ h => h) ?_
  refine .read fun _ => ?_
  refine .set (fun _ h => h) ?_
  refine .read fun _ => ?_
  refine .set (fun _ h => h) ?_
  refine .read fun _ => ?_
  refine .set (fun _ h => h) ?_
  exact .pure

theorem ExpendableReload.into (o : ExpendableReload) : P.run ExpendableReload.parseInto o = ExpendableReload.parse o := by
  unfold ExpendableReload.parseInto ExpendableReload.parse
  simp (maxSteps := 1000000) only [P.run_pure, P.run_read, P.run_set, P.run_call, EntityType.into]

theorem ExpendableReload.again {o x : ExpendableReload} (h : ExpendableReload.Since o x) : ExpendableReload.parse x = ExpendableReload.parse o := by
  unfold ExpendableReload.parse
  simp only [EntityType.again h]

theorem ExpendableReload.blind : Blind (ExpendableReload.parse) := by
  intro o x
  unfold ExpendableReload.parse
  refine .bind (EntityType.blind _ _) fun _ _ _ => ?_
  refine .read fun _ => ?_
  refine .read fun _ => ?_
  refine .read fun _ => ?_
  refine .read fun _ => ?_
  refine .read fun _ => ?_
  exact .pure trivial

theorem EngineFuelReload.Since.refl (o : EngineFuelReload) : EngineFuelReload.Since o o :=
  trivial

theorem EngineFuelReload.Since.trans {o x y : EngineFuelReload} (h : EngineFuelReload.Since o x) (g : EngineFuelReload.Since x y) : EngineFuelReload.Since o y :=
  trivial

theorem EngineFuelReload.since  (o : EngineFuelReload) (s : InStream) : EngineFuelReload.Since o (EngineFuelReload.parseInto o s).2.1 := by
  refine (?_ : P.Keeps (EngineFuelReload.Since o) EngineFuelReload.parseInto) o s (.refl o)
  unfold EngineFuelReload.parseInto
  refine .read fun _ => ?_
  refine .set (fun _ h => h) ?_
  refine .read fun _ => ?_
  refine .set (fun _ h => h) ?_
  refine .read fun _ => ?_
  refine .set (fun _ h => h) ?_
  refine .read fun _ => ?_
  refine .set (fun _ h => h) ?_
  refine .read fun _ => ?_
  refine .set (fun _ h => h) ?_
  refine .read fun _ => ?_
  refine .set (fun _ h => h) ?_
  refine .read fun _ => ?_
  refine .set (fun _ h => h) ?_
  exact .pure

theorem EngineFuelReload.into (o : EngineFuelReload) : P.run EngineFuelReload.parseInto o = EngineFuelReload.parse o := by
  unfold EngineFuelReload.parseInto EngineFuelReload.parse
  simp (maxSteps := 1000000) only [P.run_pure, P.run_read, P.run_set]

theorem EngineFuelReload.again {o x : EngineFuelReload} (h : EngineFuelReload.Since o x) : EngineFuelReload.parse x = EngineFuelReload.parse o := by
  rfl

theorem EngineFuelReload.blind : Blind (EngineFuelReload.parse) := by
  intro o x
  unfold EngineFuelReload.parse
  refine .read fun _ => ?_
  refine .read fun _ => ?_
  refine .read fun _ => ?_
  refine .read fun _ => ?_
  refine .read fun _ => ?_
  refine .read fun _ => ?_
  refine .read fun _ => ?_
  exact .pure trivial

theorem UnattachedIdentifier.Since.refl (o : UnattachedIdentifier) : UnattachedIdentifier.Since o o :=
  SimulationAddress.Since.refl _

theorem UnattachedIdentifier.Since.trans {o x y : UnattachedIdentifier} (h : UnattachedIdentifier.Since o x) (g : UnattachedIdentifier.Since x y) : UnattachedIdentifier.Since o y :=
  SimulationAddress.Since.trans h g

theorem UnattachedIdentifier.since  (o : UnattachedIdentifier) (s : InStream) : UnattachedIdentifier.Since o (UnattachedIdentifier.parseInto o s).2.1 := by
  refine (?_ : P.Keeps (UnattachedIdentifier.Since o) UnattachedIdentifier.parseInto) o s (.refl o)
  unfold UnattachedIdentifier.parseInto
  refine .call SimulationAddress.since (fun _ _ h g => SimulationAddress.Since.trans h g) ?_
  refine .read fun _ => ?_
  refine .set (fun _ h => h) ?_
  exact .pure

theorem UnattachedIdentifier.into (o : UnattachedIdentifier) : P.run UnattachedIdentifier.parseInto o = UnattachedIdentifier.parse o := by
  unfold UnattachedIdentifier.parseInto UnattachedIdentifier.parse
  simp (maxSteps := 1000000) only [P.run_pure, P.run_read, P.run_set, P.run_call, SimulationAddress.into]

theorem UnattachedIdentifier.again {o x : UnattachedIdentifier} (h : UnattachedIdentifier.Since o x) : UnattachedIdentifier.parse x = UnattachedIdentifier.parse o := by
  unfold UnattachedIdentifier.parse
  simp only [SimulationAddress.again h]

theorem UnattachedIdentifier.blind : Blind (UnattachedIdentifier.parse) := by
  intro o x
  unfold UnattachedIdentifier.parse
  refine .bind (SimulationAddress.blind _ _) fun _ _ _ => ?_
  refine .read fun _ => ?_
  exact .pure trivial

theorem EntityTypeVP.Since.refl (o : EntityTypeVP) : EntityTypeVP.Since o o :=
  EntityType.Since.refl _

theorem EntityTypeVP.Since.trans {o x y : EntityTypeVP} (h : EntityTypeVP.Since o x) (g : EntityTypeVP.Since x y) : EntityTypeVP.Since o y :=
  EntityType.Since.trans h g

theorem EntityTypeVP.since  (o : EntityTypeVP) (s : InStream) : EntityTypeVP.Since o (EntityTypeVP.parseInto o s).2.1 := by
  refine (?_ : P.Keeps (EntityTypeVP.Since o) EntityTypeVP.parseInto) o s (.refl o)
  unfold EntityTypeVP.parseInto
  refine .read fun _ => ?_
  refine .set (fun _ h => h) ?_
  refine .read fun _ => ?_
  refine .set (fun _ h => h) ?_
  refine .call EntityType.since (fun _ _ h g => EntityType.Since.trans h g) ?_
  refine .read fun _ => ?_
  refine .set (fun _ h => h) ?_
  refine .read fun _ => ?_
  refine .set (fun _ h => h) ?_
  exact .pure

theorem EntityTypeVP.into (o : EntityTypeVP) : P.run EntityTypeVP.parseInto o = EntityTypeVP.parse o := by
  unfold EntityTypeVP.parseInto EntityTypeVP.parse
  simp (maxSteps := 1000000) only [P.run_pure, P.run_read, P.run_set, P.run_call, EntityType.into]

theorem EntityTypeVP.again {o x : EntityTypeVP} (h : EntityTypeVP.Since o x) : EntityTypeVP.parse x = EntityTypeVP.parse o := by
  unfold EntityTypeVP.parse
  simp only [EntityType.again h]

theorem EntityTypeVP.blind : Blind (EntityTypeVP.parse) := by
  intro o x
  unfold EntityTypeVP.parse
  refine .read fun _ => ?_
  refine .read fun _ => ?_
  refine .bind (EntityType.blind _ _) fun _ _ _ => ?_
  refine .read fun _ => ?_
  refine .read fun _ => ?_
  exact .pure trivial

theorem BeamStatus.Since.refl (o : BeamStatus) : BeamStatus.Since o o :=
  trivial

theorem BeamStatus.Since.trans {o x y : BeamStatus} (h : BeamStatus.Since o x) (g : BeamStatus.Since x y) : BeamStatus.Since o y :=
  trivial

theorem BeamStatus.since  (o : BeamStatus) (s : InStream) : BeamStatus.Since o (BeamStatus.parseInto o s).2.1 := by
  refine (?_ : P.Keeps (BeamStatus.Since o) BeamStatus.parseInto) o s (.refl o)
  unfold BeamStatus.parseInto
  refine .read fun _ => ?_
  refine .set (fun _ h => h) ?_
  exact .pure

theorem BeamStatus.into (o : BeamStatus) : P.run BeamStatus.parseInto o = BeamStatus.parse o := by
  unfold BeamStatus.parseInto BeamStatus.parse
  simp (maxSteps := 1000000) only [P.run_pure, P.run_read, P.run_set]

theorem BeamStatus.again {o x : BeamStatus} (h : BeamStatus.Since o x) : BeamStatus.parse x = BeamStatus.parse o := by
  rfl

theorem BeamStatus.blind : Blind (BeamStatus.parse) := by
  intro o x
  unfold BeamStatus.parse
  refine .read fun _ => ?_
  exact .pure trivial

theorem EnvironmentGeneral.Since.refl (o : EnvironmentGeneral) : EnvironmentGeneral.Since o o :=
  rfl

theorem EnvironmentGeneral.Since.trans {o x y : EnvironmentGeneral} (h : EnvironmentGeneral.Since o x) (g : EnvironmentGeneral.Since x y) : EnvironmentGeneral.Since o y :=
  Eq.trans (g) (h)

theorem EnvironmentGeneral.since  (o : EnvironmentGeneral) (s : InStream) : EnvironmentGeneral.Since o (EnvironmentGeneral.parseInto o s).2.1 := by
  refine (?_ : P.Keeps (EnvironmentGeneral.Since o) EnvironmentGeneral.parseInto) o s (.refl o)
  unfold EnvironmentGeneral.parseInto
  refine .read fun _ => ?_
  refine .set (fun _ h => h) ?_
  refine .read fun _ => ?_
  refine .set (fun _ h => h) ?_
  refine .read fun _ => ?_
  refine .set (fun _ h => h) ?_
  refine .read fun _ => ?_
  refine .set (fun _ h => h) ?_
  refine .read fun _ => ?_
  refine .set (fun _ h => h) ?_
  refine .read fun _ => ?_
  refine .set (fun _ h => h) ?_
  exact .pure

theorem EnvironmentGeneral.into (o : EnvironmentGeneral) : P.run EnvironmentGeneral.parseInto o = EnvironmentGeneral.parse o := by
  unfold EnvironmentGeneral.parseInto EnvironmentGeneral.parse
  simp (maxSteps := 1000000) only [P.run_pure, P.run_read, P.run_set]

theorem EnvironmentGeneral.again {o x : EnvironmentGeneral} (h : EnvironmentGeneral.Since o x) : EnvironmentGeneral.parse x = EnvironmentGeneral.parse o := by
  unfold EnvironmentGeneral.parse
  simp only [h]

theorem EnvironmentGeneral.blind : Blind (EnvironmentGeneral.parse) := by
  intro o x
  unfold EnvironmentGeneral.parse
  refine .read fun _ => ?_
  refine .read fun _ => ?_
  refine .read fun _ => ?_
  refine .read fun _ => ?_
  refine .read fun _ => ?_
  refine .read fun _ => ?_
  exact .pure trivial

theorem GridAxis.Since.refl (o : GridAxis) : GridAxis.Since o o :=
  trivial

theorem GridAxis.Since.trans {o x y : GridAxis} (h : GridAxis.Since o x) (g : GridAxis.Since x y) : GridAxis.Since o y :=
  trivial

theorem GridAxis.since  (o : GridAxis) (s : InStream) : GridAxis.Since o (GridAxis.parseInto o s).2.1 := by
  refine (?_ : P.Keeps (GridAxis.Since o) GridAxis.parseInto) o s (.refl o)
  unfold GridAxis.parseInto
  refine .read fun _ => ?_
  refine .set (fun _ h => h) ?_
  refine .read fun _ => ?_
  refine .set (fun _ h => h) ?_
  refine .read fun _ => ?_
  refine .set (fun _ h => h) ?_
  refine .read fun _ => ?_
  refine .set (fun _ h => h) ?_
  refine .read fun _ => ?_
  refine .set (fun _ h => h) ?_
  refine .read fun _ => ?_
  refine .set (fun _ h => h) ?_
  refine .read fun _ => ?_
  refine .set (fun _ h => h) ?_
  exact .pure

theorem GridAxis.into (o : GridAxis) : P.run GridAxis.parseInto o = GridAxis.parse o := by
  unfold GridAxis.parseInto GridAxis.parse
  simp (maxSteps := 1000000) only [P.run_pure, P.run_read, P.run_set]

theorem GridAxis.again {o x : GridAxis} (h : GridAxis.Since o x) : GridAxis.parse x = GridAxis.parse o := by
  rfl

theorem GridAxis.blind : Blind (GridAxis.parse) := by
  intro o x
  unfold GridAxis.parse
  refine .read fun _ => ?_
  refine .read fun _ => ?_
  refine .read fun _ => ?_
  refine .read fun _ => ?_
  refine .read fun _ => ?_
  refine .read fun _ => ?_
  refine .read fun _ => ?_
  exact .pure trivial

theorem RecordSpecification.Since.refl (o : RecordSpecification) : RecordSpecification.Since o o :=
  List.prefix_refl _

theorem RecordSpecification.Since.trans {o x y : RecordSpecification} (h : RecordSpecification.Since o x) (g : RecordSpecification.Since x y) : RecordSpecification.Since o y :=
  List.IsPrefix.trans (h) (g)

theorem RecordSpecification.since  (o : RecordSpecification) (s : InStream) : RecordSpecification.Since o (RecordSpecification.parseInto o s).2.1 := by
  refine (?_ : P.Keeps (RecordSpecification.Since o) RecordSpecification.parseInto) o s (.refl o)
  unfold RecordSpecification.parseInto
  refine .read fun _ => ?_
  refine .appendReads (fun _ _ h => List.IsPrefix.trans (h) (List.prefix_append _ _)) ?_
  exact .pure

theorem RecordSpecification.into (o : RecordSpecification) : P.run RecordSpecification.parseInto o = RecordSpecification.parse o := by
  unfold RecordSpecification.parseInto RecordSpecification.parse
  simp (maxSteps := 1000000) (disch := exact ⟨fun _ _ => rfl, fun _ _ _ => rfl, fun _ => rfl⟩) only [P.run_pure, P.run_read, P.run_appendReads]

theorem RecordSpecification.again {o x : RecordSpecification} (h : RecordSpecification.Since o x) : RecordSpecification.parse (RecordSpecification.trim o x) = RecordSpecification.parse o := by
  unfold RecordSpecification.parse RecordSpecification.trim
  simp only [← List.prefix_iff_eq_take.mp (h)]

theorem RecordSpecification.blind : Blind (RecordSpecification.parse) := by
  intro o x
  unfold RecordSpecification.parse
  refine .read fun _ => ?_
  refine .read fun _ => ?_
  exact .pure trivial

theorem EventIdentifierLiveEntity.Since.refl (o : EventIdentifierLiveEntity) : EventIdentifierLiveEntity.Since o o :=
  trivial

theorem EventIdentifierLiveEntity.Since.trans {o x y : EventIdentifierLiveEntity} (h : EventIdentifierLiveEntity.Since o x) (g : EventIdentifierLiveEntity.Since x y) : EventIdentifierLiveEntity.Since o y :=
  trivial

theorem EventIdentifierLiveEntity.since  (o : EventIdentifierLiveEntity) (s : InStream) : EventIdentifierLiveEntity.Since o (EventIdentifierLiveEntity.parseInto o s).2.1 := by
  refine (?_ : P.Keeps (EventIdentifierLiveEntity.Since o) EventIdentifierLiveEntity.parseInto) o s (.refl o)
  unfold EventIdentifierLiveEntity.parseInto
  refine .read fun _ => ?_
  refine .set (fun _ h => h) ?_
  refine .read fun _ => ?_
  refine .set (fun _ h => h) ?_
  refine .read fun _ => ?_
  refine .set (fun _ h => h) ?_
  exact .pure

theorem EventIdentifierLiveEntity.into (o : EventIdentifierLiveEntity) : P.run EventIdentifierLiveEntity.parseInto o = EventIdentifierLiveEntity.parse o := by
  unfold EventIdentifierLiveEntity.parseInto EventIdentifierLiveEntity.parse
  simp (maxSteps := 1000000) only [P.run_pure, P.run_read, P.run_set]

theorem EventIdentifierLiveEntity.again {o x : EventIdentifierLiveEntity} (h : EventIdentifierLiveEntity.Since o x) : EventIdentifierLiveEntity.parse x = EventIdentifierLiveEntity.parse o := by
  rfl

theorem EventIdentifierLiveEntity.blind : Blind (EventIdentifierLiveEntity.parse) := by
  intro o x
  unfold EventIdentifierLiveEntity.parse
  refine .read fun _ => ?_
  refine .read fun _ => ?_
  refine .read fun _ => ?_
  exact .pure trivial

theorem ExpendableDescriptor.Since.refl (o : ExpendableDescriptor) : ExpendableDescriptor.Since o o :=
  EntityType.Since.refl _

theorem ExpendableDescriptor.Since.trans {o x y : ExpendableDescriptor} (h : ExpendableDescriptor.Since o x) (g : ExpendableDescriptor.Since x y) : ExpendableDescriptor.Since o y :=
  EntityType.Since.trans h g

theorem ExpendableDescriptor.since  (o : ExpendableDescriptor) (s : InStream) : ExpendableDescriptor.Since o (ExpendableDescriptor.parseInto o s).2.1 := by
  refine (?_ : P.Keeps (ExpendableDescriptor.Since o) ExpendableDescriptor.parseInto) o s (.refl o)
  unfold ExpendableDescriptor.parseInto
  refine .call EntityType.since (fun _ _ h g => EntityType.Since.trans h g) ?_
  refine .read fun _ => ?_
  refine .set (fun _ h => h) ?_
  exact .pure

theorem ExpendableDescriptor.into (o : ExpendableDescriptor) : P.run ExpendableDescriptor.parseInto o = ExpendableDescriptor.parse o := by
  unfold ExpendableDescriptor.parseInto ExpendableDescriptor.parse
  simp (maxSteps := 1000000) only [P.run_pure, P.run_read, P.run_set, P.run_call, EntityType.into]

theorem ExpendableDescriptor.again {o x : ExpendableDescriptor} (h : ExpendableDescriptor.Since o x) : ExpendableDescriptor.parse x = ExpendableDescriptor.parse o := by
  unfold ExpendableDescriptor.parse
  simp only [EntityType.again h]

theorem ExpendableDescriptor.blind : Blind (ExpendableDescriptor.parse) := by
  intro o x
  unfold ExpendableDescriptor.parse
  refine .bind (EntityType.blind _ _) fun _ _ _ => ?_
  refine .read fun _ => ?_
  exact .pure trivial

theorem PropulsionSystemData.Since.refl (o : PropulsionSystemData) : PropulsionSystemData.Since o o :=
  trivial

theorem PropulsionSystemData.Since.trans {o x y : PropulsionSystemData} (h : PropulsionSystemData.Since o x) (g : PropulsionSystemData.Since x y) : PropulsionSystemData.Since o y :=
  trivial

theorem PropulsionSystemData.since  (o : PropulsionSystemData) (s : InStream) : PropulsionSystemData.Since o (PropulsionSystemData.parseInto o s).2.1 := by
  refine (?_ : P.Keeps (PropulsionSystemData.Since o) PropulsionSystemData.parseInto) o s (.refl o)
  unfold PropulsionSystemData.parseInto
  refine .read fun _ => ?_
  refine .set (fun _ h => h) ?_
  refine .read fun _ => ?_
  refine .set (fun _ h => h) ?_
  exact .pure

theorem PropulsionSystemData.into (o : PropulsionSystemData) : P.run PropulsionSystemData.parseInto o = PropulsionSystemData.parse o := by
  unfold PropulsionSystemData.parseInto PropulsionSystemData.parse
  simp (maxSteps := 1000000) only [P.run_pure, P.run_read, P.run_set]

theorem PropulsionSystemData.again {o x : PropulsionSystemData} (h : PropulsionSystemData.Since o x) : PropulsionSystemData.parse x = PropulsionSystemData.parse o := by
  rfl

theorem PropulsionSystemData.blind : Blind (PropulsionSystemData.parse) := by
  intro o x
  unfold PropulsionSystemData.parse
  refine .read fun _ => ?_
  refine .read fun _ => ?_
  exact .pure trivial

end Dis
