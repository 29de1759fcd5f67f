import Verif.Model.InPlace3
import Verif.Proof.InPlace2

/-!
# Parses in place, part 3

Generated by `tools/geninplace.py`.
-/

set_option linter.unusedVariables false
set_option linter.unusedSimpArgs false

namespace Dis

theorem LiveEntityIdentifier.Since.refl (o : LiveEntityIdentifier) : LiveEntityIdentifier.Since o o :=
  LiveSimulationAddress.Since.refl _

theorem LiveEntityIdentifier.Since.trans {o x y : LiveEntityIdentifier} (h : LiveEntityIdentifier.Since o x) (g : LiveEntityIdentifier.Since x y) : LiveEntityIdentifier.Since o y :=
  LiveSimulationAddress.Since.trans h g

theorem LiveEntityIdentifier.since  (o : LiveEntityIdentifier) (s : InStream) : LiveEntityIdentifier.Since o (LiveEntityIdentifier.parseInto o s).2.1 := by
  refine (?_ : P.Keeps (LiveEntityIdentifier.Since o) LiveEntityIdentifier.parseInto) o s (.refl o)
  unfold LiveEntityIdentifier.parseInto
  refine .call LiveSimulationAddress.since (fun _ _ h g => LiveSimulationAddress.Since.trans h g) ?_
  refine .read fun _ => ?_
  refine .set (fun _ h => h) ?_
  exact .pure

theorem LiveEntityIdentifier.into (o : LiveEntityIdentifier) : P.run LiveEntityIdentifier.parseInto o = LiveEntityIdentifier.parse o := by
  unfold LiveEntityIdentifier.parseInto LiveEntityIdentifier.parse
  simp (maxSteps := 1000000) only [P.run_pure, P.run_read, P.run_set, P.run_call, LiveSimulationAddress.into]

theorem LiveEntityIdentifier.again {o x : LiveEntityIdentifier} (h : LiveEntityIdentifier.Since o x) : LiveEntityIdentifier.parse x = LiveEntityIdentifier.parse o := by
  unfold LiveEntityIdentifier.parse
  simp only [LiveSimulationAddress.again h]

theorem LiveEntityIdentifier.blind : Blind (LiveEntityIdentifier.parse) := by
  intro o x
  unfold LiveEntityIdentifier.parse
  refine .bind (LiveSimulationAddress.blind _ _) fun _ _ _ => ?_
  refine .read fun _ => ?_
  exact .pure trivial

theorem SeparationVP.Since.refl (o : SeparationVP) : SeparationVP.Since o o :=
  EntityIdentifier.Since.refl _

theorem SeparationVP.Since.trans {o x y : SeparationVP} (h : SeparationVP.Since o x) (g : SeparationVP.Since x y) : SeparationVP.Since o y :=
  EntityIdentifier.Since.trans h g

theorem SeparationVP.since  (o : SeparationVP) (s : InStream) : SeparationVP.Since o (SeparationVP.parseInto o s).2.1 := by
  refine (?_ : P.Keeps (SeparationVP.Since o) SeparationVP.parseInto) o s (.refl o)
  unfold SeparationVP.parseInto
  refine .read fun _ => ?_
  refine .set (fun _ h => h) ?_
  refine .read fun _ => ?_
  refine .set (fun _ h => h) ?_
  refine .read fun _ => ?_
  refine .set (fun _ h => h) ?_
  refine .read fun _ => ?_
  refine .set (fun _ h => h) ?_
  refine .call EntityIdentifier.since (fun _ _ h g => EntityIdentifier.Since.trans h g) ?_
  refine .read fun _ => ?_
  refine .set (fun _ h => h) ?_
  refine .read fun _ => ?_
  refine .set (fun _ h => h) ?_
  exact .pure

theorem SeparationVP.into (o : SeparationVP) : P.run SeparationVP.parseInto o = SeparationVP.parse o := by
  unfold SeparationVP.parseInto SeparationVP.parse
  simp (maxSteps := 1000000) only [P.run_pure, P.run_read, P.run_set, P.run_call, EntityIdentifier.into]

theorem SeparationVP.again {o x : SeparationVP} (h : SeparationVP.Since o x) : SeparationVP.parse x = SeparationVP.parse o := by
  unfold SeparationVP.parse
  simp only [EntityIdentifier.again h]

theorem SeparationVP.blind : Blind (SeparationVP.parse) := by
  intro o x
  unfold SeparationVP.parse
  refine .read fun _ => ?_
  refine .read fun _ => ?_
  refine .read fun _ => ?_
  refine .read fun _ => ?_
  refine .bind (EntityIdentifier.blind _ _) fun _ _ _ => ?_
  refine .read fun _ => ?_
  refine .read fun _ => ?_
  exact .pure trivial

theorem EmitterSystem.Since.refl (o : EmitterSystem) : EmitterSystem.Since o o :=
  trivial

theorem EmitterSystem.Since.trans {o x y : EmitterSystem} (h : EmitterSystem.Since o x) (g : EmitterSystem.Since x y) : EmitterSystem.Since o y :=
  trivial

theorem EmitterSystem.since  (o : EmitterSystem) (s : InStream) : EmitterSystem.Since o (EmitterSystem.parseInto o s).2.1 := by
  refine (?_ : P.Keeps (EmitterSystem.Since o) EmitterSystem.parseInto) o s (.refl o)
  unfold EmitterSystem.parseInto
  refine .read fun _ => ?_
  refine .set (fun _ h => h) ?_
  refine .read fun _ => ?_
  refine .set (fun _ h => h) ?_
  refine .read fun _ => ?_
  refine .set (fun _ h => h) ?_
  exact .pure

theorem EmitterSystem.into (o : EmitterSystem) : P.run EmitterSystem.parseInto o = EmitterSystem.parse o := by
  unfold EmitterSystem.parseInto EmitterSystem.parse
  simp (maxSteps := 1000000) only [P.run_pure, P.run_read, P.run_set]

theorem EmitterSystem.again {o x : EmitterSystem} (h : EmitterSystem.Since o x) : EmitterSystem.parse x = EmitterSystem.parse o := by
  rfl

theorem EmitterSystem.blind : Blind (EmitterSystem.parse) := by
  intro o x
  unfold EmitterSystem.parse
  refine .read fun _ => ?_
  refine .read fun _ => ?_
  refine .read fun _ => ?_
  exact .pure trivial

theorem PduStatus.Since.refl (o : PduStatus) : PduStatus.Since o o :=
  trivial

theorem PduStatus.Since.trans {o x y : PduStatus} (h : PduStatus.Since o x) (g : PduStatus.Since x y) : PduStatus.Since o y :=
  trivial

theorem PduStatus.since  (o : PduStatus) (s : InStream) : PduStatus.Since o (PduStatus.parseInto o s).2.1 := by
  refine (?_ : P.Keeps (PduStatus.Since o) PduStatus.parseInto) o s (.refl o)
  unfold PduStatus.parseInto
  refine .read fun _ => ?_
  refine .set (fun _ h => h) ?_
  exact .pure

theorem PduStatus.into (o : PduStatus) : P.run PduStatus.parseInto o = PduStatus.parse o := by
  unfold PduStatus.parseInto PduStatus.parse
  simp (maxSteps := 1000000) only [P.run_pure, P.run_read, P.run_set]

theorem PduStatus.again {o x : PduStatus} (h : PduStatus.Since o x) : PduStatus.parse x = PduStatus.parse o := by
  rfl

theorem PduStatus.blind : Blind (PduStatus.parse) := by
  intro o x
  unfold PduStatus.parse
  refine .read fun _ => ?_
  exact .pure trivial

theorem EmissionSystemBeamRecord.Since.refl (o : EmissionSystemBeamRecord) : EmissionSystemBeamRecord.Since o o :=
  ⟨EEFundamentalParameterData.Since.refl _, BeamStatus.Since.refl _, List.prefix_refl _⟩

theorem EmissionSystemBeamRecord.Since.trans {o x y : EmissionSystemBeamRecord} (h : EmissionSystemBeamRecord.Since o x) (g : EmissionSystemBeamRecord.Since x y) : EmissionSystemBeamRecord.Since o y :=
  ⟨EEFundamentalParameterData.Since.trans h.1 g.1, BeamStatus.Since.trans h.2.1 g.2.1, List.IsPrefix.trans (h.2.2) (g.2.2)⟩

theorem EmissionSystemBeamRecord.since  (o : EmissionSystemBeamRecord) (s : InStream) : EmissionSystemBeamRecord.Since o (EmissionSystemBeamRecord.parseInto o s).2.1 := by
  refine (?_ : P.Keeps (EmissionSystemBeamRecord.Since o) EmissionSystemBeamRecord.parseInto) o s (.refl o)
  unfold EmissionSystemBeamRecord.parseInto
  refine .read fun _ => ?_
  refine .set (fun _ h => h) ?_
  refine .read fun _ => ?_
  refine .set (fun _ h => h) ?_
  refine .read fun _ => ?_
  refine .set (fun _ h => h) ?_
  refine .call EEFundamentalParameterData.since (fun _ _ h g => ⟨EEFundamentalParameterData.Since.trans h.1 g, h.2.1, h.2.2⟩) ?_
  refine .read fun _ => ?_
  refine .set (fun _ h => h) ?_
  refine .read fun _ => ?_
  refine .read fun _ => ?_
  refine .set (fun _ h => h) ?_
  refine .call BeamStatus.since (fun _ _ h g => ⟨h.1, BeamStatus.Since.trans h.2.1 g, h.2.2⟩) ?_
  refine .read fun _ => ?_
  refine .set (fun _ h => h) ?_
  refine .appendObjs (fun _ _ h => ⟨h.1, h.2.1, List.IsPrefix.trans (h.2.2) (List.prefix_append _ _)⟩) ?_
  exact .pure

theorem EmissionSystemBeamRecord.into (o : EmissionSystemBeamRecord) : P.run EmissionSystemBeamRecord.parseInto o = EmissionSystemBeamRecord.parse o := by
  unfold EmissionSystemBeamRecord.parseInto EmissionSystemBeamRecord.parse
  simp (maxSteps := 1000000) (disch := exact ⟨fun _ _ => rfl, fun _ _ _ => rfl, fun _ => rfl⟩) only [P.run_pure, P.run_read, P.run_set, P.run_call, P.run_appendObjs, BeamStatus.into, EEFundamentalParameterData.into, TrackJamData.into]

theorem EmissionSystemBeamRecord.again {o x : EmissionSystemBeamRecord} (h : EmissionSystemBeamRecord.Since o x) : EmissionSystemBeamRecord.parse (EmissionSystemBeamRecord.trim o x) = EmissionSystemBeamRecord.parse o := by
  unfold EmissionSystemBeamRecord.parse EmissionSystemBeamRecord.trim
  simp only [EEFundamentalParameterData.again h.1, BeamStatus.again h.2.1, ← List.prefix_iff_eq_take.mp (h.2.2)]

theorem EmissionSystemBeamRecord.blind : Blind (EmissionSystemBeamRecord.parse) := by
  intro o x
  unfold EmissionSystemBeamRecord.parse
  refine .read fun _ => ?_
  refine .read fun _ => ?_
  refine .read fun _ => ?_
  refine .bind (EEFundamentalParameterData.blind _ _) fun _ _ _ => ?_
  refine .read fun _ => ?_
  refine .read fun _ => ?_
  refine .read fun _ => ?_
  refine .bind (BeamStatus.blind _ _) fun _ _ _ => ?_
  refine .read fun _ => ?_
  refine .read fun _ => ?_
  exact .pure trivial

theorem EmissionSystemRecord.Since.refl (o : EmissionSystemRecord) : EmissionSystemRecord.Since o o :=
  ⟨rfl, EmitterSystem.Since.refl _, Vector3Float.Since.refl _, List.prefix_refl _⟩

theorem EmissionSystemRecord.Since.trans {o x y : EmissionSystemRecord} (h : EmissionSystemRecord.Since o x) (g : EmissionSystemRecord.Since x y) : EmissionSystemRecord.Since o y :=
  ⟨Eq.trans (g.1) (h.1), EmitterSystem.Since.trans h.2.1 g.2.1, Vector3Float.Since.trans h.2.2.1 g.2.2.1, List.IsPrefix.trans (h.2.2.2) (g.2.2.2)⟩

theorem EmissionSystemRecord.since  (o : EmissionSystemRecord) (s : InStream) : EmissionSystemRecord.Since o (EmissionSystemRecord.parseInto o s).2.1 := by
  refine (?_ : P.Keeps (EmissionSystemRecord.Since o) EmissionSystemRecord.parseInto) o s (.refl o)
  unfold EmissionSystemRecord.parseInto
  refine .read fun _ => ?_
  refine .set (fun _ h => h) ?_
  refine .read fun _ => ?_
  refine .read fun _ => ?_
  refine .call EmitterSystem.since (fun _ _ h g => ⟨h.1, EmitterSystem.Since.trans h.2.1 g, h.2.2.1, h.2.2.2⟩) ?_
  refine .call Vector3Float.since (fun _ _ h g => ⟨h.1, h.2.1, Vector3Float.Since.trans h.2.2.1 g, h.2.2.2⟩) ?_
  refine .appendObjs (fun _ _ h => ⟨h.1, h.2.1, h.2.2.1, List.IsPrefix.trans (h.2.2.2) (List.prefix_append _ _)⟩) ?_
  exact .pure

theorem EmissionSystemRecord.into (o : EmissionSystemRecord) : P.run EmissionSystemRecord.parseInto o = EmissionSystemRecord.parse o := by
  unfold EmissionSystemRecord.parseInto EmissionSystemRecord.parse
  simp (maxSteps := 1000000) (disch := exact ⟨fun _ _ => rfl, fun _ _ _ => rfl, fun _ => rfl⟩) only [P.run_pure, P.run_read, P.run_set, P.run_call, P.run_appendObjs, EmissionSystemBeamRecord.into, EmitterSystem.into, Vector3Float.into]

theorem EmissionSystemRecord.again {o x : EmissionSystemRecord} (h : EmissionSystemRecord.Since o x) : EmissionSystemRecord.parse (EmissionSystemRecord.trim o x) = EmissionSystemRecord.parse o := by
  unfold EmissionSystemRecord.parse EmissionSystemRecord.trim
  simp only [h.1, EmitterSystem.again h.2.1, Vector3Float.again h.2.2.1, ← List.prefix_iff_eq_take.mp (h.2.2.2)]

theorem EmissionSystemRecord.blind : Blind (EmissionSystemRecord.parse) := by
  intro o x
  unfold EmissionSystemRecord.parse
  refine .read fun _ => ?_
  refine .read fun _ => ?_
  refine .read fun _ => ?_
  refine .bind (EmitterSystem.blind _ _) fun _ _ _ => ?_
  refine .bind (Vector3Float.blind _ _) fun _ _ _ => ?_
  refine .read fun _ => ?_
  exact .pure trivial

theorem PduSuperclass.Since.refl (o : PduSuperclass) : PduSuperclass.Since o o :=
  trivial

theorem PduSuperclass.Since.trans {o x y : PduSuperclass} (h : PduSuperclass.Since o x) (g : PduSuperclass.Since x y) : PduSuperclass.Since o y :=
  trivial

theorem PduSuperclass.since  (o : PduSuperclass) (s : InStream) : PduSuperclass.Since o (PduSuperclass.parseInto o s).2.1 := by
  refine (?_ : P.Keeps (PduSuperclass.Since o) PduSuperclass.parseInto) o s (.refl o)
  unfold PduSuperclass.parseInto
  refine .read fun _ => ?_
  refine .set (fun _ h => h) ?_
  refine .read fun _ => ?_
  refine .set (fun _ h => h) ?_
  refine .read fun _ => ?_
  refine .set (fun _ h => h) ?_
  refine .read fun _ => ?_
  refine .set (fun _ h => h) ?_
  refine .read fun _ => ?_
  refine .set (fun _ h => h) ?_
  refine .read fun _ => ?_
  refine .set (fun _ h => h) ?_
  exact .pure

theorem PduSuperclass.into (o : PduSuperclass) : P.run PduSuperclass.parseInto o = PduSuperclass.parse o := by
  unfold PduSuperclass.parseInto PduSuperclass.parse
  simp (maxSteps := 1000000) only [P.run_pure, P.run_read, P.run_set]

theorem PduSuperclass.again {o x : PduSuperclass} (h : PduSuperclass.Since o x) : PduSuperclass.parse x = PduSuperclass.parse o := by
  rfl

theorem PduSuperclass.blind : Blind (PduSuperclass.parse) := by
  intro o x
  unfold PduSuperclass.parse
  refine .read fun _ => ?_
  refine .read fun _ => ?_
  refine .read fun _ => ?_
  refine .read fun _ => ?_
  refine .read fun _ => ?_
  refine .read fun _ => ?_
  exact .pure trivial

theorem LiveEntityPdu.Since.refl (o : LiveEntityPdu) : LiveEntityPdu.Since o o :=
  PduSuperclass.Since.refl _

theorem LiveEntityPdu.Since.trans {o x y : LiveEntityPdu} (h : LiveEntityPdu.Since o x) (g : LiveEntityPdu.Since x y) : LiveEntityPdu.Since o y :=
  PduSuperclass.Since.trans h g

theorem LiveEntityPdu.since  (o : LiveEntityPdu) (s : InStream) : LiveEntityPdu.Since o (LiveEntityPdu.parseInto o s).2.1 := by
  refine (?_ : P.Keeps (LiveEntityPdu.Since o) LiveEntityPdu.parseInto) o s (.refl o)
  unfold LiveEntityPdu.parseInto
  refine .call PduSuperclass.since (fun _ _ h g => PduSuperclass.Since.trans h g) ?_
  refine .read fun _ => ?_
  refine .set (fun _ h => h) ?_
  refine .read fun _ => ?_
  refine .set (fun _ h => h) ?_
  exact .pure

theorem LiveEntityPdu.into (o : LiveEntityPdu) : P.run LiveEntityPdu.parseInto o = LiveEntityPdu.parse o := by
  unfold LiveEntityPdu.parseInto LiveEntityPdu.parse
  simp (maxSteps := 1000000) only [P.run_pure, P.run_read, P.run_set, P.run_call, PduSuperclass.into]

theorem LiveEntityPdu.again {o x : LiveEntityPdu} (h : LiveEntityPdu.Since o x) : LiveEntityPdu.parse x = LiveEntityPdu.parse o := by
  unfold LiveEntityPdu.parse
  simp only [PduSuperclass.again h]

theorem LiveEntityPdu.blind : Blind (LiveEntityPdu.parse) := by
  intro o x
  unfold LiveEntityPdu.parse
  refine .bind (PduSuperclass.blind _ _) fun _ _ _ => ?_
  refine .read fun _ => ?_
  refine .read fun _ => ?_
  exact .pure trivial

theorem Pdu.Since.refl (o : Pdu) : Pdu.Since o o :=
  PduSuperclass.Since.refl _

theorem Pdu.Since.trans {o x y : Pdu} (h : Pdu.Since o x) (g : Pdu.Since x y) : Pdu.Since o y :=
  PduSuperclass.Since.trans h g

theorem Pdu.since  (o : Pdu) (s : InStream) : Pdu.Since o (Pdu.parseInto o s).2.1 := by
  refine (?_ : P.Keeps (Pdu.Since o) Pdu.parseInto) o s (.refl o)
  unfold Pdu.parseInto
  refine .call PduSuperclass.since (fun _ _ h g => PduSuperclass.Since.trans h g) ?_
  refine .read fun _ => ?_
  refine .set (fun _ h => h) ?_
  refine .read fun _ => ?_
  refine .set (fun _ h => h) ?_
  exact .pure

theorem Pdu.into (o : Pdu) : P.run Pdu.parseInto o = Pdu.parse o := by
  unfold Pdu.parseInto Pdu.parse
  simp (maxSteps := 1000000) only [P.run_pure, P.run_read, P.run_set, P.run_call, PduSuperclass.into]

theorem Pdu.again {o x : Pdu} (h : Pdu.Since o x) : Pdu.parse x = Pdu.parse o := by
  unfold Pdu.parse
  simp only [PduSuperclass.again h]

theorem Pdu.blind : Blind (Pdu.parse) := by
  intro o x
  unfold Pdu.parse
  refine .bind (PduSuperclass.blind _ _) fun _ _ _ => ?_
  refine .read fun _ => ?_
  refine .read fun _ => ?_
  exact .pure trivial

theorem EntityInformationFamilyPdu.Since.refl (o : EntityInformationFamilyPdu) : EntityInformationFamilyPdu.Since o o :=
  Pdu.Since.refl _

theorem EntityInformationFamilyPdu.Since.trans {o x y : EntityInformationFamilyPdu} (h : EntityInformationFamilyPdu.Since o x) (g : EntityInformationFamilyPdu.Since x y) : EntityInformationFamilyPdu.Since o y :=
  Pdu.Since.trans h g

theorem EntityInformationFamilyPdu.since  (o : EntityInformationFamilyPdu) (s : InStream) : EntityInformationFamilyPdu.Since o (EntityInformationFamilyPdu.parseInto o s).2.1 := by
  refine (?_ : P.Keeps (EntityInformationFamilyPdu.Since o) EntityInformationFamilyPdu.parseInto) o s (.refl o)
  unfold EntityInformationFamilyPdu.parseInto
  refine .call Pdu.since (fun _ _ h g => Pdu.Since.trans h g) ?_
  exact .pure

theorem EntityInformationFamilyPdu.into (o : EntityInformationFamilyPdu) : P.run EntityInformationFamilyPdu.parseInto o = EntityInformationFamilyPdu.parse o := by
  unfold EntityInformationFamilyPdu.parseInto EntityInformationFamilyPdu.parse
  simp (maxSteps := 1000000) only [P.run_pure, P.run_call, Pdu.into]

theorem EntityInformationFamilyPdu.again {o x : EntityInformationFamilyPdu} (h : EntityInformationFamilyPdu.Since o x) : EntityInformationFamilyPdu.parse x = EntityInformationFamilyPdu.parse o := by
  unfold EntityInformationFamilyPdu.parse
  simp only [Pdu.again h]

theorem EntityInformationFamilyPdu.blind : Blind (EntityInformationFamilyPdu.parse) := by
  intro o x
  unfold EntityInformationFamilyPdu.parse
  refine .bind (Pdu.blind _ _) fun _ _ _ => ?_
  exact .pure trivial

theorem LogisticsFamilyPdu.Since.refl (o : LogisticsFamilyPdu) : LogisticsFamilyPdu.Since o o :=
  Pdu.Since.refl _

theorem LogisticsFamilyPdu.Since.trans {o x y : LogisticsFamilyPdu} (h : LogisticsFamilyPdu.Since o x) (g : LogisticsFamilyPdu.Since x y) : LogisticsFamilyPdu.Since o y :=
  Pdu.Since.trans h g

theorem LogisticsFamilyPdu.since  (o : LogisticsFamilyPdu) (s : InStream) : LogisticsFamilyPdu.Since o (LogisticsFamilyPdu.parseInto o s).2.1 := by
  refine (?_ : P.Keeps (LogisticsFamilyPdu.Since o) LogisticsFamilyPdu.parseInto) o s (.refl o)
  unfold LogisticsFamilyPdu.parseInto
  refine .call Pdu.since (fun _ _ h g => Pdu.Since.trans h g) ?_
  exact .pure

theorem LogisticsFamilyPdu.into (o : LogisticsFamilyPdu) : P.run LogisticsFamilyPdu.parseInto o = LogisticsFamilyPdu.parse o := by
  unfold LogisticsFamilyPdu.parseInto LogisticsFamilyPdu.parse
  simp (maxSteps := 1000000) only [P.run_pure, P.run_call, Pdu.into]

theorem LogisticsFamilyPdu.again {o x : LogisticsFamilyPdu} (h : LogisticsFamilyPdu.Since o x) : LogisticsFamilyPdu.parse x = LogisticsFamilyPdu.parse o := by
  unfold LogisticsFamilyPdu.parse
  simp only [Pdu.again h]

theorem LogisticsFamilyPdu.blind : Blind (LogisticsFamilyPdu.parse) := by
  intro o x
  unfold LogisticsFamilyPdu.parse
  refine .bind (Pdu.blind _ _) fun _ _ _ => ?_
  exact .pure trivial

theorem EntityStateUpdatePdu.Since.refl (o : EntityStateUpdatePdu) : EntityStateUpdatePdu.Since o o :=
  ⟨EntityInformationFamilyPdu.Since.refl _, EntityIdentifier.Since.refl _, Vector3Float.Since.refl _, WorldCoordinates.Since.refl _, EulerAngles.Since.refl _, List.prefix_refl _⟩

theorem EntityStateUpdatePdu.Since.trans {o x y : EntityStateUpdatePdu} (h : EntityStateUpdatePdu.Since o x) (g : EntityStateUpdatePdu.Since x y) : EntityStateUpdatePdu.Since o y :=
  ⟨EntityInformationFamilyPdu.Since.trans h.1 g.1, EntityIdentifier.Since.trans h.2.1 g.2.1, Vector3Float.Since.trans h.2.2.1 g.2.2.1, WorldCoordinates.Since.trans h.2.2.2.1 g.2.2.2.1, EulerAngles.Since.trans h.2.2.2.2.1 g.2.2.2.2.1, List.IsPrefix.trans (h.2.2.2.2.2) (g.2.2.2.2.2)⟩

theorem EntityStateUpdatePdu.since  (o : EntityStateUpdatePdu) (s : InStream) : EntityStateUpdatePdu.Since o (EntityStateUpdatePdu.parseInto o s).2.1 := by
  refine (?_ : P.Keeps (EntityStateUpdatePdu.Since o) EntityStateUpdatePdu.parseInto) o s (.refl o)
  unfold EntityStateUpdatePdu.parseInto
  refine .call EntityInformationFamilyPdu.since (fun _ _ h g => ⟨EntityInformationFamilyPdu.Since.trans h.1 g, h.2.1, h.2.2.1, h.2.2.2.1, h.2.2.2.2.1, h.2.2.2.2.2⟩) ?_
  refine .call EntityIdentifier.since (fun _ _ h g => ⟨h.1, EntityIdentifier.Since.trans h.2.1 g, h.2.2.1, h.2.2.2.1, h.2.2.2.2.1, h.2.2.2.2.2⟩) ?_
  refine .read fun _ => ?_
  refine .set (fun _ h => h) ?_
  refine .read fun _ => ?_
  refine .call Vector3Float.since (fun _ _ h g => ⟨h.1, h.2.1, Vector3Float.Since.trans h.2.2.1 g, h.2.2.2.1, h.2.2.2.2.1, h.2.2.2.2.2⟩) ?_
  refine .call WorldCoordinates.since (fun _ _ h g => ⟨h.1, h.2.1, h.2.2.1, WorldCoordinates.Since.trans h.2.2.2.1 g, h.2.2.2.2.1, h.2.2.2.2.2⟩) ?_
  refine .call EulerAngles.since (fun _ _ h g => ⟨h.1, h.2.1, h.2.2.1, h.2.2.2.1, EulerAngles.Since.trans h.2.2.2.2.1 g, h.2.2.2.2.2⟩) ?_
  refine .read fun _ => ?_
  refine .set (fun _ h => h) ?_
  refine .appendObjs (fun _ _ h => ⟨h.1, h.2.1, h.2.2.1, h.2.2.2.1, h.2.2.2.2.1, List.IsPrefix.trans (h.2.2.2.2.2) (List.prefix_append _ _)⟩) ?_
  exact .pure

theorem EntityStateUpdatePdu.into (o : EntityStateUpdatePdu) : P.run EntityStateUpdatePdu.parseInto o = EntityStateUpdatePdu.parse o := by
  unfold EntityStateUpdatePdu.parseInto EntityStateUpdatePdu.parse
  simp (maxSteps := 1000000) (disch := exact ⟨fun _ _ => rfl, fun _ _ _ => rfl, fun _ => rfl⟩) only [P.run_pure, P.run_read, P.run_set, P.run_call, P.run_appendObjs, EntityIdentifier.into, EntityInformationFamilyPdu.into, EulerAngles.into, VariableParameter.into, Vector3Float.into, WorldCoordinates.into]

theorem EntityStateUpdatePdu.again {o x : EntityStateUpdatePdu} (h : EntityStateUpdatePdu.Since o x) : EntityStateUpdatePdu.parse (EntityStateUpdatePdu.trim o x) = EntityStateUpdatePdu.parse o := by
  unfold EntityStateUpdatePdu.parse EntityStateUpdatePdu.trim
  simp only [EntityInformationFamilyPdu.again h.1, EntityIdentifier.again h.2.1, Vector3Float.again h.2.2.1, WorldCoordinates.again h.2.2.2.1, EulerAngles.again h.2.2.2.2.1, ← List.prefix_iff_eq_take.mp (h.2.2.2.2.2)]

theorem EntityStateUpdatePdu.blind : Blind (EntityStateUpdatePdu.parse) := by
  intro o x
  unfold EntityStateUpdatePdu.parse
  refine .bind (EntityInformationFamilyPdu.blind _ _) fun _ _ _ => ?_
  refine .bind (EntityIdentifier.blind _ _) fun _ _ _ => ?_
  refine .read fun _ => ?_
  refine .read fun _ => ?_
  refine .bind (Vector3Float.blind _ _) fun _ _ _ => ?_
  refine .bind (WorldCoordinates.blind _ _) fun _ _ _ => ?_
  refine .bind (EulerAngles.blind _ _) fun _ _ _ => ?_
  refine .read fun _ => ?_
  refine .read fun _ => ?_
  exact .pure trivial

theorem ServiceRequestPdu.Since.refl (o : ServiceRequestPdu) : ServiceRequestPdu.Since o o :=
  ⟨LogisticsFamilyPdu.Since.refl _, EntityIdentifier.Since.refl _, EntityIdentifier.Since.refl _, List.prefix_refl _⟩

theorem ServiceRequestPdu.Since.trans {o x y : ServiceRequestPdu} (h : ServiceRequestPdu.Since o x) (g : ServiceRequestPdu.Since x y) : ServiceRequestPdu.Since o y :=
  ⟨LogisticsFamilyPdu.Since.trans h.1 g.1, EntityIdentifier.Since.trans h.2.1 g.2.1, EntityIdentifier.Since.trans h.2.2.1 g.2.2.1, List.IsPrefix.trans (h.2.2.2) (g.2.2.2)⟩

theorem ServiceRequestPdu.since  (o : ServiceRequestPdu) (s : InStream) : ServiceRequestPdu.Since o (ServiceRequestPdu.parseInto o s).2.1 := by
  refine (?_ : P.Keeps (ServiceRequestPdu.Since o) ServiceRequestPdu.parseInto) o s (.refl o)
  unfold ServiceRequestPdu.parseInto
  refine .call LogisticsFamilyPdu.since (fun _ _ h g => ⟨LogisticsFamilyPdu.Since.trans h.1 g, h.2.1, h.2.2.1, h.2.2.2⟩) ?_
  refine .call EntityIdentifier.since (fun _ _ h g => ⟨h.1, EntityIdentifier.Since.trans h.2.1 g, h.2.2.1, h.2.2.2⟩) ?_
  refine .call EntityIdentifier.since (fun _ _ h g => ⟨h.1, h.2.1, EntityIdentifier.Since.trans h.2.2.1 g, h.2.2.2⟩) ?_
  refine .read fun _ => ?_
  refine .set (fun _ h => h) ?_
  refine .read fun _ => ?_
  refine .read fun _ => ?_
  refine .set (fun _ h => h) ?_
  refine .appendObjs (fun _ _ h => ⟨h.1, h.2.1, h.2.2.1, List.IsPrefix.trans (h.2.2.2) (List.prefix_append _ _)⟩) ?_
  exact .pure

theorem ServiceRequestPdu.into (o : ServiceRequestPdu) : P.run ServiceRequestPdu.parseInto o = ServiceRequestPdu.parse o := by
  unfold ServiceRequestPdu.parseInto ServiceRequestPdu.parse
  simp (maxSteps := 1000000) (disch := exact ⟨fun _ _ => rfl, fun _ _ _ => rfl, fun _ => rfl⟩) only [P.run_pure, P.run_read, P.run_set, P.run_call, P.run_appendObjs, EntityIdentifier.into, LogisticsFamilyPdu.into, SupplyQuantity.into]

theorem ServiceRequestPdu.again {o x : ServiceRequestPdu} (h : ServiceRequestPdu.Since o x) : ServiceRequestPdu.parse (ServiceRequestPdu.trim o x) = ServiceRequestPdu.parse o := by
  unfold ServiceRequestPdu.parse ServiceRequestPdu.trim
  simp only [LogisticsFamilyPdu.again h.1, EntityIdentifier.again h.2.1, EntityIdentifier.again h.2.2.1, ← List.prefix_iff_eq_take.mp (h.2.2.2)]

theorem ServiceRequestPdu.blind : Blind (ServiceRequestPdu.parse) := by
  intro o x
  unfold ServiceRequestPdu.parse
  refine .bind (LogisticsFamilyPdu.blind _ _) fun _ _ _ => ?_
  refine .bind (EntityIdentifier.blind _ _) fun _ _ _ => ?_
  refine .bind (EntityIdentifier.blind _ _) fun _ _ _ => ?_
  refine .read fun _ => ?_
  refine .read fun _ => ?_
  refine .read fun _ => ?_
  refine .read fun _ => ?_
  exact .pure trivial

theorem RepairCompletePdu.Since.refl (o : RepairCompletePdu) : RepairCompletePdu.Since o o :=
  ⟨LogisticsFamilyPdu.Since.refl _, EntityIdentifier.Since.refl _, EntityIdentifier.Since.refl _⟩

theorem RepairCompletePdu.Since.trans {o x y : RepairCompletePdu} (h : RepairCompletePdu.Since o x) (g : RepairCompletePdu.Since x y) : RepairCompletePdu.Since o y :=
  ⟨LogisticsFamilyPdu.Since.trans h.1 g.1, EntityIdentifier.Since.trans h.2.1 g.2.1, EntityIdentifier.Since.trans h.2.2 g.2.2⟩

theorem RepairCompletePdu.since  (o : RepairCompletePdu) (s : InStream) : RepairCompletePdu.Since o (RepairCompletePdu.parseInto o s).2.1 := by
  refine (?_ : P.Keeps (RepairCompletePdu.Since o) RepairCompletePdu.parseInto) o s (.refl o)
  unfold RepairCompletePdu.parseInto
  refine .call LogisticsFamilyPdu.since (fun _ _ h g => ⟨LogisticsFamilyPdu.Since.trans h.1 g, h.2.1, h.2.2⟩) ?_
  refine .call EntityIdentifier.since (fun _ _ h g => ⟨h.1, EntityIdentifier.Since.trans h.2.1 g, h.2.2⟩) ?_
  refine .call EntityIdentifier.since (fun _ _ h g => ⟨h.1, h.2.1, EntityIdentifier.Since.trans h.2.2 g⟩) ?_
  refine .read fun _ => ?_
  refine .set (fun _ h => h) ?_
  refine .read fun _ => ?_
  refine .set (fun _ h => h) ?_
  exact .pure

theorem RepairCompletePdu.into (o : RepairCompletePdu) : P.run RepairCompletePdu.parseInto o = RepairCompletePdu.parse o := by
  unfold RepairCompletePdu.parseInto RepairCompletePdu.parse
  simp (maxSteps := 1000000) only [P.run_pure, P.run_read, P.run_set, P.run_call, EntityIdentifier.into, LogisticsFamilyPdu.into]

theorem RepairCompletePdu.again {o x : RepairCompletePdu} (h : RepairCompletePdu.Since o x) : RepairCompletePdu.parse x = RepairCompletePdu.parse o := by
  unfold RepairCompletePdu.parse
  simp only [LogisticsFamilyPdu.again h.1, EntityIdentifier.again h.2.1, EntityIdentifier.again h.2.2]

theorem RepairCompletePdu.blind : Blind (RepairCompletePdu.parse) := by
  intro o x
  unfold RepairCompletePdu.parse
  refine .bind (LogisticsFamilyPdu.blind _ _) fun _ _ _ => ?_
  refine .bind (EntityIdentifier.blind _ _) fun _ _ _ => ?_
  refine .bind (EntityIdentifier.blind _ _) fun _ _ _ => ?_
  refine .read fun _ => ?_
  refine .read fun _ => ?_
  exact .pure trivial

theorem SyntheticEnvironmentFamilyPdu.Since.refl (o : SyntheticEnvironmentFamilyPdu) : SyntheticEnvironmentFamilyPdu.Since o o :=
  Pdu.Since.refl _

theorem SyntheticEnvironmentFamilyPdu.Since.trans {o x y : SyntheticEnvironmentFamilyPdu} (h : SyntheticEnvironmentFamilyPdu.Since o x) (g : SyntheticEnvironmentFamilyPdu.Since x y) : SyntheticEnvironmentFamilyPdu.Since o y :=
  Pdu.Since.trans h g

theorem SyntheticEnvironmentFamilyPdu.since  (o : SyntheticEnvironmentFamilyPdu) (s : InStream) : SyntheticEnvironmentFamilyPdu.Since o (SyntheticEnvironmentFamilyPdu.parseInto o s).2.1 := by
  refine (?_ : P.Keeps (SyntheticEnvironmentFamilyPdu.Since o) SyntheticEnvironmentFamilyPdu.parseInto) o s (.refl o)
  unfold SyntheticEnvironmentFamilyPdu.parseInto
  refine .call Pdu.since (fun _ _ h g => Pdu.Since.trans h g) ?_
  exact .pure

theorem SyntheticEnvironmentFamilyPdu.into (o : SyntheticEnvironmentFamilyPdu) : P.run SyntheticEnvironmentFamilyPdu.parseInto o = SyntheticEnvironmentFamilyPdu.parse o := by
  unfold SyntheticEnvironmentFamilyPdu.parseInto SyntheticEnvironmentFamilyPdu.parse
  simp (maxSteps := 1000000) only [P.run_pure, P.run_call, Pdu.into]

theorem SyntheticEnvironmentFamilyPdu.again {o x : SyntheticEnvironmentFamilyPdu} (h : SyntheticEnvironmentFamilyPdu.Since o x) : SyntheticEnvironmentFamilyPdu.parse x = SyntheticEnvironmentFamilyPdu.parse o := by
  unfold SyntheticEnvironmentFamilyPdu.parse
  simp only [Pdu.again h]

theorem SyntheticEnvironmentFamilyPdu.blind : Blind (SyntheticEnvironmentFamilyPdu.parse) := by
  intro o x
  unfold SyntheticEnvironmentFamilyPdu.parse
  refine .bind (Pdu.blind _ _) fun _ _ _ => ?_
  exact .pure trivial

theorem CollisionPdu.Since.refl (o : CollisionPdu) : CollisionPdu.Since o o :=
  ⟨EntityInformationFamilyPdu.Since.refl _, EntityIdentifier.Since.refl _, EntityIdentifier.Since.refl _, EventIdentifier.Since.refl _, Vector3Float.Since.refl _, Vector3Float.Since.refl _⟩

theorem CollisionPdu.Since.trans {o x y : CollisionPdu} (h : CollisionPdu.Since o x) (g : CollisionPdu.Since x y) : CollisionPdu.Since o y :=
  ⟨EntityInformationFamilyPdu.Since.trans h.1 g.1, EntityIdentifier.Since.trans h.2.1 g.2.1, EntityIdentifier.Since.trans h.2.2.1 g.2.2.1, EventIdentifier.Since.trans h.2.2.2.1 g.2.2.2.1, Vector3Float.Since.trans h.2.2.2.2.1 g.2.2.2.2.1, Vector3Float.Since.trans h.2.2.2.2.2 g.2.2.2.2.2⟩

theorem CollisionPdu.since  (o : CollisionPdu) (s : InStream) : CollisionPdu.Since o (CollisionPdu.parseInto o s).2.1 := by
  refine (?_ : P.Keeps (CollisionPdu.Since o) CollisionPdu.parseInto) o s (.refl o)
  unfold CollisionPdu.parseInto
  refine .call EntityInformationFamilyPdu.since (fun _ _ h g => ⟨EntityInformationFamilyPdu.Since.trans h.1 g, h.2.1, h.2.2.1, h.2.2.2.1, h.2.2.2.2.1, h.2.2.2.2.2⟩) ?_
  refine .call EntityIdentifier.since (fun _ _ h g => ⟨h.1, EntityIdentifier.Since.trans h.2.1 g, h.2.2.1, h.2.2.2.1, h.2.2.2.2.1, h.2.2.2.2.2⟩) ?_
  refine .call EntityIdentifier.since (fun _ _ h g => ⟨h.1, h.2.1, EntityIdentifier.Since.trans h.2.2.1 g, h.2.2.2.1, h.2.2.2.2.1, h.2.2.2.2.2⟩) ?_
  refine .call EventIdentifier.since (fun _ _ h g => ⟨h.1, h.2.1, h.2.2.1, EventIdentifier.Since.trans h.2.2.2.1 g, h.2.2.2.2.1, h.2.2.2.2.2⟩) ?_
  refine .read fun _ => ?_
  refine .set (fun _ h => h) ?_
  refine .read fun _ => ?_
  refine .set (fun _ h => h) ?_
  refine .call Vector3Float.since (fun _ _ h g => ⟨h.1, h.2.1, h.2.2.1, h.2.2.2.1, Vector3Float.Since.trans h.2.2.2.2.1 g, h.2.2.2.2.2⟩) ?_
  refine .read fun _ => ?_
  refine .set (fun _ h => h) ?_
  refine .call Vector3Float.since (fun _ _ h g => ⟨h.1, h.2.1, h.2.2.1, h.2.2.2.1, h.2.2.2.2.1, Vector3Float.Since.trans h.2.2.2.2.2 g⟩) ?_
  exact .pure

theorem CollisionPdu.into (o : CollisionPdu) : P.run CollisionPdu.parseInto o = CollisionPdu.parse o := by
  unfold CollisionPdu.parseInto CollisionPdu.parse
  simp (maxSteps := 1000000) only [P.run_pure, P.run_read, P.run_set, P.run_call, EntityIdentifier.into, EntityInformationFamilyPdu.into, EventIdentifier.into, Vector3Float.into]

theorem CollisionPdu.again {o x : CollisionPdu} (h : CollisionPdu.Since o x) : CollisionPdu.parse x = CollisionPdu.parse o := by
  unfold CollisionPdu.parse
  simp only [EntityInformationFamilyPdu.again h.1, EntityIdentifier.again h.2.1, EntityIdentifier.again h.2.2.1, EventIdentifier.again h.2.2.2.1, Vector3Float.again h.2.2.2.2.1, Vector3Float.again h.2.2.2.2.2]

theorem CollisionPdu.blind : Blind (CollisionPdu.parse) := by
  intro o x
  unfold CollisionPdu.parse
  refine .bind (EntityInformationFamilyPdu.blind _ _) fun _ _ _ => ?_
  refine .bind (EntityIdentifier.blind _ _) fun _ _ _ => ?_
  refine .bind (EntityIdentifier.blind _ _) fun _ _ _ => ?_
  refine .bind (EventIdentifier.blind _ _) fun _ _ _ => ?_
  refine .read fun _ => ?_
  refine .read fun _ => ?_
  refine .bind (Vector3Float.blind _ _) fun _ _ _ => ?_
  refine .read fun _ => ?_
  refine .bind (Vector3Float.blind _ _) fun _ _ _ => ?_
  exact .pure trivial

theorem RepairResponsePdu.Since.refl (o : RepairResponsePdu) : RepairResponsePdu.Since o o :=
  ⟨LogisticsFamilyPdu.Since.refl _, EntityIdentifier.Since.refl _, EntityIdentifier.Since.refl _⟩

theorem RepairResponsePdu.Since.trans {o x y : RepairResponsePdu} (h : RepairResponsePdu.Since o x) (g : RepairResponsePdu.Since x y) : RepairResponsePdu.Since o y :=
  ⟨LogisticsFamilyPdu.Since.trans h.1 g.1, EntityIdentifier.Since.trans h.2.1 g.2.1, EntityIdentifier.Since.trans h.2.2 g.2.2⟩

theorem RepairResponsePdu.since  (o : RepairResponsePdu) (s : InStream) : RepairResponsePdu.Since o (RepairResponsePdu.parseInto o s).2.1 := by
  refine (?_ : P.Keeps (RepairResponsePdu.Since o) RepairResponsePdu.parseInto) o s (.refl o)
  unfold RepairResponsePdu.parseInto
  refine .call LogisticsFamilyPdu.since (fun _ _ h g => ⟨LogisticsFamilyPdu.Since.trans h.1 g, h.2.1, h.2.2⟩) ?_
  refine .call EntityIdentifier.since (fun _ _ h g => ⟨h.1, EntityIdentifier.Since.trans h.2.1 g, h.2.2⟩) ?_
  refine .call EntityIdentifier.since (fun _ _ h g => ⟨h.1, h.2.1, EntityIdentifier.Since.trans h.2.2 g⟩) ?_
  refine .read fun _ => ?_
  refine .set (fun _ h => h) ?_
  refine .read fun _ => ?_
  refine .set (fun _ h => h) ?_
  refine .read fun _ => ?_
  refine .set (fun _ h => h) ?_
  exact .pure

theorem RepairResponsePdu.into (o : RepairResponsePdu) : P.run RepairResponsePdu.parseInto o = RepairResponsePdu.parse o := by
  unfold RepairResponsePdu.parseInto RepairResponsePdu.parse
  simp (maxSteps := 1000000) only [P.run_pure, P.run_read, P.run_set, P.run_call, EntityIdentifier.into, LogisticsFamilyPdu.into]

theorem RepairResponsePdu.again {o x : RepairResponsePdu} (h : RepairResponsePdu.Since o x) : RepairResponsePdu.parse x = RepairResponsePdu.parse o := by
  unfold RepairResponsePdu.parse
  simp only [LogisticsFamilyPdu.again h.1, EntityIdentifier.again h.2.1, EntityIdentifier.again h.2.2]

theorem RepairResponsePdu.blind : Blind (RepairResponsePdu.parse) := by
  intro o x
  unfold RepairResponsePdu.parse
  refine .bind (LogisticsFamilyPdu.blind _ _) fun _ _ _ => ?_
  refine .bind (EntityIdentifier.blind _ _) fun _ _ _ => ?_
  refine .bind (EntityIdentifier.blind _ _) fun _ _ _ => ?_
  refine .read fun _ => ?_
  refine .read fun _ => ?_
  refine .read fun _ => ?_
  exact .pure trivial

theorem SimulationManagementFamilyPdu.Since.refl (o : SimulationManagementFamilyPdu) : SimulationManagementFamilyPdu.Since o o :=
  ⟨Pdu.Since.refl _, EntityIdentifier.Since.refl _, EntityIdentifier.Since.refl _⟩

theorem SimulationManagementFamilyPdu.Since.trans {o x y : SimulationManagementFamilyPdu} (h : SimulationManagementFamilyPdu.Since o x) (g : SimulationManagementFamilyPdu.Since x y) : SimulationManagementFamilyPdu.Since o y :=
  ⟨Pdu.Since.trans h.1 g.1, EntityIdentifier.Since.trans h.2.1 g.2.1, EntityIdentifier.Since.trans h.2.2 g.2.2⟩

theorem SimulationManagementFamilyPdu.since  (o : SimulationManagementFamilyPdu) (s : InStream) : SimulationManagementFamilyPdu.Since o (SimulationManagementFamilyPdu.parseInto o s).2.1 := by
  refine (?_ : P.Keeps (SimulationManagementFamilyPdu.Since o) SimulationManagementFamilyPdu.parseInto) o s (.refl o)
  unfold SimulationManagementFamilyPdu.parseInto
  refine .call Pdu.since (fun _ _ h g => ⟨Pdu.Since.trans h.1 g, h.2.1, h.2.2⟩) ?_
  refine .call EntityIdentifier.since (fun _ _ h g => ⟨h.1, EntityIdentifier.Since.trans h.2.1 g, h.2.2⟩) ?_
  refine .call EntityIdentifier.since (fun _ _ h g => ⟨h.1, h.2.1, EntityIdentifier.Since.trans h.2.2 g⟩) ?_
  exact .pure

theorem SimulationManagementFamilyPdu.into (o : SimulationManagementFamilyPdu) : P.run SimulationManagementFamilyPdu.parseInto o = SimulationManagementFamilyPdu.parse o := by
  unfold SimulationManagementFamilyPdu.parseInto SimulationManagementFamilyPdu.parse
  simp (maxSteps := 1000000) only [P.run_pure, P.run_call, EntityIdentifier.into, Pdu.into]

theorem SimulationManagementFamilyPdu.again {o x : SimulationManagementFamilyPdu} (h : SimulationManagementFamilyPdu.Since o x) : SimulationManagementFamilyPdu.parse x = SimulationManagementFamilyPdu.parse o := by
  unfold SimulationManagementFamilyPdu.parse
  simp only [Pdu.again h.1, EntityIdentifier.again h.2.1, EntityIdentifier.again h.2.2]

theorem SimulationManagementFamilyPdu.blind : Blind (SimulationManagementFamilyPdu.parse) := by
  intro o x
  unfold SimulationManagementFamilyPdu.parse
  refine .bind (Pdu.blind _ _) fun _ _ _ => ?_
  refine .bind (EntityIdentifier.blind _ _) fun _ _ _ => ?_
  refine .bind (EntityIdentifier.blind _ _) fun _ _ _ => ?_
  exact .pure trivial

theorem DataQueryPdu.Since.refl (o : DataQueryPdu) : DataQueryPdu.Since o o :=
  ⟨SimulationManagementFamilyPdu.Since.refl _, DataQueryDatumSpecification.Since.refl _⟩

theorem DataQueryPdu.Since.trans {o x y : DataQueryPdu} (h : DataQueryPdu.Since o x) (g : DataQueryPdu.Since x y) : DataQueryPdu.Since o y :=
  ⟨SimulationManagementFamilyPdu.Since.trans h.1 g.1, DataQueryDatumSpecification.Since.trans h.2 g.2⟩

theorem DataQueryPdu.since  (o : DataQueryPdu) (s : InStream) : DataQueryPdu.Since o (DataQueryPdu.parseInto o s).2.1 := by
  refine (?_ : P.Keeps (DataQueryPdu.Since o) DataQueryPdu.parseInto) o s (.refl o)
  unfold DataQueryPdu.parseInto
  refine .call SimulationManagementFamilyPdu.since (fun _ _ h g => ⟨SimulationManagementFamilyPdu.Since.trans h.1 g, h.2⟩) ?_
  refine .read fun _ => ?_
  refine .set (fun _ h => h) ?_
  refine .read fun _ => ?_
  refine .set (fun _ h => h) ?_
  refine .call DataQueryDatumSpecification.since (fun _ _ h g => ⟨h.1, DataQueryDatumSpecification.Since.trans h.2 g⟩) ?_
  exact .pure

theorem DataQueryPdu.into (o : DataQueryPdu) : P.run DataQueryPdu.parseInto o = DataQueryPdu.parse o := by
  unfold DataQueryPdu.parseInto DataQueryPdu.parse
  simp (maxSteps := 1000000) only [P.run_pure, P.run_read, P.run_set, P.run_call, DataQueryDatumSpecification.into, SimulationManagementFamilyPdu.into]

theorem DataQueryPdu.again {o x : DataQueryPdu} (h : DataQueryPdu.Since o x) : DataQueryPdu.parse (DataQueryPdu.trim o x) = DataQueryPdu.parse o := by
  unfold DataQueryPdu.parse DataQueryPdu.trim
  simp only [SimulationManagementFamilyPdu.again h.1, DataQueryDatumSpecification.again h.2]

theorem DataQueryPdu.blind : Blind (DataQueryPdu.parse) := by
  intro o x
  unfold DataQueryPdu.parse
  refine .bind (SimulationManagementFamilyPdu.blind _ _) fun _ _ _ => ?_
  refine .read fun _ => ?_
  refine .read fun _ => ?_
  refine .bind (DataQueryDatumSpecification.blind _ _) fun _ _ _ => ?_
  exact .pure trivial

theorem LinearObjectStatePdu.Since.refl (o : LinearObjectStatePdu) : LinearObjectStatePdu.Since o o :=
  ⟨SyntheticEnvironmentFamilyPdu.Since.refl _, EntityIdentifier.Since.refl _, EntityIdentifier.Since.refl _, SimulationAddress.Since.refl _, SimulationAddress.Since.refl _, ObjectType.Since.refl _, List.prefix_refl _⟩

theorem LinearObjectStatePdu.Since.trans {o x y : LinearObjectStatePdu} (h : LinearObjectStatePdu.Since o x) (g : LinearObjectStatePdu.Since x y) : LinearObjectStatePdu.Since o y :=
  ⟨SyntheticEnvironmentFamilyPdu.Since.trans h.1 g.1, EntityIdentifier.Since.trans h.2.1 g.2.1, EntityIdentifier.Since.trans h.2.2.1 g.2.2.1, SimulationAddress.Since.trans h.2.2.2.1 g.2.2.2.1, SimulationAddress.Since.trans h.2.2.2.2.1 g.2.2.2.2.1, ObjectType.Since.trans h.2.2.2.2.2.1 g.2.2.2.2.2.1, List.IsPrefix.trans (h.2.2.2.2.2.2) (g.2.2.2.2.2.2)⟩

theorem LinearObjectStatePdu.since  (o : LinearObjectStatePdu) (s : InStream) : LinearObjectStatePdu.Since o (LinearObjectStatePdu.parseInto o s).2.1 := by
  refine (?_ : P.Keeps (LinearObjectStatePdu.Since o) LinearObjectStatePdu.parseInto) o s (.refl o)
  unfold LinearObjectStatePdu.parseInto
  refine .call SyntheticEnvironmentFamilyPdu.since (fun _ _ h g => ⟨SyntheticEnvironmentFamilyPdu.Since.trans h.1 g, h.2.1, h.2.2.1, h.2.2.2.1, h.2.2.2.2.1, h.2.2.2.2.2.1, h.2.2.2.2.2.2⟩) ?_
  refine .call EntityIdentifier.since (fun _ _ h g => ⟨h.1, EntityIdentifier.Since.trans h.2.1 g, h.2.2.1, h.2.2.2.1, h.2.2.2.2.1, h.2.2.2.2.2.1, h.2.2.2.2.2.2⟩) ?_
  refine .call EntityIdentifier.since (fun _ _ h g => ⟨h.1, h.2.1, EntityIdentifier.Since.trans h.2.2.1 g, h.2.2.2.1, h.2.2.2.2.1, h.2.2.2.2.2.1, h.2.2.2.2.2.2⟩) ?_
  refine .read fun _ => ?_
  refine .set (fun _ h => h) ?_
  refine .read fun _ => ?_
  refine .set (fun _ h => h) ?_
  refine .read fun _ => ?_
  refine .call SimulationAddress.since (fun _ _ h g => ⟨h.1, h.2.1, h.2.2.1, SimulationAddress.Since.trans h.2.2.2.1 g, h.2.2.2.2.1, h.2.2.2.2.2.1, h.2.2.2.2.2.2⟩) ?_
  refine .call SimulationAddress.since (fun _ _ h g => ⟨h.1, h.2.1, h.2.2.1, h.2.2.2.1, SimulationAddress.Since.trans h.2.2.2.2.1 g, h.2.2.2.2.2.1, h.2.2.2.2.2.2⟩) ?_
  refine .call ObjectType.since (fun _ _ h g => ⟨h.1, h.2.1, h.2.2.1, h.2.2.2.1, h.2.2.2.2.1, ObjectType.Since.trans h.2.2.2.2.2.1 g, h.2.2.2.2.2.2⟩) ?_
  refine .appendObjs (fun _ _ h => ⟨h.1, h.2.1, h.2.2.1, h.2.2.2.1, h.2.2.2.2.1, h.2.2.2.2.2.1, List.IsPrefix.trans (h.2.2.2.2.2.2) (List.prefix_append _ _)⟩) ?_
  exact .pure

theorem LinearObjectStatePdu.into (o : LinearObjectStatePdu) : P.run LinearObjectStatePdu.parseInto o = LinearObjectStatePdu.parse o := by
  unfold LinearObjectStatePdu.parseInto LinearObjectStatePdu.parse
  simp (maxSteps := 1000000) (disch := exact ⟨fun _ _ => rfl, fun _ _ _ => rfl, fun _ => rfl⟩) only [P.run_pure, P.run_read, P.run_set, P.run_call, P.run_appendObjs, EntityIdentifier.into, LinearSegmentParameter.into, ObjectType.into, SimulationAddress.into, SyntheticEnvironmentFamilyPdu.into]

theorem LinearObjectStatePdu.again {o x : LinearObjectStatePdu} (h : LinearObjectStatePdu.Since o x) : LinearObjectStatePdu.parse (LinearObjectStatePdu.trim o x) = LinearObjectStatePdu.parse o := by
  unfold LinearObjectStatePdu.parse LinearObjectStatePdu.trim
  simp only [SyntheticEnvironmentFamilyPdu.again h.1, EntityIdentifier.again h.2.1, EntityIdentifier.again h.2.2.1, SimulationAddress.again h.2.2.2.1, SimulationAddress.again h.2.2.2.2.1, ObjectType.again h.2.2.2.2.2.1, ← List.prefix_iff_eq_take.mp (h.2.2.2.2.2.2)]

theorem LinearObjectStatePdu.blind : Blind (LinearObjectStatePdu.parse) := by
  intro o x
  unfold LinearObjectStatePdu.parse
  refine .bind (SyntheticEnvironmentFamilyPdu.blind _ _) fun _ _ _ => ?_
  refine .bind (EntityIdentifier.blind _ _) fun _ _ _ => ?_
  refine .bind (EntityIdentifier.blind _ _) fun _ _ _ => ?_
  refine .read fun _ => ?_
  refine .read fun _ => ?_
  refine .read fun _ => ?_
  refine .bind (SimulationAddress.blind _ _) fun _ _ _ => ?_
  refine .bind (SimulationAddress.blind _ _) fun _ _ _ => ?_
  refine .bind (ObjectType.blind _ _) fun _ _ _ => ?_
  refine .read fun _ => ?_
  exact .pure trivial

theorem CreateEntityPdu.Since.refl (o : CreateEntityPdu) : CreateEntityPdu.Since o o :=
  SimulationManagementFamilyPdu.Since.refl _

theorem CreateEntityPdu.Since.trans {o x y : CreateEntityPdu} (h : CreateEntityPdu.Since o x) (g : CreateEntityPdu.Since x y) : CreateEntityPdu.Since o y :=
  SimulationManagementFamilyPdu.Since.trans h g

theorem CreateEntityPdu.since  (o : CreateEntityPdu) (s : InStream) : CreateEntityPdu.Since o (CreateEntityPdu.parseInto o s).2.1 := by
  refine (?_ : P.Keeps (CreateEntityPdu.Since o) CreateEntityPdu.parseInto) o s (.refl o)
  unfold CreateEntityPdu.parseInto
  refine .call SimulationManagementFamilyPdu.since (fun _ _ h g => SimulationManagementFamilyPdu.Since.trans h g) ?_
  refine .read fun _ => ?_
  refine .set (fun _ h => h) ?_
  exact .pure

theorem CreateEntityPdu.into (o : CreateEntityPdu) : P.run CreateEntityPdu.parseInto o = CreateEntityPdu.parse o := by
  unfold CreateEntityPdu.parseInto CreateEntityPdu.parse
  simp (maxSteps := 1000000) only [P.run_pure, P.run_read, P.run_set, P.run_call, SimulationManagementFamilyPdu.into]

theorem CreateEntityPdu.again {o x : CreateEntityPdu} (h : CreateEntityPdu.Since o x) : CreateEntityPdu.parse x = CreateEntityPdu.parse o := by
  unfold CreateEntityPdu.parse
  simp only [SimulationManagementFamilyPdu.again h]

theorem CreateEntityPdu.blind : Blind (CreateEntityPdu.parse) := by
  intro o x
  unfold CreateEntityPdu.parse
  refine .bind (SimulationManagementFamilyPdu.blind _ _) fun _ _ _ => ?_
  refine .read fun _ => ?_
  exact .pure trivial

theorem RadioCommunicationsFamilyPdu.Since.refl (o : RadioCommunicationsFamilyPdu) : RadioCommunicationsFamilyPdu.Since o o :=
  Pdu.Since.refl _

theorem RadioCommunicationsFamilyPdu.Since.trans {o x y : RadioCommunicationsFamilyPdu} (h : RadioCommunicationsFamilyPdu.Since o x) (g : RadioCommunicationsFamilyPdu.Since x y) : RadioCommunicationsFamilyPdu.Since o y :=
  Pdu.Since.trans h g

theorem RadioCommunicationsFamilyPdu.since  (o : RadioCommunicationsFamilyPdu) (s : InStream) : RadioCommunicationsFamilyPdu.Since o (RadioCommunicationsFamilyPdu.parseInto o s).2.1 := by
  refine (?_ : P.Keeps (RadioCommunicationsFamilyPdu.Since o) RadioCommunicationsFamilyPdu.parseInto) o s (.refl o)
  unfold RadioCommunicationsFamilyPdu.parseInto
  refine .call Pdu.since (fun _ _ h g => Pdu.Since.trans h g) ?_
  exact .pure

theorem RadioCommunicationsFamilyPdu.into (o : RadioCommunicationsFamilyPdu) : P.run RadioCommunicationsFamilyPdu.parseInto o = RadioCommunicationsFamilyPdu.parse o := by
  unfold RadioCommunicationsFamilyPdu.parseInto RadioCommunicationsFamilyPdu.parse
  simp (maxSteps := 1000000) only [P.run_pure, P.run_call, Pdu.into]

theorem RadioCommunicationsFamilyPdu.again {o x : RadioCommunicationsFamilyPdu} (h : RadioCommunicationsFamilyPdu.Since o x) : RadioCommunicationsFamilyPdu.parse x = RadioCommunicationsFamilyPdu.parse o := by
  unfold RadioCommunicationsFamilyPdu.parse
  simp only [Pdu.again h]

theorem RadioCommunicationsFamilyPdu.blind : Blind (RadioCommunicationsFamilyPdu.parse) := by
  intro o x
  unfold RadioCommunicationsFamilyPdu.parse
  refine .bind (Pdu.blind _ _) fun _ _ _ => ?_
  exact .pure trivial

theorem IntercomSignalPdu.Since.refl (o : IntercomSignalPdu) : IntercomSignalPdu.Since o o :=
  ⟨RadioCommunicationsFamilyPdu.Since.refl _, EntityIdentifier.Since.refl _, List.prefix_refl _⟩

theorem IntercomSignalPdu.Since.trans {o x y : IntercomSignalPdu} (h : IntercomSignalPdu.Since o x) (g : IntercomSignalPdu.Since x y) : IntercomSignalPdu.Since o y :=
  ⟨RadioCommunicationsFamilyPdu.Since.trans h.1 g.1, EntityIdentifier.Since.trans h.2.1 g.2.1, List.IsPrefix.trans (h.2.2) (g.2.2)⟩

theorem IntercomSignalPdu.since  (o : IntercomSignalPdu) (s : InStream) : IntercomSignalPdu.Since o (IntercomSignalPdu.parseInto o s).2.1 := by
  refine (?_ : P.Keeps (IntercomSignalPdu.Since o) IntercomSignalPdu.parseInto) o s (.refl o)
  unfold IntercomSignalPdu.parseInto
  refine .call RadioCommunicationsFamilyPdu.since (fun _ _ h g => ⟨RadioCommunicationsFamilyPdu.Since.trans h.1 g, h.2.1, h.2.2⟩) ?_
  refine .call EntityIdentifier.since (fun _ _ h g => ⟨h.1, EntityIdentifier.Since.trans h.2.1 g, h.2.2⟩) ?_
  refine .read fun _ => ?_
  refine .set (fun _ h => h) ?_
  refine .read fun _ => ?_
  refine .set (fun _ h => h) ?_
  refine .read fun _ => ?_
  refine .set (fun _ h => h) ?_
  refine .read fun _ => ?_
  refine .set (fun _ h => h) ?_
  refine .read fun _ => ?_
  refine .read fun _ => ?_
  refine .set (fun _ h => h) ?_
  refine .appendReads (fun _ _ h => ⟨h.1, h.2.1, List.IsPrefix.trans (h.2.2) (List.prefix_append _ _)⟩) ?_
  exact .pure

theorem IntercomSignalPdu.into (o : IntercomSignalPdu) : P.run IntercomSignalPdu.parseInto o = IntercomSignalPdu.parse o := by
  unfold IntercomSignalPdu.parseInto IntercomSignalPdu.parse
  simp (maxSteps := 1000000) (disch := exact ⟨fun _ _ => rfl, fun _ _ _ => rfl, fun _ => rfl⟩) only [P.run_pure, P.run_read, P.run_set, P.run_call, P.run_appendReads, EntityIdentifier.into, RadioCommunicationsFamilyPdu.into]

theorem IntercomSignalPdu.again {o x : IntercomSignalPdu} (h : IntercomSignalPdu.Since o x) : IntercomSignalPdu.parse (IntercomSignalPdu.trim o x) = IntercomSignalPdu.parse o := by
  unfold IntercomSignalPdu.parse IntercomSignalPdu.trim
  simp only [RadioCommunicationsFamilyPdu.again h.1, EntityIdentifier.again h.2.1, ← List.prefix_iff_eq_take.mp (h.2.2)]

theorem IntercomSignalPdu.blind : Blind (IntercomSignalPdu.parse) := by
  intro o x
  unfold IntercomSignalPdu.parse
  refine .bind (RadioCommunicationsFamilyPdu.blind _ _) fun _ _ _ => ?_
  refine .bind (EntityIdentifier.blind _ _) fun _ _ _ => ?_
  refine .read fun _ => ?_
  refine .read fun _ => ?_
  refine .read fun _ => ?_
  refine .read fun _ => ?_
  refine .read fun _ => ?_
  refine .read fun _ => ?_
  refine .read fun _ => ?_
  exact .pure trivial

theorem RemoveEntityPdu.Since.refl (o : RemoveEntityPdu) : RemoveEntityPdu.Since o o :=
  SimulationManagementFamilyPdu.Since.refl _

theorem RemoveEntityPdu.Since.trans {o x y : RemoveEntityPdu} (h : RemoveEntityPdu.Since o x) (g : RemoveEntityPdu.Since x y) : RemoveEntityPdu.Since o y :=
  SimulationManagementFamilyPdu.Since.trans h g

theorem RemoveEntityPdu.since  (o : RemoveEntityPdu) (s : InStream) : RemoveEntityPdu.Since o (RemoveEntityPdu.parseInto o s).2.1 := by
  refine (?_ : P.Keeps (RemoveEntityPdu.Since o) RemoveEntityPdu.parseInto) o s (.refl o)
  unfold RemoveEntityPdu.parseInto
  refine .call SimulationManagementFamilyPdu.since (fun _ _ h g => SimulationManagementFamilyPdu.Since.trans h g) ?_
  refine .read fun _ => ?_
  refine .set (fun _ h => h) ?_
  exact .pure

theorem RemoveEntityPdu.into (o : RemoveEntityPdu) : P.run RemoveEntityPdu.parseInto o = RemoveEntityPdu.parse o := by
  unfold RemoveEntityPdu.parseInto RemoveEntityPdu.parse
  simp (maxSteps := 1000000) only [P.run_pure, P.run_read, P.run_set, P.run_call, SimulationManagementFamilyPdu.into]

theorem RemoveEntityPdu.again {o x : RemoveEntityPdu} (h : RemoveEntityPdu.Since o x) : RemoveEntityPdu.parse x = RemoveEntityPdu.parse o := by
  unfold RemoveEntityPdu.parse
  simp only [SimulationManagementFamilyPdu.again h]

theorem RemoveEntityPdu.blind : Blind (RemoveEntityPdu.parse) := by
  intro o x
  unfold RemoveEntityPdu.parse
  refine .bind (SimulationManagementFamilyPdu.blind _ _) fun _ _ _ => ?_
  refine .read fun _ => ?_
  exact .pure trivial

theorem ResupplyReceivedPdu.Since.refl (o : ResupplyReceivedPdu) : ResupplyReceivedPdu.Since o o :=
  ⟨LogisticsFamilyPdu.Since.refl _, EntityIdentifier.Since.refl _, EntityIdentifier.Since.refl _, List.prefix_refl _⟩

theorem ResupplyReceivedPdu.Since.trans {o x y : ResupplyReceivedPdu} (h : ResupplyReceivedPdu.Since o x) (g : ResupplyReceivedPdu.Since x y) : ResupplyReceivedPdu.Since o y :=
  ⟨LogisticsFamilyPdu.Since.trans h.1 g.1, EntityIdentifier.Since.trans h.2.1 g.2.1, EntityIdentifier.Since.trans h.2.2.1 g.2.2.1, List.IsPrefix.trans (h.2.2.2) (g.2.2.2)⟩

theorem ResupplyReceivedPdu.since  (o : ResupplyReceivedPdu) (s : InStream) : ResupplyReceivedPdu.Since o (ResupplyReceivedPdu.parseInto o s).2.1 := by
  refine (?_ : P.Keeps (ResupplyReceivedPdu.Since o) ResupplyReceivedPdu.parseInto) o s (.refl o)
  unfold ResupplyReceivedPdu.parseInto
  refine .call LogisticsFamilyPdu.since (fun _ _ h g => ⟨LogisticsFamilyPdu.Since.trans h.1 g, h.2.1, h.2.2.1, h.2.2.2⟩) ?_
  refine .call EntityIdentifier.since (fun _ _ h g => ⟨h.1, EntityIdentifier.Since.trans h.2.1 g, h.2.2.1, h.2.2.2⟩) ?_
  refine .call EntityIdentifier.since (fun _ _ h g => ⟨h.1, h.2.1, EntityIdentifier.Since.trans h.2.2.1 g, h.2.2.2⟩) ?_
  refine .read fun _ => ?_
  refine .read fun _ => ?_
  refine .set (fun _ h => h) ?_
  refine .read fun _ => ?_
  refine .set (fun _ h => h) ?_
  refine .appendReads (fun _ _ h => ⟨h.1, h.2.1, h.2.2.1, List.IsPrefix.trans (h.2.2.2) (List.prefix_append _ _)⟩) ?_
  exact .pure

theorem ResupplyReceivedPdu.into (o : ResupplyReceivedPdu) : P.run ResupplyReceivedPdu.parseInto o = ResupplyReceivedPdu.parse o := by
  unfold ResupplyReceivedPdu.parseInto ResupplyReceivedPdu.parse
  simp (maxSteps := 1000000) (disch := exact ⟨fun _ _ => rfl, fun _ _ _ => rfl, fun _ => rfl⟩) only [P.run_pure, P.run_read, P.run_set, P.run_call, P.run_appendReads, EntityIdentifier.into, LogisticsFamilyPdu.into]

theorem ResupplyReceivedPdu.again {o x : ResupplyReceivedPdu} (h : ResupplyReceivedPdu.Since o x) : ResupplyReceivedPdu.parse (ResupplyReceivedPdu.trim o x) = ResupplyReceivedPdu.parse o := by
  unfold ResupplyReceivedPdu.parse ResupplyReceivedPdu.trim
  simp only [LogisticsFamilyPdu.again h.1, EntityIdentifier.again h.2.1, EntityIdentifier.again h.2.2.1, ← List.prefix_iff_eq_take.mp (h.2.2.2)]

theorem ResupplyReceivedPdu.blind : Blind (ResupplyReceivedPdu.parse) := by
  intro o x
  unfold ResupplyReceivedPdu.parse
  refine .bind (LogisticsFamilyPdu.blind _ _) fun _ _ _ => ?_
  refine .bind (EntityIdentifier.blind _ _) fun _ _ _ => ?_
  refine .bind (EntityIdentifier.blind _ _) fun _ _ _ => ?_
  refine .read fun _ => ?_
  refine .read fun _ => ?_
  refine .read fun _ => ?_
  refine .read fun _ => ?_
  exact .pure trivial

theorem WarfareFamilyPdu.Since.refl (o : WarfareFamilyPdu) : WarfareFamilyPdu.Since o o :=
  ⟨Pdu.Since.refl _, EntityIdentifier.Since.refl _, EntityIdentifier.Since.refl _⟩

theorem WarfareFamilyPdu.Since.trans {o x y : WarfareFamilyPdu} (h : WarfareFamilyPdu.Since o x) (g : WarfareFamilyPdu.Since x y) : WarfareFamilyPdu.Since o y :=
  ⟨Pdu.Since.trans h.1 g.1, EntityIdentifier.Since.trans h.2.1 g.2.1, EntityIdentifier.Since.trans h.2.2 g.2.2⟩

theorem WarfareFamilyPdu.since  (o : WarfareFamilyPdu) (s : InStream) : WarfareFamilyPdu.Since o (WarfareFamilyPdu.parseInto o s).2.1 := by
  refine (?_ : P.Keeps (WarfareFamilyPdu.Since o) WarfareFamilyPdu.parseInto) o s (.refl o)
  unfold WarfareFamilyPdu.parseInto
  refine .call Pdu.since (fun _ _ h g => ⟨Pdu.Since.trans h.1 g, h.2.1, h.2.2⟩) ?_
  refine .call EntityIdentifier.since (fun _ _ h g => ⟨h.1, EntityIdentifier.Since.trans h.2.1 g, h.2.2⟩) ?_
  refine .call EntityIdentifier.since (fun _ _ h g => ⟨h.1, h.2.1, EntityIdentifier.Since.trans h.2.2 g⟩) ?_
  exact .pure

theorem WarfareFamilyPdu.into (o : WarfareFamilyPdu) : P.run WarfareFamilyPdu.parseInto o = WarfareFamilyPdu.parse o := by
  unfold WarfareFamilyPdu.parseInto WarfareFamilyPdu.parse
  simp (maxSteps := 1000000) only [P.run_pure, P.run_call, EntityIdentifier.into, Pdu.into]

theorem WarfareFamilyPdu.again {o x : WarfareFamilyPdu} (h : WarfareFamilyPdu.Since o x) : WarfareFamilyPdu.parse x = WarfareFamilyPdu.parse o := by
  unfold WarfareFamilyPdu.parse
  simp only [Pdu.again h.1, EntityIdentifier.again h.2.1, EntityIdentifier.again h.2.2]

theorem WarfareFamilyPdu.blind : Blind (WarfareFamilyPdu.parse) := by
  intro o x
  unfold WarfareFamilyPdu.parse
  refine .bind (Pdu.blind _ _) fun _ _ _ => ?_
  refine .bind (EntityIdentifier.blind _ _) fun _ _ _ => ?_
  refine .bind (EntityIdentifier.blind _ _) fun _ _ _ => ?_
  exact .pure trivial

theorem CollisionElasticPdu.Since.refl (o : CollisionElasticPdu) : CollisionElasticPdu.Since o o :=
  ⟨EntityInformationFamilyPdu.Since.refl _, EntityIdentifier.Since.refl _, EntityIdentifier.Since.refl _, EventIdentifier.Since.refl _, Vector3Float.Since.refl _, Vector3Float.Since.refl _, Vector3Float.Since.refl _⟩

theorem CollisionElasticPdu.Since.trans {o x y : CollisionElasticPdu} (h : CollisionElasticPdu.Since o x) (g : CollisionElasticPdu.Since x y) : CollisionElasticPdu.Since o y :=
  ⟨EntityInformationFamilyPdu.Since.trans h.1 g.1, EntityIdentifier.Since.trans h.2.1 g.2.1, EntityIdentifier.Since.trans h.2.2.1 g.2.2.1, EventIdentifier.Since.trans h.2.2.2.1 g.2.2.2.1, Vector3Float.Since.trans h.2.2.2.2.1 g.2.2.2.2.1, Vector3Float.Since.trans h.2.2.2.2.2.1 g.2.2.2.2.2.1, Vector3Float.Since.trans h.2.2.2.2.2.2 g.2.2.2.2.2.2⟩

theorem CollisionElasticPdu.since  (o : CollisionElasticPdu) (s : InStream) : CollisionElasticPdu.Since o (CollisionElasticPdu.parseInto o s).2.1 := by
  refine (?_ : P.Keeps (CollisionElasticPdu.Since o) CollisionElasticPdu.parseInto) o s (.refl o)
  unfold CollisionElasticPdu.parseInto
  refine .call EntityInformationFamilyPdu.since (fun _ _ h g => ⟨EntityInformationFamilyPdu.Since.trans h.1 g, h.2.1, h.2.2.1, h.2.2.2.1, h.2.2.2.2.1, h.2.2.2.2.2.1, h.2.2.2.2.2.2⟩) ?_
  refine .call EntityIdentifier.since (fun _ _ h g => ⟨h.1, EntityIdentifier.Since.trans h.2.1 g, h.2.2.1, h.2.2.2.1, h.2.2.2.2.1, h.2.2.2.2.2.1, h.2.2.2.2.2.2⟩) ?_
  refine .call EntityIdentifier.since (fun _ _ h g => ⟨h.1, h.2.1, EntityIdentifier.Since.trans h.2.2.1 g, h.2.2.2.1, h.2.2.2.2.1, h.2.2.2.2.2.1, h.2.2.2.2.2.2⟩) ?_
  refine .call EventIdentifier.since (fun _ _ h g => ⟨h.1, h.2.1, h.2.2.1, EventIdentifier.Since.trans h.2.2.2.1 g, h.2.2.2.2.1, h.2.2.2.2.2.1, h.2.2.2.2.2.2⟩) ?_
  refine .read fun _ => ?_
  refine .set (fun _ h => h) ?_
  refine .call Vector3Float.since (fun _ _ h g => ⟨h.1, h.2.1, h.2.2.1, h.2.2.2.1, Vector3Float.Since.trans h.2.2.2.2.1 g, h.2.2.2.2.2.1, h.2.2.2.2.2.2⟩) ?_
  refine .read fun _ => ?_
  refine .set (fun _ h => h) ?_
  refine .call Vector3Float.since (fun _ _ h g => ⟨h.1, h.2.1, h.2.2.1, h.2.2.2.1, h.2.2.2.2.1, Vector3Float.Since.trans h.2.2.2.2.2.1 g, h.2.2.2.2.2.2⟩) ?_
  refine .read fun _ => ?_
  refine .set (fun _ h => h) ?_
  refine .read fun _ => ?_
  refine .set (fun _ h => h) ?_
  refine .read fun _ => ?_
  refine .set (fun _ h => h) ?_
  refine .read fun _ => ?_
  refine .set (fun _ h => h) ?_
  refine .read fun _ => ?_
  refine .set (fun _ h => h) ?_
  refine .read fun _ => ?_
  refine .set (fun _ h => h) ?_
  refine .call Vector3Float.since (fun _ _ h g => ⟨h.1, h.2.1, h.2.2.1, h.2.2.2.1, h.2.2.2.2.1, h.2.2.2.2.2.1, Vector3Float.Since.trans h.2.2.2.2.2.2 g⟩) ?_
  refine .read fun _ => ?_
  refine .set (fun _ h => h) ?_
  exact .pure

theorem CollisionElasticPdu.into (o : CollisionElasticPdu) : P.run CollisionElasticPdu.parseInto o = CollisionElasticPdu.parse o := by
  unfold CollisionElasticPdu.parseInto CollisionElasticPdu.parse
  simp (maxSteps := 1000000) only [P.run_pure, P.run_read, P.run_set, P.run_call, EntityIdentifier.into, EntityInformationFamilyPdu.into, EventIdentifier.into, Vector3Float.into]

theorem CollisionElasticPdu.again {o x : CollisionElasticPdu} (h : CollisionElasticPdu.Since o x) : CollisionElasticPdu.parse x = CollisionElasticPdu.parse o := by
  unfold CollisionElasticPdu.parse
  simp only [EntityInformationFamilyPdu.again h.1, EntityIdentifier.again h.2.1, EntityIdentifier.again h.2.2.1, EventIdentifier.again h.2.2.2.1, Vector3Float.again h.2.2.2.2.1, Vector3Float.again h.2.2.2.2.2.1, Vector3Float.again h.2.2.2.2.2.2]

theorem CollisionElasticPdu.blind : Blind (CollisionElasticPdu.parse) := by
  intro o x
  unfold CollisionElasticPdu.parse
  refine .bind (EntityInformationFamilyPdu.blind _ _) fun _ _ _ => ?_
  refine .bind (EntityIdentifier.blind _ _) fun _ _ _ => ?_
  refine .bind (EntityIdentifier.blind _ _) fun _ _ _ => ?_
  refine .bind (EventIdentifier.blind _ _) fun _ _ _ => ?_
  refine .read fun _ => ?_
  refine .bind (Vector3Float.blind _ _) fun _ _ _ => ?_
  refine .read fun _ => ?_
  refine .bind (Vector3Float.blind _ _) fun _ _ _ => ?_
  refine .read fun _ => ?_
  refine .read fun _ => ?_
  refine .read fun _ => ?_
  refine .read fun _ => ?_
  refine .read fun _ => ?_
  refine .read fun _ => ?_
  refine .bind (Vector3Float.blind _ _) fun _ _ _ => ?_
  refine .read fun _ => ?_
  exact .pure trivial

theorem ActionRequestPdu.Since.refl (o : ActionRequestPdu) : ActionRequestPdu.Since o o :=
  ⟨SimulationManagementFamilyPdu.Since.refl _, DatumSpecification.Since.refl _⟩

theorem ActionRequestPdu.Since.trans {o x y : ActionRequestPdu} (h : ActionRequestPdu.Since o x) (g : ActionRequestPdu.Since x y) : ActionRequestPdu.Since o y :=
  ⟨SimulationManagementFamilyPdu.Since.trans h.1 g.1, DatumSpecification.Since.trans h.2 g.2⟩

theorem ActionRequestPdu.since  (o : ActionRequestPdu) (s : InStream) : ActionRequestPdu.Since o (ActionRequestPdu.parseInto o s).2.1 := by
  refine (?_ : P.Keeps (ActionRequestPdu.Since o) ActionRequestPdu.parseInto) o s (.refl o)
  unfold ActionRequestPdu.parseInto
  refine .call SimulationManagementFamilyPdu.since (fun _ _ h g => ⟨SimulationManagementFamilyPdu.Since.trans h.1 g, h.2⟩) ?_
  refine .read fun _ => ?_
  refine .set (fun _ h => h) ?_
  refine .read fun _ => ?_
  refine .set (fun _ h => h) ?_
  refine .call DatumSpecification.since (fun _ _ h g => ⟨h.1, DatumSpecification.Since.trans h.2 g⟩) ?_
  exact .pure

theorem ActionRequestPdu.into (o : ActionRequestPdu) : P.run ActionRequestPdu.parseInto o = ActionRequestPdu.parse o := by
  unfold ActionRequestPdu.parseInto ActionRequestPdu.parse
  simp (maxSteps := 1000000) only [P.run_pure, P.run_read, P.run_set, P.run_call, DatumSpecification.into, SimulationManagementFamilyPdu.into]

theorem ActionRequestPdu.again {o x : ActionRequestPdu} (h : ActionRequestPdu.Since o x) : ActionRequestPdu.parse (ActionRequestPdu.trim o x) = ActionRequestPdu.parse o := by
  unfold ActionRequestPdu.parse ActionRequestPdu.trim
  simp only [SimulationManagementFamilyPdu.again h.1, DatumSpecification.again h.2]

theorem ActionRequestPdu.blind : Blind (ActionRequestPdu.parse) := by
  intro o x
  unfold ActionRequestPdu.parse
  refine .bind (SimulationManagementFamilyPdu.blind _ _) fun _ _ _ => ?_
  refine .read fun _ => ?_
  refine .read fun _ => ?_
  refine .bind (DatumSpecification.blind _ _) fun _ _ _ => ?_
  exact .pure trivial

theorem AcknowledgePdu.Since.refl (o : AcknowledgePdu) : AcknowledgePdu.Since o o :=
  SimulationManagementFamilyPdu.Since.refl _

theorem AcknowledgePdu.Since.trans {o x y : AcknowledgePdu} (h : AcknowledgePdu.Since o x) (g : AcknowledgePdu.Since x y) : AcknowledgePdu.Since o y :=
  SimulationManagementFamilyPdu.Since.trans h g

theorem AcknowledgePdu.since  (o : AcknowledgePdu) (s : InStream) : AcknowledgePdu.Since o (AcknowledgePdu.parseInto o s).2.1 := by
  refine (?_ : P.Keeps (AcknowledgePdu.Since o) AcknowledgePdu.parseInto) o s (.refl o)
  unfold AcknowledgePdu.parseInto
  refine .call SimulationManagementFamilyPdu.since (fun _ _ h g => SimulationManagementFamilyPdu.Since.trans h g) ?_
  refine .read fun _ => ?_
  refine .set (fun _ h => h) ?_
  refine .read fun _ => ?_
  refine .set (fun _ h => h) ?_
  refine .read fun _ => ?_
  refine .set (fun _ h => h) ?_
  exact .pure

theorem AcknowledgePdu.into (o : AcknowledgePdu) : P.run AcknowledgePdu.parseInto o = AcknowledgePdu.parse o := by
  unfold AcknowledgePdu.parseInto AcknowledgePdu.parse
  simp (maxSteps := 1000000) only [P.run_pure, P.run_read, P.run_set, P.run_call, SimulationManagementFamilyPdu.into]

theorem AcknowledgePdu.again {o x : AcknowledgePdu} (h : AcknowledgePdu.Since o x) : AcknowledgePdu.parse x = AcknowledgePdu.parse o := by
  unfold AcknowledgePdu.parse
  simp only [SimulationManagementFamilyPdu.again h]

theorem AcknowledgePdu.blind : Blind (AcknowledgePdu.parse) := by
  intro o x
  unfold AcknowledgePdu.parse
  refine .bind (SimulationManagementFamilyPdu.blind _ _) fun _ _ _ => ?_
  refine .read fun _ => ?_
  refine .read fun _ => ?_
  refine .read fun _ => ?_
  exact .pure trivial

theorem DistributedEmissionsFamilyPdu.Since.refl (o : DistributedEmissionsFamilyPdu) : DistributedEmissionsFamilyPdu.Since o o :=
  Pdu.Since.refl _

theorem DistributedEmissionsFamilyPdu.Since.trans {o x y : DistributedEmissionsFamilyPdu} (h : DistributedEmissionsFamilyPdu.Since o x) (g : DistributedEmissionsFamilyPdu.Since x y) : DistributedEmissionsFamilyPdu.Since o y :=
  Pdu.Since.trans h g

theorem DistributedEmissionsFamilyPdu.since  (o : DistributedEmissionsFamilyPdu) (s : InStream) : DistributedEmissionsFamilyPdu.Since o (DistributedEmissionsFamilyPdu.parseInto o s).2.1 := by
  refine (?_ : P.Keeps (DistributedEmissionsFamilyPdu.Since o) DistributedEmissionsFamilyPdu.parseInto) o s (.refl o)
  unfold DistributedEmissionsFamilyPdu.parseInto
  refine .call Pdu.since (fun _ _ h g => Pdu.Since.trans h g) ?_
  exact .pure

theorem DistributedEmissionsFamilyPdu.into (o : DistributedEmissionsFamilyPdu) : P.run DistributedEmissionsFamilyPdu.parseInto o = DistributedEmissionsFamilyPdu.parse o := by
  unfold DistributedEmissionsFamilyPdu.parseInto DistributedEmissionsFamilyPdu.parse
  simp (maxSteps := 1000000) only [P.run_pure, P.run_call, Pdu.into]

theorem DistributedEmissionsFamilyPdu.again {o x : DistributedEmissionsFamilyPdu} (h : DistributedEmissionsFamilyPdu.Since o x) : DistributedEmissionsFamilyPdu.parse x = DistributedEmissionsFamilyPdu.parse o := by
  unfold DistributedEmissionsFamilyPdu.parse
  simp only [Pdu.again h]

theorem DistributedEmissionsFamilyPdu.blind : Blind (DistributedEmissionsFamilyPdu.parse) := by
  intro o x
  unfold DistributedEmissionsFamilyPdu.parse
  refine .bind (Pdu.blind _ _) fun _ _ _ => ?_
  exact .pure trivial

theorem SimulationManagementWithReliabilityFamilyPdu.Since.refl (o : SimulationManagementWithReliabilityFamilyPdu) : SimulationManagementWithReliabilityFamilyPdu.Since o o :=
  ⟨Pdu.Since.refl _, EntityIdentifier.Since.refl _, EntityIdentifier.Since.refl _⟩

theorem SimulationManagementWithReliabilityFamilyPdu.Since.trans {o x y : SimulationManagementWithReliabilityFamilyPdu} (h : SimulationManagementWithReliabilityFamilyPdu.Since o x) (g : SimulationManagementWithReliabilityFamilyPdu.Since x y) : SimulationManagementWithReliabilityFamilyPdu.Since o y :=
  ⟨Pdu.Since.trans h.1 g.1, EntityIdentifier.Since.trans h.2.1 g.2.1, EntityIdentifier.Since.trans h.2.2 g.2.2⟩

theorem SimulationManagementWithReliabilityFamilyPdu.since  (o : SimulationManagementWithReliabilityFamilyPdu) (s : InStream) : SimulationManagementWithReliabilityFamilyPdu.Since o (SimulationManagementWithReliabilityFamilyPdu.parseInto o s).2.1 := by
  refine (?_ : P.Keeps (SimulationManagementWithReliabilityFamilyPdu.Since o) SimulationManagementWithReliabilityFamilyPdu.parseInto) o s (.refl o)
  unfold SimulationManagementWithReliabilityFamilyPdu.parseInto
  refine .call Pdu.since (fun _ _ h g => ⟨Pdu.Since.trans h.1 g, h.2.1, h.2.2⟩) ?_
  refine .call EntityIdentifier.since (fun _ _ h g => ⟨h.1, EntityIdentifier.Since.trans h.2.1 g, h.2.2⟩) ?_
  refine .call EntityIdentifier.since (fun _ _ h g => ⟨h.1, h.2.1, EntityIdentifier.Since.trans h.2.2 g⟩) ?_
  exact .pure

theorem SimulationManagementWithReliabilityFamilyPdu.into (o : SimulationManagementWithReliabilityFamilyPdu) : P.run SimulationManagementWithReliabilityFamilyPdu.parseInto o = SimulationManagementWithReliabilityFamilyPdu.parse o := by
  unfold SimulationManagementWithReliabilityFamilyPdu.parseInto SimulationManagementWithReliabilityFamilyPdu.parse
  simp (maxSteps := 1000000) only [P.run_pure, P.run_call, EntityIdentifier.into, Pdu.into]

theorem SimulationManagementWithReliabilityFamilyPdu.again {o x : SimulationManagementWithReliabilityFamilyPdu} (h : SimulationManagementWithReliabilityFamilyPdu.Since o x) : SimulationManagementWithReliabilityFamilyPdu.parse x = SimulationManagementWithReliabilityFamilyPdu.parse o := by
  unfold SimulationManagementWithReliabilityFamilyPdu.parse
  simp only [Pdu.again h.1, EntityIdentifier.again h.2.1, EntityIdentifier.again h.2.2]

theorem SimulationManagementWithReliabilityFamilyPdu.blind : Blind (SimulationManagementWithReliabilityFamilyPdu.parse) := by
  intro o x
  unfold SimulationManagementWithReliabilityFamilyPdu.parse
  refine .bind (Pdu.blind _ _) fun _ _ _ => ?_
  refine .bind (EntityIdentifier.blind _ _) fun _ _ _ => ?_
  refine .bind (EntityIdentifier.blind _ _) fun _ _ _ => ?_
  exact .pure trivial

theorem ActionRequestReliablePdu.Since.refl (o : ActionRequestReliablePdu) : ActionRequestReliablePdu.Since o o :=
  ⟨SimulationManagementWithReliabilityFamilyPdu.Since.refl _, DatumSpecification.Since.refl _⟩

theorem ActionRequestReliablePdu.Since.trans {o x y : ActionRequestReliablePdu} (h : ActionRequestReliablePdu.Since o x) (g : ActionRequestReliablePdu.Since x y) : ActionRequestReliablePdu.Since o y :=
  ⟨SimulationManagementWithReliabilityFamilyPdu.Since.trans h.1 g.1, DatumSpecification.Since.trans h.2 g.2⟩

theorem ActionRequestReliablePdu.since  (o : ActionRequestReliablePdu) (s : InStream) : ActionRequestReliablePdu.Since o (ActionRequestReliablePdu.parseInto o s).2.1 := by
  refine (?_ : P.Keeps (ActionRequestReliablePdu.Since o) ActionRequestReliablePdu.parseInto) o s (.refl o)
  unfold ActionRequestReliablePdu.parseInto
  refine .call SimulationManagementWithReliabilityFamilyPdu.since (fun _ _ h g => ⟨SimulationManagementWithReliabilityFamilyPdu.Since.trans h.1 g, h.2⟩) ?_
  refine .read fun _ => ?_
  refine .set (fun _ h => h) ?_
  refine .read fun _ => ?_
  refine .set (fun _ h => h) ?_
  refine .read fun _ => ?_
  refine .set (fun _ h => h) ?_
  refine .read fun _ => ?_
  refine .set (fun _ h => h) ?_
  refine .read fun _ => ?_
  refine .set (fun _ h => h) ?_
  refine .read fun _ => ?_
  refine .set (fun _ h => h) ?_
  refine .call DatumSpecification.since (fun _ _ h g => ⟨h.1, DatumSpecification.Since.trans h.2 g⟩) ?_
  exact .pure

theorem ActionRequestReliablePdu.into (o : ActionRequestReliablePdu) : P.run ActionRequestReliablePdu.parseInto o = ActionRequestReliablePdu.parse o := by
  unfold ActionRequestReliablePdu.parseInto ActionRequestReliablePdu.parse
  simp (maxSteps := 1000000) only [P.run_pure, P.run_read, P.run_set, P.run_call, DatumSpecification.into, SimulationManagementWithReliabilityFamilyPdu.into]

theorem ActionRequestReliablePdu.again {o x : ActionRequestReliablePdu} (h : ActionRequestReliablePdu.Since o x) : ActionRequestReliablePdu.parse (ActionRequestReliablePdu.trim o x) = ActionRequestReliablePdu.parse o := by
  unfold ActionRequestReliablePdu.parse ActionRequestReliablePdu.trim
  simp only [SimulationManagementWithReliabilityFamilyPdu.again h.1, DatumSpecification.again h.2]

theorem ActionRequestReliablePdu.blind : Blind (ActionRequestReliablePdu.parse) := by
  intro o x
  unfold ActionRequestReliablePdu.parse
  refine .bind (SimulationManagementWithReliabilityFamilyPdu.blind _ _) fun _ _ _ => ?_
  refine .read fun _ => ?_
  refine .read fun _ => ?_
  refine .read fun _ => ?_
  refine .read fun _ => ?_
  refine .read fun _ => ?_
  refine .read fun _ => ?_
  refine .bind (DatumSpecification.blind _ _) fun _ _ _ => ?_
  exact .pure trivial

theorem DesignatorPdu.Since.refl (o : DesignatorPdu) : DesignatorPdu.Since o o :=
  ⟨DistributedEmissionsFamilyPdu.Since.refl _, EntityIdentifier.Since.refl _, EntityIdentifier.Since.refl _, Vector3Float.Since.refl _, WorldCoordinates.Since.refl _, Vector3Float.Since.refl _⟩

theorem DesignatorPdu.Since.trans {o x y : DesignatorPdu} (h : DesignatorPdu.Since o x) (g : DesignatorPdu.Since x y) : DesignatorPdu.Since o y :=
  ⟨DistributedEmissionsFamilyPdu.Since.trans h.1 g.1, EntityIdentifier.Since.trans h.2.1 g.2.1, EntityIdentifier.Since.trans h.2.2.1 g.2.2.1, Vector3Float.Since.trans h.2.2.2.1 g.2.2.2.1, WorldCoordinates.Since.trans h.2.2.2.2.1 g.2.2.2.2.1, Vector3Float.Since.trans h.2.2.2.2.2 g.2.2.2.2.2⟩

theorem DesignatorPdu.since  (o : DesignatorPdu) (s : InStream) : DesignatorPdu.Since o (DesignatorPdu.parseInto o s).2.1 := by
  refine (?_ : P.Keeps (DesignatorPdu.Since o) DesignatorPdu.parseInto) o s (.refl o)
  unfold DesignatorPdu.parseInto
  refine .call DistributedEmissionsFamilyPdu.since (fun _ _ h g => ⟨DistributedEmissionsFamilyPdu.Since.trans h.1 g, h.2.1, h.2.2.1, h.2.2.2.1, h.2.2.2.2.1, h.2.2.2.2.2⟩) ?_
  refine .call EntityIdentifier.since (fun _ _ h g => ⟨h.1, EntityIdentifier.Since.trans h.2.1 g, h.2.2.1, h.2.2.2.1, h.2.2.2.2.1, h.2.2.2.2.2⟩) ?_
  refine .read fun _ => ?_
  refine .set (fun _ h => h) ?_
  refine .call EntityIdentifier.since (fun _ _ h g => ⟨h.1, h.2.1, EntityIdentifier.Since.trans h.2.2.1 g, h.2.2.2.1, h.2.2.2.2.1, h.2.2.2.2.2⟩) ?_
  refine .read fun _ => ?_
  refine .set (fun _ h => h) ?_
  refine .read fun _ => ?_
  refine .set (fun _ h => h) ?_
  refine .read fun _ => ?_
  refine .set (fun _ h => h) ?_
  refine .call Vector3Float.since (fun _ _ h g => ⟨h.1, h.2.1, h.2.2.1, Vector3Float.Since.trans h.2.2.2.1 g, h.2.2.2.2.1, h.2.2.2.2.2⟩) ?_
  refine .call WorldCoordinates.since (fun _ _ h g => ⟨h.1, h.2.1, h.2.2.1, h.2.2.2.1, WorldCoordinates.Since.trans h.2.2.2.2.1 g, h.2.2.2.2.2⟩) ?_
  refine .read fun _ => ?_
  refine .set (fun _ h => h) ?_
  refine .read fun _ => ?_
  refine .set (fun _ h => h) ?_
  refine .read fun _ => ?_
  refine .set (fun _ h => h) ?_
  refine .call Vector3Float.since (fun _ _ h g => ⟨h.1, h.2.1, h.2.2.1, h.2.2.2.1, h.2.2.2.2.1, Vector3Float.Since.trans h.2.2.2.2.2 g⟩) ?_
  exact .pure

theorem DesignatorPdu.into (o : DesignatorPdu) : P.run DesignatorPdu.parseInto o = DesignatorPdu.parse o := by
  unfold DesignatorPdu.parseInto DesignatorPdu.parse
  simp (maxSteps := 1000000) only [P.run_pure, P.run_read, P.run_set, P.run_call, DistributedEmissionsFamilyPdu.into, EntityIdentifier.into, Vector3Float.into, WorldCoordinates.into]

theorem DesignatorPdu.again {o x : DesignatorPdu} (h : DesignatorPdu.Since o x) : DesignatorPdu.parse x = DesignatorPdu.parse o := by
  unfold DesignatorPdu.parse
  simp only [DistributedEmissionsFamilyPdu.again h.1, EntityIdentifier.again h.2.1, EntityIdentifier.again h.2.2.1, Vector3Float.again h.2.2.2.1, WorldCoordinates.again h.2.2.2.2.1, Vector3Float.again h.2.2.2.2.2]

theorem DesignatorPdu.blind : Blind (DesignatorPdu.parse) := by
  intro o x
  unfold DesignatorPdu.parse
  refine .bind (DistributedEmissionsFamilyPdu.blind _ _) fun _ _ _ => ?_
  refine .bind (EntityIdentifier.blind _ _) fun _ _ _ => ?_
  refine .read fun _ => ?_
  refine .bind (EntityIdentifier.blind _ _) fun _ _ _ => ?_
  refine .read fun _ => ?_
  refine .read fun _ => ?_
  refine .read fun _ => ?_
  refine .bind (Vector3Float.blind _ _) fun _ _ _ => ?_
  refine .bind (WorldCoordinates.blind _ _) fun _ _ _ => ?_
  refine .read fun _ => ?_
  refine .read fun _ => ?_
  refine .read fun _ => ?_
  refine .bind (Vector3Float.blind _ _) fun _ _ _ => ?_
  exact .pure trivial

theorem StopFreezePdu.Since.refl (o : StopFreezePdu) : StopFreezePdu.Since o o :=
  ⟨SimulationManagementFamilyPdu.Since.refl _, ClockTime.Since.refl _⟩

theorem StopFreezePdu.Since.trans {o x y : StopFreezePdu} (h : StopFreezePdu.Since o x) (g : StopFreezePdu.Since x y) : StopFreezePdu.Since o y :=
  ⟨SimulationManagementFamilyPdu.Since.trans h.1 g.1, ClockTime.Since.trans h.2 g.2⟩

theorem StopFreezePdu.since  (o : StopFreezePdu) (s : InStream) : StopFreezePdu.Since o (StopFreezePdu.parseInto o s).2.1 := by
  refine (?_ : P.Keeps (StopFreezePdu.Since o) StopFreezePdu.parseInto) o s (.refl o)
  unfold StopFreezePdu.parseInto
  refine .call SimulationManagementFamilyPdu.since (fun _ _ h g => ⟨SimulationManagementFamilyPdu.Since.trans h.1 g, h.2⟩) ?_
  refine .call ClockTime.since (fun _ _ h g => ⟨h.1, ClockTime.Since.trans h.2 g⟩) ?_
  refine .read fun _ => ?_
  refine .set (fun _ h => h) ?_
  refine .read fun _ => ?_
  refine .set (fun _ h => h) ?_
  refine .read fun _ => ?_
  refine .set (fun _ h => h) ?_
  refine .read fun _ => ?_
  refine .set (fun _ h => h) ?_
  exact .pure

theorem StopFreezePdu.into (o : StopFreezePdu) : P.run StopFreezePdu.parseInto o = StopFreezePdu.parse o := by
  unfold StopFreezePdu.parseInto StopFreezePdu.parse
  simp (maxSteps := 1000000) only [P.run_pure, P.run_read, P.run_set, P.run_call, ClockTime.into, SimulationManagementFamilyPdu.into]

theorem StopFreezePdu.again {o x : StopFreezePdu} (h : StopFreezePdu.Since o x) : StopFreezePdu.parse x = StopFreezePdu.parse o := by
  unfold StopFreezePdu.parse
  simp only [SimulationManagementFamilyPdu.again h.1, ClockTime.again h.2]

theorem StopFreezePdu.blind : Blind (StopFreezePdu.parse) := by
  intro o x
  unfold StopFreezePdu.parse
  refine .bind (SimulationManagementFamilyPdu.blind _ _) fun _ _ _ => ?_
  refine .bind (ClockTime.blind _ _) fun _ _ _ => ?_
  refine .read fun _ => ?_
  refine .read fun _ => ?_
  refine .read fun _ => ?_
  refine .read fun _ => ?_
  exact .pure trivial

theorem EntityStatePdu.Since.refl (o : EntityStatePdu) : EntityStatePdu.Since o o :=
  ⟨EntityInformationFamilyPdu.Since.refl _, EntityIdentifier.Since.refl _, EntityType.Since.refl _, EntityType.Since.refl _, Vector3Float.Since.refl _, WorldCoordinates.Since.refl _, EulerAngles.Since.refl _, DeadReckoningParameters.Since.refl _, EntityMarking.Since.refl _, List.prefix_refl _⟩

theorem EntityStatePdu.Since.trans {o x y : EntityStatePdu} (h : EntityStatePdu.Since o x) (g : EntityStatePdu.Since x y) : EntityStatePdu.Since o y :=
  ⟨EntityInformationFamilyPdu.Since.trans h.1 g.1, EntityIdentifier.Since.trans h.2.1 g.2.1, EntityType.Since.trans h.2.2.1 g.2.2.1, EntityType.Since.trans h.2.2.2.1 g.2.2.2.1, Vector3Float.Since.trans h.2.2.2.2.1 g.2.2.2.2.1, WorldCoordinates.Since.trans h.2.2.2.2.2.1 g.2.2.2.2.2.1, EulerAngles.Since.trans h.2.2.2.2.2.2.1 g.2.2.2.2.2.2.1, DeadReckoningParameters.Since.trans h.2.2.2.2.2.2.2.1 g.2.2.2.2.2.2.2.1, EntityMarking.Since.trans h.2.2.2.2.2.2.2.2.1 g.2.2.2.2.2.2.2.2.1, List.IsPrefix.trans (h.2.2.2.2.2.2.2.2.2) (g.2.2.2.2.2.2.2.2.2)⟩

theorem EntityStatePdu.since  (o : EntityStatePdu) (s : InStream) : EntityStatePdu.Since o (EntityStatePdu.parseInto o s).2.1 := by
  refine (?_ : P.Keeps (EntityStatePdu.Since o) EntityStatePdu.parseInto) o s (.refl o)
  unfold EntityStatePdu.parseInto
  refine .call EntityInformationFamilyPdu.since (fun _ _ h g => ⟨EntityInformationFamilyPdu.Since.trans h.1 g, h.2.1, h.2.2.1, h.2.2.2.1, h.2.2.2.2.1, h.2.2.2.2.2.1, h.2.2.2.2.2.2.1, h.2.2.2.2.2.2.2.1, h.2.2.2.2.2.2.2.2.1, h.2.2.2.2.2.2.2.2.2⟩) ?_
  refine .call EntityIdentifier.since (fun _ _ h g => ⟨h.1, EntityIdentifier.Since.trans h.2.1 g, h.2.2.1, h.2.2.2.1, h.2.2.2.2.1, h.2.2.2.2.2.1, h.2.2.2.2.2.2.1, h.2.2.2.2.2.2.2.1, h.2.2.2.2.2.2.2.2.1, h.2.2.2.2.2.2.2.2.2⟩) ?_
  refine .read fun _ => ?_
  refine .set (fun _ h => h) ?_
  refine .read fun _ => ?_
  refine .call EntityType.since (fun _ _ h g => ⟨h.1, h.2.1, EntityType.Since.trans h.2.2.1 g, h.2.2.2.1, h.2.2.2.2.1, h.2.2.2.2.2.1, h.2.2.2.2.2.2.1, h.2.2.2.2.2.2.2.1, h.2.2.2.2.2.2.2.2.1, h.2.2.2.2.2.2.2.2.2⟩) ?_
  refine .call EntityType.since (fun _ _ h g => ⟨h.1, h.2.1, h.2.2.1, EntityType.Since.trans h.2.2.2.1 g, h.2.2.2.2.1, h.2.2.2.2.2.1, h.2.2.2.2.2.2.1, h.2.2.2.2.2.2.2.1, h.2.2.2.2.2.2.2.2.1, h.2.2.2.2.2.2.2.2.2⟩) ?_
  refine .call Vector3Float.since (fun _ _ h g => ⟨h.1, h.2.1, h.2.2.1, h.2.2.2.1, Vector3Float.Since.trans h.2.2.2.2.1 g, h.2.2.2.2.2.1, h.2.2.2.2.2.2.1, h.2.2.2.2.2.2.2.1, h.2.2.2.2.2.2.2.2.1, h.2.2.2.2.2.2.2.2.2⟩) ?_
  refine .call WorldCoordinates.since (fun _ _ h g => ⟨h.1, h.2.1, h.2.2.1, h.2.2.2.1, h.2.2.2.2.1, WorldCoordinates.Since.trans h.2.2.2.2.2.1 g, h.2.2.2.2.2.2.1, h.2.2.2.2.2.2.2.1, h.2.2.2.2.2.2.2.2.1, h.2.2.2.2.2.2.2.2.2⟩) ?_
  refine .call EulerAngles.since (fun _ _ h g => ⟨h.1, h.2.1, h.2.2.1, h.2.2.2.1, h.2.2.2.2.1, h.2.2.2.2.2.1, EulerAngles.Since.trans h.2.2.2.2.2.2.1 g, h.2.2.2.2.2.2.2.1, h.2.2.2.2.2.2.2.2.1, h.2.2.2.2.2.2.2.2.2⟩) ?_
  refine .read fun _ => ?_
  refine .set (fun _ h => h) ?_
  refine .call DeadReckoningParameters.since (fun _ _ h g => ⟨h.1, h.2.1, h.2.2.1, h.2.2.2.1, h.2.2.2.2.1, h.2.2.2.2.2.1, h.2.2.2.2.2.2.1, DeadReckoningParameters.Since.trans h.2.2.2.2.2.2.2.1 g, h.2.2.2.2.2.2.2.2.1, h.2.2.2.2.2.2.2.2.2⟩) ?_
  refine .call EntityMarking.since (fun _ _ h g => ⟨h.1, h.2.1, h.2.2.1, h.2.2.2.1, h.2.2.2.2.1, h.2.2.2.2.2.1, h.2.2.2.2.2.2.1, h.2.2.2.2.2.2.2.1, EntityMarking.Since.trans h.2.2.2.2.2.2.2.2.1 g, h.2.2.2.2.2.2.2.2.2⟩) ?_
  refine .read fun _ => ?_
  refine .set (fun _ h => h) ?_
  refine .appendObjs (fun _ _ h => ⟨h.1, h.2.1, h.2.2.1, h.2.2.2.1, h.2.2.2.2.1, h.2.2.2.2.2.1, h.2.2.2.2.2.2.1, h.2.2.2.2.2.2.2.1, h.2.2.2.2.2.2.2.2.1, List.IsPrefix.trans (h.2.2.2.2.2.2.2.2.2) (List.prefix_append _ _)⟩) ?_
  exact .pure

theorem EntityStatePdu.into (o : EntityStatePdu) : P.run EntityStatePdu.parseInto o = EntityStatePdu.parse o := by
  unfold EntityStatePdu.parseInto EntityStatePdu.parse
  simp (maxSteps := 1000000) (disch := exact ⟨fun _ _ => rfl, fun _ _ _ => rfl, fun _ => rfl⟩) only [P.run_pure, P.run_read, P.run_set, P.run_call, P.run_appendObjs, DeadReckoningParameters.into, EntityIdentifier.into, EntityInformationFamilyPdu.into, EntityMarking.into, EntityType.into, EulerAngles.into, VariableParameter.into, Vector3Float.into, WorldCoordinates.into]

theorem EntityStatePdu.again {o x : EntityStatePdu} (h : EntityStatePdu.Since o x) : EntityStatePdu.parse (EntityStatePdu.trim o x) = EntityStatePdu.parse o := by
  unfold EntityStatePdu.parse EntityStatePdu.trim
  simp only [EntityInformationFamilyPdu.again h.1, EntityIdentifier.again h.2.1, EntityType.again h.2.2.1, EntityType.again h.2.2.2.1, Vector3Float.again h.2.2.2.2.1, WorldCoordinates.again h.2.2.2.2.2.1, EulerAngles.again h.2.2.2.2.2.2.1, DeadReckoningParameters.again h.2.2.2.2.2.2.2.1, EntityMarking.again h.2.2.2.2.2.2.2.2.1, ← List.prefix_iff_eq_take.mp (h.2.2.2.2.2.2.2.2.2)]

theorem EntityStatePdu.blind : Blind (EntityStatePdu.parse) := by
  intro o x
  unfold EntityStatePdu.parse
  refine .bind (EntityInformationFamilyPdu.blind _ _) fun _ _ _ => ?_
  refine .bind (EntityIdentifier.blind _ _) fun _ _ _ => ?_
  refine .read fun _ => ?_
  refine .read fun _ => ?_
  refine .bind (EntityType.blind _ _) fun _ _ _ => ?_
  refine .bind (EntityType.blind _ _) fun _ _ _ => ?_
  refine .bind (Vector3Float.blind _ _) fun _ _ _ => ?_
  refine .bind (WorldCoordinates.blind _ _) fun _ _ _ => ?_
  refine .bind (EulerAngles.blind _ _) fun _ _ _ => ?_
  refine .read fun _ => ?_
  refine .bind (DeadReckoningParameters.blind _ _) fun _ _ _ => ?_
  refine .bind (EntityMarking.blind _ _) fun _ _ _ => ?_
  refine .read fun _ => ?_
  refine .read fun _ => ?_
  exact .pure trivial

theorem EntityManagementFamilyPdu.Since.refl (o : EntityManagementFamilyPdu) : EntityManagementFamilyPdu.Since o o :=
  Pdu.Since.refl _

theorem EntityManagementFamilyPdu.Since.trans {o x y : EntityManagementFamilyPdu} (h : EntityManagementFamilyPdu.Since o x) (g : EntityManagementFamilyPdu.Since x y) : EntityManagementFamilyPdu.Since o y :=
  Pdu.Since.trans h g

theorem EntityManagementFamilyPdu.since  (o : EntityManagementFamilyPdu) (s : InStream) : EntityManagementFamilyPdu.Since o (EntityManagementFamilyPdu.parseInto o s).2.1 := by
  refine (?_ : P.Keeps (EntityManagementFamilyPdu.Since o) EntityManagementFamilyPdu.parseInto) o s (.refl o)
  unfold EntityManagementFamilyPdu.parseInto
  refine .call Pdu.since (fun _ _ h g => Pdu.Since.trans h g) ?_
  exact .pure

theorem EntityManagementFamilyPdu.into (o : EntityManagementFamilyPdu) : P.run EntityManagementFamilyPdu.parseInto o = EntityManagementFamilyPdu.parse o := by
  unfold EntityManagementFamilyPdu.parseInto EntityManagementFamilyPdu.parse
  simp (maxSteps := 1000000) only [P.run_pure, P.run_call, Pdu.into]

theorem EntityManagementFamilyPdu.again {o x : EntityManagementFamilyPdu} (h : EntityManagementFamilyPdu.Since o x) : EntityManagementFamilyPdu.parse x = EntityManagementFamilyPdu.parse o := by
  unfold EntityManagementFamilyPdu.parse
  simp only [Pdu.again h]

theorem EntityManagementFamilyPdu.blind : Blind (EntityManagementFamilyPdu.parse) := by
  intro o x
  unfold EntityManagementFamilyPdu.parse
  refine .bind (Pdu.blind _ _) fun _ _ _ => ?_
  exact .pure trivial

theorem StartResumePdu.Since.refl (o : StartResumePdu) : StartResumePdu.Since o o :=
  ⟨SimulationManagementFamilyPdu.Since.refl _, ClockTime.Since.refl _, ClockTime.Since.refl _⟩

theorem StartResumePdu.Since.trans {o x y : StartResumePdu} (h : StartResumePdu.Since o x) (g : StartResumePdu.Since x y) : StartResumePdu.Since o y :=
  ⟨SimulationManagementFamilyPdu.Since.trans h.1 g.1, ClockTime.Since.trans h.2.1 g.2.1, ClockTime.Since.trans h.2.2 g.2.2⟩

theorem StartResumePdu.since  (o : StartResumePdu) (s : InStream) : StartResumePdu.Since o (StartResumePdu.parseInto o s).2.1 := by
  refine (?_ : P.Keeps (StartResumePdu.Since o) StartResumePdu.parseInto) o s (.refl o)
  unfold StartResumePdu.parseInto
  refine .call SimulationManagementFamilyPdu.since (fun _ _ h g => ⟨SimulationManagementFamilyPdu.Since.trans h.1 g, h.2.1, h.2.2⟩) ?_
  refine .call ClockTime.since (fun _ _ h g => ⟨h.1, ClockTime.Since.trans h.2.1 g, h.2.2⟩) ?_
  refine .call ClockTime.since (fun _ _ h g => ⟨h.1, h.2.1, ClockTime.Since.trans h.2.2 g⟩) ?_
  refine .read fun _ => ?_
  refine .set (fun _ h => h) ?_
  exact .pure

theorem StartResumePdu.into (o : StartResumePdu) : P.run StartResumePdu.parseInto o = StartResumePdu.parse o := by
  unfold StartResumePdu.parseInto StartResumePdu.parse
  simp (maxSteps := 1000000) only [P.run_pure, P.run_read, P.run_set, P.run_call, ClockTime.into, SimulationManagementFamilyPdu.into]

theorem StartResumePdu.again {o x : StartResumePdu} (h : StartResumePdu.Since o x) : StartResumePdu.parse x = StartResumePdu.parse o := by
  unfold StartResumePdu.parse
  simp only [SimulationManagementFamilyPdu.again h.1, ClockTime.again h.2.1, ClockTime.again h.2.2]

theorem StartResumePdu.blind : Blind (StartResumePdu.parse) := by
  intro o x
  unfold StartResumePdu.parse
  refine .bind (SimulationManagementFamilyPdu.blind _ _) fun _ _ _ => ?_
  refine .bind (ClockTime.blind _ _) fun _ _ _ => ?_
  refine .bind (ClockTime.blind _ _) fun _ _ _ => ?_
  refine .read fun _ => ?_
  exact .pure trivial

theorem ElectromagneticEmissionsPdu.Since.refl (o : ElectromagneticEmissionsPdu) : ElectromagneticEmissionsPdu.Since o o :=
  ⟨DistributedEmissionsFamilyPdu.Since.refl _, EntityIdentifier.Since.refl _, EventIdentifier.Since.refl _, List.prefix_refl _⟩

theorem ElectromagneticEmissionsPdu.Since.trans {o x y : ElectromagneticEmissionsPdu} (h : ElectromagneticEmissionsPdu.Since o x) (g : ElectromagneticEmissionsPdu.Since x y) : ElectromagneticEmissionsPdu.Since o y :=
  ⟨DistributedEmissionsFamilyPdu.Since.trans h.1 g.1, EntityIdentifier.Since.trans h.2.1 g.2.1, EventIdentifier.Since.trans h.2.2.1 g.2.2.1, List.IsPrefix.trans (h.2.2.2) (g.2.2.2)⟩

theorem ElectromagneticEmissionsPdu.since  (o : ElectromagneticEmissionsPdu) (s : InStream) : ElectromagneticEmissionsPdu.Since o (ElectromagneticEmissionsPdu.parseInto o s).2.1 := by
  refine (?_ : P.Keeps (ElectromagneticEmissionsPdu.Since o) ElectromagneticEmissionsPdu.parseInto) o s (.refl o)
  unfold ElectromagneticEmissionsPdu.parseInto
  refine .call DistributedEmissionsFamilyPdu.since (fun _ _ h g => ⟨DistributedEmissionsFamilyPdu.Since.trans h.1 g, h.2.1, h.2.2.1, h.2.2.2⟩) ?_
  refine .call EntityIdentifier.since (fun _ _ h g => ⟨h.1, EntityIdentifier.Since.trans h.2.1 g, h.2.2.1, h.2.2.2⟩) ?_
  refine .call EventIdentifier.since (fun _ _ h g => ⟨h.1, h.2.1, EventIdentifier.Since.trans h.2.2.1 g, h.2.2.2⟩) ?_
  refine .read fun _ => ?_
  refine .set (fun _ h => h) ?_
  refine .read fun _ => ?_
  refine .read fun _ => ?_
  refine .set (fun _ h => h) ?_
  refine .appendObjs (fun _ _ h => ⟨h.1, h.2.1, h.2.2.1, List.IsPrefix.trans (h.2.2.2) (List.prefix_append _ _)⟩) ?_
  exact .pure

theorem ElectromagneticEmissionsPdu.into (o : ElectromagneticEmissionsPdu) : P.run ElectromagneticEmissionsPdu.parseInto o = ElectromagneticEmissionsPdu.parse o := by
  unfold ElectromagneticEmissionsPdu.parseInto ElectromagneticEmissionsPdu.parse
  simp (maxSteps := 1000000) (disch := exact ⟨fun _ _ => rfl, fun _ _ _ => rfl, fun _ => rfl⟩) only [P.run_pure, P.run_read, P.run_set, P.run_call, P.run_appendObjs, DistributedEmissionsFamilyPdu.into, EmissionSystemRecord.into, EntityIdentifier.into, EventIdentifier.into]

theorem ElectromagneticEmissionsPdu.again {o x : ElectromagneticEmissionsPdu} (h : ElectromagneticEmissionsPdu.Since o x) : ElectromagneticEmissionsPdu.parse (ElectromagneticEmissionsPdu.trim o x) = ElectromagneticEmissionsPdu.parse o := by
  unfold ElectromagneticEmissionsPdu.parse ElectromagneticEmissionsPdu.trim
  simp only [DistributedEmissionsFamilyPdu.again h.1, EntityIdentifier.again h.2.1, EventIdentifier.again h.2.2.1, ← List.prefix_iff_eq_take.mp (h.2.2.2)]

theorem ElectromagneticEmissionsPdu.blind : Blind (ElectromagneticEmissionsPdu.parse) := by
  intro o x
  unfold ElectromagneticEmissionsPdu.parse
  refine .bind (DistributedEmissionsFamilyPdu.blind _ _) fun _ _ _ => ?_
  refine .bind (EntityIdentifier.blind _ _) fun _ _ _ => ?_
  refine .bind (EventIdentifier.blind _ _) fun _ _ _ => ?_
  refine .read fun _ => ?_
  refine .read fun _ => ?_
  refine .read fun _ => ?_
  refine .read fun _ => ?_
  exact .pure trivial

theorem ResupplyOfferPdu.Since.refl (o : ResupplyOfferPdu) : ResupplyOfferPdu.Since o o :=
  ⟨LogisticsFamilyPdu.Since.refl _, EntityIdentifier.Since.refl _, EntityIdentifier.Since.refl _, List.prefix_refl _⟩

theorem ResupplyOfferPdu.Since.trans {o x y : ResupplyOfferPdu} (h : ResupplyOfferPdu.Since o x) (g : ResupplyOfferPdu.Since x y) : ResupplyOfferPdu.Since o y :=
  ⟨LogisticsFamilyPdu.Since.trans h.1 g.1, EntityIdentifier.Since.trans h.2.1 g.2.1, EntityIdentifier.Since.trans h.2.2.1 g.2.2.1, List.IsPrefix.trans (h.2.2.2) (g.2.2.2)⟩

theorem ResupplyOfferPdu.since  (o : ResupplyOfferPdu) (s : InStream) : ResupplyOfferPdu.Since o (ResupplyOfferPdu.parseInto o s).2.1 := by
  refine (?_ : P.Keeps (ResupplyOfferPdu.Since o) ResupplyOfferPdu.parseInto) o s (.refl o)
  unfold ResupplyOfferPdu.parseInto
  refine .call LogisticsFamilyPdu.since (fun _ _ h g => ⟨LogisticsFamilyPdu.Since.trans h.1 g, h.2.1, h.2.2.1, h.2.2.2⟩) ?_
  refine .call EntityIdentifier.since (fun _ _ h g => ⟨h.1, EntityIdentifier.Since.trans h.2.1 g, h.2.2.1, h.2.2.2⟩) ?_
  refine .call EntityIdentifier.since (fun _ _ h g => ⟨h.1, h.2.1, EntityIdentifier.Since.trans h.2.2.1 g, h.2.2.2⟩) ?_
  refine .read fun _ => ?_
  refine .read fun _ => ?_
  refine .set (fun _ h => h) ?_
  refine .read fun _ => ?_
  refine .set (fun _ h => h) ?_
  refine .appendObjs (fun _ _ h => ⟨h.1, h.2.1, h.2.2.1, List.IsPrefix.trans (h.2.2.2) (List.prefix_append _ _)⟩) ?_
  exact .pure

theorem ResupplyOfferPdu.into (o : ResupplyOfferPdu) : P.run ResupplyOfferPdu.parseInto o = ResupplyOfferPdu.parse o := by
  unfold ResupplyOfferPdu.parseInto ResupplyOfferPdu.parse
  simp (maxSteps := 1000000) (disch := exact ⟨fun _ _ => rfl, fun _ _ _ => rfl, fun _ => rfl⟩) only [P.run_pure, P.run_read, P.run_set, P.run_call, P.run_appendObjs, EntityIdentifier.into, LogisticsFamilyPdu.into, SupplyQuantity.into]

theorem ResupplyOfferPdu.again {o x : ResupplyOfferPdu} (h : ResupplyOfferPdu.Since o x) : ResupplyOfferPdu.parse (ResupplyOfferPdu.trim o x) = ResupplyOfferPdu.parse o := by
  unfold ResupplyOfferPdu.parse ResupplyOfferPdu.trim
  simp only [LogisticsFamilyPdu.again h.1, EntityIdentifier.again h.2.1, EntityIdentifier.again h.2.2.1, ← List.prefix_iff_eq_take.mp (h.2.2.2)]

theorem ResupplyOfferPdu.blind : Blind (ResupplyOfferPdu.parse) := by
  intro o x
  unfold ResupplyOfferPdu.parse
  refine .bind (LogisticsFamilyPdu.blind _ _) fun _ _ _ => ?_
  refine .bind (EntityIdentifier.blind _ _) fun _ _ _ => ?_
  refine .bind (EntityIdentifier.blind _ _) fun _ _ _ => ?_
  refine .read fun _ => ?_
  refine .read fun _ => ?_
  refine .read fun _ => ?_
  refine .read fun _ => ?_
  exact .pure trivial

theorem AttributePdu.Since.refl (o : AttributePdu) : AttributePdu.Since o o :=
  ⟨EntityInformationFamilyPdu.Since.refl _, SimulationAddress.Since.refl _⟩

theorem AttributePdu.Since.trans {o x y : AttributePdu} (h : AttributePdu.Since o x) (g : AttributePdu.Since x y) : AttributePdu.Since o y :=
  ⟨EntityInformationFamilyPdu.Since.trans h.1 g.1, SimulationAddress.Since.trans h.2 g.2⟩

theorem AttributePdu.since  (o : AttributePdu) (s : InStream) : AttributePdu.Since o (AttributePdu.parseInto o s).2.1 := by
  refine (?_ : P.Keeps (AttributePdu.Since o) AttributePdu.parseInto) o s (.refl o)
  unfold AttributePdu.parseInto
  refine .call EntityInformationFamilyPdu.since (fun _ _ h g => ⟨EntityInformationFamilyPdu.Since.trans h.1 g, h.2⟩) ?_
  refine .call SimulationAddress.since (fun _ _ h g => ⟨h.1, SimulationAddress.Since.trans h.2 g⟩) ?_
  refine .read fun _ => ?_
  refine .set (fun _ h => h) ?_
  refine .read fun _ => ?_
  refine .set (fun _ h => h) ?_
  refine .read fun _ => ?_
  refine .set (fun _ h => h) ?_
  refine .read fun _ => ?_
  refine .set (fun _ h => h) ?_
  refine .read fun _ => ?_
  refine .set (fun _ h => h) ?_
  refine .read fun _ => ?_
  refine .set (fun _ h => h) ?_
  refine .read fun _ => ?_
  refine .set (fun _ h => h) ?_
  refine .read fun _ => ?_
  refine .set (fun _ h => h) ?_
  exact .pure

theorem AttributePdu.into (o : AttributePdu) : P.run AttributePdu.parseInto o = AttributePdu.parse o := by
  unfold AttributePdu.parseInto AttributePdu.parse
  simp (maxSteps := 1000000) only [P.run_pure, P.run_read, P.run_set, P.run_call, EntityInformationFamilyPdu.into, SimulationAddress.into]

theorem AttributePdu.again {o x : AttributePdu} (h : AttributePdu.Since o x) : AttributePdu.parse x = AttributePdu.parse o := by
  unfold AttributePdu.parse
  simp only [EntityInformationFamilyPdu.again h.1, SimulationAddress.again h.2]

theorem AttributePdu.blind : Blind (AttributePdu.parse) := by
  intro o x
  unfold AttributePdu.parse
  refine .bind (EntityInformationFamilyPdu.blind _ _) fun _ _ _ => ?_
  refine .bind (SimulationAddress.blind _ _) fun _ _ _ => ?_
  refine .read fun _ => ?_
  refine .read fun _ => ?_
  refine .read fun _ => ?_
  refine .read fun _ => ?_
  refine .read fun _ => ?_
  refine .read fun _ => ?_
  refine .read fun _ => ?_
  refine .read fun _ => ?_
  exact .pure trivial

theorem MinefieldFamilyPdu.Since.refl (o : MinefieldFamilyPdu) : MinefieldFamilyPdu.Since o o :=
  Pdu.Since.refl _

theorem MinefieldFamilyPdu.Since.trans {o x y : MinefieldFamilyPdu} (h : MinefieldFamilyPdu.Since o x) (g : MinefieldFamilyPdu.Since x y) : MinefieldFamilyPdu.Since o y :=
  Pdu.Since.trans h g

theorem MinefieldFamilyPdu.since  (o : MinefieldFamilyPdu) (s : InStream) : MinefieldFamilyPdu.Since o (MinefieldFamilyPdu.parseInto o s).2.1 := by
  refine (?_ : P.Keeps (MinefieldFamilyPdu.Since o) MinefieldFamilyPdu.parseInto) o s (.refl o)
  unfold MinefieldFamilyPdu.parseInto
  refine .call Pdu.since (fun _ _ h g => Pdu.Since.trans h g) ?_
  exact .pure

theorem MinefieldFamilyPdu.into (o : MinefieldFamilyPdu) : P.run MinefieldFamilyPdu.parseInto o = MinefieldFamilyPdu.parse o := by
  unfold MinefieldFamilyPdu.parseInto MinefieldFamilyPdu.parse
  simp (maxSteps := 1000000) only [P.run_pure, P.run_call, Pdu.into]

theorem MinefieldFamilyPdu.again {o x : MinefieldFamilyPdu} (h : MinefieldFamilyPdu.Since o x) : MinefieldFamilyPdu.parse x = MinefieldFamilyPdu.parse o := by
  unfold MinefieldFamilyPdu.parse
  simp only [Pdu.again h]

theorem MinefieldFamilyPdu.blind : Blind (MinefieldFamilyPdu.parse) := by
  intro o x
  unfold MinefieldFamilyPdu.parse
  refine .bind (Pdu.blind _ _) fun _ _ _ => ?_
  exact .pure trivial

theorem SetDataReliablePdu.Since.refl (o : SetDataReliablePdu) : SetDataReliablePdu.Since o o :=
  ⟨SimulationManagementWithReliabilityFamilyPdu.Since.refl _, DatumSpecification.Since.refl _⟩

theorem SetDataReliablePdu.Since.trans {o x y : SetDataReliablePdu} (h : SetDataReliablePdu.Since o x) (g : SetDataReliablePdu.Since x y) : SetDataReliablePdu.Since o y :=
  ⟨SimulationManagementWithReliabilityFamilyPdu.Since.trans h.1 g.1, DatumSpecification.Since.trans h.2 g.2⟩

theorem SetDataReliablePdu.since  (o : SetDataReliablePdu) (s : InStream) : SetDataReliablePdu.Since o (SetDataReliablePdu.parseInto o s).2.1 := by
  refine (?_ : P.Keeps (SetDataReliablePdu.Since o) SetDataReliablePdu.parseInto) o s (.refl o)
  unfold SetDataReliablePdu.parseInto
  refine .call SimulationManagementWithReliabilityFamilyPdu.since (fun _ _ h g => ⟨SimulationManagementWithReliabilityFamilyPdu.Since.trans h.1 g, h.2⟩) ?_
  refine .read fun _ => ?_
  refine .set (fun _ h => h) ?_
  refine .read fun _ => ?_
  refine .set (fun _ h => h) ?_
  refine .read fun _ => ?_
  refine .set (fun _ h => h) ?_
  refine .read fun _ => ?_
  refine .set (fun _ h => h) ?_
  refine .call DatumSpecification.since (fun _ _ h g => ⟨h.1, DatumSpecification.Since.trans h.2 g⟩) ?_
  exact .pure

theorem SetDataReliablePdu.into (o : SetDataReliablePdu) : P.run SetDataReliablePdu.parseInto o = SetDataReliablePdu.parse o := by
  unfold SetDataReliablePdu.parseInto SetDataReliablePdu.parse
  simp (maxSteps := 1000000) only [P.run_pure, P.run_read, P.run_set, P.run_call, DatumSpecification.into, SimulationManagementWithReliabilityFamilyPdu.into]

theorem SetDataReliablePdu.again {o x : SetDataReliablePdu} (h : SetDataReliablePdu.Since o x) : SetDataReliablePdu.parse (SetDataReliablePdu.trim o x) = SetDataReliablePdu.parse o := by
  unfold SetDataReliablePdu.parse SetDataReliablePdu.trim
  simp only [SimulationManagementWithReliabilityFamilyPdu.again h.1, DatumSpecification.again h.2]

theorem SetDataReliablePdu.blind : Blind (SetDataReliablePdu.parse) := by
  intro o x
  unfold SetDataReliablePdu.parse
  refine .bind (SimulationManagementWithReliabilityFamilyPdu.blind _ _) fun _ _ _ => ?_
  refine .read fun _ => ?_
  refine .read fun _ => ?_
  refine .read fun _ => ?_
  refine .read fun _ => ?_
  refine .bind (DatumSpecification.blind _ _) fun _ _ _ => ?_
  exact .pure trivial

theorem EventReportPdu.Since.refl (o : EventReportPdu) : EventReportPdu.Since o o :=
  ⟨SimulationManagementFamilyPdu.Since.refl _, DatumSpecification.Since.refl _⟩

theorem EventReportPdu.Since.trans {o x y : EventReportPdu} (h : EventReportPdu.Since o x) (g : EventReportPdu.Since x y) : EventReportPdu.Since o y :=
  ⟨SimulationManagementFamilyPdu.Since.trans h.1 g.1, DatumSpecification.Since.trans h.2 g.2⟩

theorem EventReportPdu.since  (o : EventReportPdu) (s : InStream) : EventReportPdu.Since o (EventReportPdu.parseInto o s).2.1 := by
  refine (?_ : P.Keeps (EventReportPdu.Since o) EventReportPdu.parseInto) o s (.refl o)
  unfold EventReportPdu.parseInto
  refine .call SimulationManagementFamilyPdu.since (fun _ _ h g => ⟨SimulationManagementFamilyPdu.Since.trans h.1 g, h.2⟩) ?_
  refine .read fun _ => ?_
  refine .set (fun _ h => h) ?_
  refine .read fun _ => ?_
  refine .set (fun _ h => h) ?_
  refine .call DatumSpecification.since (fun _ _ h g => ⟨h.1, DatumSpecification.Since.trans h.2 g⟩) ?_
  exact .pure

theorem EventReportPdu.into (o : EventReportPdu) : P.run EventReportPdu.parseInto o = EventReportPdu.parse o := by
  unfold EventReportPdu.parseInto EventReportPdu.parse
  simp (maxSteps := 1000000) only [P.run_pure, P.run_read, P.run_set, P.run_call, DatumSpecification.into, SimulationManagementFamilyPdu.into]

theorem EventReportPdu.again {o x : EventReportPdu} (h : EventReportPdu.Since o x) : EventReportPdu.parse (EventReportPdu.trim o x) = EventReportPdu.parse o := by
  unfold EventReportPdu.parse EventReportPdu.trim
  simp only [SimulationManagementFamilyPdu.again h.1, DatumSpecification.again h.2]

theorem EventReportPdu.blind : Blind (EventReportPdu.parse) := by
  intro o x
  unfold EventReportPdu.parse
  refine .bind (SimulationManagementFamilyPdu.blind _ _) fun _ _ _ => ?_
  refine .read fun _ => ?_
  refine .read fun _ => ?_
  refine .bind (DatumSpecification.blind _ _) fun _ _ _ => ?_
  exact .pure trivial

theorem PointObjectStatePdu.Since.refl (o : PointObjectStatePdu) : PointObjectStatePdu.Since o o :=
  ⟨SyntheticEnvironmentFamilyPdu.Since.refl _, EntityIdentifier.Since.refl _, EntityIdentifier.Since.refl _, ObjectType.Since.refl _, WorldCoordinates.Since.refl _, EulerAngles.Since.refl _, rfl, SimulationAddress.Since.refl _, SimulationAddress.Since.refl _⟩

theorem PointObjectStatePdu.Since.trans {o x y : PointObjectStatePdu} (h : PointObjectStatePdu.Since o x) (g : PointObjectStatePdu.Since x y) : PointObjectStatePdu.Since o y :=
  ⟨SyntheticEnvironmentFamilyPdu.Since.trans h.1 g.1, EntityIdentifier.Since.trans h.2.1 g.2.1, EntityIdentifier.Since.trans h.2.2.1 g.2.2.1, ObjectType.Since.trans h.2.2.2.1 g.2.2.2.1, WorldCoordinates.Since.trans h.2.2.2.2.1 g.2.2.2.2.1, EulerAngles.Since.trans h.2.2.2.2.2.1 g.2.2.2.2.2.1, Eq.trans (g.2.2.2.2.2.2.1) (h.2.2.2.2.2.2.1), SimulationAddress.Since.trans h.2.2.2.2.2.2.2.1 g.2.2.2.2.2.2.2.1, SimulationAddress.Since.trans h.2.2.2.2.2.2.2.2 g.2.2.2.2.2.2.2.2⟩

theorem PointObjectStatePdu.since  (o : PointObjectStatePdu) (s : InStream) : PointObjectStatePdu.Since o (PointObjectStatePdu.parseInto o s).2.1 := by
  refine (?_ : P.Keeps (PointObjectStatePdu.Since o) PointObjectStatePdu.parseInto) o s (.refl o)
  unfold PointObjectStatePdu.parseInto
  refine .call SyntheticEnvironmentFamilyPdu.since (fun _ _ h g => ⟨SyntheticEnvironmentFamilyPdu.Since.trans h.1 g, h.2.1, h.2.2.1, h.2.2.2.1, h.2.2.2.2.1, h.2.2.2.2.2.1, h.2.2.2.2.2.2.1, h.2.2.2.2.2.2.2.1, h.2.2.2.2.2.2.2.2⟩) ?_
  refine .call EntityIdentifier.since (fun _ _ h g => ⟨h.1, EntityIdentifier.Since.trans h.2.1 g, h.2.2.1, h.2.2.2.1, h.2.2.2.2.1, h.2.2.2.2.2.1, h.2.2.2.2.2.2.1, h.2.2.2.2.2.2.2.1, h.2.2.2.2.2.2.2.2⟩) ?_
  refine .call EntityIdentifier.since (fun _ _ h g => ⟨h.1, h.2.1, EntityIdentifier.Since.trans h.2.2.1 g, h.2.2.2.1, h.2.2.2.2.1, h.2.2.2.2.2.1, h.2.2.2.2.2.2.1, h.2.2.2.2.2.2.2.1, h.2.2.2.2.2.2.2.2⟩) ?_
  refine .read fun _ => ?_
  refine .set (fun _ h => h) ?_
  refine .read fun _ => ?_
  refine .set (fun _ h => h) ?_
  refine .read fun _ => ?_
  refine .set (fun _ h => h) ?_
  refine .call ObjectType.since (fun _ _ h g => ⟨h.1, h.2.1, h.2.2.1, ObjectType.Since.trans h.2.2.2.1 g, h.2.2.2.2.1, h.2.2.2.2.2.1, h.2.2.2.2.2.2.1, h.2.2.2.2.2.2.2.1, h.2.2.2.2.2.2.2.2⟩) ?_
  refine .call WorldCoordinates.since (fun _ _ h g => ⟨h.1, h.2.1, h.2.2.1, h.2.2.2.1, WorldCoordinates.Since.trans h.2.2.2.2.1 g, h.2.2.2.2.2.1, h.2.2.2.2.2.2.1, h.2.2.2.2.2.2.2.1, h.2.2.2.2.2.2.2.2⟩) ?_
  refine .call EulerAngles.since (fun _ _ h g => ⟨h.1, h.2.1, h.2.2.1, h.2.2.2.1, h.2.2.2.2.1, EulerAngles.Since.trans h.2.2.2.2.2.1 g, h.2.2.2.2.2.2.1, h.2.2.2.2.2.2.2.1, h.2.2.2.2.2.2.2.2⟩) ?_
  refine .read fun _ => ?_
  refine .set (fun _ h => h) ?_
  refine .call SimulationAddress.since (fun _ _ h g => ⟨h.1, h.2.1, h.2.2.1, h.2.2.2.1, h.2.2.2.2.1, h.2.2.2.2.2.1, h.2.2.2.2.2.2.1, SimulationAddress.Since.trans h.2.2.2.2.2.2.2.1 g, h.2.2.2.2.2.2.2.2⟩) ?_
  refine .call SimulationAddress.since (fun _ _ h g => ⟨h.1, h.2.1, h.2.2.1, h.2.2.2.1, h.2.2.2.2.1, h.2.2.2.2.2.1, h.2.2.2.2.2.2.1, h.2.2.2.2.2.2.2.1, SimulationAddress.Since.trans h.2.2.2.2.2.2.2.2 g⟩) ?_
  refine .read fun _ => ?_
  refine .set (fun _ h => h) ?_
  exact .pure

theorem PointObjectStatePdu.into (o : PointObjectStatePdu) : P.run PointObjectStatePdu.parseInto o = PointObjectStatePdu.parse o := by
  unfold PointObjectStatePdu.parseInto PointObjectStatePdu.parse
  simp (maxSteps := 1000000) only [P.run_pure, P.run_read, P.run_set, P.run_call, EntityIdentifier.into, EulerAngles.into, ObjectType.into, SimulationAddress.into, SyntheticEnvironmentFamilyPdu.into, WorldCoordinates.into]

theorem PointObjectStatePdu.again {o x : PointObjectStatePdu} (h : PointObjectStatePdu.Since o x) : PointObjectStatePdu.parse x = PointObjectStatePdu.parse o := by
  unfold PointObjectStatePdu.parse
  simp only [SyntheticEnvironmentFamilyPdu.again h.1, EntityIdentifier.again h.2.1, EntityIdentifier.again h.2.2.1, ObjectType.again h.2.2.2.1, WorldCoordinates.again h.2.2.2.2.1, EulerAngles.again h.2.2.2.2.2.1, h.2.2.2.2.2.2.1, SimulationAddress.again h.2.2.2.2.2.2.2.1, SimulationAddress.again h.2.2.2.2.2.2.2.2]

theorem PointObjectStatePdu.blind : Blind (PointObjectStatePdu.parse) := by
  intro o x
  unfold PointObjectStatePdu.parse
  refine .bind (SyntheticEnvironmentFamilyPdu.blind _ _) fun _ _ _ => ?_
  refine .bind (EntityIdentifier.blind _ _) fun _ _ _ => ?_
  refine .bind (EntityIdentifier.blind _ _) fun _ _ _ => ?_
  refine .read fun _ => ?_
  refine .read fun _ => ?_
  refine .read fun _ => ?_
  refine .bind (ObjectType.blind _ _) fun _ _ _ => ?_
  refine .bind (WorldCoordinates.blind _ _) fun _ _ _ => ?_
  refine .bind (EulerAngles.blind _ _) fun _ _ _ => ?_
  refine .read fun _ => ?_
  refine .bind (SimulationAddress.blind _ _) fun _ _ _ => ?_
  refine .bind (SimulationAddress.blind _ _) fun _ _ _ => ?_
  refine .read fun _ => ?_
  exact .pure trivial

theorem DataPdu.Since.refl (o : DataPdu) : DataPdu.Since o o :=
  ⟨SimulationManagementFamilyPdu.Since.refl _, DatumSpecification.Since.refl _⟩

theorem DataPdu.Since.trans {o x y : DataPdu} (h : DataPdu.Since o x) (g : DataPdu.Since x y) : DataPdu.Since o y :=
  ⟨SimulationManagementFamilyPdu.Since.trans h.1 g.1, DatumSpecification.Since.trans h.2 g.2⟩

theorem DataPdu.since  (o : DataPdu) (s : InStream) : DataPdu.Since o (DataPdu.parseInto o s).2.1 := by
  refine (?_ : P.Keeps (DataPdu.Since o) DataPdu.parseInto) o s (.refl o)
  unfold DataPdu.parseInto
  refine .call SimulationManagementFamilyPdu.since (fun _ _ h g => ⟨SimulationManagementFamilyPdu.Since.trans h.1 g, h.2⟩) ?_
  refine .read fun _ => ?_
  refine .set (fun _ h => h) ?_
  refine .read fun _ => ?_
  refine .set (fun _ h => h) ?_
  refine .call DatumSpecification.since (fun _ _ h g => ⟨h.1, DatumSpecification.Since.trans h.2 g⟩) ?_
  exact .pure

theorem DataPdu.into (o : DataPdu) : P.run DataPdu.parseInto o = DataPdu.parse o := by
  unfold DataPdu.parseInto DataPdu.parse
  simp (maxSteps := 1000000) only [P.run_pure, P.run_read, P.run_set, P.run_call, DatumSpecification.into, SimulationManagementFamilyPdu.into]

theorem DataPdu.again {o x : DataPdu} (h : DataPdu.Since o x) : DataPdu.parse (DataPdu.trim o x) = DataPdu.parse o := by
  unfold DataPdu.parse DataPdu.trim
  simp only [SimulationManagementFamilyPdu.again h.1, DatumSpecification.again h.2]

theorem DataPdu.blind : Blind (DataPdu.parse) := by
  intro o x
  unfold DataPdu.parse
  refine .bind (SimulationManagementFamilyPdu.blind _ _) fun _ _ _ => ?_
  refine .read fun _ => ?_
  refine .read fun _ => ?_
  refine .bind (DatumSpecification.blind _ _) fun _ _ _ => ?_
  exact .pure trivial

theorem FastEntityStatePdu.Since.refl (o : FastEntityStatePdu) : FastEntityStatePdu.Since o o :=
  ⟨EntityInformationFamilyPdu.Since.refl _, List.prefix_refl _⟩

theorem FastEntityStatePdu.Since.trans {o x y : FastEntityStatePdu} (h : FastEntityStatePdu.Since o x) (g : FastEntityStatePdu.Since x y) : FastEntityStatePdu.Since o y :=
  ⟨EntityInformationFamilyPdu.Since.trans h.1 g.1, List.IsPrefix.trans (h.2) (g.2)⟩

theorem FastEntityStatePdu.since  (o : FastEntityStatePdu) (s : InStream) : FastEntityStatePdu.Since o (FastEntityStatePdu.parseInto o s).2.1 := by
  refine (?_ : P.Keeps (FastEntityStatePdu.Since o) FastEntityStatePdu.parseInto) o s (.refl o)
  unfold FastEntityStatePdu.parseInto
  refine .call EntityInformationFamilyPdu.since (fun _ _ h g => ⟨EntityInformationFamilyPdu.Since.trans h.1 g, h.2⟩) ?_
  refine .read fun _ => ?_
  refine .set (fun _ h => h) ?_
  refine .read fun _ => ?_
  refine .set (fun _ h => h) ?_
  refine .read fun _ => ?_
  refine .set (fun _ h => h) ?_
  refine .read fun _ => ?_
  refine .set (fun _ h => h) ?_
  refine .read fun _ => ?_
  refine .set (fun _ h => h) ?_
  refine .read fun _ => ?_
  refine .set (fun _ h => h) ?_
  refine .read fun _ => ?_
  refine .set (fun _ h => h) ?_
  refine .read fun _ => ?_
  refine .set (fun _ h => h) ?_
  refine .read fun _ => ?_
  refine .set (fun _ h => h) ?_
  refine .read fun _ => ?_
  refine .set (fun _ h => h) ?_
  refine .read fun _ => ?_
  refine .set (fun _ h => h) ?_
  refine .read fun _ => ?_
  refine .set (fun _ h => h) ?_
  refine .read fun _ => ?_
  refine .set (fun _ h => h) ?_
  refine .read fun _ => ?_
  refine .set (fun _ h => h) ?_
  refine .read fun _ => ?_
  refine .set (fun _ h => h) ?_
  refine .read fun _ => ?_
  refine .set (fun _ h => h) ?_
  refine .read fun _ => ?_
  refine .set (fun _ h => h) ?_
  refine .read fun _ => ?_
  refine .set (fun _ h => h) ?_
  refine .read fun _ => ?_
  refine .set (fun _ h => h) ?_
  refine .read fun _ => ?_
  refine .set (fun _ h => h) ?_
  refine .read fun _ => ?_
  refine .set (fun _ h => h) ?_
  refine .read fun _ => ?_
  refine .set (fun _ h => h) ?_
  refine .read fun _ => ?_
  refine .set (fun _ h => h) ?_
  refine .read fun _ => ?_
  refine .set (fun _ h => h) ?_
  refine .read fun _ => ?_
  refine .set (fun _ h => h) ?_
  refine .read fun _ => ?_
  refine .set (fun _ h => h) ?_
  refine .read fun _ => ?_
  refine .set (fun _ h => h) ?_
  refine .read fun _ => ?_
  refine .set (fun _ h => h) ?_
  refine .read fun _ => ?_
  refine .set (fun _ h => h) ?_
  refine .read fun _ => ?_
  refine .set (fun _ h => h) ?_
  refine .fillReads (fun _ _ h => h) ?_
  refine .read fun _ => ?_
  refine .set (fun _ h => h) ?_
  refine .read fun _ => ?_
  refine .set (fun _ h => h) ?_
  refine .read fun _ => ?_
  refine .set (fun _ h => h) ?_
  refine .read fun _ => ?_
  refine .set (fun _ h => h) ?_
  refine .read fun _ => ?_
  refine .set (fun _ h => h) ?_
  refine .read fun _ => ?_
  refine .set (fun _ h => h) ?_
  refine .fillReads (fun _ _ h => h) ?_
  refine .read fun _ => ?_
  refine .set (fun _ h => h) ?_
  refine .appendObjs (fun _ _ h => ⟨h.1, List.IsPrefix.trans (h.2) (List.prefix_append _ _)⟩) ?_
  exact .pure

theorem FastEntityStatePdu.into (o : FastEntityStatePdu) : P.run FastEntityStatePdu.parseInto o = FastEntityStatePdu.parse o := by
  unfold FastEntityStatePdu.parseInto FastEntityStatePdu.parse
  simp (maxSteps := 1000000) (disch := exact ⟨fun _ _ => rfl, fun _ _ _ => rfl, fun _ => rfl⟩) only [P.run_pure, P.run_read, P.run_set, P.run_call, P.run_appendObjs, P.run_fillReads, EntityInformationFamilyPdu.into, VariableParameter.into]

theorem FastEntityStatePdu.again {o x : FastEntityStatePdu} (h : FastEntityStatePdu.Since o x) : FastEntityStatePdu.parse (FastEntityStatePdu.trim o x) = FastEntityStatePdu.parse o := by
  unfold FastEntityStatePdu.parse FastEntityStatePdu.trim
  simp only [EntityInformationFamilyPdu.again h.1, ← List.prefix_iff_eq_take.mp (h.2)]

theorem FastEntityStatePdu.blind : Blind (FastEntityStatePdu.parse) := by
  intro o x
  unfold FastEntityStatePdu.parse
  refine .bind (EntityInformationFamilyPdu.blind _ _) fun _ _ _ => ?_
  refine .read fun _ => ?_
  refine .read fun _ => ?_
  refine .read fun _ => ?_
  refine .read fun _ => ?_
  refine .read fun _ => ?_
  refine .read fun _ => ?_
  refine .read fun _ => ?_
  refine .read fun _ => ?_
  refine .read fun _ => ?_
  refine .read fun _ => ?_
  refine .read fun _ => ?_
  refine .read fun _ => ?_
  refine .read fun _ => ?_
  refine .read fun _ => ?_
  refine .read fun _ => ?_
  refine .read fun _ => ?_
  refine .read fun _ => ?_
  refine .read fun _ => ?_
  refine .read fun _ => ?_
  refine .read fun _ => ?_
  refine .read fun _ => ?_
  refine .read fun _ => ?_
  refine .read fun _ => ?_
  refine .read fun _ => ?_
  refine .read fun _ => ?_
  refine .read fun _ => ?_
  refine .read fun _ => ?_
  refine .read fun _ => ?_
  refine .read fun _ => ?_
  refine .read fun _ => ?_
  refine .read fun _ => ?_
  refine .read fun _ => ?_
  refine .read fun _ => ?_
  refine .read fun _ => ?_
  refine .read fun _ => ?_
  refine .read fun _ => ?_
  refine .read fun _ => ?_
  refine .read fun _ => ?_
  refine .read fun _ => ?_
  refine .read fun _ => ?_
  exact .pure trivial

theorem AcknowledgeReliablePdu.Since.refl (o : AcknowledgeReliablePdu) : AcknowledgeReliablePdu.Since o o :=
  SimulationManagementWithReliabilityFamilyPdu.Since.refl _

theorem AcknowledgeReliablePdu.Since.trans {o x y : AcknowledgeReliablePdu} (h : AcknowledgeReliablePdu.Since o x) (g : AcknowledgeReliablePdu.Since x y) : AcknowledgeReliablePdu.Since o y :=
  SimulationManagementWithReliabilityFamilyPdu.Since.trans h g

theorem AcknowledgeReliablePdu.since  (o : AcknowledgeReliablePdu) (s : InStream) : AcknowledgeReliablePdu.Since o (AcknowledgeReliablePdu.parseInto o s).2.1 := by
  refine (?_ : P.Keeps (AcknowledgeReliablePdu.Since o) AcknowledgeReliablePdu.parseInto) o s (.refl o)
  unfold AcknowledgeReliablePdu.parseInto
  refine .call SimulationManagementWithReliabilityFamilyPdu.since (fun _ _ h g => SimulationManagementWithReliabilityFamilyPdu.Since.trans h g) ?_
  refine .read fun _ => ?_
  refine .set (fun _ h => h) ?_
  refine .read fun _ => ?_
  refine .set (fun _ h => h) ?_
  refine .read fun _ => ?_
  refine .set (fun _ h => h) ?_
  exact .pure

theorem AcknowledgeReliablePdu.into (o : AcknowledgeReliablePdu) : P.run AcknowledgeReliablePdu.parseInto o = AcknowledgeReliablePdu.parse o := by
  unfold AcknowledgeReliablePdu.parseInto AcknowledgeReliablePdu.parse
  simp (maxSteps := 1000000) only [P.run_pure, P.run_read, P.run_set, P.run_call, SimulationManagementWithReliabilityFamilyPdu.into]

theorem AcknowledgeReliablePdu.again {o x : AcknowledgeReliablePdu} (h : AcknowledgeReliablePdu.Since o x) : AcknowledgeReliablePdu.parse x = AcknowledgeReliablePdu.parse o := by
  unfold AcknowledgeReliablePdu.parse
  simp only [SimulationManagementWithReliabilityFamilyPdu.again h]

theorem AcknowledgeReliablePdu.blind : Blind (AcknowledgeReliablePdu.parse) := by
  intro o x
  unfold AcknowledgeReliablePdu.parse
  refine .bind (SimulationManagementWithReliabilityFamilyPdu.blind _ _) fun _ _ _ => ?_
  refine .read fun _ => ?_
  refine .read fun _ => ?_
  refine .read fun _ => ?_
  exact .pure trivial

theorem StartResumeReliablePdu.Since.refl (o : StartResumeReliablePdu) : StartResumeReliablePdu.Since o o :=
  ⟨SimulationManagementWithReliabilityFamilyPdu.Since.refl _, ClockTime.Since.refl _, ClockTime.Since.refl _⟩

theorem StartResumeReliablePdu.Since.trans {o x y : StartResumeReliablePdu} (h : StartResumeReliablePdu.Since o x) (g : StartResumeReliablePdu.Since x y) : StartResumeReliablePdu.Since o y :=
  ⟨SimulationManagementWithReliabilityFamilyPdu.Since.trans h.1 g.1, ClockTime.Since.trans h.2.1 g.2.1, ClockTime.Since.trans h.2.2 g.2.2⟩

theorem StartResumeReliablePdu.since  (o : StartResumeReliablePdu) (s : InStream) : StartResumeReliablePdu.Since o (StartResumeReliablePdu.parseInto o s).2.1 := by
  refine (?_ : P.Keeps (StartResumeReliablePdu.Since o) StartResumeReliablePdu.parseInto) o s (.refl o)
  unfold StartResumeReliablePdu.parseInto
  refine .call SimulationManagementWithReliabilityFamilyPdu.since (fun _ _ h g => ⟨SimulationManagementWithReliabilityFamilyPdu.Since.trans h.1 g, h.2.1, h.2.2⟩) ?_
  refine .call ClockTime.since (fun _ _ h g => ⟨h.1, ClockTime.Since.trans h.2.1 g, h.2.2⟩) ?_
  refine .call ClockTime.since (fun _ _ h g => ⟨h.1, h.2.1, ClockTime.Since.trans h.2.2 g⟩) ?_
  refine .read fun _ => ?_
  refine .set (fun _ h => h) ?_
  refine .read fun _ => ?_
  refine .set (fun _ h => h) ?_
  refine .read fun _ => ?_
  refine .set (fun _ h => h) ?_
  refine .read fun _ => ?_
  refine .set (fun _ h => h) ?_
  exact .pure

theorem StartResumeReliablePdu.into (o : StartResumeReliablePdu) : P.run StartResumeReliablePdu.parseInto o = StartResumeReliablePdu.parse o := by
  unfold StartResumeReliablePdu.parseInto StartResumeReliablePdu.parse
  simp (maxSteps := 1000000) only [P.run_pure, P.run_read, P.run_set, P.run_call, ClockTime.into, SimulationManagementWithReliabilityFamilyPdu.into]

theorem StartResumeReliablePdu.again {o x : StartResumeReliablePdu} (h : StartResumeReliablePdu.Since o x) : StartResumeReliablePdu.parse x = StartResumeReliablePdu.parse o := by
  unfold StartResumeReliablePdu.parse
  simp only [SimulationManagementWithReliabilityFamilyPdu.again h.1, ClockTime.again h.2.1, ClockTime.again h.2.2]

theorem StartResumeReliablePdu.blind : Blind (StartResumeReliablePdu.parse) := by
  intro o x
  unfold StartResumeReliablePdu.parse
  refine .bind (SimulationManagementWithReliabilityFamilyPdu.blind _ _) fun _ _ _ => ?_
  refine .bind (ClockTime.blind _ _) fun _ _ _ => ?_
  refine .bind (ClockTime.blind _ _) fun _ _ _ => ?_
  refine .read fun _ => ?_
  refine .read fun _ => ?_
  refine .read fun _ => ?_
  refine .read fun _ => ?_
  exact .pure trivial

theorem ArealObjectStatePdu.Since.refl (o : ArealObjectStatePdu) : ArealObjectStatePdu.Since o o :=
  ⟨SyntheticEnvironmentFamilyPdu.Since.refl _, EntityIdentifier.Since.refl _, EntityIdentifier.Since.refl _, ObjectType.Since.refl _, SimulationAddress.Since.refl _, SimulationAddress.Since.refl _, List.prefix_refl _⟩

theorem ArealObjectStatePdu.Since.trans {o x y : ArealObjectStatePdu} (h : ArealObjectStatePdu.Since o x) (g : ArealObjectStatePdu.Since x y) : ArealObjectStatePdu.Since o y :=
  ⟨SyntheticEnvironmentFamilyPdu.Since.trans h.1 g.1, EntityIdentifier.Since.trans h.2.1 g.2.1, EntityIdentifier.Since.trans h.2.2.1 g.2.2.1, ObjectType.Since.trans h.2.2.2.1 g.2.2.2.1, SimulationAddress.Since.trans h.2.2.2.2.1 g.2.2.2.2.1, SimulationAddress.Since.trans h.2.2.2.2.2.1 g.2.2.2.2.2.1, List.IsPrefix.trans (h.2.2.2.2.2.2) (g.2.2.2.2.2.2)⟩

theorem ArealObjectStatePdu.since  (o : ArealObjectStatePdu) (s : InStream) : ArealObjectStatePdu.Since o (ArealObjectStatePdu.parseInto o s).2.1 := by
  refine (?_ : P.Keeps (ArealObjectStatePdu.Since o) ArealObjectStatePdu.parseInto) o s (.refl o)
  unfold ArealObjectStatePdu.parseInto
  refine .call SyntheticEnvironmentFamilyPdu.since (fun _ _ h g => ⟨SyntheticEnvironmentFamilyPdu.Since.trans h.1 g, h.2.1, h.2.2.1, h.2.2.2.1, h.2.2.2.2.1, h.2.2.2.2.2.1, h.2.2.2.2.2.2⟩) ?_
  refine .call EntityIdentifier.since (fun _ _ h g => ⟨h.1, EntityIdentifier.Since.trans h.2.1 g, h.2.2.1, h.2.2.2.1, h.2.2.2.2.1, h.2.2.2.2.2.1, h.2.2.2.2.2.2⟩) ?_
  refine .call EntityIdentifier.since (fun _ _ h g => ⟨h.1, h.2.1, EntityIdentifier.Since.trans h.2.2.1 g, h.2.2.2.1, h.2.2.2.2.1, h.2.2.2.2.2.1, h.2.2.2.2.2.2⟩) ?_
  refine .read fun _ => ?_
  refine .set (fun _ h => h) ?_
  refine .read fun _ => ?_
  refine .set (fun _ h => h) ?_
  refine .read fun _ => ?_
  refine .set (fun _ h => h) ?_
  refine .call ObjectType.since (fun _ _ h g => ⟨h.1, h.2.1, h.2.2.1, ObjectType.Since.trans h.2.2.2.1 g, h.2.2.2.2.1, h.2.2.2.2.2.1, h.2.2.2.2.2.2⟩) ?_
  refine .read fun _ => ?_
  refine .set (fun _ h => h) ?_
  refine .read fun _ => ?_
  refine .set (fun _ h => h) ?_
  refine .read fun _ => ?_
  refine .call SimulationAddress.since (fun _ _ h g => ⟨h.1, h.2.1, h.2.2.1, h.2.2.2.1, SimulationAddress.Since.trans h.2.2.2.2.1 g, h.2.2.2.2.2.1, h.2.2.2.2.2.2⟩) ?_
  refine .call SimulationAddress.since (fun _ _ h g => ⟨h.1, h.2.1, h.2.2.1, h.2.2.2.1, h.2.2.2.2.1, SimulationAddress.Since.trans h.2.2.2.2.2.1 g, h.2.2.2.2.2.2⟩) ?_
  refine .appendObjs (fun _ _ h => ⟨h.1, h.2.1, h.2.2.1, h.2.2.2.1, h.2.2.2.2.1, h.2.2.2.2.2.1, List.IsPrefix.trans (h.2.2.2.2.2.2) (List.prefix_append _ _)⟩) ?_
  exact .pure

theorem ArealObjectStatePdu.into (o : ArealObjectStatePdu) : P.run ArealObjectStatePdu.parseInto o = ArealObjectStatePdu.parse o := by
  unfold ArealObjectStatePdu.parseInto ArealObjectStatePdu.parse
  simp (maxSteps := 1000000) (disch := exact ⟨fun _ _ => rfl, fun _ _ _ => rfl, fun _ => rfl⟩) only [P.run_pure, P.run_read, P.run_set, P.run_call, P.run_appendObjs, EntityIdentifier.into, ObjectType.into, SimulationAddress.into, SyntheticEnvironmentFamilyPdu.into, WorldCoordinates.into]

theorem ArealObjectStatePdu.again {o x : ArealObjectStatePdu} (h : ArealObjectStatePdu.Since o x) : ArealObjectStatePdu.parse (ArealObjectStatePdu.trim o x) = ArealObjectStatePdu.parse o := by
  unfold ArealObjectStatePdu.parse ArealObjectStatePdu.trim
  simp only [SyntheticEnvironmentFamilyPdu.again h.1, EntityIdentifier.again h.2.1, EntityIdentifier.again h.2.2.1, ObjectType.again h.2.2.2.1, SimulationAddress.again h.2.2.2.2.1, SimulationAddress.again h.2.2.2.2.2.1, ← List.prefix_iff_eq_take.mp (h.2.2.2.2.2.2)]

theorem ArealObjectStatePdu.blind : Blind (ArealObjectStatePdu.parse) := by
  intro o x
  unfold ArealObjectStatePdu.parse
  refine .bind (SyntheticEnvironmentFamilyPdu.blind _ _) fun _ _ _ => ?_
  refine .bind (EntityIdentifier.blind _ _) fun _ _ _ => ?_
  refine .bind (EntityIdentifier.blind _ _) fun _ _ _ => ?_
  refine .read fun _ => ?_
  refine .read fun _ => ?_
  refine .read fun _ => ?_
  refine .bind (ObjectType.blind _ _) fun _ _ _ => ?_
  refine .read fun _ => ?_
  refine .read fun _ => ?_
  refine .read fun _ => ?_
  refine .bind (SimulationAddress.blind _ _) fun _ _ _ => ?_
  refine .bind (SimulationAddress.blind _ _) fun _ _ _ => ?_
  refine .read fun _ => ?_
  exact .pure trivial

theorem DataQueryReliablePdu.Since.refl (o : DataQueryReliablePdu) : DataQueryReliablePdu.Since o o :=
  ⟨SimulationManagementWithReliabilityFamilyPdu.Since.refl _, DataQueryDatumSpecification.Since.refl _⟩

theorem DataQueryReliablePdu.Since.trans {o x y : DataQueryReliablePdu} (h : DataQueryReliablePdu.Since o x) (g : DataQueryReliablePdu.Since x y) : DataQueryReliablePdu.Since o y :=
  ⟨SimulationManagementWithReliabilityFamilyPdu.Since.trans h.1 g.1, DataQueryDatumSpecification.Since.trans h.2 g.2⟩

theorem DataQueryReliablePdu.since  (o : DataQueryReliablePdu) (s : InStream) : DataQueryReliablePdu.Since o (DataQueryReliablePdu.parseInto o s).2.1 := by
  refine (?_ : P.Keeps (DataQueryReliablePdu.Since o) DataQueryReliablePdu.parseInto) o s (.refl o)
  unfold DataQueryReliablePdu.parseInto
  refine .call SimulationManagementWithReliabilityFamilyPdu.since (fun _ _ h g => ⟨SimulationManagementWithReliabilityFamilyPdu.Since.trans h.1 g, h.2⟩) ?_
  refine .read fun _ => ?_
  refine .set (fun _ h => h) ?_
  refine .read fun _ => ?_
  refine .set (fun _ h => h) ?_
  refine .read fun _ => ?_
  refine .set (fun _ h => h) ?_
  refine .read fun _ => ?_
  refine .set (fun _ h => h) ?_
  refine .read fun _ => ?_
  refine .set (fun _ h => h) ?_
  refine .call DataQueryDatumSpecification.since (fun _ _ h g => ⟨h.1, DataQueryDatumSpecification.Since.trans h.2 g⟩) ?_
  exact .pure

theorem DataQueryReliablePdu.into (o : DataQueryReliablePdu) : P.run DataQueryReliablePdu.parseInto o = DataQueryReliablePdu.parse o := by
  unfold DataQueryReliablePdu.parseInto DataQueryReliablePdu.parse
  simp (maxSteps := 1000000) only [P.run_pure, P.run_read, P.run_set, P.run_call, DataQueryDatumSpecification.into, SimulationManagementWithReliabilityFamilyPdu.into]

theorem DataQueryReliablePdu.again {o x : DataQueryReliablePdu} (h : DataQueryReliablePdu.Since o x) : DataQueryReliablePdu.parse (DataQueryReliablePdu.trim o x) = DataQueryReliablePdu.parse o := by
  unfold DataQueryReliablePdu.parse DataQueryReliablePdu.trim
  simp only [SimulationManagementWithReliabilityFamilyPdu.again h.1, DataQueryDatumSpecification.again h.2]

theorem DataQueryReliablePdu.blind : Blind (DataQueryReliablePdu.parse) := by
  intro o x
  unfold DataQueryReliablePdu.parse
  refine .bind (SimulationManagementWithReliabilityFamilyPdu.blind _ _) fun _ _ _ => ?_
  refine .read fun _ => ?_
  refine .read fun _ => ?_
  refine .read fun _ => ?_
  refine .read fun _ => ?_
  refine .read fun _ => ?_
  refine .bind (DataQueryDatumSpecification.blind _ _) fun _ _ _ => ?_
  exact .pure trivial

end Dis
