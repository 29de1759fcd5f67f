import Verif.Proof.InPlace4
import Verif.Model.InPlaceSpecial
import Verif.Spec.InPlaceSpecial

/-!
# Parses in place: classes modelled by hand

Generated by `tools/geninplace.py`.
-/

set_option linter.unusedVariables false
set_option linter.unusedSimpArgs false

namespace Dis

theorem NetId.Since.refl (o : NetId) : NetId.Since o o :=
  trivial

theorem NetId.Since.trans {o x y : NetId} (h : NetId.Since o x) (g : NetId.Since x y) : NetId.Since o y :=
  trivial

theorem NetId.since  (o : NetId) (s : InStream) : NetId.Since o (NetId.parseInto o s).2.1 := by
  refine (?_ : P.Keeps (NetId.Since o) NetId.parseInto) o s (.refl o)
  unfold NetId.parseInto
  refine .read fun _ => ?_
  refine .set (fun _ h => h) ?_
  refine .set (fun _ h => h) ?_
  refine .set (fun _ h => h) ?_
  refine .set (fun _ h => h) ?_
  exact .pure

theorem NetId.into (o : NetId) : P.run NetId.parseInto o = NetId.parse o := by
  unfold NetId.parseInto NetId.parse
  simp (maxSteps := 1000000) only [P.run_pure, P.run_read, P.run_set]

theorem NetId.again {o x : NetId} (h : NetId.Since o x) : NetId.parse x = NetId.parse o := by
  rfl

theorem NetId.blind : Blind (NetId.parse) := by
  intro o x
  unfold NetId.parse
  refine .read fun _ => ?_
  exact .pure trivial

theorem SpreadSpectrum.Since.refl (o : SpreadSpectrum) : SpreadSpectrum.Since o o :=
  rfl

theorem SpreadSpectrum.Since.trans {o x y : SpreadSpectrum} (h : SpreadSpectrum.Since o x) (g : SpreadSpectrum.Since x y) : SpreadSpectrum.Since o y :=
  Eq.trans (g) (h)

theorem SpreadSpectrum.since  (o : SpreadSpectrum) (s : InStream) : SpreadSpectrum.Since o (SpreadSpectrum.parseInto o s).2.1 := by
  refine (?_ : P.Keeps (SpreadSpectrum.Since o) SpreadSpectrum.parseInto) o s (.refl o)
  unfold SpreadSpectrum.parseInto
  refine .read fun _ => ?_
  refine .set (fun _ h => h) ?_
  refine .set (fun _ h => h) ?_
  refine .set (fun _ h => h) ?_
  exact .pure

theorem SpreadSpectrum.into (o : SpreadSpectrum) : P.run SpreadSpectrum.parseInto o = SpreadSpectrum.parse o := by
  unfold SpreadSpectrum.parseInto SpreadSpectrum.parse
  simp (maxSteps := 1000000) only [P.run_pure, P.run_read, P.run_set]

theorem SpreadSpectrum.again {o x : SpreadSpectrum} (h : SpreadSpectrum.Since o x) : SpreadSpectrum.parse x = SpreadSpectrum.parse o := by
  unfold SpreadSpectrum.parse
  simp only [h]

theorem SpreadSpectrum.blind : Blind (SpreadSpectrum.parse) := by
  intro o x
  unfold SpreadSpectrum.parse
  refine .read fun _ => ?_
  exact .pure trivial

theorem ModulationType.Since.refl (o : ModulationType) : ModulationType.Since o o :=
  SpreadSpectrum.Since.refl _

theorem ModulationType.Since.trans {o x y : ModulationType} (h : ModulationType.Since o x) (g : ModulationType.Since x y) : ModulationType.Since o y :=
  SpreadSpectrum.Since.trans h g

theorem ModulationType.since  (o : ModulationType) (s : InStream) : ModulationType.Since o (ModulationType.parseInto o s).2.1 := by
  refine (?_ : P.Keeps (ModulationType.Since o) ModulationType.parseInto) o s (.refl o)
  unfold ModulationType.parseInto
  refine .call SpreadSpectrum.since (fun _ _ h g => SpreadSpectrum.Since.trans h g) ?_
  refine .read fun _ => ?_
  refine .set (fun _ h => h) ?_
  refine .read fun _ => ?_
  refine .set (fun _ h => h) ?_
  refine .read fun _ => ?_
  refine .set (fun _ h => h) ?_
  exact .pure

theorem ModulationType.into (o : ModulationType) : P.run ModulationType.parseInto o = ModulationType.parse o := by
  unfold ModulationType.parseInto ModulationType.parse
  simp (maxSteps := 1000000) only [P.run_pure, P.run_read, P.run_set, P.run_call, SpreadSpectrum.into]

theorem ModulationType.again {o x : ModulationType} (h : ModulationType.Since o x) : ModulationType.parse x = ModulationType.parse o := by
  unfold ModulationType.parse
  simp only [SpreadSpectrum.again h]

theorem ModulationType.blind : Blind (ModulationType.parse) := by
  intro o x
  unfold ModulationType.parse
  refine .bind (SpreadSpectrum.blind _ _) fun _ _ _ => ?_
  refine .read fun _ => ?_
  refine .read fun _ => ?_
  refine .read fun _ => ?_
  exact .pure trivial

theorem BeamAntennaPattern.Since.refl (o : BeamAntennaPattern) : BeamAntennaPattern.Since o o :=
  EulerAngles.Since.refl _

theorem BeamAntennaPattern.Since.trans {o x y : BeamAntennaPattern} (h : BeamAntennaPattern.Since o x) (g : BeamAntennaPattern.Since x y) : BeamAntennaPattern.Since o y :=
  EulerAngles.Since.trans h g

theorem BeamAntennaPattern.since  (bytelength : Option Int) (o : BeamAntennaPattern) (s : InStream) : BeamAntennaPattern.Since o ((BeamAntennaPattern.parseInto bytelength) o s).2.1 := by
  refine (?_ : P.Keeps (BeamAntennaPattern.Since o) (BeamAntennaPattern.parseInto bytelength)) o s (.refl o)
  unfold BeamAntennaPattern.parseInto
  refine .read fun _ => ?_
  refine .call EulerAngles.since (fun _ _ h g => EulerAngles.Since.trans h g) ?_
  refine .read fun _ => ?_
  refine .set (fun _ h => h) ?_
  refine .read fun _ => ?_
  refine .set (fun _ h => h) ?_
  refine .read fun _ => ?_
  refine .set (fun _ h => h) ?_
  refine .read fun _ => ?_
  refine .set (fun _ h => h) ?_
  refine .read fun _ => ?_
  refine .set (fun _ h => h) ?_
  refine .read fun _ => ?_
  refine .set (fun _ h => h) ?_
  refine .read fun _ => ?_
  refine .set (fun _ h => h) ?_
  refine .read fun _ => ?_
  refine .set (fun _ h => h) ?_
  refine .read fun _ => ?_
  refine .set (fun _ h => h) ?_
  exact .pure

theorem BeamAntennaPattern.into (bytelength : Option Int) (o : BeamAntennaPattern) : P.run (BeamAntennaPattern.parseInto bytelength) o = BeamAntennaPattern.parse o bytelength := by
  unfold BeamAntennaPattern.parseInto BeamAntennaPattern.parse
  simp (maxSteps := 1000000) only [P.run_pure, P.run_read, P.run_set, P.run_call, EulerAngles.into]

theorem BeamAntennaPattern.again (bytelength : Option Int) {o x : BeamAntennaPattern} (h : BeamAntennaPattern.Since o x) : BeamAntennaPattern.parse x bytelength = BeamAntennaPattern.parse o bytelength := by
  unfold BeamAntennaPattern.parse
  simp only [EulerAngles.again h]

theorem BeamAntennaPattern.blind (bytelength : Option Int) : Blind (fun s => BeamAntennaPattern.parse s bytelength) := by
  intro o x
  unfold BeamAntennaPattern.parse
  refine .read fun _ => ?_
  refine .bind (EulerAngles.blind _ _) fun _ _ _ => ?_
  refine .read fun _ => ?_
  refine .read fun _ => ?_
  refine .read fun _ => ?_
  refine .read fun _ => ?_
  refine .read fun _ => ?_
  refine .read fun _ => ?_
  refine .read fun _ => ?_
  refine .read fun _ => ?_
  refine .read fun _ => ?_
  exact .pure trivial

theorem BasicHaveQuickMP.Since.refl (o : BasicHaveQuickMP) : BasicHaveQuickMP.Since o o :=
  NetId.Since.refl _

theorem BasicHaveQuickMP.Since.trans {o x y : BasicHaveQuickMP} (h : BasicHaveQuickMP.Since o x) (g : BasicHaveQuickMP.Since x y) : BasicHaveQuickMP.Since o y :=
  NetId.Since.trans h g

theorem BasicHaveQuickMP.since  (bytelength : Option Int) (o : BasicHaveQuickMP) (s : InStream) : BasicHaveQuickMP.Since o ((BasicHaveQuickMP.parseInto bytelength) o s).2.1 := by
  refine (?_ : P.Keeps (BasicHaveQuickMP.Since o) (BasicHaveQuickMP.parseInto bytelength)) o s (.refl o)
  unfold BasicHaveQuickMP.parseInto
  refine .read fun _ => ?_
  refine .call NetId.since (fun _ _ h g => NetId.Since.trans h g) ?_
  refine .read fun _ => ?_
  refine .set (fun _ h => h) ?_
  refine .read fun _ => ?_
  refine .set (fun _ h => h) ?_
  refine .read fun _ => ?_
  refine .set (fun _ h => h) ?_
  refine .read fun _ => ?_
  refine .set (fun _ h => h) ?_
  refine .read fun _ => ?_
  refine .set (fun _ h => h) ?_
  refine .read fun _ => ?_
  refine .set (fun _ h => h) ?_
  exact .pure

theorem BasicHaveQuickMP.into (bytelength : Option Int) (o : BasicHaveQuickMP) : P.run (BasicHaveQuickMP.parseInto bytelength) o = BasicHaveQuickMP.parse o bytelength := by
  unfold BasicHaveQuickMP.parseInto BasicHaveQuickMP.parse
  simp (maxSteps := 1000000) only [P.run_pure, P.run_read, P.run_set, P.run_call, NetId.into]

theorem BasicHaveQuickMP.again (bytelength : Option Int) {o x : BasicHaveQuickMP} (h : BasicHaveQuickMP.Since o x) : BasicHaveQuickMP.parse x bytelength = BasicHaveQuickMP.parse o bytelength := by
  unfold BasicHaveQuickMP.parse
  simp only [NetId.again h]

theorem BasicHaveQuickMP.blind (bytelength : Option Int) : Blind (fun s => BasicHaveQuickMP.parse s bytelength) := by
  intro o x
  unfold BasicHaveQuickMP.parse
  refine .read fun _ => ?_
  refine .bind (NetId.blind _ _) fun _ _ _ => ?_
  refine .read fun _ => ?_
  refine .read fun _ => ?_
  refine .read fun _ => ?_
  refine .read fun _ => ?_
  refine .read fun _ => ?_
  refine .read fun _ => ?_
  exact .pure trivial

theorem CCTTSincgarsMP.Since.refl (o : CCTTSincgarsMP) : CCTTSincgarsMP.Since o o :=
  trivial

theorem CCTTSincgarsMP.Since.trans {o x y : CCTTSincgarsMP} (h : CCTTSincgarsMP.Since o x) (g : CCTTSincgarsMP.Since x y) : CCTTSincgarsMP.Since o y :=
  trivial

theorem CCTTSincgarsMP.since  (bytelength : Option Int) (o : CCTTSincgarsMP) (s : InStream) : CCTTSincgarsMP.Since o ((CCTTSincgarsMP.parseInto bytelength) o s).2.1 := by
  refine (?_ : P.Keeps (CCTTSincgarsMP.Since o) (CCTTSincgarsMP.parseInto bytelength)) o s (.refl o)
  unfold CCTTSincgarsMP.parseInto
  refine .read fun _ => ?_
  refine .read fun _ => ?_
  refine .set (fun _ h => h) ?_
  refine .read fun _ => ?_
  refine .set (fun _ h => h) ?_
  refine .read fun _ => ?_
  refine .set (fun _ h => h) ?_
  refine .read fun _ => ?_
  refine .set (fun _ h => h) ?_
  refine .read fun _ => ?_
  refine .set (fun _ h => h) ?_
  refine .read fun _ => ?_
  refine .set (fun _ h => h) ?_
  refine .read fun _ => ?_
  refine .set (fun _ h => h) ?_
  refine .read fun _ => ?_
  refine .set (fun _ h => h) ?_
  exact .pure

theorem CCTTSincgarsMP.into (bytelength : Option Int) (o : CCTTSincgarsMP) : P.run (CCTTSincgarsMP.parseInto bytelength) o = CCTTSincgarsMP.parse o bytelength := by
  unfold CCTTSincgarsMP.parseInto CCTTSincgarsMP.parse
  simp (maxSteps := 1000000) only [P.run_pure, P.run_read, P.run_set]

theorem CCTTSincgarsMP.again (bytelength : Option Int) {o x : CCTTSincgarsMP} (h : CCTTSincgarsMP.Since o x) : CCTTSincgarsMP.parse x bytelength = CCTTSincgarsMP.parse o bytelength := by
  rfl

theorem CCTTSincgarsMP.blind (bytelength : Option Int) : Blind (fun s => CCTTSincgarsMP.parse s bytelength) := by
  intro o x
  unfold CCTTSincgarsMP.parse
  refine .read fun _ => ?_
  refine .read fun _ => ?_
  refine .read fun _ => ?_
  refine .read fun _ => ?_
  refine .read fun _ => ?_
  refine .read fun _ => ?_
  refine .read fun _ => ?_
  refine .read fun _ => ?_
  refine .read fun _ => ?_
  exact .pure trivial

theorem DEFireFlags.Since.refl (o : DEFireFlags) : DEFireFlags.Since o o :=
  trivial

theorem DEFireFlags.Since.trans {o x y : DEFireFlags} (h : DEFireFlags.Since o x) (g : DEFireFlags.Since x y) : DEFireFlags.Since o y :=
  trivial

theorem DEFireFlags.since  (o : DEFireFlags) (s : InStream) : DEFireFlags.Since o (DEFireFlags.parseInto o s).2.1 := by
  refine (?_ : P.Keeps (DEFireFlags.Since o) DEFireFlags.parseInto) o s (.refl o)
  unfold DEFireFlags.parseInto
  refine .read fun _ => ?_
  refine .set (fun _ h => h) ?_
  refine .set (fun _ h => h) ?_
  refine .set (fun _ h => h) ?_
  exact .pure

theorem DEFireFlags.into (o : DEFireFlags) : P.run DEFireFlags.parseInto o = DEFireFlags.parse o := by
  unfold DEFireFlags.parseInto DEFireFlags.parse
  simp (maxSteps := 1000000) only [P.run_pure, P.run_read, P.run_set]

theorem DEFireFlags.again {o x : DEFireFlags} (h : DEFireFlags.Since o x) : DEFireFlags.parse x = DEFireFlags.parse o := by
  rfl

theorem DEFireFlags.blind : Blind (DEFireFlags.parse) := by
  intro o x
  unfold DEFireFlags.parse
  refine .read fun _ => ?_
  exact .pure trivial

theorem DirectedEnergyTargetEnergyDeposition.Since.refl (o : DirectedEnergyTargetEnergyDeposition) : DirectedEnergyTargetEnergyDeposition.Since o o :=
  EntityIdentifier.Since.refl _

theorem DirectedEnergyTargetEnergyDeposition.Since.trans {o x y : DirectedEnergyTargetEnergyDeposition} (h : DirectedEnergyTargetEnergyDeposition.Since o x) (g : DirectedEnergyTargetEnergyDeposition.Since x y) : DirectedEnergyTargetEnergyDeposition.Since o y :=
  EntityIdentifier.Since.trans h g

theorem DirectedEnergyTargetEnergyDeposition.since  (o : DirectedEnergyTargetEnergyDeposition) (s : InStream) : DirectedEnergyTargetEnergyDeposition.Since o (DirectedEnergyTargetEnergyDeposition.parseInto o s).2.1 := by
  refine (?_ : P.Keeps (DirectedEnergyTargetEnergyDeposition.Since o) DirectedEnergyTargetEnergyDeposition.parseInto) o s (.refl o)
  unfold DirectedEnergyTargetEnergyDeposition.parseInto
  refine .call EntityIdentifier.since (fun _ _ h g => EntityIdentifier.Since.trans h g) ?_
  refine .read fun _ => ?_
  refine .set (fun _ h => h) ?_
  refine .read fun _ => ?_
  refine .set (fun _ h => h) ?_
  exact .pure

theorem DirectedEnergyTargetEnergyDeposition.into (o : DirectedEnergyTargetEnergyDeposition) : P.run DirectedEnergyTargetEnergyDeposition.parseInto o = DirectedEnergyTargetEnergyDeposition.parse o := by
  unfold DirectedEnergyTargetEnergyDeposition.parseInto DirectedEnergyTargetEnergyDeposition.parse
  simp (maxSteps := 1000000) only [P.run_pure, P.run_read, P.run_set, P.run_call, EntityIdentifier.into]

theorem DirectedEnergyTargetEnergyDeposition.again {o x : DirectedEnergyTargetEnergyDeposition} (h : DirectedEnergyTargetEnergyDeposition.Since o x) : DirectedEnergyTargetEnergyDeposition.parse x = DirectedEnergyTargetEnergyDeposition.parse o := by
  unfold DirectedEnergyTargetEnergyDeposition.parse
  simp only [EntityIdentifier.again h]

theorem DirectedEnergyTargetEnergyDeposition.blind : Blind (DirectedEnergyTargetEnergyDeposition.parse) := by
  intro o x
  unfold DirectedEnergyTargetEnergyDeposition.parse
  refine .bind (EntityIdentifier.blind _ _) fun _ _ _ => ?_
  refine .read fun _ => ?_
  refine .read fun _ => ?_
  exact .pure trivial

theorem TransmitterPdu.run_antenna (t l : Int) (k : Unit → P TransmitterPdu Unit) (o : TransmitterPdu) :
    P.run (TransmitterPdu.parseAntennaPatternInto t l >>= k) o =
      TransmitterPdu.parseAntennaPattern t l >>= fun p => P.run (k ()) { o with antennaPattern := p } := by
  unfold TransmitterPdu.parseAntennaPatternInto TransmitterPdu.parseAntennaPattern
  split
  · split
    · rw [P.bind_assoc, P.run_set, P.run_call, BeamAntennaPattern.into, P.R_bind_assoc]
      rfl
    · rw [P.bind_assoc, P.run_set, P.bind_assoc, P.run_read, P.R_bind_assoc]
      rfl
  · rfl

theorem TransmitterPdu.keeps_antenna {I : TransmitterPdu → Prop} {t l : Int} {k : Unit → P TransmitterPdu Unit}
    (hf : ∀ x p, I x → I { x with antennaPattern := p }) (h : P.Keeps I (k ())) :
    P.Keeps I (TransmitterPdu.parseAntennaPatternInto t l >>= k) := by
  refine P.Keeps.bind ?_ fun _ => h
  unfold TransmitterPdu.parseAntennaPatternInto
  split
  · split
    · exact .set (fun x h => hf x _ h) fun o s hi => hf o _ hi
    · exact .set (fun x h => hf x _ h) (.read fun p o s hi => hf o _ hi)
  · exact fun o s hi => hf o _ hi

theorem ModulationType.alike (o x : ModulationType) :
    Alike (fun a b => a.radioSystem = b.radioSystem ∧ a.majorModulation = b.majorModulation)
      (ModulationType.parse o) (ModulationType.parse x) := by
  unfold ModulationType.parse
  refine .bind (SpreadSpectrum.blind _ _) fun _ _ _ => ?_
  refine .read fun _ => .read fun _ => .read fun _ => .pure ⟨rfl, rfl⟩

theorem TransmitterPdu.modulation_congr {a b : ModulationType} {n : Int}
    (h1 : a.radioSystem = b.radioSystem) (h2 : a.majorModulation = b.majorModulation) :
    TransmitterPdu.parseModulationParameters a n = TransmitterPdu.parseModulationParameters b n := by
  unfold TransmitterPdu.parseModulationParameters
  rw [h1, h2]

theorem TransmitterPdu.Since.refl (o : TransmitterPdu) : TransmitterPdu.Since o o :=
  ⟨RadioCommunicationsFamilyPdu.Since.refl _, EntityIdentifier.Since.refl _, EntityType.Since.refl _, WorldCoordinates.Since.refl _, Vector3Float.Since.refl _, ModulationType.Since.refl _, List.prefix_refl _⟩

theorem TransmitterPdu.Since.trans {o x y : TransmitterPdu} (h : TransmitterPdu.Since o x) (g : TransmitterPdu.Since x y) : TransmitterPdu.Since o y :=
  ⟨RadioCommunicationsFamilyPdu.Since.trans h.1 g.1, EntityIdentifier.Since.trans h.2.1 g.2.1, EntityType.Since.trans h.2.2.1 g.2.2.1, WorldCoordinates.Since.trans h.2.2.2.1 g.2.2.2.1, Vector3Float.Since.trans h.2.2.2.2.1 g.2.2.2.2.1, ModulationType.Since.trans h.2.2.2.2.2.1 g.2.2.2.2.2.1, List.IsPrefix.trans (h.2.2.2.2.2.2) (g.2.2.2.2.2.2)⟩

theorem TransmitterPdu.since  (o : TransmitterPdu) (s : InStream) : TransmitterPdu.Since o (TransmitterPdu.parseInto o s).2.1 := by
  refine (?_ : P.Keeps (TransmitterPdu.Since o) TransmitterPdu.parseInto) o s (.refl o)
  unfold TransmitterPdu.parseInto
  refine .call RadioCommunicationsFamilyPdu.since (fun _ _ h g => ⟨RadioCommunicationsFamilyPdu.Since.trans h.1 g, h.2.1, h.2.2.1, h.2.2.2.1, h.2.2.2.2.1, h.2.2.2.2.2.1, h.2.2.2.2.2.2⟩) ?_
  refine .call EntityIdentifier.since (fun _ _ h g => ⟨h.1, EntityIdentifier.Since.trans h.2.1 g, h.2.2.1, h.2.2.2.1, h.2.2.2.2.1, h.2.2.2.2.2.1, h.2.2.2.2.2.2⟩) ?_
  refine .read fun _ => ?_
  refine .set (fun _ h => h) ?_
  refine .call EntityType.since (fun _ _ h g => ⟨h.1, h.2.1, EntityType.Since.trans h.2.2.1 g, h.2.2.2.1, h.2.2.2.2.1, h.2.2.2.2.2.1, h.2.2.2.2.2.2⟩) ?_
  refine .read fun _ => ?_
  refine .set (fun _ h => h) ?_
  refine .read fun _ => ?_
  refine .set (fun _ h => h) ?_
  refine .read fun _ => ?_
  refine .call WorldCoordinates.since (fun _ _ h g => ⟨h.1, h.2.1, h.2.2.1, WorldCoordinates.Since.trans h.2.2.2.1 g, h.2.2.2.2.1, h.2.2.2.2.2.1, h.2.2.2.2.2.2⟩) ?_
  refine .call Vector3Float.since (fun _ _ h g => ⟨h.1, h.2.1, h.2.2.1, h.2.2.2.1, Vector3Float.Since.trans h.2.2.2.2.1 g, h.2.2.2.2.2.1, h.2.2.2.2.2.2⟩) ?_
  refine .read fun _ => ?_
  refine .set (fun _ h => h) ?_
  refine .read fun _ => ?_
  refine .read fun _ => ?_
  refine .set (fun _ h => h) ?_
  refine .read fun _ => ?_
  refine .set (fun _ h => h) ?_
  refine .read fun _ => ?_
  refine .set (fun _ h => h) ?_
  refine .call ModulationType.since (fun _ _ h g => ⟨h.1, h.2.1, h.2.2.1, h.2.2.2.1, h.2.2.2.2.1, ModulationType.Since.trans h.2.2.2.2.2.1 g, h.2.2.2.2.2.2⟩) ?_
  refine .read fun _ => ?_
  refine .set (fun _ h => h) ?_
  refine .read fun _ => ?_
  refine .set (fun _ h => h) ?_
  refine .read fun _ => ?_
  refine .read fun _ => ?_
  refine .set (fun _ h => h) ?_
  refine .read fun _ => ?_
  refine .set (fun _ h => h) ?_
  refine .get fun _ => ?_
  refine .read fun _ => ?_
  refine .set (fun _ h => h) ?_
  refine .get fun _ => ?_
  refine TransmitterPdu.keeps_antenna (fun _ _ h => h) ?_
  refine .appendReads (fun _ _ h => ⟨h.1, h.2.1, h.2.2.1, h.2.2.2.1, h.2.2.2.2.1, h.2.2.2.2.2.1, List.IsPrefix.trans (h.2.2.2.2.2.2) (List.prefix_append _ _)⟩) ?_
  exact .pure

theorem TransmitterPdu.into (o : TransmitterPdu) : P.run TransmitterPdu.parseInto o = TransmitterPdu.parse o := by
  unfold TransmitterPdu.parseInto TransmitterPdu.parse
  simp (maxSteps := 1000000) (disch := exact ⟨fun _ _ => rfl, fun _ _ _ => rfl, fun _ => rfl⟩) only [P.run_pure, P.run_read, P.run_get, P.run_set, P.run_call, P.run_appendReads, TransmitterPdu.run_antenna, EntityIdentifier.into, EntityType.into, ModulationType.into, RadioCommunicationsFamilyPdu.into, Vector3Float.into, WorldCoordinates.into]

theorem TransmitterPdu.again {o x : TransmitterPdu} (h : TransmitterPdu.Since o x) : TransmitterPdu.parse (TransmitterPdu.trim o x) = TransmitterPdu.parse o := by
  unfold TransmitterPdu.parse TransmitterPdu.trim
  simp only [RadioCommunicationsFamilyPdu.again h.1, EntityIdentifier.again h.2.1, EntityType.again h.2.2.1, WorldCoordinates.again h.2.2.2.1, Vector3Float.again h.2.2.2.2.1, ModulationType.again h.2.2.2.2.2.1, ← List.prefix_iff_eq_take.mp (h.2.2.2.2.2.2)]

theorem TransmitterPdu.blind : Blind (TransmitterPdu.parse) := by
  intro o x
  unfold TransmitterPdu.parse
  refine .bind (RadioCommunicationsFamilyPdu.blind _ _) fun _ _ _ => ?_
  refine .bind (EntityIdentifier.blind _ _) fun _ _ _ => ?_
  refine .read fun _ => ?_
  refine .bind (EntityType.blind _ _) fun _ _ _ => ?_
  refine .read fun _ => ?_
  refine .read fun _ => ?_
  refine .read fun _ => ?_
  refine .bind (WorldCoordinates.blind _ _) fun _ _ _ => ?_
  refine .bind (Vector3Float.blind _ _) fun _ _ _ => ?_
  refine .read fun _ => ?_
  refine .read fun _ => ?_
  refine .read fun _ => ?_
  refine .read fun _ => ?_
  refine .read fun _ => ?_
  refine .bind (ModulationType.alike _ _) fun _ _ hm => ?_
  refine .read fun _ => ?_
  refine .read fun _ => ?_
  refine .read fun _ => ?_
  refine .read fun _ => ?_
  refine .read fun _ => ?_
  rw [TransmitterPdu.modulation_congr hm.1 hm.2]
  refine .read fun _ => ?_
  refine .read fun _ => ?_
  refine .read fun _ => ?_
  exact .pure trivial

theorem DirectedEnergyFirePdu.Since.refl (o : DirectedEnergyFirePdu) : DirectedEnergyFirePdu.Since o o :=
  ⟨WarfareFamilyPdu.Since.refl _, EntityType.Since.refl _, ClockTime.Since.refl _, rfl, Vector3Float.Since.refl _, DEFireFlags.Since.refl _, List.prefix_refl _⟩

theorem DirectedEnergyFirePdu.Since.trans {o x y : DirectedEnergyFirePdu} (h : DirectedEnergyFirePdu.Since o x) (g : DirectedEnergyFirePdu.Since x y) : DirectedEnergyFirePdu.Since o y :=
  ⟨WarfareFamilyPdu.Since.trans h.1 g.1, EntityType.Since.trans h.2.1 g.2.1, ClockTime.Since.trans h.2.2.1 g.2.2.1, Eq.trans (g.2.2.2.1) (h.2.2.2.1), Vector3Float.Since.trans h.2.2.2.2.1 g.2.2.2.2.1, DEFireFlags.Since.trans h.2.2.2.2.2.1 g.2.2.2.2.2.1, List.IsPrefix.trans (h.2.2.2.2.2.2) (g.2.2.2.2.2.2)⟩

theorem DirectedEnergyFirePdu.since  (o : DirectedEnergyFirePdu) (s : InStream) : DirectedEnergyFirePdu.Since o (DirectedEnergyFirePdu.parseInto o s).2.1 := by
  refine (?_ : P.Keeps (DirectedEnergyFirePdu.Since o) DirectedEnergyFirePdu.parseInto) o s (.refl o)
  unfold DirectedEnergyFirePdu.parseInto
  refine .call WarfareFamilyPdu.since (fun _ _ h g => ⟨WarfareFamilyPdu.Since.trans h.1 g, h.2.1, h.2.2.1, h.2.2.2.1, h.2.2.2.2.1, h.2.2.2.2.2.1, h.2.2.2.2.2.2⟩) ?_
  refine .call EntityType.since (fun _ _ h g => ⟨h.1, EntityType.Since.trans h.2.1 g, h.2.2.1, h.2.2.2.1, h.2.2.2.2.1, h.2.2.2.2.2.1, h.2.2.2.2.2.2⟩) ?_
  refine .call ClockTime.since (fun _ _ h g => ⟨h.1, h.2.1, ClockTime.Since.trans h.2.2.1 g, h.2.2.2.1, h.2.2.2.2.1, h.2.2.2.2.2.1, h.2.2.2.2.2.2⟩) ?_
  refine .read fun _ => ?_
  refine .set (fun _ h => h) ?_
  refine .call Vector3Float.since (fun _ _ h g => ⟨h.1, h.2.1, h.2.2.1, h.2.2.2.1, Vector3Float.Since.trans h.2.2.2.2.1 g, h.2.2.2.2.2.1, h.2.2.2.2.2.2⟩) ?_
  refine .read fun _ => ?_
  refine .set (fun _ h => h) ?_
  refine .read fun _ => ?_
  refine .set (fun _ h => h) ?_
  refine .read fun _ => ?_
  refine .set (fun _ h => h) ?_
  refine .read fun _ => ?_
  refine .set (fun _ h => h) ?_
  refine .read fun _ => ?_
  refine .set (fun _ h => h) ?_
  refine .call DEFireFlags.since (fun _ _ h g => ⟨h.1, h.2.1, h.2.2.1, h.2.2.2.1, h.2.2.2.2.1, DEFireFlags.Since.trans h.2.2.2.2.2.1 g, h.2.2.2.2.2.2⟩) ?_
  refine .read fun _ => ?_
  refine .set (fun _ h => h) ?_
  refine .read fun _ => ?_
  refine .set (fun _ h => h) ?_
  refine .read fun _ => ?_
  refine .set (fun _ h => h) ?_
  refine .read fun _ => ?_
  refine .set (fun _ h => h) ?_
  refine .read fun _ => ?_
  refine .appendReads (fun _ _ h => ⟨h.1, h.2.1, h.2.2.1, h.2.2.2.1, h.2.2.2.2.1, h.2.2.2.2.2.1, List.IsPrefix.trans (h.2.2.2.2.2.2) (List.prefix_append _ _)⟩) ?_
  exact .pure

theorem DirectedEnergyFirePdu.into (o : DirectedEnergyFirePdu) : P.run DirectedEnergyFirePdu.parseInto o = DirectedEnergyFirePdu.parse o := by
  unfold DirectedEnergyFirePdu.parseInto DirectedEnergyFirePdu.parse
  simp (maxSteps := 1000000) (disch := exact ⟨fun _ _ => rfl, fun _ _ _ => rfl, fun _ => rfl⟩) only [P.run_pure, P.run_read, P.run_set, P.run_call, P.run_appendReads, ClockTime.into, DEFireFlags.into, EntityType.into, Vector3Float.into, WarfareFamilyPdu.into]

theorem DirectedEnergyFirePdu.again {o x : DirectedEnergyFirePdu} (h : DirectedEnergyFirePdu.Since o x) : DirectedEnergyFirePdu.parse (DirectedEnergyFirePdu.trim o x) = DirectedEnergyFirePdu.parse o := by
  unfold DirectedEnergyFirePdu.parse DirectedEnergyFirePdu.trim
  simp only [WarfareFamilyPdu.again h.1, EntityType.again h.2.1, ClockTime.again h.2.2.1, h.2.2.2.1, Vector3Float.again h.2.2.2.2.1, DEFireFlags.again h.2.2.2.2.2.1, ← List.prefix_iff_eq_take.mp (h.2.2.2.2.2.2)]

theorem DirectedEnergyFirePdu.blind : Blind (DirectedEnergyFirePdu.parse) := by
  intro o x
  unfold DirectedEnergyFirePdu.parse
  refine .bind (WarfareFamilyPdu.blind _ _) fun _ _ _ => ?_
  refine .bind (EntityType.blind _ _) fun _ _ _ => ?_
  refine .bind (ClockTime.blind _ _) fun _ _ _ => ?_
  refine .read fun _ => ?_
  refine .bind (Vector3Float.blind _ _) fun _ _ _ => ?_
  refine .read fun _ => ?_
  refine .read fun _ => ?_
  refine .read fun _ => ?_
  refine .read fun _ => ?_
  refine .read fun _ => ?_
  refine .bind (DEFireFlags.blind _ _) fun _ _ _ => ?_
  refine .read fun _ => ?_
  refine .read fun _ => ?_
  refine .read fun _ => ?_
  refine .read fun _ => ?_
  refine .read fun _ => ?_
  refine .read fun _ => ?_
  exact .pure trivial

theorem EntityDamageStatusPdu.Since.refl (o : EntityDamageStatusPdu) : EntityDamageStatusPdu.Since o o :=
  ⟨WarfareFamilyPdu.Since.refl _, EntityIdentifier.Since.refl _, List.prefix_refl _⟩

theorem EntityDamageStatusPdu.Since.trans {o x y : EntityDamageStatusPdu} (h : EntityDamageStatusPdu.Since o x) (g : EntityDamageStatusPdu.Since x y) : EntityDamageStatusPdu.Since o y :=
  ⟨WarfareFamilyPdu.Since.trans h.1 g.1, EntityIdentifier.Since.trans h.2.1 g.2.1, List.IsPrefix.trans (h.2.2) (g.2.2)⟩

theorem EntityDamageStatusPdu.since  (o : EntityDamageStatusPdu) (s : InStream) : EntityDamageStatusPdu.Since o (EntityDamageStatusPdu.parseInto o s).2.1 := by
  refine (?_ : P.Keeps (EntityDamageStatusPdu.Since o) EntityDamageStatusPdu.parseInto) o s (.refl o)
  unfold EntityDamageStatusPdu.parseInto
  refine .call WarfareFamilyPdu.since (fun _ _ h g => ⟨WarfareFamilyPdu.Since.trans h.1 g, h.2.1, h.2.2⟩) ?_
  refine .call EntityIdentifier.since (fun _ _ h g => ⟨h.1, EntityIdentifier.Since.trans h.2.1 g, h.2.2⟩) ?_
  refine .read fun _ => ?_
  refine .set (fun _ h => h) ?_
  refine .read fun _ => ?_
  refine .set (fun _ h => h) ?_
  refine .read fun _ => ?_
  refine .appendReads (fun _ _ h => ⟨h.1, h.2.1, List.IsPrefix.trans (h.2.2) (List.prefix_append _ _)⟩) ?_
  exact .pure

theorem EntityDamageStatusPdu.into (o : EntityDamageStatusPdu) : P.run EntityDamageStatusPdu.parseInto o = EntityDamageStatusPdu.parse o := by
  unfold EntityDamageStatusPdu.parseInto EntityDamageStatusPdu.parse
  simp (maxSteps := 1000000) (disch := exact ⟨fun _ _ => rfl, fun _ _ _ => rfl, fun _ => rfl⟩) only [P.run_pure, P.run_read, P.run_set, P.run_call, P.run_appendReads, EntityIdentifier.into, WarfareFamilyPdu.into]

theorem EntityDamageStatusPdu.again {o x : EntityDamageStatusPdu} (h : EntityDamageStatusPdu.Since o x) : EntityDamageStatusPdu.parse (EntityDamageStatusPdu.trim o x) = EntityDamageStatusPdu.parse o := by
  unfold EntityDamageStatusPdu.parse EntityDamageStatusPdu.trim
  simp only [WarfareFamilyPdu.again h.1, EntityIdentifier.again h.2.1, ← List.prefix_iff_eq_take.mp (h.2.2)]

theorem EntityDamageStatusPdu.blind : Blind (EntityDamageStatusPdu.parse) := by
  intro o x
  unfold EntityDamageStatusPdu.parse
  refine .bind (WarfareFamilyPdu.blind _ _) fun _ _ _ => ?_
  refine .bind (EntityIdentifier.blind _ _) fun _ _ _ => ?_
  refine .read fun _ => ?_
  refine .read fun _ => ?_
  refine .read fun _ => ?_
  refine .read fun _ => ?_
  exact .pure trivial

theorem IntercomControlPdu.Since.refl (o : IntercomControlPdu) : IntercomControlPdu.Since o o :=
  ⟨RadioCommunicationsFamilyPdu.Since.refl _, EntityIdentifier.Since.refl _, EntityIdentifier.Since.refl _⟩

theorem IntercomControlPdu.Since.trans {o x y : IntercomControlPdu} (h : IntercomControlPdu.Since o x) (g : IntercomControlPdu.Since x y) : IntercomControlPdu.Since o y :=
  ⟨RadioCommunicationsFamilyPdu.Since.trans h.1 g.1, EntityIdentifier.Since.trans h.2.1 g.2.1, EntityIdentifier.Since.trans h.2.2 g.2.2⟩

theorem IntercomControlPdu.since  (o : IntercomControlPdu) (s : InStream) : IntercomControlPdu.Since o (IntercomControlPdu.parseInto o s).2.1 := by
  refine (?_ : P.Keeps (IntercomControlPdu.Since o) IntercomControlPdu.parseInto) o s (.refl o)
  unfold IntercomControlPdu.parseInto
  refine .call RadioCommunicationsFamilyPdu.since (fun _ _ h g => ⟨RadioCommunicationsFamilyPdu.Since.trans h.1 g, h.2.1, h.2.2⟩) ?_
  refine .read fun _ => ?_
  refine .set (fun _ h => h) ?_
  refine .read fun _ => ?_
  refine .set (fun _ h => h) ?_
  refine .call EntityIdentifier.since (fun _ _ h g => ⟨h.1, EntityIdentifier.Since.trans h.2.1 g, h.2.2⟩) ?_
  refine .read fun _ => ?_
  refine .set (fun _ h => h) ?_
  refine .read fun _ => ?_
  refine .set (fun _ h => h) ?_
  refine .read fun _ => ?_
  refine .set (fun _ h => h) ?_
  refine .read fun _ => ?_
  refine .set (fun _ h => h) ?_
  refine .read fun _ => ?_
  refine .set (fun _ h => h) ?_
  refine .call EntityIdentifier.since (fun _ _ h g => ⟨h.1, h.2.1, EntityIdentifier.Since.trans h.2.2 g⟩) ?_
  refine .read fun _ => ?_
  refine .set (fun _ h => h) ?_
  refine .read fun _ => ?_
  refine .read fun _ => ?_
  refine .set (fun _ h => h) ?_
  exact .pure

theorem IntercomControlPdu.into (o : IntercomControlPdu) : P.run IntercomControlPdu.parseInto o = IntercomControlPdu.parse o := by
  unfold IntercomControlPdu.parseInto IntercomControlPdu.parse
  simp (maxSteps := 1000000) only [P.run_pure, P.run_read, P.run_set, P.run_call, EntityIdentifier.into, RadioCommunicationsFamilyPdu.into]

theorem IntercomControlPdu.again {o x : IntercomControlPdu} (h : IntercomControlPdu.Since o x) : IntercomControlPdu.parse x = IntercomControlPdu.parse o := by
  unfold IntercomControlPdu.parse
  simp only [RadioCommunicationsFamilyPdu.again h.1, EntityIdentifier.again h.2.1, EntityIdentifier.again h.2.2]

theorem IntercomControlPdu.blind : Blind (IntercomControlPdu.parse) := by
  intro o x
  unfold IntercomControlPdu.parse
  refine .bind (RadioCommunicationsFamilyPdu.blind _ _) fun _ _ _ => ?_
  refine .read fun _ => ?_
  refine .read fun _ => ?_
  refine .bind (EntityIdentifier.blind _ _) fun _ _ _ => ?_
  refine .read fun _ => ?_
  refine .read fun _ => ?_
  refine .read fun _ => ?_
  refine .read fun _ => ?_
  refine .read fun _ => ?_
  refine .bind (EntityIdentifier.blind _ _) fun _ _ _ => ?_
  refine .read fun _ => ?_
  refine .read fun _ => ?_
  refine .read fun _ => ?_
  exact .pure trivial

end Dis
