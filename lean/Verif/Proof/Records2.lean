import Verif.Spec.Records2
import Verif.Proof.Records1

/-!
# Proofs for: Records of `opendis/dis7.py`, part 2

Generated by `tools/genproof.py`.
-/

set_option linter.unusedVariables false
set_option linter.unusedSimpArgs false

namespace Dis

theorem Attribute.rt (s o : Attribute) : RT (Attribute.serialize o) (Attribute.parse s) (Attribute.after s o) := by
  unfold Attribute.serialize Attribute.parse
  exact RT.bind (rt_unsigned_int o.recordType) <|
    RT.bind (rt_unsigned_short o.recordLength) <|
    RT.last (rt_long o.recordSpecificFields)

theorem Attribute.loc (s : Attribute) : Local (Attribute.parse s) := by
  unfold Attribute.parse
  exact Local.bind (loc_unsigned_int) fun _ =>
    Local.bind (loc_unsigned_short) fun _ =>
    Local.bind (loc_long) fun _ =>
    Local.pure _

theorem Attribute.only (s : Attribute) : OnlyStruct (Attribute.parse s) := by
  unfold Attribute.parse
  exact OnlyStruct.bind (only_unsigned_int) fun _ =>
    OnlyStruct.bind (only_unsigned_short) fun _ =>
    OnlyStruct.bind (only_long) fun _ =>
    OnlyStruct.pure _

theorem Attribute.sized (o : Attribute) : Sized (Attribute.serialize o) (Attribute.wireSize o) := by
  unfold Attribute.serialize
  refine Sized.of_eq (Sized.bind (sized_unsigned_int o.recordType) <|
    Sized.bind (sized_unsigned_short o.recordLength) <|
    sized_long o.recordSpecificFields) ?_
  simp only [Attribute.wireSize]; try omega

theorem Attribute.ok_iff (o : Attribute) : (Attribute.serialize o).Ok ↔ Attribute.WireOk o := by
  unfold Attribute.serialize Attribute.WireOk
  exact ok_bind_iff (ok_unsigned_int) <|
    ok_bind_iff (ok_unsigned_short) <|
    ok_long

theorem Attribute.after_canon {o : Attribute} (h : Attribute.Canon o) : Attribute.after Attribute.init o = o := by
  cases o
  exact (Attribute.mk.injEq ..).mpr ⟨rfl,
    rfl,
    rfl⟩

theorem Attribute.post : Post (Attribute.parse Attribute.init) (fun b o => (Attribute.WireOk o ∧ Attribute.Canon o) ∧ (Attribute.NoNaN o → (Attribute.serialize o).Emits b)) := by
  unfold Attribute.parse
  refine Post.bind (post_unsigned_int) fun a0 b0 h0 => ?_
  refine Post.bind (post_unsigned_short) fun a1 b1 h1 => ?_
  refine Post.last (post_long) fun a2 b2 h2 => ?_
  refine ⟨⟨⟨h0.1, h1.1, h2.1⟩,
    trivial⟩, fun _ => ?_⟩
  exact W.Emits.bind (h0.2) <|
      W.Emits.bind (h1.2) <|
      h2.2

theorem RecordQuerySpecification.rt (s o : RecordQuerySpecification) : RT (RecordQuerySpecification.serialize o) (RecordQuerySpecification.parse s) (RecordQuerySpecification.after s o) := by
  unfold RecordQuerySpecification.serialize RecordQuerySpecification.parse
  exact RT.bind (rt_unsigned_int ((o.recordIDs.length : Int))) <|
    RT.last (rt_list_id rt_unsigned_int)

theorem RecordQuerySpecification.loc (s : RecordQuerySpecification) : Local (RecordQuerySpecification.parse s) := by
  unfold RecordQuerySpecification.parse
  exact Local.bind (loc_unsigned_int) fun _ =>
    Local.bind (Local.times loc_unsigned_int _) fun _ =>
    Local.pure _

theorem RecordQuerySpecification.only (s : RecordQuerySpecification) : OnlyStruct (RecordQuerySpecification.parse s) := by
  unfold RecordQuerySpecification.parse
  exact OnlyStruct.bind (only_unsigned_int) fun _ =>
    OnlyStruct.bind (OnlyStruct.times only_unsigned_int _) fun _ =>
    OnlyStruct.pure _

theorem RecordQuerySpecification.sized (o : RecordQuerySpecification) : Sized (RecordQuerySpecification.serialize o) (RecordQuerySpecification.wireSize o) := by
  unfold RecordQuerySpecification.serialize
  refine Sized.of_eq (Sized.bind (sized_unsigned_int _) <|
    Sized.forEach_const sized_unsigned_int) ?_
  simp only [RecordQuerySpecification.wireSize]; try omega

theorem RecordQuerySpecification.ok_iff (o : RecordQuerySpecification) : (RecordQuerySpecification.serialize o).Ok ↔ RecordQuerySpecification.WireOk o := by
  unfold RecordQuerySpecification.serialize RecordQuerySpecification.WireOk
  exact ok_bind_iff (ok_unsigned_int) <|
    ok_list fun _ => ok_unsigned_int

theorem RecordQuerySpecification.after_canon {o : RecordQuerySpecification} (h : RecordQuerySpecification.Canon o) : RecordQuerySpecification.after RecordQuerySpecification.init o = o := by
  cases o; exact (RecordQuerySpecification.mk.injEq ..).mpr (rfl)

theorem RecordQuerySpecification.post : Post (RecordQuerySpecification.parse RecordQuerySpecification.init) (fun b o => (RecordQuerySpecification.WireOk o ∧ RecordQuerySpecification.Canon o) ∧ (RecordQuerySpecification.NoNaN o → (RecordQuerySpecification.serialize o).Emits b)) := by
  unfold RecordQuerySpecification.parse
  refine Post.bind (post_unsigned_int) fun a0 b0 h0 => ?_
  refine Post.last (Post.times_all post_unsigned_int _) fun a1 b1 h1 => ?_
  obtain rfl : a0 = (a1.length : Int) := count_eq h0.1.1 h1.1
  refine ⟨⟨⟨h0.1, h1.2.1⟩,
    trivial⟩, fun _ => ?_⟩
  exact W.Emits.bind (h0.2) <|
      h1.2.2

theorem ArticulatedParts.rt (s o : ArticulatedParts) : RT (ArticulatedParts.serialize o) (ArticulatedParts.parse s) (ArticulatedParts.after s o) := by
  unfold ArticulatedParts.serialize ArticulatedParts.parse
  exact RT.bind (rt_unsigned_byte o.recordType) <|
    RT.bind (rt_unsigned_byte o.changeIndicator) <|
    RT.bind (rt_unsigned_short o.partAttachedTo) <|
    RT.bind (rt_unsigned_int o.parameterType) <|
    RT.last (rt_long o.parameterValue)

theorem ArticulatedParts.loc (s : ArticulatedParts) : Local (ArticulatedParts.parse s) := by
  unfold ArticulatedParts.parse
  exact Local.bind (loc_unsigned_byte) fun _ =>
    Local.bind (loc_unsigned_byte) fun _ =>
    Local.bind (loc_unsigned_short) fun _ =>
    Local.bind (loc_unsigned_int) fun _ =>
    Local.bind (loc_long) fun _ =>
    Local.pure _

theorem ArticulatedParts.only (s : ArticulatedParts) : OnlyStruct (ArticulatedParts.parse s) := by
  unfold ArticulatedParts.parse
  exact OnlyStruct.bind (only_unsigned_byte) fun _ =>
    OnlyStruct.bind (only_unsigned_byte) fun _ =>
    OnlyStruct.bind (only_unsigned_short) fun _ =>
    OnlyStruct.bind (only_unsigned_int) fun _ =>
    OnlyStruct.bind (only_long) fun _ =>
    OnlyStruct.pure _

theorem ArticulatedParts.sized (o : ArticulatedParts) : Sized (ArticulatedParts.serialize o) (ArticulatedParts.wireSize o) := by
  unfold ArticulatedParts.serialize
  refine Sized.of_eq (Sized.bind (sized_unsigned_byte o.recordType) <|
    Sized.bind (sized_unsigned_byte o.changeIndicator) <|
    Sized.bind (sized_unsigned_short o.partAttachedTo) <|
    Sized.bind (sized_unsigned_int o.parameterType) <|
    sized_long o.parameterValue) ?_
  simp only [ArticulatedParts.wireSize]; try omega

theorem ArticulatedParts.ok_iff (o : ArticulatedParts) : (ArticulatedParts.serialize o).Ok ↔ ArticulatedParts.WireOk o := by
  unfold ArticulatedParts.serialize ArticulatedParts.WireOk
  exact ok_bind_iff (ok_unsigned_byte) <|
    ok_bind_iff (ok_unsigned_byte) <|
    ok_bind_iff (ok_unsigned_short) <|
    ok_bind_iff (ok_unsigned_int) <|
    ok_long

theorem ArticulatedParts.after_canon {o : ArticulatedParts} (h : ArticulatedParts.Canon o) : ArticulatedParts.after ArticulatedParts.init o = o := by
  cases o
  exact (ArticulatedParts.mk.injEq ..).mpr ⟨rfl,
    rfl,
    rfl,
    rfl,
    rfl⟩

theorem ArticulatedParts.post : Post (ArticulatedParts.parse ArticulatedParts.init) (fun b o => (ArticulatedParts.WireOk o ∧ ArticulatedParts.Canon o) ∧ (ArticulatedParts.NoNaN o → (ArticulatedParts.serialize o).Emits b)) := by
  unfold ArticulatedParts.parse
  refine Post.bind (post_unsigned_byte) fun a0 b0 h0 => ?_
  refine Post.bind (post_unsigned_byte) fun a1 b1 h1 => ?_
  refine Post.bind (post_unsigned_short) fun a2 b2 h2 => ?_
  refine Post.bind (post_unsigned_int) fun a3 b3 h3 => ?_
  refine Post.last (post_long) fun a4 b4 h4 => ?_
  refine ⟨⟨⟨h0.1, h1.1, h2.1, h3.1, h4.1⟩,
    trivial⟩, fun _ => ?_⟩
  exact W.Emits.bind (h0.2) <|
      W.Emits.bind (h1.2) <|
      W.Emits.bind (h2.2) <|
      W.Emits.bind (h3.2) <|
      h4.2

theorem ObjectType.rt (s o : ObjectType) : RT (ObjectType.serialize o) (ObjectType.parse s) (ObjectType.after s o) := by
  unfold ObjectType.serialize ObjectType.parse
  exact RT.bind (rt_unsigned_byte o.domain) <|
    RT.bind (rt_unsigned_byte o.objectKind) <|
    RT.bind (rt_unsigned_byte o.category) <|
    RT.last (rt_unsigned_byte o.subcategory)

theorem ObjectType.loc (s : ObjectType) : Local (ObjectType.parse s) := by
  unfold ObjectType.parse
  exact Local.bind (loc_unsigned_byte) fun _ =>
    Local.bind (loc_unsigned_byte) fun _ =>
    Local.bind (loc_unsigned_byte) fun _ =>
    Local.bind (loc_unsigned_byte) fun _ =>
    Local.pure _

theorem ObjectType.only (s : ObjectType) : OnlyStruct (ObjectType.parse s) := by
  unfold ObjectType.parse
  exact OnlyStruct.bind (only_unsigned_byte) fun _ =>
    OnlyStruct.bind (only_unsigned_byte) fun _ =>
    OnlyStruct.bind (only_unsigned_byte) fun _ =>
    OnlyStruct.bind (only_unsigned_byte) fun _ =>
    OnlyStruct.pure _

theorem ObjectType.sized (o : ObjectType) : Sized (ObjectType.serialize o) (ObjectType.wireSize o) := by
  unfold ObjectType.serialize
  refine Sized.of_eq (Sized.bind (sized_unsigned_byte o.domain) <|
    Sized.bind (sized_unsigned_byte o.objectKind) <|
    Sized.bind (sized_unsigned_byte o.category) <|
    sized_unsigned_byte o.subcategory) ?_
  simp only [ObjectType.wireSize]; try omega

theorem ObjectType.ok_iff (o : ObjectType) : (ObjectType.serialize o).Ok ↔ ObjectType.WireOk o := by
  unfold ObjectType.serialize ObjectType.WireOk
  exact ok_bind_iff (ok_unsigned_byte) <|
    ok_bind_iff (ok_unsigned_byte) <|
    ok_bind_iff (ok_unsigned_byte) <|
    ok_unsigned_byte

theorem ObjectType.after_canon {o : ObjectType} (h : ObjectType.Canon o) : ObjectType.after ObjectType.init o = o := by
  cases o
  exact (ObjectType.mk.injEq ..).mpr ⟨rfl,
    rfl,
    rfl,
    rfl⟩

theorem ObjectType.post : Post (ObjectType.parse ObjectType.init) (fun b o => (ObjectType.WireOk o ∧ ObjectType.Canon o) ∧ (ObjectType.NoNaN o → (ObjectType.serialize o).Emits b)) := by
  unfold ObjectType.parse
  refine Post.bind (post_unsigned_byte) fun a0 b0 h0 => ?_
  refine Post.bind (post_unsigned_byte) fun a1 b1 h1 => ?_
  refine Post.bind (post_unsigned_byte) fun a2 b2 h2 => ?_
  refine Post.last (post_unsigned_byte) fun a3 b3 h3 => ?_
  refine ⟨⟨⟨h0.1, h1.1, h2.1, h3.1⟩,
    trivial⟩, fun _ => ?_⟩
  exact W.Emits.bind (h0.2) <|
      W.Emits.bind (h1.2) <|
      W.Emits.bind (h2.2) <|
      h3.2

theorem Association.rt (s o : Association) : RT (Association.serialize o) (Association.parse s) (Association.after s o) := by
  unfold Association.serialize Association.parse
  exact RT.bind (rt_unsigned_byte o.associationType) <|
    RT.bind (rt_unsigned_byte o.padding4) <|
    RT.bind (EntityIdentifier.rt s.associatedEntityID o.associatedEntityID) <|
    RT.last (WorldCoordinates.rt s.associatedLocation o.associatedLocation)

theorem Association.loc (s : Association) : Local (Association.parse s) := by
  unfold Association.parse
  exact Local.bind (loc_unsigned_byte) fun _ =>
    Local.bind (loc_unsigned_byte) fun _ =>
    Local.bind (EntityIdentifier.loc _) fun _ =>
    Local.bind (WorldCoordinates.loc _) fun _ =>
    Local.pure _

theorem Association.only (s : Association) : OnlyStruct (Association.parse s) := by
  unfold Association.parse
  exact OnlyStruct.bind (only_unsigned_byte) fun _ =>
    OnlyStruct.bind (only_unsigned_byte) fun _ =>
    OnlyStruct.bind (EntityIdentifier.only _) fun _ =>
    OnlyStruct.bind (WorldCoordinates.only _) fun _ =>
    OnlyStruct.pure _

theorem Association.sized (o : Association) : Sized (Association.serialize o) (Association.wireSize o) := by
  unfold Association.serialize
  refine Sized.of_eq (Sized.bind (sized_unsigned_byte o.associationType) <|
    Sized.bind (sized_unsigned_byte o.padding4) <|
    Sized.bind (EntityIdentifier.sized o.associatedEntityID) <|
    WorldCoordinates.sized o.associatedLocation) ?_
  simp only [Association.wireSize, EntityIdentifier.wireSize, SimulationAddress.wireSize, WorldCoordinates.wireSize]; try omega

theorem Association.ok_iff (o : Association) : (Association.serialize o).Ok ↔ Association.WireOk o := by
  unfold Association.serialize Association.WireOk
  exact ok_bind_iff (ok_unsigned_byte) <|
    ok_bind_iff (ok_unsigned_byte) <|
    ok_bind_tr (EntityIdentifier.ok_iff o.associatedEntityID) <|
    WorldCoordinates.ok_iff o.associatedLocation

theorem Association.after_canon {o : Association} (h : Association.Canon o) : Association.after Association.init o = o := by
  cases o
  exact (Association.mk.injEq ..).mpr ⟨rfl,
    rfl,
    EntityIdentifier.after_canon trivial,
    WorldCoordinates.after_canon trivial⟩

theorem Association.post : Post (Association.parse Association.init) (fun b o => (Association.WireOk o ∧ Association.Canon o) ∧ (Association.NoNaN o → (Association.serialize o).Emits b)) := by
  unfold Association.parse
  refine Post.bind (post_unsigned_byte) fun a0 b0 h0 => ?_
  refine Post.bind (post_unsigned_byte) fun a1 b1 h1 => ?_
  refine Post.bind (EntityIdentifier.post) fun a2 b2 h2 => ?_
  refine Post.last (WorldCoordinates.post) fun a3 b3 h3 => ?_
  refine ⟨⟨⟨h0.1, h1.1, h2.1.1⟩,
    trivial⟩, fun _ => ?_⟩
  exact W.Emits.bind (h0.2) <|
      W.Emits.bind (h1.2) <|
      W.Emits.bind (h2.2 trivial) <|
      h3.2 trivial

theorem RecordSpecificationElement.rt (s o : RecordSpecificationElement) : RT (RecordSpecificationElement.serialize o) (RecordSpecificationElement.parse s) (RecordSpecificationElement.after s o) := by
  unfold RecordSpecificationElement.serialize RecordSpecificationElement.parse
  exact RT.bind (rt_unsigned_int o.recordID) <|
    RT.bind (rt_unsigned_int o.recordSetSerialNumber) <|
    RT.bind (rt_unsigned_short o.recordLength) <|
    RT.bind (rt_unsigned_short o.recordCount) <|
    RT.bind (rt_unsigned_short o.recordValues) <|
    RT.last (rt_unsigned_byte o.pad4)

theorem RecordSpecificationElement.loc (s : RecordSpecificationElement) : Local (RecordSpecificationElement.parse s) := by
  unfold RecordSpecificationElement.parse
  exact Local.bind (loc_unsigned_int) fun _ =>
    Local.bind (loc_unsigned_int) fun _ =>
    Local.bind (loc_unsigned_short) fun _ =>
    Local.bind (loc_unsigned_short) fun _ =>
    Local.bind (loc_unsigned_short) fun _ =>
    Local.bind (loc_unsigned_byte) fun _ =>
    Local.pure _

theorem RecordSpecificationElement.only (s : RecordSpecificationElement) : OnlyStruct (RecordSpecificationElement.parse s) := by
  unfold RecordSpecificationElement.parse
  exact OnlyStruct.bind (only_unsigned_int) fun _ =>
    OnlyStruct.bind (only_unsigned_int) fun _ =>
    OnlyStruct.bind (only_unsigned_short) fun _ =>
    OnlyStruct.bind (only_unsigned_short) fun _ =>
    OnlyStruct.bind (only_unsigned_short) fun _ =>
    OnlyStruct.bind (only_unsigned_byte) fun _ =>
    OnlyStruct.pure _

theorem RecordSpecificationElement.sized (o : RecordSpecificationElement) : Sized (RecordSpecificationElement.serialize o) (RecordSpecificationElement.wireSize o) := by
  unfold RecordSpecificationElement.serialize
  refine Sized.of_eq (Sized.bind (sized_unsigned_int o.recordID) <|
    Sized.bind (sized_unsigned_int o.recordSetSerialNumber) <|
    Sized.bind (sized_unsigned_short o.recordLength) <|
    Sized.bind (sized_unsigned_short o.recordCount) <|
    Sized.bind (sized_unsigned_short o.recordValues) <|
    sized_unsigned_byte o.pad4) ?_
  simp only [RecordSpecificationElement.wireSize]; try omega

theorem RecordSpecificationElement.ok_iff (o : RecordSpecificationElement) : (RecordSpecificationElement.serialize o).Ok ↔ RecordSpecificationElement.WireOk o := by
  unfold RecordSpecificationElement.serialize RecordSpecificationElement.WireOk
  exact ok_bind_iff (ok_unsigned_int) <|
    ok_bind_iff (ok_unsigned_int) <|
    ok_bind_iff (ok_unsigned_short) <|
    ok_bind_iff (ok_unsigned_short) <|
    ok_bind_iff (ok_unsigned_short) <|
    ok_unsigned_byte

theorem RecordSpecificationElement.after_canon {o : RecordSpecificationElement} (h : RecordSpecificationElement.Canon o) : RecordSpecificationElement.after RecordSpecificationElement.init o = o := by
  cases o
  exact (RecordSpecificationElement.mk.injEq ..).mpr ⟨rfl,
    rfl,
    rfl,
    rfl,
    rfl,
    rfl⟩

theorem RecordSpecificationElement.post : Post (RecordSpecificationElement.parse RecordSpecificationElement.init) (fun b o => (RecordSpecificationElement.WireOk o ∧ RecordSpecificationElement.Canon o) ∧ (RecordSpecificationElement.NoNaN o → (RecordSpecificationElement.serialize o).Emits b)) := by
  unfold RecordSpecificationElement.parse
  refine Post.bind (post_unsigned_int) fun a0 b0 h0 => ?_
  refine Post.bind (post_unsigned_int) fun a1 b1 h1 => ?_
  refine Post.bind (post_unsigned_short) fun a2 b2 h2 => ?_
  refine Post.bind (post_unsigned_short) fun a3 b3 h3 => ?_
  refine Post.bind (post_unsigned_short) fun a4 b4 h4 => ?_
  refine Post.last (post_unsigned_byte) fun a5 b5 h5 => ?_
  refine ⟨⟨⟨h0.1, h1.1, h2.1, h3.1, h4.1, h5.1⟩,
    trivial⟩, fun _ => ?_⟩
  exact W.Emits.bind (h0.2) <|
      W.Emits.bind (h1.2) <|
      W.Emits.bind (h2.2) <|
      W.Emits.bind (h3.2) <|
      W.Emits.bind (h4.2) <|
      h5.2

theorem AntennaLocation.rt (s o : AntennaLocation) : RT (AntennaLocation.serialize o) (AntennaLocation.parse s) (AntennaLocation.after s o) := by
  unfold AntennaLocation.serialize AntennaLocation.parse
  exact RT.bind (WorldCoordinates.rt s.antennaLocation o.antennaLocation) <|
    RT.last (Vector3Float.rt s.relativeAntennaLocation o.relativeAntennaLocation)

theorem AntennaLocation.loc (s : AntennaLocation) : Local (AntennaLocation.parse s) := by
  unfold AntennaLocation.parse
  exact Local.bind (WorldCoordinates.loc _) fun _ =>
    Local.bind (Vector3Float.loc _) fun _ =>
    Local.pure _

theorem AntennaLocation.only (s : AntennaLocation) : OnlyStruct (AntennaLocation.parse s) := by
  unfold AntennaLocation.parse
  exact OnlyStruct.bind (WorldCoordinates.only _) fun _ =>
    OnlyStruct.bind (Vector3Float.only _) fun _ =>
    OnlyStruct.pure _

theorem AntennaLocation.sized (o : AntennaLocation) : Sized (AntennaLocation.serialize o) (AntennaLocation.wireSize o) := by
  unfold AntennaLocation.serialize
  refine Sized.of_eq (Sized.bind (WorldCoordinates.sized o.antennaLocation) <|
    Vector3Float.sized o.relativeAntennaLocation) ?_
  simp only [AntennaLocation.wireSize, WorldCoordinates.wireSize, Vector3Float.wireSize]; try omega

theorem AntennaLocation.ok_iff (o : AntennaLocation) : (AntennaLocation.serialize o).Ok ↔ AntennaLocation.WireOk o := by
  unfold AntennaLocation.serialize AntennaLocation.WireOk
  exact ok_bind_tl (WorldCoordinates.ok_iff o.antennaLocation) <|
    Vector3Float.ok_iff o.relativeAntennaLocation

theorem AntennaLocation.after_canon {o : AntennaLocation} (h : AntennaLocation.Canon o) : AntennaLocation.after AntennaLocation.init o = o := by
  have h_relativeAntennaLocation := h
  cases o
  exact (AntennaLocation.mk.injEq ..).mpr ⟨WorldCoordinates.after_canon trivial,
    Vector3Float.after_canon h_relativeAntennaLocation⟩

theorem AntennaLocation.post : Post (AntennaLocation.parse AntennaLocation.init) (fun b o => (AntennaLocation.WireOk o ∧ AntennaLocation.Canon o) ∧ (AntennaLocation.NoNaN o → (AntennaLocation.serialize o).Emits b)) := by
  unfold AntennaLocation.parse
  refine Post.bind (WorldCoordinates.post) fun a0 b0 h0 => ?_
  refine Post.last (Vector3Float.post) fun a1 b1 h1 => ?_
  refine ⟨⟨h1.1.1,
    h1.1.2⟩, fun n0 => ?_⟩
  exact W.Emits.bind (h0.2 trivial) <|
      h1.2 n0

theorem ObjectIdentifier.rt (s o : ObjectIdentifier) : RT (ObjectIdentifier.serialize o) (ObjectIdentifier.parse s) (ObjectIdentifier.after s o) := by
  unfold ObjectIdentifier.serialize ObjectIdentifier.parse
  exact RT.bind (SimulationAddress.rt s.simulationAddress o.simulationAddress) <|
    RT.last (rt_unsigned_short o.objectNumber)

theorem ObjectIdentifier.loc (s : ObjectIdentifier) : Local (ObjectIdentifier.parse s) := by
  unfold ObjectIdentifier.parse
  exact Local.bind (SimulationAddress.loc _) fun _ =>
    Local.bind (loc_unsigned_short) fun _ =>
    Local.pure _

theorem ObjectIdentifier.only (s : ObjectIdentifier) : OnlyStruct (ObjectIdentifier.parse s) := by
  unfold ObjectIdentifier.parse
  exact OnlyStruct.bind (SimulationAddress.only _) fun _ =>
    OnlyStruct.bind (only_unsigned_short) fun _ =>
    OnlyStruct.pure _

theorem ObjectIdentifier.sized (o : ObjectIdentifier) : Sized (ObjectIdentifier.serialize o) (ObjectIdentifier.wireSize o) := by
  unfold ObjectIdentifier.serialize
  refine Sized.of_eq (Sized.bind (SimulationAddress.sized o.simulationAddress) <|
    sized_unsigned_short o.objectNumber) ?_
  simp only [ObjectIdentifier.wireSize, SimulationAddress.wireSize]; try omega

theorem ObjectIdentifier.ok_iff (o : ObjectIdentifier) : (ObjectIdentifier.serialize o).Ok ↔ ObjectIdentifier.WireOk o := by
  unfold ObjectIdentifier.serialize ObjectIdentifier.WireOk
  exact ok_bind_iff (SimulationAddress.ok_iff o.simulationAddress) <|
    ok_unsigned_short

theorem ObjectIdentifier.after_canon {o : ObjectIdentifier} (h : ObjectIdentifier.Canon o) : ObjectIdentifier.after ObjectIdentifier.init o = o := by
  cases o
  exact (ObjectIdentifier.mk.injEq ..).mpr ⟨SimulationAddress.after_canon trivial,
    rfl⟩

theorem ObjectIdentifier.post : Post (ObjectIdentifier.parse ObjectIdentifier.init) (fun b o => (ObjectIdentifier.WireOk o ∧ ObjectIdentifier.Canon o) ∧ (ObjectIdentifier.NoNaN o → (ObjectIdentifier.serialize o).Emits b)) := by
  unfold ObjectIdentifier.parse
  refine Post.bind (SimulationAddress.post) fun a0 b0 h0 => ?_
  refine Post.last (post_unsigned_short) fun a1 b1 h1 => ?_
  refine ⟨⟨⟨h0.1.1, h1.1⟩,
    trivial⟩, fun _ => ?_⟩
  exact W.Emits.bind (h0.2 trivial) <|
      h1.2

theorem AggregateIdentifier.rt (s o : AggregateIdentifier) : RT (AggregateIdentifier.serialize o) (AggregateIdentifier.parse s) (AggregateIdentifier.after s o) := by
  unfold AggregateIdentifier.serialize AggregateIdentifier.parse
  exact RT.bind (SimulationAddress.rt s.simulationAddress o.simulationAddress) <|
    RT.last (rt_unsigned_short o.aggregateID)

theorem AggregateIdentifier.loc (s : AggregateIdentifier) : Local (AggregateIdentifier.parse s) := by
  unfold AggregateIdentifier.parse
  exact Local.bind (SimulationAddress.loc _) fun _ =>
    Local.bind (loc_unsigned_short) fun _ =>
    Local.pure _

theorem AggregateIdentifier.only (s : AggregateIdentifier) : OnlyStruct (AggregateIdentifier.parse s) := by
  unfold AggregateIdentifier.parse
  exact OnlyStruct.bind (SimulationAddress.only _) fun _ =>
    OnlyStruct.bind (only_unsigned_short) fun _ =>
    OnlyStruct.pure _

theorem AggregateIdentifier.sized (o : AggregateIdentifier) : Sized (AggregateIdentifier.serialize o) (AggregateIdentifier.wireSize o) := by
  unfold AggregateIdentifier.serialize
  refine Sized.of_eq (Sized.bind (SimulationAddress.sized o.simulationAddress) <|
    sized_unsigned_short o.aggregateID) ?_
  simp only [AggregateIdentifier.wireSize, SimulationAddress.wireSize]; try omega

theorem AggregateIdentifier.ok_iff (o : AggregateIdentifier) : (AggregateIdentifier.serialize o).Ok ↔ AggregateIdentifier.WireOk o := by
  unfold AggregateIdentifier.serialize AggregateIdentifier.WireOk
  exact ok_bind_iff (SimulationAddress.ok_iff o.simulationAddress) <|
    ok_unsigned_short

theorem AggregateIdentifier.after_canon {o : AggregateIdentifier} (h : AggregateIdentifier.Canon o) : AggregateIdentifier.after AggregateIdentifier.init o = o := by
  cases o
  exact (AggregateIdentifier.mk.injEq ..).mpr ⟨SimulationAddress.after_canon trivial,
    rfl⟩

theorem AggregateIdentifier.post : Post (AggregateIdentifier.parse AggregateIdentifier.init) (fun b o => (AggregateIdentifier.WireOk o ∧ AggregateIdentifier.Canon o) ∧ (AggregateIdentifier.NoNaN o → (AggregateIdentifier.serialize o).Emits b)) := by
  unfold AggregateIdentifier.parse
  refine Post.bind (SimulationAddress.post) fun a0 b0 h0 => ?_
  refine Post.last (post_unsigned_short) fun a1 b1 h1 => ?_
  refine ⟨⟨⟨h0.1.1, h1.1⟩,
    trivial⟩, fun _ => ?_⟩
  exact W.Emits.bind (h0.2 trivial) <|
      h1.2

theorem FixedDatum.rt (s o : FixedDatum) : RT (FixedDatum.serialize o) (FixedDatum.parse s) (FixedDatum.after s o) := by
  unfold FixedDatum.serialize FixedDatum.parse
  exact RT.bind (rt_unsigned_int o.fixedDatumID) <|
    RT.last (rt_unsigned_int o.fixedDatumValue)

theorem FixedDatum.loc (s : FixedDatum) : Local (FixedDatum.parse s) := by
  unfold FixedDatum.parse
  exact Local.bind (loc_unsigned_int) fun _ =>
    Local.bind (loc_unsigned_int) fun _ =>
    Local.pure _

theorem FixedDatum.only (s : FixedDatum) : OnlyStruct (FixedDatum.parse s) := by
  unfold FixedDatum.parse
  exact OnlyStruct.bind (only_unsigned_int) fun _ =>
    OnlyStruct.bind (only_unsigned_int) fun _ =>
    OnlyStruct.pure _

theorem FixedDatum.sized (o : FixedDatum) : Sized (FixedDatum.serialize o) (FixedDatum.wireSize o) := by
  unfold FixedDatum.serialize
  refine Sized.of_eq (Sized.bind (sized_unsigned_int o.fixedDatumID) <|
    sized_unsigned_int o.fixedDatumValue) ?_
  simp only [FixedDatum.wireSize]; try omega

theorem FixedDatum.ok_iff (o : FixedDatum) : (FixedDatum.serialize o).Ok ↔ FixedDatum.WireOk o := by
  unfold FixedDatum.serialize FixedDatum.WireOk
  exact ok_bind_iff (ok_unsigned_int) <|
    ok_unsigned_int

theorem FixedDatum.after_canon {o : FixedDatum} (h : FixedDatum.Canon o) : FixedDatum.after FixedDatum.init o = o := by
  cases o
  exact (FixedDatum.mk.injEq ..).mpr ⟨rfl,
    rfl⟩

theorem FixedDatum.post : Post (FixedDatum.parse FixedDatum.init) (fun b o => (FixedDatum.WireOk o ∧ FixedDatum.Canon o) ∧ (FixedDatum.NoNaN o → (FixedDatum.serialize o).Emits b)) := by
  unfold FixedDatum.parse
  refine Post.bind (post_unsigned_int) fun a0 b0 h0 => ?_
  refine Post.last (post_unsigned_int) fun a1 b1 h1 => ?_
  refine ⟨⟨⟨h0.1, h1.1⟩,
    trivial⟩, fun _ => ?_⟩
  exact W.Emits.bind (h0.2) <|
      h1.2

theorem VariableParameter.rt (s o : VariableParameter) : RT (VariableParameter.serialize o) (VariableParameter.parse s) (VariableParameter.after s o) := by
  unfold VariableParameter.serialize VariableParameter.parse
  exact RT.bind (rt_unsigned_byte o.recordType) <|
    RT.bind (rt_double o.variableParameterFields1) <|
    RT.bind (rt_unsigned_int o.variableParameterFields2) <|
    RT.bind (rt_unsigned_short o.variableParameterFields3) <|
    RT.last (rt_unsigned_byte o.variableParameterFields4)

theorem VariableParameter.loc (s : VariableParameter) : Local (VariableParameter.parse s) := by
  unfold VariableParameter.parse
  exact Local.bind (loc_unsigned_byte) fun _ =>
    Local.bind (loc_double) fun _ =>
    Local.bind (loc_unsigned_int) fun _ =>
    Local.bind (loc_unsigned_short) fun _ =>
    Local.bind (loc_unsigned_byte) fun _ =>
    Local.pure _

theorem VariableParameter.only (s : VariableParameter) : OnlyStruct (VariableParameter.parse s) := by
  unfold VariableParameter.parse
  exact OnlyStruct.bind (only_unsigned_byte) fun _ =>
    OnlyStruct.bind (only_double) fun _ =>
    OnlyStruct.bind (only_unsigned_int) fun _ =>
    OnlyStruct.bind (only_unsigned_short) fun _ =>
    OnlyStruct.bind (only_unsigned_byte) fun _ =>
    OnlyStruct.pure _

theorem VariableParameter.sized (o : VariableParameter) : Sized (VariableParameter.serialize o) (VariableParameter.wireSize o) := by
  unfold VariableParameter.serialize
  refine Sized.of_eq (Sized.bind (sized_unsigned_byte o.recordType) <|
    Sized.bind (sized_double o.variableParameterFields1) <|
    Sized.bind (sized_unsigned_int o.variableParameterFields2) <|
    Sized.bind (sized_unsigned_short o.variableParameterFields3) <|
    sized_unsigned_byte o.variableParameterFields4) ?_
  simp only [VariableParameter.wireSize]; try omega

theorem VariableParameter.ok_iff (o : VariableParameter) : (VariableParameter.serialize o).Ok ↔ VariableParameter.WireOk o := by
  unfold VariableParameter.serialize VariableParameter.WireOk
  exact ok_bind_iff (ok_unsigned_byte) <|
    ok_bind_tl (ok_double) <|
    ok_bind_iff (ok_unsigned_int) <|
    ok_bind_iff (ok_unsigned_short) <|
    ok_unsigned_byte

theorem VariableParameter.after_canon {o : VariableParameter} (h : VariableParameter.Canon o) : VariableParameter.after VariableParameter.init o = o := by
  cases o
  exact (VariableParameter.mk.injEq ..).mpr ⟨rfl,
    rfl,
    rfl,
    rfl,
    rfl⟩

theorem VariableParameter.post : Post (VariableParameter.parse VariableParameter.init) (fun b o => (VariableParameter.WireOk o ∧ VariableParameter.Canon o) ∧ (VariableParameter.NoNaN o → (VariableParameter.serialize o).Emits b)) := by
  unfold VariableParameter.parse
  refine Post.bind (post_unsigned_byte) fun a0 b0 h0 => ?_
  refine Post.bind (post_double) fun a1 b1 h1 => ?_
  refine Post.bind (post_unsigned_int) fun a2 b2 h2 => ?_
  refine Post.bind (post_unsigned_short) fun a3 b3 h3 => ?_
  refine Post.last (post_unsigned_byte) fun a4 b4 h4 => ?_
  refine ⟨⟨⟨h0.1, h2.1, h3.1, h4.1⟩,
    trivial⟩, fun _ => ?_⟩
  exact W.Emits.bind (h0.2) <|
      W.Emits.bind (h1) <|
      W.Emits.bind (h2.2) <|
      W.Emits.bind (h3.2) <|
      h4.2

theorem ChangeOptions.rt (s o : ChangeOptions) : RT (ChangeOptions.serialize o) (ChangeOptions.parse s) (ChangeOptions.after s o) := by
  unfold ChangeOptions.serialize ChangeOptions.parse
  exact RT.pure _ _

theorem ChangeOptions.loc (s : ChangeOptions) : Local (ChangeOptions.parse s) := by
  unfold ChangeOptions.parse
  exact Local.pure _

theorem ChangeOptions.only (s : ChangeOptions) : OnlyStruct (ChangeOptions.parse s) := by
  unfold ChangeOptions.parse
  exact OnlyStruct.pure _

theorem ChangeOptions.sized (o : ChangeOptions) : Sized (ChangeOptions.serialize o) (ChangeOptions.wireSize o) := by
  unfold ChangeOptions.serialize
  exact Sized.pure _

theorem ChangeOptions.ok_iff (o : ChangeOptions) : (ChangeOptions.serialize o).Ok ↔ ChangeOptions.WireOk o := by
  unfold ChangeOptions.serialize ChangeOptions.WireOk
  exact iff_of_true (W.ok_pure _) trivial

theorem ChangeOptions.after_canon {o : ChangeOptions} (h : ChangeOptions.Canon o) : ChangeOptions.after ChangeOptions.init o = o := by
  rfl

theorem ChangeOptions.post : Post (ChangeOptions.parse ChangeOptions.init) (fun b o => (ChangeOptions.WireOk o ∧ ChangeOptions.Canon o) ∧ (ChangeOptions.NoNaN o → (ChangeOptions.serialize o).Emits b)) := by
  unfold ChangeOptions.parse
  exact Post.pure _ ⟨⟨trivial, trivial⟩, fun _ => W.emits_pure _⟩

theorem LiveSimulationAddress.rt (s o : LiveSimulationAddress) : RT (LiveSimulationAddress.serialize o) (LiveSimulationAddress.parse s) (LiveSimulationAddress.after s o) := by
  unfold LiveSimulationAddress.serialize LiveSimulationAddress.parse
  exact RT.bind (rt_unsigned_byte o.liveSiteNumber) <|
    RT.last (rt_unsigned_byte o.liveApplicationNumber)

theorem LiveSimulationAddress.loc (s : LiveSimulationAddress) : Local (LiveSimulationAddress.parse s) := by
  unfold LiveSimulationAddress.parse
  exact Local.bind (loc_unsigned_byte) fun _ =>
    Local.bind (loc_unsigned_byte) fun _ =>
    Local.pure _

theorem LiveSimulationAddress.only (s : LiveSimulationAddress) : OnlyStruct (LiveSimulationAddress.parse s) := by
  unfold LiveSimulationAddress.parse
  exact OnlyStruct.bind (only_unsigned_byte) fun _ =>
    OnlyStruct.bind (only_unsigned_byte) fun _ =>
    OnlyStruct.pure _

theorem LiveSimulationAddress.sized (o : LiveSimulationAddress) : Sized (LiveSimulationAddress.serialize o) (LiveSimulationAddress.wireSize o) := by
  unfold LiveSimulationAddress.serialize
  refine Sized.of_eq (Sized.bind (sized_unsigned_byte o.liveSiteNumber) <|
    sized_unsigned_byte o.liveApplicationNumber) ?_
  simp only [LiveSimulationAddress.wireSize]; try omega

theorem LiveSimulationAddress.ok_iff (o : LiveSimulationAddress) : (LiveSimulationAddress.serialize o).Ok ↔ LiveSimulationAddress.WireOk o := by
  unfold LiveSimulationAddress.serialize LiveSimulationAddress.WireOk
  exact ok_bind_iff (ok_unsigned_byte) <|
    ok_unsigned_byte

theorem LiveSimulationAddress.after_canon {o : LiveSimulationAddress} (h : LiveSimulationAddress.Canon o) : LiveSimulationAddress.after LiveSimulationAddress.init o = o := by
  cases o
  exact (LiveSimulationAddress.mk.injEq ..).mpr ⟨rfl,
    rfl⟩

theorem LiveSimulationAddress.post : Post (LiveSimulationAddress.parse LiveSimulationAddress.init) (fun b o => (LiveSimulationAddress.WireOk o ∧ LiveSimulationAddress.Canon o) ∧ (LiveSimulationAddress.NoNaN o → (LiveSimulationAddress.serialize o).Emits b)) := by
  unfold LiveSimulationAddress.parse
  refine Post.bind (post_unsigned_byte) fun a0 b0 h0 => ?_
  refine Post.last (post_unsigned_byte) fun a1 b1 h1 => ?_
  refine ⟨⟨⟨h0.1, h1.1⟩,
    trivial⟩, fun _ => ?_⟩
  exact W.Emits.bind (h0.2) <|
      h1.2

theorem EntityMarking.rt (s o : EntityMarking) : RT (EntityMarking.serialize o) (EntityMarking.parse s) (EntityMarking.after s o) := by
  unfold EntityMarking.serialize EntityMarking.parse
  exact RT.bind (rt_unsigned_byte o.characterSet) <|
    RT.last (rt_array rt_byte o.characters 11)

theorem EntityMarking.loc (s : EntityMarking) : Local (EntityMarking.parse s) := by
  unfold EntityMarking.parse
  exact Local.bind (loc_unsigned_byte) fun _ =>
    Local.bind (Local.times loc_byte _) fun _ =>
    Local.pure _

theorem EntityMarking.only (s : EntityMarking) : OnlyStruct (EntityMarking.parse s) := by
  unfold EntityMarking.parse
  exact OnlyStruct.bind (only_unsigned_byte) fun _ =>
    OnlyStruct.bind (OnlyStruct.times only_byte _) fun _ =>
    OnlyStruct.pure _

theorem EntityMarking.sized (o : EntityMarking) : Sized (EntityMarking.serialize o) (EntityMarking.wireSize o) := by
  unfold EntityMarking.serialize
  refine Sized.of_eq (Sized.bind (sized_unsigned_byte o.characterSet) <|
    sized_array sized_byte _ _ _) ?_
  simp only [EntityMarking.wireSize]; try omega

theorem EntityMarking.ok_iff (o : EntityMarking) : (EntityMarking.serialize o).Ok ↔ EntityMarking.WireOk o := by
  unfold EntityMarking.serialize EntityMarking.WireOk
  exact ok_bind_iff (ok_unsigned_byte) <|
    ok_array (fun _ => ok_byte) _ 11 (by decide)

theorem EntityMarking.after_canon {o : EntityMarking} (h : EntityMarking.Canon o) : EntityMarking.after EntityMarking.init o = o := by
  have h_characters := h
  cases o
  exact (EntityMarking.mk.injEq ..).mpr ⟨rfl,
    List.take_of_length_le (Nat.le_of_eq h_characters)⟩

theorem EntityMarking.post : Post (EntityMarking.parse EntityMarking.init) (fun b o => (EntityMarking.WireOk o ∧ EntityMarking.Canon o) ∧ (EntityMarking.NoNaN o → (EntityMarking.serialize o).Emits b)) := by
  unfold EntityMarking.parse
  refine Post.bind (post_unsigned_byte) fun a0 b0 h0 => ?_
  refine Post.last (Post.times_all post_byte _) fun a1 b1 h1 => ?_
  refine ⟨⟨⟨h0.1, ⟨Nat.le_of_eq h1.1.symm, fun x hx => h1.2.1 x (List.mem_of_mem_take hx)⟩⟩,
    h1.1⟩, fun _ => ?_⟩
  exact W.Emits.bind (h0.2) <|
      emits_array h1.1 h1.2.2

theorem UAFundamentalParameter.rt (s o : UAFundamentalParameter) : RT (UAFundamentalParameter.serialize o) (UAFundamentalParameter.parse s) (UAFundamentalParameter.after s o) := by
  unfold UAFundamentalParameter.serialize UAFundamentalParameter.parse
  exact RT.bind (rt_unsigned_short o.activeEmissionParameterIndex) <|
    RT.bind (rt_unsigned_short o.scanPattern) <|
    RT.bind (rt_float o.beamCenterAzimuthHorizontal) <|
    RT.bind (rt_float o.azimuthalBeamwidthHorizontal) <|
    RT.bind (rt_float o.beamCenterDepressionElevation) <|
    RT.last (rt_float o.beamwidthDownElevation)

theorem UAFundamentalParameter.loc (s : UAFundamentalParameter) : Local (UAFundamentalParameter.parse s) := by
  unfold UAFundamentalParameter.parse
  exact Local.bind (loc_unsigned_short) fun _ =>
    Local.bind (loc_unsigned_short) fun _ =>
    Local.bind (loc_float) fun _ =>
    Local.bind (loc_float) fun _ =>
    Local.bind (loc_float) fun _ =>
    Local.bind (loc_float) fun _ =>
    Local.pure _

theorem UAFundamentalParameter.only (s : UAFundamentalParameter) : OnlyStruct (UAFundamentalParameter.parse s) := by
  unfold UAFundamentalParameter.parse
  exact OnlyStruct.bind (only_unsigned_short) fun _ =>
    OnlyStruct.bind (only_unsigned_short) fun _ =>
    OnlyStruct.bind (only_float) fun _ =>
    OnlyStruct.bind (only_float) fun _ =>
    OnlyStruct.bind (only_float) fun _ =>
    OnlyStruct.bind (only_float) fun _ =>
    OnlyStruct.pure _

theorem UAFundamentalParameter.sized (o : UAFundamentalParameter) : Sized (UAFundamentalParameter.serialize o) (UAFundamentalParameter.wireSize o) := by
  unfold UAFundamentalParameter.serialize
  refine Sized.of_eq (Sized.bind (sized_unsigned_short o.activeEmissionParameterIndex) <|
    Sized.bind (sized_unsigned_short o.scanPattern) <|
    Sized.bind (sized_float o.beamCenterAzimuthHorizontal) <|
    Sized.bind (sized_float o.azimuthalBeamwidthHorizontal) <|
    Sized.bind (sized_float o.beamCenterDepressionElevation) <|
    sized_float o.beamwidthDownElevation) ?_
  simp only [UAFundamentalParameter.wireSize]; try omega

theorem UAFundamentalParameter.ok_iff (o : UAFundamentalParameter) : (UAFundamentalParameter.serialize o).Ok ↔ UAFundamentalParameter.WireOk o := by
  unfold UAFundamentalParameter.serialize UAFundamentalParameter.WireOk
  exact ok_bind_iff (ok_unsigned_short) <|
    ok_bind_iff (ok_unsigned_short) <|
    ok_bind_iff (ok_float) <|
    ok_bind_iff (ok_float) <|
    ok_bind_iff (ok_float) <|
    ok_float

theorem UAFundamentalParameter.after_canon {o : UAFundamentalParameter} (h : UAFundamentalParameter.Canon o) : UAFundamentalParameter.after UAFundamentalParameter.init o = o := by
  obtain ⟨h_beamCenterAzimuthHorizontal, h_azimuthalBeamwidthHorizontal, h_beamCenterDepressionElevation, h_beamwidthDownElevation⟩ := h
  cases o
  exact (UAFundamentalParameter.mk.injEq ..).mpr ⟨rfl,
    rfl,
    h_beamCenterAzimuthHorizontal,
    h_azimuthalBeamwidthHorizontal,
    h_beamCenterDepressionElevation,
    h_beamwidthDownElevation⟩

theorem UAFundamentalParameter.post : Post (UAFundamentalParameter.parse UAFundamentalParameter.init) (fun b o => (UAFundamentalParameter.WireOk o ∧ UAFundamentalParameter.Canon o) ∧ (UAFundamentalParameter.NoNaN o → (UAFundamentalParameter.serialize o).Emits b)) := by
  unfold UAFundamentalParameter.parse
  refine Post.bind (post_unsigned_short) fun a0 b0 h0 => ?_
  refine Post.bind (post_unsigned_short) fun a1 b1 h1 => ?_
  refine Post.bind (post_float) fun a2 b2 h2 => ?_
  refine Post.bind (post_float) fun a3 b3 h3 => ?_
  refine Post.bind (post_float) fun a4 b4 h4 => ?_
  refine Post.last (post_float) fun a5 b5 h5 => ?_
  refine ⟨⟨⟨h0.1, h1.1, h2.1.1, h3.1.1, h4.1.1, h5.1.1⟩,
    ⟨h2.1.2, h3.1.2, h4.1.2, h5.1.2⟩⟩, fun hn => ?_⟩
  obtain ⟨n0, n1, n2, n3⟩ := hn
  exact W.Emits.bind (h0.2) <|
      W.Emits.bind (h1.2) <|
      W.Emits.bind (h2.2 n0) <|
      W.Emits.bind (h3.2 n1) <|
      W.Emits.bind (h4.2 n2) <|
      h5.2 n3

theorem ExplosionDescriptor.rt (s o : ExplosionDescriptor) : RT (ExplosionDescriptor.serialize o) (ExplosionDescriptor.parse s) (ExplosionDescriptor.after s o) := by
  unfold ExplosionDescriptor.serialize ExplosionDescriptor.parse
  exact RT.bind (EntityType.rt s.explodingObject o.explodingObject) <|
    RT.bind (rt_unsigned_short o.explosiveMaterial) <|
    RT.bind (rt_unsigned_short o.padding) <|
    RT.last (rt_float o.explosiveForce)

theorem ExplosionDescriptor.loc (s : ExplosionDescriptor) : Local (ExplosionDescriptor.parse s) := by
  unfold ExplosionDescriptor.parse
  exact Local.bind (EntityType.loc _) fun _ =>
    Local.bind (loc_unsigned_short) fun _ =>
    Local.bind (loc_unsigned_short) fun _ =>
    Local.bind (loc_float) fun _ =>
    Local.pure _

theorem ExplosionDescriptor.only (s : ExplosionDescriptor) : OnlyStruct (ExplosionDescriptor.parse s) := by
  unfold ExplosionDescriptor.parse
  exact OnlyStruct.bind (EntityType.only _) fun _ =>
    OnlyStruct.bind (only_unsigned_short) fun _ =>
    OnlyStruct.bind (only_unsigned_short) fun _ =>
    OnlyStruct.bind (only_float) fun _ =>
    OnlyStruct.pure _

theorem ExplosionDescriptor.sized (o : ExplosionDescriptor) : Sized (ExplosionDescriptor.serialize o) (ExplosionDescriptor.wireSize o) := by
  unfold ExplosionDescriptor.serialize
  refine Sized.of_eq (Sized.bind (EntityType.sized o.explodingObject) <|
    Sized.bind (sized_unsigned_short o.explosiveMaterial) <|
    Sized.bind (sized_unsigned_short o.padding) <|
    sized_float o.explosiveForce) ?_
  simp only [ExplosionDescriptor.wireSize, EntityType.wireSize]; try omega

theorem ExplosionDescriptor.ok_iff (o : ExplosionDescriptor) : (ExplosionDescriptor.serialize o).Ok ↔ ExplosionDescriptor.WireOk o := by
  unfold ExplosionDescriptor.serialize ExplosionDescriptor.WireOk
  exact ok_bind_iff (EntityType.ok_iff o.explodingObject) <|
    ok_bind_iff (ok_unsigned_short) <|
    ok_bind_iff (ok_unsigned_short) <|
    ok_float

theorem ExplosionDescriptor.after_canon {o : ExplosionDescriptor} (h : ExplosionDescriptor.Canon o) : ExplosionDescriptor.after ExplosionDescriptor.init o = o := by
  have h_explosiveForce := h
  cases o
  exact (ExplosionDescriptor.mk.injEq ..).mpr ⟨EntityType.after_canon trivial,
    rfl,
    rfl,
    h_explosiveForce⟩

theorem ExplosionDescriptor.post : Post (ExplosionDescriptor.parse ExplosionDescriptor.init) (fun b o => (ExplosionDescriptor.WireOk o ∧ ExplosionDescriptor.Canon o) ∧ (ExplosionDescriptor.NoNaN o → (ExplosionDescriptor.serialize o).Emits b)) := by
  unfold ExplosionDescriptor.parse
  refine Post.bind (EntityType.post) fun a0 b0 h0 => ?_
  refine Post.bind (post_unsigned_short) fun a1 b1 h1 => ?_
  refine Post.bind (post_unsigned_short) fun a2 b2 h2 => ?_
  refine Post.last (post_float) fun a3 b3 h3 => ?_
  refine ⟨⟨⟨h0.1.1, h1.1, h2.1, h3.1.1⟩,
    h3.1.2⟩, fun n0 => ?_⟩
  exact W.Emits.bind (h0.2 trivial) <|
      W.Emits.bind (h1.2) <|
      W.Emits.bind (h2.2) <|
      h3.2 n0

theorem ClockTime.rt (s o : ClockTime) : RT (ClockTime.serialize o) (ClockTime.parse s) (ClockTime.after s o) := by
  unfold ClockTime.serialize ClockTime.parse
  exact RT.bind (rt_unsigned_int o.hour) <|
    RT.last (rt_unsigned_int o.timePastHour)

theorem ClockTime.loc (s : ClockTime) : Local (ClockTime.parse s) := by
  unfold ClockTime.parse
  exact Local.bind (loc_unsigned_int) fun _ =>
    Local.bind (loc_unsigned_int) fun _ =>
    Local.pure _

theorem ClockTime.only (s : ClockTime) : OnlyStruct (ClockTime.parse s) := by
  unfold ClockTime.parse
  exact OnlyStruct.bind (only_unsigned_int) fun _ =>
    OnlyStruct.bind (only_unsigned_int) fun _ =>
    OnlyStruct.pure _

theorem ClockTime.sized (o : ClockTime) : Sized (ClockTime.serialize o) (ClockTime.wireSize o) := by
  unfold ClockTime.serialize
  refine Sized.of_eq (Sized.bind (sized_unsigned_int o.hour) <|
    sized_unsigned_int o.timePastHour) ?_
  simp only [ClockTime.wireSize]; try omega

theorem ClockTime.ok_iff (o : ClockTime) : (ClockTime.serialize o).Ok ↔ ClockTime.WireOk o := by
  unfold ClockTime.serialize ClockTime.WireOk
  exact ok_bind_iff (ok_unsigned_int) <|
    ok_unsigned_int

theorem ClockTime.after_canon {o : ClockTime} (h : ClockTime.Canon o) : ClockTime.after ClockTime.init o = o := by
  cases o
  exact (ClockTime.mk.injEq ..).mpr ⟨rfl,
    rfl⟩

theorem ClockTime.post : Post (ClockTime.parse ClockTime.init) (fun b o => (ClockTime.WireOk o ∧ ClockTime.Canon o) ∧ (ClockTime.NoNaN o → (ClockTime.serialize o).Emits b)) := by
  unfold ClockTime.parse
  refine Post.bind (post_unsigned_int) fun a0 b0 h0 => ?_
  refine Post.last (post_unsigned_int) fun a1 b1 h1 => ?_
  refine ⟨⟨⟨h0.1, h1.1⟩,
    trivial⟩, fun _ => ?_⟩
  exact W.Emits.bind (h0.2) <|
      h1.2

theorem SecondaryOperationalData.rt (s o : SecondaryOperationalData) : RT (SecondaryOperationalData.serialize o) (SecondaryOperationalData.parse s) (SecondaryOperationalData.after s o) := by
  unfold SecondaryOperationalData.serialize SecondaryOperationalData.parse
  exact RT.bind (rt_unsigned_byte o.operationalData1) <|
    RT.bind (rt_unsigned_byte o.operationalData2) <|
    RT.last (rt_unsigned_short o.numberOfIFFFundamentalParameterRecords)

theorem SecondaryOperationalData.loc (s : SecondaryOperationalData) : Local (SecondaryOperationalData.parse s) := by
  unfold SecondaryOperationalData.parse
  exact Local.bind (loc_unsigned_byte) fun _ =>
    Local.bind (loc_unsigned_byte) fun _ =>
    Local.bind (loc_unsigned_short) fun _ =>
    Local.pure _

theorem SecondaryOperationalData.only (s : SecondaryOperationalData) : OnlyStruct (SecondaryOperationalData.parse s) := by
  unfold SecondaryOperationalData.parse
  exact OnlyStruct.bind (only_unsigned_byte) fun _ =>
    OnlyStruct.bind (only_unsigned_byte) fun _ =>
    OnlyStruct.bind (only_unsigned_short) fun _ =>
    OnlyStruct.pure _

theorem SecondaryOperationalData.sized (o : SecondaryOperationalData) : Sized (SecondaryOperationalData.serialize o) (SecondaryOperationalData.wireSize o) := by
  unfold SecondaryOperationalData.serialize
  refine Sized.of_eq (Sized.bind (sized_unsigned_byte o.operationalData1) <|
    Sized.bind (sized_unsigned_byte o.operationalData2) <|
    sized_unsigned_short o.numberOfIFFFundamentalParameterRecords) ?_
  simp only [SecondaryOperationalData.wireSize]; try omega

theorem SecondaryOperationalData.ok_iff (o : SecondaryOperationalData) : (SecondaryOperationalData.serialize o).Ok ↔ SecondaryOperationalData.WireOk o := by
  unfold SecondaryOperationalData.serialize SecondaryOperationalData.WireOk
  exact ok_bind_iff (ok_unsigned_byte) <|
    ok_bind_iff (ok_unsigned_byte) <|
    ok_unsigned_short

theorem SecondaryOperationalData.after_canon {o : SecondaryOperationalData} (h : SecondaryOperationalData.Canon o) : SecondaryOperationalData.after SecondaryOperationalData.init o = o := by
  cases o
  exact (SecondaryOperationalData.mk.injEq ..).mpr ⟨rfl,
    rfl,
    rfl⟩

theorem SecondaryOperationalData.post : Post (SecondaryOperationalData.parse SecondaryOperationalData.init) (fun b o => (SecondaryOperationalData.WireOk o ∧ SecondaryOperationalData.Canon o) ∧ (SecondaryOperationalData.NoNaN o → (SecondaryOperationalData.serialize o).Emits b)) := by
  unfold SecondaryOperationalData.parse
  refine Post.bind (post_unsigned_byte) fun a0 b0 h0 => ?_
  refine Post.bind (post_unsigned_byte) fun a1 b1 h1 => ?_
  refine Post.last (post_unsigned_short) fun a2 b2 h2 => ?_
  refine ⟨⟨⟨h0.1, h1.1, h2.1⟩,
    trivial⟩, fun _ => ?_⟩
  exact W.Emits.bind (h0.2) <|
      W.Emits.bind (h1.2) <|
      h2.2

theorem EnvironmentType.rt (s o : EnvironmentType) : RT (EnvironmentType.serialize o) (EnvironmentType.parse s) (EnvironmentType.after s o) := by
  unfold EnvironmentType.serialize EnvironmentType.parse
  exact RT.bind (rt_unsigned_byte o.entityKind) <|
    RT.bind (rt_unsigned_byte o.domain) <|
    RT.bind (rt_unsigned_short o.entityClass) <|
    RT.bind (rt_unsigned_byte o.category) <|
    RT.bind (rt_unsigned_byte o.subcategory) <|
    RT.bind (rt_unsigned_byte o.specific) <|
    RT.last (rt_unsigned_byte o.extra)

theorem EnvironmentType.loc (s : EnvironmentType) : Local (EnvironmentType.parse s) := by
  unfold EnvironmentType.parse
  exact Local.bind (loc_unsigned_byte) fun _ =>
    Local.bind (loc_unsigned_byte) fun _ =>
    Local.bind (loc_unsigned_short) fun _ =>
    Local.bind (loc_unsigned_byte) fun _ =>
    Local.bind (loc_unsigned_byte) fun _ =>
    Local.bind (loc_unsigned_byte) fun _ =>
    Local.bind (loc_unsigned_byte) fun _ =>
    Local.pure _

theorem EnvironmentType.only (s : EnvironmentType) : OnlyStruct (EnvironmentType.parse s) := by
  unfold EnvironmentType.parse
  exact OnlyStruct.bind (only_unsigned_byte) fun _ =>
    OnlyStruct.bind (only_unsigned_byte) fun _ =>
    OnlyStruct.bind (only_unsigned_short) fun _ =>
    OnlyStruct.bind (only_unsigned_byte) fun _ =>
    OnlyStruct.bind (only_unsigned_byte) fun _ =>
    OnlyStruct.bind (only_unsigned_byte) fun _ =>
    OnlyStruct.bind (only_unsigned_byte) fun _ =>
    OnlyStruct.pure _

theorem EnvironmentType.sized (o : EnvironmentType) : Sized (EnvironmentType.serialize o) (EnvironmentType.wireSize o) := by
  unfold EnvironmentType.serialize
  refine Sized.of_eq (Sized.bind (sized_unsigned_byte o.entityKind) <|
    Sized.bind (sized_unsigned_byte o.domain) <|
    Sized.bind (sized_unsigned_short o.entityClass) <|
    Sized.bind (sized_unsigned_byte o.category) <|
    Sized.bind (sized_unsigned_byte o.subcategory) <|
    Sized.bind (sized_unsigned_byte o.specific) <|
    sized_unsigned_byte o.extra) ?_
  simp only [EnvironmentType.wireSize]; try omega

theorem EnvironmentType.ok_iff (o : EnvironmentType) : (EnvironmentType.serialize o).Ok ↔ EnvironmentType.WireOk o := by
  unfold EnvironmentType.serialize EnvironmentType.WireOk
  exact ok_bind_iff (ok_unsigned_byte) <|
    ok_bind_iff (ok_unsigned_byte) <|
    ok_bind_iff (ok_unsigned_short) <|
    ok_bind_iff (ok_unsigned_byte) <|
    ok_bind_iff (ok_unsigned_byte) <|
    ok_bind_iff (ok_unsigned_byte) <|
    ok_unsigned_byte

theorem EnvironmentType.after_canon {o : EnvironmentType} (h : EnvironmentType.Canon o) : EnvironmentType.after EnvironmentType.init o = o := by
  cases o
  exact (EnvironmentType.mk.injEq ..).mpr ⟨rfl,
    rfl,
    rfl,
    rfl,
    rfl,
    rfl,
    rfl⟩

theorem EnvironmentType.post : Post (EnvironmentType.parse EnvironmentType.init) (fun b o => (EnvironmentType.WireOk o ∧ EnvironmentType.Canon o) ∧ (EnvironmentType.NoNaN o → (EnvironmentType.serialize o).Emits b)) := by
  unfold EnvironmentType.parse
  refine Post.bind (post_unsigned_byte) fun a0 b0 h0 => ?_
  refine Post.bind (post_unsigned_byte) fun a1 b1 h1 => ?_
  refine Post.bind (post_unsigned_short) fun a2 b2 h2 => ?_
  refine Post.bind (post_unsigned_byte) fun a3 b3 h3 => ?_
  refine Post.bind (post_unsigned_byte) fun a4 b4 h4 => ?_
  refine Post.bind (post_unsigned_byte) fun a5 b5 h5 => ?_
  refine Post.last (post_unsigned_byte) fun a6 b6 h6 => ?_
  refine ⟨⟨⟨h0.1, h1.1, h2.1, h3.1, h4.1, h5.1, h6.1⟩,
    trivial⟩, fun _ => ?_⟩
  exact W.Emits.bind (h0.2) <|
      W.Emits.bind (h1.2) <|
      W.Emits.bind (h2.2) <|
      W.Emits.bind (h3.2) <|
      W.Emits.bind (h4.2) <|
      W.Emits.bind (h5.2) <|
      h6.2

theorem TotalRecordSets.rt (s o : TotalRecordSets) : RT (TotalRecordSets.serialize o) (TotalRecordSets.parse s) (TotalRecordSets.after s o) := by
  unfold TotalRecordSets.serialize TotalRecordSets.parse
  exact RT.bind (rt_unsigned_short o.totalRecordSets) <|
    RT.last (rt_unsigned_short o.padding)

theorem TotalRecordSets.loc (s : TotalRecordSets) : Local (TotalRecordSets.parse s) := by
  unfold TotalRecordSets.parse
  exact Local.bind (loc_unsigned_short) fun _ =>
    Local.bind (loc_unsigned_short) fun _ =>
    Local.pure _

theorem TotalRecordSets.only (s : TotalRecordSets) : OnlyStruct (TotalRecordSets.parse s) := by
  unfold TotalRecordSets.parse
  exact OnlyStruct.bind (only_unsigned_short) fun _ =>
    OnlyStruct.bind (only_unsigned_short) fun _ =>
    OnlyStruct.pure _

theorem TotalRecordSets.sized (o : TotalRecordSets) : Sized (TotalRecordSets.serialize o) (TotalRecordSets.wireSize o) := by
  unfold TotalRecordSets.serialize
  refine Sized.of_eq (Sized.bind (sized_unsigned_short o.totalRecordSets) <|
    sized_unsigned_short o.padding) ?_
  simp only [TotalRecordSets.wireSize]; try omega

theorem TotalRecordSets.ok_iff (o : TotalRecordSets) : (TotalRecordSets.serialize o).Ok ↔ TotalRecordSets.WireOk o := by
  unfold TotalRecordSets.serialize TotalRecordSets.WireOk
  exact ok_bind_iff (ok_unsigned_short) <|
    ok_unsigned_short

theorem TotalRecordSets.after_canon {o : TotalRecordSets} (h : TotalRecordSets.Canon o) : TotalRecordSets.after TotalRecordSets.init o = o := by
  cases o
  exact (TotalRecordSets.mk.injEq ..).mpr ⟨rfl,
    rfl⟩

theorem TotalRecordSets.post : Post (TotalRecordSets.parse TotalRecordSets.init) (fun b o => (TotalRecordSets.WireOk o ∧ TotalRecordSets.Canon o) ∧ (TotalRecordSets.NoNaN o → (TotalRecordSets.serialize o).Emits b)) := by
  unfold TotalRecordSets.parse
  refine Post.bind (post_unsigned_short) fun a0 b0 h0 => ?_
  refine Post.last (post_unsigned_short) fun a1 b1 h1 => ?_
  refine ⟨⟨⟨h0.1, h1.1⟩,
    trivial⟩, fun _ => ?_⟩
  exact W.Emits.bind (h0.2) <|
      h1.2

theorem MineEntityIdentifier.rt (s o : MineEntityIdentifier) : RT (MineEntityIdentifier.serialize o) (MineEntityIdentifier.parse s) (MineEntityIdentifier.after s o) := by
  unfold MineEntityIdentifier.serialize MineEntityIdentifier.parse
  exact RT.bind (SimulationAddress.rt s.simulationAddress o.simulationAddress) <|
    RT.last (rt_unsigned_short o.mineEntityNumber)

theorem MineEntityIdentifier.loc (s : MineEntityIdentifier) : Local (MineEntityIdentifier.parse s) := by
  unfold MineEntityIdentifier.parse
  exact Local.bind (SimulationAddress.loc _) fun _ =>
    Local.bind (loc_unsigned_short) fun _ =>
    Local.pure _

theorem MineEntityIdentifier.only (s : MineEntityIdentifier) : OnlyStruct (MineEntityIdentifier.parse s) := by
  unfold MineEntityIdentifier.parse
  exact OnlyStruct.bind (SimulationAddress.only _) fun _ =>
    OnlyStruct.bind (only_unsigned_short) fun _ =>
    OnlyStruct.pure _

theorem MineEntityIdentifier.sized (o : MineEntityIdentifier) : Sized (MineEntityIdentifier.serialize o) (MineEntityIdentifier.wireSize o) := by
  unfold MineEntityIdentifier.serialize
  refine Sized.of_eq (Sized.bind (SimulationAddress.sized o.simulationAddress) <|
    sized_unsigned_short o.mineEntityNumber) ?_
  simp only [MineEntityIdentifier.wireSize, SimulationAddress.wireSize]; try omega

theorem MineEntityIdentifier.ok_iff (o : MineEntityIdentifier) : (MineEntityIdentifier.serialize o).Ok ↔ MineEntityIdentifier.WireOk o := by
  unfold MineEntityIdentifier.serialize MineEntityIdentifier.WireOk
  exact ok_bind_iff (SimulationAddress.ok_iff o.simulationAddress) <|
    ok_unsigned_short

theorem MineEntityIdentifier.after_canon {o : MineEntityIdentifier} (h : MineEntityIdentifier.Canon o) : MineEntityIdentifier.after MineEntityIdentifier.init o = o := by
  cases o
  exact (MineEntityIdentifier.mk.injEq ..).mpr ⟨SimulationAddress.after_canon trivial,
    rfl⟩

theorem MineEntityIdentifier.post : Post (MineEntityIdentifier.parse MineEntityIdentifier.init) (fun b o => (MineEntityIdentifier.WireOk o ∧ MineEntityIdentifier.Canon o) ∧ (MineEntityIdentifier.NoNaN o → (MineEntityIdentifier.serialize o).Emits b)) := by
  unfold MineEntityIdentifier.parse
  refine Post.bind (SimulationAddress.post) fun a0 b0 h0 => ?_
  refine Post.last (post_unsigned_short) fun a1 b1 h1 => ?_
  refine ⟨⟨⟨h0.1.1, h1.1⟩,
    trivial⟩, fun _ => ?_⟩
  exact W.Emits.bind (h0.2 trivial) <|
      h1.2

theorem Relationship.rt (s o : Relationship) : RT (Relationship.serialize o) (Relationship.parse s) (Relationship.after s o) := by
  unfold Relationship.serialize Relationship.parse
  exact RT.bind (rt_unsigned_short o.nature) <|
    RT.last (rt_unsigned_short o.position)

theorem Relationship.loc (s : Relationship) : Local (Relationship.parse s) := by
  unfold Relationship.parse
  exact Local.bind (loc_unsigned_short) fun _ =>
    Local.bind (loc_unsigned_short) fun _ =>
    Local.pure _

theorem Relationship.only (s : Relationship) : OnlyStruct (Relationship.parse s) := by
  unfold Relationship.parse
  exact OnlyStruct.bind (only_unsigned_short) fun _ =>
    OnlyStruct.bind (only_unsigned_short) fun _ =>
    OnlyStruct.pure _

theorem Relationship.sized (o : Relationship) : Sized (Relationship.serialize o) (Relationship.wireSize o) := by
  unfold Relationship.serialize
  refine Sized.of_eq (Sized.bind (sized_unsigned_short o.nature) <|
    sized_unsigned_short o.position) ?_
  simp only [Relationship.wireSize]; try omega

theorem Relationship.ok_iff (o : Relationship) : (Relationship.serialize o).Ok ↔ Relationship.WireOk o := by
  unfold Relationship.serialize Relationship.WireOk
  exact ok_bind_iff (ok_unsigned_short) <|
    ok_unsigned_short

theorem Relationship.after_canon {o : Relationship} (h : Relationship.Canon o) : Relationship.after Relationship.init o = o := by
  cases o
  exact (Relationship.mk.injEq ..).mpr ⟨rfl,
    rfl⟩

theorem Relationship.post : Post (Relationship.parse Relationship.init) (fun b o => (Relationship.WireOk o ∧ Relationship.Canon o) ∧ (Relationship.NoNaN o → (Relationship.serialize o).Emits b)) := by
  unfold Relationship.parse
  refine Post.bind (post_unsigned_short) fun a0 b0 h0 => ?_
  refine Post.last (post_unsigned_short) fun a1 b1 h1 => ?_
  refine ⟨⟨⟨h0.1, h1.1⟩,
    trivial⟩, fun _ => ?_⟩
  exact W.Emits.bind (h0.2) <|
      h1.2

end Dis
