import Verif.Spec.Common
import Verif.Proof.Wire

/-!
# Proofs for: Records of `opendis/record/common.py`

Generated by `tools/genproof.py`.
-/

set_option linter.unusedVariables false
set_option linter.unusedSimpArgs false

namespace Dis

theorem SimulationAddress.rt (s o : SimulationAddress) : RT (SimulationAddress.serialize o) (SimulationAddress.parse s) (SimulationAddress.after s o) := by
  unfold SimulationAddress.serialize SimulationAddress.parse
  exact RT.bind (rt_unsigned_short o.site) <|
    RT.last (rt_unsigned_short o.application)

theorem SimulationAddress.loc (s : SimulationAddress) : Local (SimulationAddress.parse s) := by
  unfold SimulationAddress.parse
  exact Local.bind (loc_unsigned_short) fun _ =>
    Local.bind (loc_unsigned_short) fun _ =>
    Local.pure _

theorem SimulationAddress.only (s : SimulationAddress) : OnlyStruct (SimulationAddress.parse s) := by
  unfold SimulationAddress.parse
  exact OnlyStruct.bind (only_unsigned_short) fun _ =>
    OnlyStruct.bind (only_unsigned_short) fun _ =>
    OnlyStruct.pure _

theorem SimulationAddress.sized (o : SimulationAddress) : Sized (SimulationAddress.serialize o) (SimulationAddress.wireSize o) := by
  unfold SimulationAddress.serialize
  refine Sized.of_eq (Sized.bind (sized_unsigned_short o.site) <|
    sized_unsigned_short o.application) ?_
  simp only [SimulationAddress.wireSize]; try omega

theorem SimulationAddress.ok_iff (o : SimulationAddress) : (SimulationAddress.serialize o).Ok ↔ SimulationAddress.WireOk o := by
  unfold SimulationAddress.serialize SimulationAddress.WireOk
  exact ok_bind_iff (ok_unsigned_short) <|
    ok_unsigned_short

theorem SimulationAddress.after_canon {o : SimulationAddress} (h : SimulationAddress.Canon o) : SimulationAddress.after SimulationAddress.init o = o := by
  cases o
  exact (SimulationAddress.mk.injEq ..).mpr ⟨rfl,
    rfl⟩

theorem SimulationAddress.post : Post (SimulationAddress.parse SimulationAddress.init) (fun b o => (SimulationAddress.WireOk o ∧ SimulationAddress.Canon o) ∧ (SimulationAddress.NoNaN o → (SimulationAddress.serialize o).Emits b)) := by
  unfold SimulationAddress.parse
  refine Post.bind (post_unsigned_short) fun a0 b0 h0 => ?_
  refine Post.last (post_unsigned_short) fun a1 b1 h1 => ?_
  refine ⟨⟨⟨h0.1, h1.1⟩,
    trivial⟩, fun _ => ?_⟩
  exact W.Emits.bind (h0.2) <|
      h1.2

theorem EntityIdentifier.rt (s o : EntityIdentifier) : RT (EntityIdentifier.serialize o) (EntityIdentifier.parse s) (EntityIdentifier.after s o) := by
  unfold EntityIdentifier.serialize EntityIdentifier.parse
  exact RT.bind (SimulationAddress.rt s.simulationAddress o.simulationAddress) <|
    RT.last (rt_uint16 o.entityNumber)

theorem EntityIdentifier.loc (s : EntityIdentifier) : Local (EntityIdentifier.parse s) := by
  unfold EntityIdentifier.parse
  exact Local.bind (SimulationAddress.loc _) fun _ =>
    Local.bind (loc_uint16) fun _ =>
    Local.pure _

theorem EntityIdentifier.only (s : EntityIdentifier) : OnlyStruct (EntityIdentifier.parse s) := by
  unfold EntityIdentifier.parse
  exact OnlyStruct.bind (SimulationAddress.only _) fun _ =>
    OnlyStruct.bind (only_uint16) fun _ =>
    OnlyStruct.pure _

theorem EntityIdentifier.sized (o : EntityIdentifier) : Sized (EntityIdentifier.serialize o) (EntityIdentifier.wireSize o) := by
  unfold EntityIdentifier.serialize
  refine Sized.of_eq (Sized.bind (SimulationAddress.sized o.simulationAddress) <|
    sized_uint16 o.entityNumber) ?_
  simp only [EntityIdentifier.wireSize, SimulationAddress.wireSize]; try omega

theorem EntityIdentifier.ok_iff (o : EntityIdentifier) : (EntityIdentifier.serialize o).Ok ↔ EntityIdentifier.WireOk o := by
  unfold EntityIdentifier.serialize EntityIdentifier.WireOk
  exact ok_bind_iff (SimulationAddress.ok_iff o.simulationAddress) <|
    ok_uint16

theorem EntityIdentifier.after_canon {o : EntityIdentifier} (h : EntityIdentifier.Canon o) : EntityIdentifier.after EntityIdentifier.init o = o := by
  cases o
  exact (EntityIdentifier.mk.injEq ..).mpr ⟨SimulationAddress.after_canon trivial,
    rfl⟩

theorem EntityIdentifier.post : Post (EntityIdentifier.parse EntityIdentifier.init) (fun b o => (EntityIdentifier.WireOk o ∧ EntityIdentifier.Canon o) ∧ (EntityIdentifier.NoNaN o → (EntityIdentifier.serialize o).Emits b)) := by
  unfold EntityIdentifier.parse
  refine Post.bind (SimulationAddress.post) fun a0 b0 h0 => ?_
  refine Post.last (post_uint16) fun a1 b1 h1 => ?_
  refine ⟨⟨⟨h0.1.1, h1.1⟩,
    trivial⟩, fun _ => ?_⟩
  exact W.Emits.bind (h0.2 trivial) <|
      h1.2

theorem EulerAngles.rt (s o : EulerAngles) : RT (EulerAngles.serialize o) (EulerAngles.parse s) (EulerAngles.after s o) := by
  unfold EulerAngles.serialize EulerAngles.parse
  exact RT.bind (rt_float32 o.psi) <|
    RT.bind (rt_float32 o.theta) <|
    RT.last (rt_float32 o.phi)

theorem EulerAngles.loc (s : EulerAngles) : Local (EulerAngles.parse s) := by
  unfold EulerAngles.parse
  exact Local.bind (loc_float32) fun _ =>
    Local.bind (loc_float32) fun _ =>
    Local.bind (loc_float32) fun _ =>
    Local.pure _

theorem EulerAngles.only (s : EulerAngles) : OnlyStruct (EulerAngles.parse s) := by
  unfold EulerAngles.parse
  exact OnlyStruct.bind (only_float32) fun _ =>
    OnlyStruct.bind (only_float32) fun _ =>
    OnlyStruct.bind (only_float32) fun _ =>
    OnlyStruct.pure _

theorem EulerAngles.sized (o : EulerAngles) : Sized (EulerAngles.serialize o) (EulerAngles.wireSize o) := by
  unfold EulerAngles.serialize
  refine Sized.of_eq (Sized.bind (sized_float32 o.psi) <|
    Sized.bind (sized_float32 o.theta) <|
    sized_float32 o.phi) ?_
  simp only [EulerAngles.wireSize]; try omega

theorem EulerAngles.ok_iff (o : EulerAngles) : (EulerAngles.serialize o).Ok ↔ EulerAngles.WireOk o := by
  unfold EulerAngles.serialize EulerAngles.WireOk
  exact ok_bind_iff (ok_float32) <|
    ok_bind_iff (ok_float32) <|
    ok_float32

theorem EulerAngles.after_canon {o : EulerAngles} (h : EulerAngles.Canon o) : EulerAngles.after EulerAngles.init o = o := by
  obtain ⟨h_psi, h_theta, h_phi⟩ := h
  cases o
  exact (EulerAngles.mk.injEq ..).mpr ⟨h_psi,
    h_theta,
    h_phi⟩

theorem EulerAngles.post : Post (EulerAngles.parse EulerAngles.init) (fun b o => (EulerAngles.WireOk o ∧ EulerAngles.Canon o) ∧ (EulerAngles.NoNaN o → (EulerAngles.serialize o).Emits b)) := by
  unfold EulerAngles.parse
  refine Post.bind (post_float32) fun a0 b0 h0 => ?_
  refine Post.bind (post_float32) fun a1 b1 h1 => ?_
  refine Post.last (post_float32) fun a2 b2 h2 => ?_
  refine ⟨⟨⟨h0.1.1, h1.1.1, h2.1.1⟩,
    ⟨h0.1.2, h1.1.2, h2.1.2⟩⟩, fun hn => ?_⟩
  obtain ⟨n0, n1, n2⟩ := hn
  exact W.Emits.bind (h0.2 n0) <|
      W.Emits.bind (h1.2 n1) <|
      h2.2 n2

theorem EventIdentifier.rt (s o : EventIdentifier) : RT (EventIdentifier.serialize o) (EventIdentifier.parse s) (EventIdentifier.after s o) := by
  unfold EventIdentifier.serialize EventIdentifier.parse
  exact RT.bind (SimulationAddress.rt s.simulationAddress o.simulationAddress) <|
    RT.last (rt_unsigned_short o.eventNumber)

theorem EventIdentifier.loc (s : EventIdentifier) : Local (EventIdentifier.parse s) := by
  unfold EventIdentifier.parse
  exact Local.bind (SimulationAddress.loc _) fun _ =>
    Local.bind (loc_unsigned_short) fun _ =>
    Local.pure _

theorem EventIdentifier.only (s : EventIdentifier) : OnlyStruct (EventIdentifier.parse s) := by
  unfold EventIdentifier.parse
  exact OnlyStruct.bind (SimulationAddress.only _) fun _ =>
    OnlyStruct.bind (only_unsigned_short) fun _ =>
    OnlyStruct.pure _

theorem EventIdentifier.sized (o : EventIdentifier) : Sized (EventIdentifier.serialize o) (EventIdentifier.wireSize o) := by
  unfold EventIdentifier.serialize
  refine Sized.of_eq (Sized.bind (SimulationAddress.sized o.simulationAddress) <|
    sized_unsigned_short o.eventNumber) ?_
  simp only [EventIdentifier.wireSize, SimulationAddress.wireSize]; try omega

theorem EventIdentifier.ok_iff (o : EventIdentifier) : (EventIdentifier.serialize o).Ok ↔ EventIdentifier.WireOk o := by
  unfold EventIdentifier.serialize EventIdentifier.WireOk
  exact ok_bind_iff (SimulationAddress.ok_iff o.simulationAddress) <|
    ok_unsigned_short

theorem EventIdentifier.after_canon {o : EventIdentifier} (h : EventIdentifier.Canon o) : EventIdentifier.after EventIdentifier.init o = o := by
  cases o
  exact (EventIdentifier.mk.injEq ..).mpr ⟨SimulationAddress.after_canon trivial,
    rfl⟩

theorem EventIdentifier.post : Post (EventIdentifier.parse EventIdentifier.init) (fun b o => (EventIdentifier.WireOk o ∧ EventIdentifier.Canon o) ∧ (EventIdentifier.NoNaN o → (EventIdentifier.serialize o).Emits b)) := by
  unfold EventIdentifier.parse
  refine Post.bind (SimulationAddress.post) fun a0 b0 h0 => ?_
  refine Post.last (post_unsigned_short) fun a1 b1 h1 => ?_
  refine ⟨⟨⟨h0.1.1, h1.1⟩,
    trivial⟩, fun _ => ?_⟩
  exact W.Emits.bind (h0.2 trivial) <|
      h1.2

theorem Vector3Float.rt (s o : Vector3Float) : RT (Vector3Float.serialize o) (Vector3Float.parse s) (Vector3Float.after s o) := by
  unfold Vector3Float.serialize Vector3Float.parse
  exact RT.bind (rt_float o.x) <|
    RT.bind (rt_float o.y) <|
    RT.last (rt_float o.z)

theorem Vector3Float.loc (s : Vector3Float) : Local (Vector3Float.parse s) := by
  unfold Vector3Float.parse
  exact Local.bind (loc_float) fun _ =>
    Local.bind (loc_float) fun _ =>
    Local.bind (loc_float) fun _ =>
    Local.pure _

theorem Vector3Float.only (s : Vector3Float) : OnlyStruct (Vector3Float.parse s) := by
  unfold Vector3Float.parse
  exact OnlyStruct.bind (only_float) fun _ =>
    OnlyStruct.bind (only_float) fun _ =>
    OnlyStruct.bind (only_float) fun _ =>
    OnlyStruct.pure _

theorem Vector3Float.sized (o : Vector3Float) : Sized (Vector3Float.serialize o) (Vector3Float.wireSize o) := by
  unfold Vector3Float.serialize
  refine Sized.of_eq (Sized.bind (sized_float o.x) <|
    Sized.bind (sized_float o.y) <|
    sized_float o.z) ?_
  simp only [Vector3Float.wireSize]; try omega

theorem Vector3Float.ok_iff (o : Vector3Float) : (Vector3Float.serialize o).Ok ↔ Vector3Float.WireOk o := by
  unfold Vector3Float.serialize Vector3Float.WireOk
  exact ok_bind_iff (ok_float) <|
    ok_bind_iff (ok_float) <|
    ok_float

theorem Vector3Float.after_canon {o : Vector3Float} (h : Vector3Float.Canon o) : Vector3Float.after Vector3Float.init o = o := by
  obtain ⟨h_x, h_y, h_z⟩ := h
  cases o
  exact (Vector3Float.mk.injEq ..).mpr ⟨h_x,
    h_y,
    h_z⟩

theorem Vector3Float.post : Post (Vector3Float.parse Vector3Float.init) (fun b o => (Vector3Float.WireOk o ∧ Vector3Float.Canon o) ∧ (Vector3Float.NoNaN o → (Vector3Float.serialize o).Emits b)) := by
  unfold Vector3Float.parse
  refine Post.bind (post_float) fun a0 b0 h0 => ?_
  refine Post.bind (post_float) fun a1 b1 h1 => ?_
  refine Post.last (post_float) fun a2 b2 h2 => ?_
  refine ⟨⟨⟨h0.1.1, h1.1.1, h2.1.1⟩,
    ⟨h0.1.2, h1.1.2, h2.1.2⟩⟩, fun hn => ?_⟩
  obtain ⟨n0, n1, n2⟩ := hn
  exact W.Emits.bind (h0.2 n0) <|
      W.Emits.bind (h1.2 n1) <|
      h2.2 n2

theorem WorldCoordinates.rt (s o : WorldCoordinates) : RT (WorldCoordinates.serialize o) (WorldCoordinates.parse s) (WorldCoordinates.after s o) := by
  unfold WorldCoordinates.serialize WorldCoordinates.parse
  exact RT.bind (rt_float64 o.x) <|
    RT.bind (rt_float64 o.y) <|
    RT.last (rt_float64 o.z)

theorem WorldCoordinates.loc (s : WorldCoordinates) : Local (WorldCoordinates.parse s) := by
  unfold WorldCoordinates.parse
  exact Local.bind (loc_float64) fun _ =>
    Local.bind (loc_float64) fun _ =>
    Local.bind (loc_float64) fun _ =>
    Local.pure _

theorem WorldCoordinates.only (s : WorldCoordinates) : OnlyStruct (WorldCoordinates.parse s) := by
  unfold WorldCoordinates.parse
  exact OnlyStruct.bind (only_float64) fun _ =>
    OnlyStruct.bind (only_float64) fun _ =>
    OnlyStruct.bind (only_float64) fun _ =>
    OnlyStruct.pure _

theorem WorldCoordinates.sized (o : WorldCoordinates) : Sized (WorldCoordinates.serialize o) (WorldCoordinates.wireSize o) := by
  unfold WorldCoordinates.serialize
  refine Sized.of_eq (Sized.bind (sized_float64 o.x) <|
    Sized.bind (sized_float64 o.y) <|
    sized_float64 o.z) ?_
  simp only [WorldCoordinates.wireSize]; try omega

theorem WorldCoordinates.ok_iff (o : WorldCoordinates) : (WorldCoordinates.serialize o).Ok ↔ WorldCoordinates.WireOk o := by
  unfold WorldCoordinates.serialize WorldCoordinates.WireOk
  exact ok_bind_tt (ok_float64) <|
    ok_bind_tt (ok_float64) <|
    ok_float64

theorem WorldCoordinates.after_canon {o : WorldCoordinates} (h : WorldCoordinates.Canon o) : WorldCoordinates.after WorldCoordinates.init o = o := by
  cases o
  exact (WorldCoordinates.mk.injEq ..).mpr ⟨rfl,
    rfl,
    rfl⟩

theorem WorldCoordinates.post : Post (WorldCoordinates.parse WorldCoordinates.init) (fun b o => (WorldCoordinates.WireOk o ∧ WorldCoordinates.Canon o) ∧ (WorldCoordinates.NoNaN o → (WorldCoordinates.serialize o).Emits b)) := by
  unfold WorldCoordinates.parse
  refine Post.bind (post_float64) fun a0 b0 h0 => ?_
  refine Post.bind (post_float64) fun a1 b1 h1 => ?_
  refine Post.last (post_float64) fun a2 b2 h2 => ?_
  refine ⟨⟨trivial,
    trivial⟩, fun _ => ?_⟩
  exact W.Emits.bind (h0) <|
      W.Emits.bind (h1) <|
      h2

end Dis
