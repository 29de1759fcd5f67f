import Verif.Spec.Pdus4
import Verif.Proof.Pdus3

/-!
# Proofs for: PDUs of `opendis/dis7.py`, part 4

Generated by `tools/genproof.py`.
-/

set_option linter.unusedVariables false
set_option linter.unusedSimpArgs false

namespace Dis

theorem FastEntityStatePdu.rt (s o : FastEntityStatePdu) : RT (FastEntityStatePdu.serialize o) (FastEntityStatePdu.parse s) (FastEntityStatePdu.after s o) := by
  unfold FastEntityStatePdu.serialize FastEntityStatePdu.parse
  exact RT.bind (EntityInformationFamilyPdu.rt s.toEntityInformationFamilyPdu o.toEntityInformationFamilyPdu) <|
    RT.bind (rt_unsigned_short o.site) <|
    RT.bind (rt_unsigned_short o.application) <|
    RT.bind (rt_unsigned_short o.entity) <|
    RT.bind (rt_unsigned_byte o.forceId) <|
    RT.bind (rt_byte ((o.variableParameters.length : Int))) <|
    RT.bind (rt_unsigned_byte o.entityKind) <|
    RT.bind (rt_unsigned_byte o.domain) <|
    RT.bind (rt_unsigned_short o.country) <|
    RT.bind (rt_unsigned_byte o.category) <|
    RT.bind (rt_unsigned_byte o.subcategory) <|
    RT.bind (rt_unsigned_byte o.specific) <|
    RT.bind (rt_unsigned_byte o.extra) <|
    RT.bind (rt_unsigned_byte o.altEntityKind) <|
    RT.bind (rt_unsigned_byte o.altDomain) <|
    RT.bind (rt_unsigned_short o.altCountry) <|
    RT.bind (rt_unsigned_byte o.altCategory) <|
    RT.bind (rt_unsigned_byte o.altSubcategory) <|
    RT.bind (rt_unsigned_byte o.altSpecific) <|
    RT.bind (rt_unsigned_byte o.altExtra) <|
    RT.bind (rt_float o.xVelocity) <|
    RT.bind (rt_float o.yVelocity) <|
    RT.bind (rt_float o.zVelocity) <|
    RT.bind (rt_double o.xLocation) <|
    RT.bind (rt_double o.yLocation) <|
    RT.bind (rt_double o.zLocation) <|
    RT.bind (rt_float o.psi) <|
    RT.bind (rt_float o.theta) <|
    RT.bind (rt_float o.phi) <|
    RT.bind (rt_int o.entityAppearance) <|
    RT.bind (rt_unsigned_byte o.deadReckoningAlgorithm) <|
    RT.bind (rt_array rt_byte o.otherParameters 15) <|
    RT.bind (rt_float o.xAcceleration) <|
    RT.bind (rt_float o.yAcceleration) <|
    RT.bind (rt_float o.zAcceleration) <|
    RT.bind (rt_float o.xAngularVelocity) <|
    RT.bind (rt_float o.yAngularVelocity) <|
    RT.bind (rt_float o.zAngularVelocity) <|
    RT.bind (rt_array rt_byte o.marking 12) <|
    RT.bind (rt_int o.capabilities) <|
    RT.last (rt_list fun x _ => VariableParameter.rt _ x)

theorem FastEntityStatePdu.loc (s : FastEntityStatePdu) : Local (FastEntityStatePdu.parse s) := by
  unfold FastEntityStatePdu.parse
  exact Local.bind (EntityInformationFamilyPdu.loc _) fun _ =>
    Local.bind (loc_unsigned_short) fun _ =>
    Local.bind (loc_unsigned_short) fun _ =>
    Local.bind (loc_unsigned_short) fun _ =>
    Local.bind (loc_unsigned_byte) fun _ =>
    Local.bind (loc_byte) fun _ =>
    Local.bind (loc_unsigned_byte) fun _ =>
    Local.bind (loc_unsigned_byte) fun _ =>
    Local.bind (loc_unsigned_short) fun _ =>
    Local.bind (loc_unsigned_byte) fun _ =>
    Local.bind (loc_unsigned_byte) fun _ =>
    Local.bind (loc_unsigned_byte) fun _ =>
    Local.bind (loc_unsigned_byte) fun _ =>
    Local.bind (loc_unsigned_byte) fun _ =>
    Local.bind (loc_unsigned_byte) fun _ =>
    Local.bind (loc_unsigned_short) fun _ =>
    Local.bind (loc_unsigned_byte) fun _ =>
    Local.bind (loc_unsigned_byte) fun _ =>
    Local.bind (loc_unsigned_byte) fun _ =>
    Local.bind (loc_unsigned_byte) fun _ =>
    Local.bind (loc_float) fun _ =>
    Local.bind (loc_float) fun _ =>
    Local.bind (loc_float) fun _ =>
    Local.bind (loc_double) fun _ =>
    Local.bind (loc_double) fun _ =>
    Local.bind (loc_double) fun _ =>
    Local.bind (loc_float) fun _ =>
    Local.bind (loc_float) fun _ =>
    Local.bind (loc_float) fun _ =>
    Local.bind (loc_int) fun _ =>
    Local.bind (loc_unsigned_byte) fun _ =>
    Local.bind (Local.times loc_byte _) fun _ =>
    Local.bind (loc_float) fun _ =>
    Local.bind (loc_float) fun _ =>
    Local.bind (loc_float) fun _ =>
    Local.bind (loc_float) fun _ =>
    Local.bind (loc_float) fun _ =>
    Local.bind (loc_float) fun _ =>
    Local.bind (Local.times loc_byte _) fun _ =>
    Local.bind (loc_int) fun _ =>
    Local.bind (Local.times (VariableParameter.loc _) _) fun _ =>
    Local.pure _

theorem FastEntityStatePdu.only (s : FastEntityStatePdu) : OnlyStruct (FastEntityStatePdu.parse s) := by
  unfold FastEntityStatePdu.parse
  exact OnlyStruct.bind (EntityInformationFamilyPdu.only _) fun _ =>
    OnlyStruct.bind (only_unsigned_short) fun _ =>
    OnlyStruct.bind (only_unsigned_short) fun _ =>
    OnlyStruct.bind (only_unsigned_short) fun _ =>
    OnlyStruct.bind (only_unsigned_byte) fun _ =>
    OnlyStruct.bind (only_byte) fun _ =>
    OnlyStruct.bind (only_unsigned_byte) fun _ =>
    OnlyStruct.bind (only_unsigned_byte) fun _ =>
    OnlyStruct.bind (only_unsigned_short) fun _ =>
    OnlyStruct.bind (only_unsigned_byte) fun _ =>
    OnlyStruct.bind (only_unsigned_byte) fun _ =>
    OnlyStruct.bind (only_unsigned_byte) fun _ =>
    OnlyStruct.bind (only_unsigned_byte) fun _ =>
    OnlyStruct.bind (only_unsigned_byte) fun _ =>
    OnlyStruct.bind (only_unsigned_byte) fun _ =>
    OnlyStruct.bind (only_unsigned_short) fun _ =>
    OnlyStruct.bind (only_unsigned_byte) fun _ =>
    OnlyStruct.bind (only_unsigned_byte) fun _ =>
    OnlyStruct.bind (only_unsigned_byte) fun _ =>
    OnlyStruct.bind (only_unsigned_byte) fun _ =>
    OnlyStruct.bind (only_float) fun _ =>
    OnlyStruct.bind (only_float) fun _ =>
    OnlyStruct.bind (only_float) fun _ =>
    OnlyStruct.bind (only_double) fun _ =>
    OnlyStruct.bind (only_double) fun _ =>
    OnlyStruct.bind (only_double) fun _ =>
    OnlyStruct.bind (only_float) fun _ =>
    OnlyStruct.bind (only_float) fun _ =>
    OnlyStruct.bind (only_float) fun _ =>
    OnlyStruct.bind (only_int) fun _ =>
    OnlyStruct.bind (only_unsigned_byte) fun _ =>
    OnlyStruct.bind (OnlyStruct.times only_byte _) fun _ =>
    OnlyStruct.bind (only_float) fun _ =>
    OnlyStruct.bind (only_float) fun _ =>
    OnlyStruct.bind (only_float) fun _ =>
    OnlyStruct.bind (only_float) fun _ =>
    OnlyStruct.bind (only_float) fun _ =>
    OnlyStruct.bind (only_float) fun _ =>
    OnlyStruct.bind (OnlyStruct.times only_byte _) fun _ =>
    OnlyStruct.bind (only_int) fun _ =>
    OnlyStruct.bind (OnlyStruct.times (VariableParameter.only _) _) fun _ =>
    OnlyStruct.pure _

theorem FastEntityStatePdu.sized (o : FastEntityStatePdu) : Sized (FastEntityStatePdu.serialize o) (FastEntityStatePdu.wireSize o) := by
  unfold FastEntityStatePdu.serialize
  refine Sized.of_eq (Sized.bind (EntityInformationFamilyPdu.sized o.toEntityInformationFamilyPdu) <|
    Sized.bind (sized_unsigned_short o.site) <|
    Sized.bind (sized_unsigned_short o.application) <|
    Sized.bind (sized_unsigned_short o.entity) <|
    Sized.bind (sized_unsigned_byte o.forceId) <|
    Sized.bind (sized_byte _) <|
    Sized.bind (sized_unsigned_byte o.entityKind) <|
    Sized.bind (sized_unsigned_byte o.domain) <|
    Sized.bind (sized_unsigned_short o.country) <|
    Sized.bind (sized_unsigned_byte o.category) <|
    Sized.bind (sized_unsigned_byte o.subcategory) <|
    Sized.bind (sized_unsigned_byte o.specific) <|
    Sized.bind (sized_unsigned_byte o.extra) <|
    Sized.bind (sized_unsigned_byte o.altEntityKind) <|
    Sized.bind (sized_unsigned_byte o.altDomain) <|
    Sized.bind (sized_unsigned_short o.altCountry) <|
    Sized.bind (sized_unsigned_byte o.altCategory) <|
    Sized.bind (sized_unsigned_byte o.altSubcategory) <|
    Sized.bind (sized_unsigned_byte o.altSpecific) <|
    Sized.bind (sized_unsigned_byte o.altExtra) <|
    Sized.bind (sized_float o.xVelocity) <|
    Sized.bind (sized_float o.yVelocity) <|
    Sized.bind (sized_float o.zVelocity) <|
    Sized.bind (sized_double o.xLocation) <|
    Sized.bind (sized_double o.yLocation) <|
    Sized.bind (sized_double o.zLocation) <|
    Sized.bind (sized_float o.psi) <|
    Sized.bind (sized_float o.theta) <|
    Sized.bind (sized_float o.phi) <|
    Sized.bind (sized_int o.entityAppearance) <|
    Sized.bind (sized_unsigned_byte o.deadReckoningAlgorithm) <|
    Sized.bind (sized_array sized_byte _ _ _) <|
    Sized.bind (sized_float o.xAcceleration) <|
    Sized.bind (sized_float o.yAcceleration) <|
    Sized.bind (sized_float o.zAcceleration) <|
    Sized.bind (sized_float o.xAngularVelocity) <|
    Sized.bind (sized_float o.yAngularVelocity) <|
    Sized.bind (sized_float o.zAngularVelocity) <|
    Sized.bind (sized_array sized_byte _ _ _) <|
    Sized.bind (sized_int o.capabilities) <|
    Sized.forEach_const VariableParameter.sized) ?_
  simp only [FastEntityStatePdu.wireSize, EntityInformationFamilyPdu.wireSize, Pdu.wireSize, PduSuperclass.wireSize]; try omega

theorem FastEntityStatePdu.ok_iff (o : FastEntityStatePdu) : (FastEntityStatePdu.serialize o).Ok ↔ FastEntityStatePdu.WireOk o := by
  unfold FastEntityStatePdu.serialize FastEntityStatePdu.WireOk
  exact ok_bind_iff (EntityInformationFamilyPdu.ok_iff o.toEntityInformationFamilyPdu) <|
    ok_bind_iff (ok_unsigned_short) <|
    ok_bind_iff (ok_unsigned_short) <|
    ok_bind_iff (ok_unsigned_short) <|
    ok_bind_iff (ok_unsigned_byte) <|
    ok_bind_iff (ok_byte) <|
    ok_bind_iff (ok_unsigned_byte) <|
    ok_bind_iff (ok_unsigned_byte) <|
    ok_bind_iff (ok_unsigned_short) <|
    ok_bind_iff (ok_unsigned_byte) <|
    ok_bind_iff (ok_unsigned_byte) <|
    ok_bind_iff (ok_unsigned_byte) <|
    ok_bind_iff (ok_unsigned_byte) <|
    ok_bind_iff (ok_unsigned_byte) <|
    ok_bind_iff (ok_unsigned_byte) <|
    ok_bind_iff (ok_unsigned_short) <|
    ok_bind_iff (ok_unsigned_byte) <|
    ok_bind_iff (ok_unsigned_byte) <|
    ok_bind_iff (ok_unsigned_byte) <|
    ok_bind_iff (ok_unsigned_byte) <|
    ok_bind_iff (ok_float) <|
    ok_bind_iff (ok_float) <|
    ok_bind_iff (ok_float) <|
    ok_bind_tl (ok_double) <|
    ok_bind_tl (ok_double) <|
    ok_bind_tl (ok_double) <|
    ok_bind_iff (ok_float) <|
    ok_bind_iff (ok_float) <|
    ok_bind_iff (ok_float) <|
    ok_bind_iff (ok_int) <|
    ok_bind_iff (ok_unsigned_byte) <|
    ok_bind_iff (ok_array (fun _ => ok_byte) _ 15 (by decide)) <|
    ok_bind_iff (ok_float) <|
    ok_bind_iff (ok_float) <|
    ok_bind_iff (ok_float) <|
    ok_bind_iff (ok_float) <|
    ok_bind_iff (ok_float) <|
    ok_bind_iff (ok_float) <|
    ok_bind_iff (ok_array (fun _ => ok_byte) _ 12 (by decide)) <|
    ok_bind_iff (ok_int) <|
    ok_list VariableParameter.ok_iff

theorem FastEntityStatePdu.after_canon {o : FastEntityStatePdu} (h : FastEntityStatePdu.Canon o) : FastEntityStatePdu.after FastEntityStatePdu.init o = o := by
  obtain ⟨h_numberOfVariableParameters, h_xVelocity, h_yVelocity, h_zVelocity, h_psi, h_theta, h_phi, h_otherParameters, h_xAcceleration, h_yAcceleration, h_zAcceleration, h_xAngularVelocity, h_yAngularVelocity, h_zAngularVelocity, h_marking⟩ := h
  cases o
  exact (FastEntityStatePdu.mk.injEq ..).mpr ⟨EntityInformationFamilyPdu.after_canon trivial,
    rfl,
    rfl,
    rfl,
    rfl,
    h_numberOfVariableParameters.symm,
    rfl,
    rfl,
    rfl,
    rfl,
    rfl,
    rfl,
    rfl,
    rfl,
    rfl,
    rfl,
    rfl,
    rfl,
    rfl,
    rfl,
    h_xVelocity,
    h_yVelocity,
    h_zVelocity,
    rfl,
    rfl,
    rfl,
    h_psi,
    h_theta,
    h_phi,
    rfl,
    rfl,
    List.take_of_length_le (Nat.le_of_eq h_otherParameters),
    h_xAcceleration,
    h_yAcceleration,
    h_zAcceleration,
    h_xAngularVelocity,
    h_yAngularVelocity,
    h_zAngularVelocity,
    List.take_of_length_le (Nat.le_of_eq h_marking),
    rfl,
    canon_list fun x hx => VariableParameter.after_canon trivial⟩

theorem FastEntityStatePdu.post : Post (FastEntityStatePdu.parse FastEntityStatePdu.init) (fun b o => FastEntityStatePdu.Live o → (FastEntityStatePdu.WireOk o ∧ FastEntityStatePdu.Canon o) ∧ (FastEntityStatePdu.NoNaN o → (FastEntityStatePdu.serialize o).Emits b)) := by
  unfold FastEntityStatePdu.parse
  refine Post.bind (EntityInformationFamilyPdu.post _) fun a0 b0 h0 => ?_
  refine Post.bind (post_unsigned_short) fun a1 b1 h1 => ?_
  refine Post.bind (post_unsigned_short) fun a2 b2 h2 => ?_
  refine Post.bind (post_unsigned_short) fun a3 b3 h3 => ?_
  refine Post.bind (post_unsigned_byte) fun a4 b4 h4 => ?_
  refine Post.bind (post_byte) fun a5 b5 h5 => ?_
  refine Post.bind (post_unsigned_byte) fun a6 b6 h6 => ?_
  refine Post.bind (post_unsigned_byte) fun a7 b7 h7 => ?_
  refine Post.bind (post_unsigned_short) fun a8 b8 h8 => ?_
  refine Post.bind (post_unsigned_byte) fun a9 b9 h9 => ?_
  refine Post.bind (post_unsigned_byte) fun a10 b10 h10 => ?_
  refine Post.bind (post_unsigned_byte) fun a11 b11 h11 => ?_
  refine Post.bind (post_unsigned_byte) fun a12 b12 h12 => ?_
  refine Post.bind (post_unsigned_byte) fun a13 b13 h13 => ?_
  refine Post.bind (post_unsigned_byte) fun a14 b14 h14 => ?_
  refine Post.bind (post_unsigned_short) fun a15 b15 h15 => ?_
  refine Post.bind (post_unsigned_byte) fun a16 b16 h16 => ?_
  refine Post.bind (post_unsigned_byte) fun a17 b17 h17 => ?_
  refine Post.bind (post_unsigned_byte) fun a18 b18 h18 => ?_
  refine Post.bind (post_unsigned_byte) fun a19 b19 h19 => ?_
  refine Post.bind (post_float) fun a20 b20 h20 => ?_
  refine Post.bind (post_float) fun a21 b21 h21 => ?_
  refine Post.bind (post_float) fun a22 b22 h22 => ?_
  refine Post.bind (post_double) fun a23 b23 h23 => ?_
  refine Post.bind (post_double) fun a24 b24 h24 => ?_
  refine Post.bind (post_double) fun a25 b25 h25 => ?_
  refine Post.bind (post_float) fun a26 b26 h26 => ?_
  refine Post.bind (post_float) fun a27 b27 h27 => ?_
  refine Post.bind (post_float) fun a28 b28 h28 => ?_
  refine Post.bind (post_int) fun a29 b29 h29 => ?_
  refine Post.bind (post_unsigned_byte) fun a30 b30 h30 => ?_
  refine Post.bind (Post.times_all post_byte _) fun a31 b31 h31 => ?_
  refine Post.bind (post_float) fun a32 b32 h32 => ?_
  refine Post.bind (post_float) fun a33 b33 h33 => ?_
  refine Post.bind (post_float) fun a34 b34 h34 => ?_
  refine Post.bind (post_float) fun a35 b35 h35 => ?_
  refine Post.bind (post_float) fun a36 b36 h36 => ?_
  refine Post.bind (post_float) fun a37 b37 h37 => ?_
  refine Post.bind (Post.times_all post_byte _) fun a38 b38 h38 => ?_
  refine Post.bind (post_int) fun a39 b39 h39 => ?_
  refine Post.last (Post.times VariableParameter.post _) fun a40 b40 h40 => ?_
  intro hlive
  have l0 := hlive
  obtain rfl : a5 = (a40.length : Int) := count_eq l0 (h40.1)
  refine ⟨⟨⟨h0.1.1, h1.1, h2.1, h3.1, h4.1, h5.1, h6.1, h7.1, h8.1, h9.1, h10.1, h11.1, h12.1, h13.1, h14.1, h15.1, h16.1, h17.1, h18.1, h19.1, h20.1.1, h21.1.1, h22.1.1, h26.1.1, h27.1.1, h28.1.1, h29.1, h30.1, ⟨Nat.le_of_eq h31.1.symm, fun x hx => h31.2.1 x (List.mem_of_mem_take hx)⟩, h32.1.1, h33.1.1, h34.1.1, h35.1.1, h36.1.1, h37.1.1, ⟨Nat.le_of_eq h38.1.symm, fun x hx => h38.2.1 x (List.mem_of_mem_take hx)⟩, h39.1, fun x hx => (h40.2.1 x hx).1⟩,
    ⟨rfl, h20.1.2, h21.1.2, h22.1.2, h26.1.2, h27.1.2, h28.1.2, h31.1, h32.1.2, h33.1.2, h34.1.2, h35.1.2, h36.1.2, h37.1.2, h38.1⟩⟩, fun hn => ?_⟩
  obtain ⟨n0, n1, n2, n3, n4, n5, n6, n7, n8, n9, n10, n11⟩ := hn
  exact W.Emits.bind (h0.2 trivial) <|
      W.Emits.bind (h1.2) <|
      W.Emits.bind (h2.2) <|
      W.Emits.bind (h3.2) <|
      W.Emits.bind (h4.2) <|
      W.Emits.bind (h5.2) <|
      W.Emits.bind (h6.2) <|
      W.Emits.bind (h7.2) <|
      W.Emits.bind (h8.2) <|
      W.Emits.bind (h9.2) <|
      W.Emits.bind (h10.2) <|
      W.Emits.bind (h11.2) <|
      W.Emits.bind (h12.2) <|
      W.Emits.bind (h13.2) <|
      W.Emits.bind (h14.2) <|
      W.Emits.bind (h15.2) <|
      W.Emits.bind (h16.2) <|
      W.Emits.bind (h17.2) <|
      W.Emits.bind (h18.2) <|
      W.Emits.bind (h19.2) <|
      W.Emits.bind (h20.2 n0) <|
      W.Emits.bind (h21.2 n1) <|
      W.Emits.bind (h22.2 n2) <|
      W.Emits.bind (h23) <|
      W.Emits.bind (h24) <|
      W.Emits.bind (h25) <|
      W.Emits.bind (h26.2 n3) <|
      W.Emits.bind (h27.2 n4) <|
      W.Emits.bind (h28.2 n5) <|
      W.Emits.bind (h29.2) <|
      W.Emits.bind (h30.2) <|
      W.Emits.bind (emits_array h31.1 h31.2.2) <|
      W.Emits.bind (h32.2 n6) <|
      W.Emits.bind (h33.2 n7) <|
      W.Emits.bind (h34.2 n8) <|
      W.Emits.bind (h35.2 n9) <|
      W.Emits.bind (h36.2 n10) <|
      W.Emits.bind (h37.2 n11) <|
      W.Emits.bind (emits_array h38.1 h38.2.2) <|
      W.Emits.bind (h39.2) <|
      h40.2.2 (fun _ _ => trivial)

theorem AcknowledgeReliablePdu.rt (s o : AcknowledgeReliablePdu) : RT (AcknowledgeReliablePdu.serialize o) (AcknowledgeReliablePdu.parse s) (AcknowledgeReliablePdu.after s o) := by
  unfold AcknowledgeReliablePdu.serialize AcknowledgeReliablePdu.parse
  exact RT.bind (SimulationManagementWithReliabilityFamilyPdu.rt s.toSimulationManagementWithReliabilityFamilyPdu o.toSimulationManagementWithReliabilityFamilyPdu) <|
    RT.bind (rt_unsigned_short o.acknowledgeFlag) <|
    RT.bind (rt_unsigned_short o.responseFlag) <|
    RT.last (rt_unsigned_int o.requestID)

theorem AcknowledgeReliablePdu.loc (s : AcknowledgeReliablePdu) : Local (AcknowledgeReliablePdu.parse s) := by
  unfold AcknowledgeReliablePdu.parse
  exact Local.bind (SimulationManagementWithReliabilityFamilyPdu.loc _) fun _ =>
    Local.bind (loc_unsigned_short) fun _ =>
    Local.bind (loc_unsigned_short) fun _ =>
    Local.bind (loc_unsigned_int) fun _ =>
    Local.pure _

theorem AcknowledgeReliablePdu.only (s : AcknowledgeReliablePdu) : OnlyStruct (AcknowledgeReliablePdu.parse s) := by
  unfold AcknowledgeReliablePdu.parse
  exact OnlyStruct.bind (SimulationManagementWithReliabilityFamilyPdu.only _) fun _ =>
    OnlyStruct.bind (only_unsigned_short) fun _ =>
    OnlyStruct.bind (only_unsigned_short) fun _ =>
    OnlyStruct.bind (only_unsigned_int) fun _ =>
    OnlyStruct.pure _

theorem AcknowledgeReliablePdu.sized (o : AcknowledgeReliablePdu) : Sized (AcknowledgeReliablePdu.serialize o) (AcknowledgeReliablePdu.wireSize o) := by
  unfold AcknowledgeReliablePdu.serialize
  refine Sized.of_eq (Sized.bind (SimulationManagementWithReliabilityFamilyPdu.sized o.toSimulationManagementWithReliabilityFamilyPdu) <|
    Sized.bind (sized_unsigned_short o.acknowledgeFlag) <|
    Sized.bind (sized_unsigned_short o.responseFlag) <|
    sized_unsigned_int o.requestID) ?_
  simp only [AcknowledgeReliablePdu.wireSize, SimulationManagementWithReliabilityFamilyPdu.wireSize, Pdu.wireSize, PduSuperclass.wireSize, EntityIdentifier.wireSize, SimulationAddress.wireSize]; try omega

theorem AcknowledgeReliablePdu.ok_iff (o : AcknowledgeReliablePdu) : (AcknowledgeReliablePdu.serialize o).Ok ↔ AcknowledgeReliablePdu.WireOk o := by
  unfold AcknowledgeReliablePdu.serialize AcknowledgeReliablePdu.WireOk
  exact ok_bind_iff (SimulationManagementWithReliabilityFamilyPdu.ok_iff o.toSimulationManagementWithReliabilityFamilyPdu) <|
    ok_bind_iff (ok_unsigned_short) <|
    ok_bind_iff (ok_unsigned_short) <|
    ok_unsigned_int

theorem AcknowledgeReliablePdu.after_canon {o : AcknowledgeReliablePdu} (h : AcknowledgeReliablePdu.Canon o) : AcknowledgeReliablePdu.after AcknowledgeReliablePdu.init o = o := by
  cases o
  exact (AcknowledgeReliablePdu.mk.injEq ..).mpr ⟨SimulationManagementWithReliabilityFamilyPdu.after_canon trivial,
    rfl,
    rfl,
    rfl⟩

theorem AcknowledgeReliablePdu.post : Post (AcknowledgeReliablePdu.parse AcknowledgeReliablePdu.init) (fun b o => (AcknowledgeReliablePdu.WireOk o ∧ AcknowledgeReliablePdu.Canon o) ∧ (AcknowledgeReliablePdu.NoNaN o → (AcknowledgeReliablePdu.serialize o).Emits b)) := by
  unfold AcknowledgeReliablePdu.parse
  refine Post.bind (SimulationManagementWithReliabilityFamilyPdu.post _) fun a0 b0 h0 => ?_
  refine Post.bind (post_unsigned_short) fun a1 b1 h1 => ?_
  refine Post.bind (post_unsigned_short) fun a2 b2 h2 => ?_
  refine Post.last (post_unsigned_int) fun a3 b3 h3 => ?_
  refine ⟨⟨⟨h0.1.1, h1.1, h2.1, h3.1⟩,
    trivial⟩, fun _ => ?_⟩
  exact W.Emits.bind (h0.2 trivial) <|
      W.Emits.bind (h1.2) <|
      W.Emits.bind (h2.2) <|
      h3.2

theorem StartResumeReliablePdu.rt (s o : StartResumeReliablePdu) : RT (StartResumeReliablePdu.serialize o) (StartResumeReliablePdu.parse s) (StartResumeReliablePdu.after s o) := by
  unfold StartResumeReliablePdu.serialize StartResumeReliablePdu.parse
  exact RT.bind (SimulationManagementWithReliabilityFamilyPdu.rt s.toSimulationManagementWithReliabilityFamilyPdu o.toSimulationManagementWithReliabilityFamilyPdu) <|
    RT.bind (ClockTime.rt s.realWorldTime o.realWorldTime) <|
    RT.bind (ClockTime.rt s.simulationTime o.simulationTime) <|
    RT.bind (rt_unsigned_byte o.requiredReliabilityService) <|
    RT.bind (rt_unsigned_short o.pad1) <|
    RT.bind (rt_unsigned_byte o.pad2) <|
    RT.last (rt_unsigned_int o.requestID)

theorem StartResumeReliablePdu.loc (s : StartResumeReliablePdu) : Local (StartResumeReliablePdu.parse s) := by
  unfold StartResumeReliablePdu.parse
  exact Local.bind (SimulationManagementWithReliabilityFamilyPdu.loc _) fun _ =>
    Local.bind (ClockTime.loc _) fun _ =>
    Local.bind (ClockTime.loc _) fun _ =>
    Local.bind (loc_unsigned_byte) fun _ =>
    Local.bind (loc_unsigned_short) fun _ =>
    Local.bind (loc_unsigned_byte) fun _ =>
    Local.bind (loc_unsigned_int) fun _ =>
    Local.pure _

theorem StartResumeReliablePdu.only (s : StartResumeReliablePdu) : OnlyStruct (StartResumeReliablePdu.parse s) := by
  unfold StartResumeReliablePdu.parse
  exact OnlyStruct.bind (SimulationManagementWithReliabilityFamilyPdu.only _) fun _ =>
    OnlyStruct.bind (ClockTime.only _) fun _ =>
    OnlyStruct.bind (ClockTime.only _) fun _ =>
    OnlyStruct.bind (only_unsigned_byte) fun _ =>
    OnlyStruct.bind (only_unsigned_short) fun _ =>
    OnlyStruct.bind (only_unsigned_byte) fun _ =>
    OnlyStruct.bind (only_unsigned_int) fun _ =>
    OnlyStruct.pure _

theorem StartResumeReliablePdu.sized (o : StartResumeReliablePdu) : Sized (StartResumeReliablePdu.serialize o) (StartResumeReliablePdu.wireSize o) := by
  unfold StartResumeReliablePdu.serialize
  refine Sized.of_eq (Sized.bind (SimulationManagementWithReliabilityFamilyPdu.sized o.toSimulationManagementWithReliabilityFamilyPdu) <|
    Sized.bind (ClockTime.sized o.realWorldTime) <|
    Sized.bind (ClockTime.sized o.simulationTime) <|
    Sized.bind (sized_unsigned_byte o.requiredReliabilityService) <|
    Sized.bind (sized_unsigned_short o.pad1) <|
    Sized.bind (sized_unsigned_byte o.pad2) <|
    sized_unsigned_int o.requestID) ?_
  simp only [StartResumeReliablePdu.wireSize, SimulationManagementWithReliabilityFamilyPdu.wireSize, Pdu.wireSize, PduSuperclass.wireSize, EntityIdentifier.wireSize, SimulationAddress.wireSize, ClockTime.wireSize]; try omega

theorem StartResumeReliablePdu.ok_iff (o : StartResumeReliablePdu) : (StartResumeReliablePdu.serialize o).Ok ↔ StartResumeReliablePdu.WireOk o := by
  unfold StartResumeReliablePdu.serialize StartResumeReliablePdu.WireOk
  exact ok_bind_iff (SimulationManagementWithReliabilityFamilyPdu.ok_iff o.toSimulationManagementWithReliabilityFamilyPdu) <|
    ok_bind_iff (ClockTime.ok_iff o.realWorldTime) <|
    ok_bind_iff (ClockTime.ok_iff o.simulationTime) <|
    ok_bind_iff (ok_unsigned_byte) <|
    ok_bind_iff (ok_unsigned_short) <|
    ok_bind_iff (ok_unsigned_byte) <|
    ok_unsigned_int

theorem StartResumeReliablePdu.after_canon {o : StartResumeReliablePdu} (h : StartResumeReliablePdu.Canon o) : StartResumeReliablePdu.after StartResumeReliablePdu.init o = o := by
  cases o
  exact (StartResumeReliablePdu.mk.injEq ..).mpr ⟨SimulationManagementWithReliabilityFamilyPdu.after_canon trivial,
    ClockTime.after_canon trivial,
    ClockTime.after_canon trivial,
    rfl,
    rfl,
    rfl,
    rfl⟩

theorem StartResumeReliablePdu.post : Post (StartResumeReliablePdu.parse StartResumeReliablePdu.init) (fun b o => (StartResumeReliablePdu.WireOk o ∧ StartResumeReliablePdu.Canon o) ∧ (StartResumeReliablePdu.NoNaN o → (StartResumeReliablePdu.serialize o).Emits b)) := by
  unfold StartResumeReliablePdu.parse
  refine Post.bind (SimulationManagementWithReliabilityFamilyPdu.post _) fun a0 b0 h0 => ?_
  refine Post.bind (ClockTime.post) fun a1 b1 h1 => ?_
  refine Post.bind (ClockTime.post) fun a2 b2 h2 => ?_
  refine Post.bind (post_unsigned_byte) fun a3 b3 h3 => ?_
  refine Post.bind (post_unsigned_short) fun a4 b4 h4 => ?_
  refine Post.bind (post_unsigned_byte) fun a5 b5 h5 => ?_
  refine Post.last (post_unsigned_int) fun a6 b6 h6 => ?_
  refine ⟨⟨⟨h0.1.1, h1.1.1, h2.1.1, h3.1, h4.1, h5.1, h6.1⟩,
    trivial⟩, fun _ => ?_⟩
  exact W.Emits.bind (h0.2 trivial) <|
      W.Emits.bind (h1.2 trivial) <|
      W.Emits.bind (h2.2 trivial) <|
      W.Emits.bind (h3.2) <|
      W.Emits.bind (h4.2) <|
      W.Emits.bind (h5.2) <|
      h6.2

theorem ArealObjectStatePdu.rt (s o : ArealObjectStatePdu) : RT (ArealObjectStatePdu.serialize o) (ArealObjectStatePdu.parse s) (ArealObjectStatePdu.after s o) := by
  unfold ArealObjectStatePdu.serialize ArealObjectStatePdu.parse
  exact RT.bind (SyntheticEnvironmentFamilyPdu.rt s.toSyntheticEnvironmentFamilyPdu o.toSyntheticEnvironmentFamilyPdu) <|
    RT.bind (EntityIdentifier.rt s.objectID o.objectID) <|
    RT.bind (EntityIdentifier.rt s.referencedObjectID o.referencedObjectID) <|
    RT.bind (rt_unsigned_short o.updateNumber) <|
    RT.bind (rt_unsigned_byte o.forceID) <|
    RT.bind (rt_unsigned_byte o.modifications) <|
    RT.bind (ObjectType.rt s.objectType o.objectType) <|
    RT.bind (rt_unsigned_int o.specificObjectAppearance) <|
    RT.bind (rt_unsigned_short o.generalObjectAppearance) <|
    RT.bind (rt_unsigned_short ((o.objectLocation.length : Int))) <|
    RT.bind (SimulationAddress.rt s.requesterID o.requesterID) <|
    RT.bind (SimulationAddress.rt s.receivingID o.receivingID) <|
    RT.last (rt_list fun x _ => WorldCoordinates.rt _ x)

theorem ArealObjectStatePdu.loc (s : ArealObjectStatePdu) : Local (ArealObjectStatePdu.parse s) := by
  unfold ArealObjectStatePdu.parse
  exact Local.bind (SyntheticEnvironmentFamilyPdu.loc _) fun _ =>
    Local.bind (EntityIdentifier.loc _) fun _ =>
    Local.bind (EntityIdentifier.loc _) fun _ =>
    Local.bind (loc_unsigned_short) fun _ =>
    Local.bind (loc_unsigned_byte) fun _ =>
    Local.bind (loc_unsigned_byte) fun _ =>
    Local.bind (ObjectType.loc _) fun _ =>
    Local.bind (loc_unsigned_int) fun _ =>
    Local.bind (loc_unsigned_short) fun _ =>
    Local.bind (loc_unsigned_short) fun _ =>
    Local.bind (SimulationAddress.loc _) fun _ =>
    Local.bind (SimulationAddress.loc _) fun _ =>
    Local.bind (Local.times (WorldCoordinates.loc _) _) fun _ =>
    Local.pure _

theorem ArealObjectStatePdu.only (s : ArealObjectStatePdu) : OnlyStruct (ArealObjectStatePdu.parse s) := by
  unfold ArealObjectStatePdu.parse
  exact OnlyStruct.bind (SyntheticEnvironmentFamilyPdu.only _) fun _ =>
    OnlyStruct.bind (EntityIdentifier.only _) fun _ =>
    OnlyStruct.bind (EntityIdentifier.only _) fun _ =>
    OnlyStruct.bind (only_unsigned_short) fun _ =>
    OnlyStruct.bind (only_unsigned_byte) fun _ =>
    OnlyStruct.bind (only_unsigned_byte) fun _ =>
    OnlyStruct.bind (ObjectType.only _) fun _ =>
    OnlyStruct.bind (only_unsigned_int) fun _ =>
    OnlyStruct.bind (only_unsigned_short) fun _ =>
    OnlyStruct.bind (only_unsigned_short) fun _ =>
    OnlyStruct.bind (SimulationAddress.only _) fun _ =>
    OnlyStruct.bind (SimulationAddress.only _) fun _ =>
    OnlyStruct.bind (OnlyStruct.times (WorldCoordinates.only _) _) fun _ =>
    OnlyStruct.pure _

theorem ArealObjectStatePdu.sized (o : ArealObjectStatePdu) : Sized (ArealObjectStatePdu.serialize o) (ArealObjectStatePdu.wireSize o) := by
  unfold ArealObjectStatePdu.serialize
  refine Sized.of_eq (Sized.bind (SyntheticEnvironmentFamilyPdu.sized o.toSyntheticEnvironmentFamilyPdu) <|
    Sized.bind (EntityIdentifier.sized o.objectID) <|
    Sized.bind (EntityIdentifier.sized o.referencedObjectID) <|
    Sized.bind (sized_unsigned_short o.updateNumber) <|
    Sized.bind (sized_unsigned_byte o.forceID) <|
    Sized.bind (sized_unsigned_byte o.modifications) <|
    Sized.bind (ObjectType.sized o.objectType) <|
    Sized.bind (sized_unsigned_int o.specificObjectAppearance) <|
    Sized.bind (sized_unsigned_short o.generalObjectAppearance) <|
    Sized.bind (sized_unsigned_short _) <|
    Sized.bind (SimulationAddress.sized o.requesterID) <|
    Sized.bind (SimulationAddress.sized o.receivingID) <|
    Sized.forEach_const WorldCoordinates.sized) ?_
  simp only [ArealObjectStatePdu.wireSize, SyntheticEnvironmentFamilyPdu.wireSize, Pdu.wireSize, PduSuperclass.wireSize, EntityIdentifier.wireSize, SimulationAddress.wireSize, ObjectType.wireSize]; try omega

theorem ArealObjectStatePdu.ok_iff (o : ArealObjectStatePdu) : (ArealObjectStatePdu.serialize o).Ok ↔ ArealObjectStatePdu.WireOk o := by
  unfold ArealObjectStatePdu.serialize ArealObjectStatePdu.WireOk
  exact ok_bind_iff (SyntheticEnvironmentFamilyPdu.ok_iff o.toSyntheticEnvironmentFamilyPdu) <|
    ok_bind_iff (EntityIdentifier.ok_iff o.objectID) <|
    ok_bind_iff (EntityIdentifier.ok_iff o.referencedObjectID) <|
    ok_bind_iff (ok_unsigned_short) <|
    ok_bind_iff (ok_unsigned_byte) <|
    ok_bind_iff (ok_unsigned_byte) <|
    ok_bind_iff (ObjectType.ok_iff o.objectType) <|
    ok_bind_iff (ok_unsigned_int) <|
    ok_bind_iff (ok_unsigned_short) <|
    ok_bind_iff (ok_unsigned_short) <|
    ok_bind_iff (SimulationAddress.ok_iff o.requesterID) <|
    ok_bind_tr (SimulationAddress.ok_iff o.receivingID) <|
    ok_list_true WorldCoordinates.ok_iff

theorem ArealObjectStatePdu.after_canon {o : ArealObjectStatePdu} (h : ArealObjectStatePdu.Canon o) : ArealObjectStatePdu.after ArealObjectStatePdu.init o = o := by
  cases o
  exact (ArealObjectStatePdu.mk.injEq ..).mpr ⟨SyntheticEnvironmentFamilyPdu.after_canon trivial,
    EntityIdentifier.after_canon trivial,
    EntityIdentifier.after_canon trivial,
    rfl,
    rfl,
    rfl,
    ObjectType.after_canon trivial,
    rfl,
    rfl,
    SimulationAddress.after_canon trivial,
    SimulationAddress.after_canon trivial,
    canon_list fun x hx => WorldCoordinates.after_canon trivial⟩

theorem ArealObjectStatePdu.post : Post (ArealObjectStatePdu.parse ArealObjectStatePdu.init) (fun b o => (ArealObjectStatePdu.WireOk o ∧ ArealObjectStatePdu.Canon o) ∧ (ArealObjectStatePdu.NoNaN o → (ArealObjectStatePdu.serialize o).Emits b)) := by
  unfold ArealObjectStatePdu.parse
  refine Post.bind (SyntheticEnvironmentFamilyPdu.post _) fun a0 b0 h0 => ?_
  refine Post.bind (EntityIdentifier.post) fun a1 b1 h1 => ?_
  refine Post.bind (EntityIdentifier.post) fun a2 b2 h2 => ?_
  refine Post.bind (post_unsigned_short) fun a3 b3 h3 => ?_
  refine Post.bind (post_unsigned_byte) fun a4 b4 h4 => ?_
  refine Post.bind (post_unsigned_byte) fun a5 b5 h5 => ?_
  refine Post.bind (ObjectType.post) fun a6 b6 h6 => ?_
  refine Post.bind (post_unsigned_int) fun a7 b7 h7 => ?_
  refine Post.bind (post_unsigned_short) fun a8 b8 h8 => ?_
  refine Post.bind (post_unsigned_short) fun a9 b9 h9 => ?_
  refine Post.bind (SimulationAddress.post) fun a10 b10 h10 => ?_
  refine Post.bind (SimulationAddress.post) fun a11 b11 h11 => ?_
  refine Post.last (Post.times WorldCoordinates.post _) fun a12 b12 h12 => ?_
  obtain rfl : a9 = (a12.length : Int) := count_eq h9.1.1 h12.1
  refine ⟨⟨⟨h0.1.1, h1.1.1, h2.1.1, h3.1, h4.1, h5.1, h6.1.1, h7.1, h8.1, h9.1, h10.1.1, h11.1.1⟩,
    trivial⟩, fun _ => ?_⟩
  exact W.Emits.bind (h0.2 trivial) <|
      W.Emits.bind (h1.2 trivial) <|
      W.Emits.bind (h2.2 trivial) <|
      W.Emits.bind (h3.2) <|
      W.Emits.bind (h4.2) <|
      W.Emits.bind (h5.2) <|
      W.Emits.bind (h6.2 trivial) <|
      W.Emits.bind (h7.2) <|
      W.Emits.bind (h8.2) <|
      W.Emits.bind (h9.2) <|
      W.Emits.bind (h10.2 trivial) <|
      W.Emits.bind (h11.2 trivial) <|
      h12.2.2 (fun _ _ => trivial)

theorem DataQueryReliablePdu.rt (s o : DataQueryReliablePdu) : RT (DataQueryReliablePdu.serialize o) (DataQueryReliablePdu.parse s) (DataQueryReliablePdu.after s o) := by
  unfold DataQueryReliablePdu.serialize DataQueryReliablePdu.parse
  exact RT.bind (SimulationManagementWithReliabilityFamilyPdu.rt s.toSimulationManagementWithReliabilityFamilyPdu o.toSimulationManagementWithReliabilityFamilyPdu) <|
    RT.bind (rt_unsigned_byte o.requiredReliabilityService) <|
    RT.bind (rt_unsigned_short o.pad1) <|
    RT.bind (rt_unsigned_byte o.pad2) <|
    RT.bind (rt_unsigned_int o.requestID) <|
    RT.bind (rt_unsigned_int o.timeInterval) <|
    RT.last (DataQueryDatumSpecification.rt s._dataQuery o._dataQuery)

theorem DataQueryReliablePdu.loc (s : DataQueryReliablePdu) : Local (DataQueryReliablePdu.parse s) := by
  unfold DataQueryReliablePdu.parse
  exact Local.bind (SimulationManagementWithReliabilityFamilyPdu.loc _) fun _ =>
    Local.bind (loc_unsigned_byte) fun _ =>
    Local.bind (loc_unsigned_short) fun _ =>
    Local.bind (loc_unsigned_byte) fun _ =>
    Local.bind (loc_unsigned_int) fun _ =>
    Local.bind (loc_unsigned_int) fun _ =>
    Local.bind (DataQueryDatumSpecification.loc _) fun _ =>
    Local.pure _

theorem DataQueryReliablePdu.only (s : DataQueryReliablePdu) : OnlyStruct (DataQueryReliablePdu.parse s) := by
  unfold DataQueryReliablePdu.parse
  exact OnlyStruct.bind (SimulationManagementWithReliabilityFamilyPdu.only _) fun _ =>
    OnlyStruct.bind (only_unsigned_byte) fun _ =>
    OnlyStruct.bind (only_unsigned_short) fun _ =>
    OnlyStruct.bind (only_unsigned_byte) fun _ =>
    OnlyStruct.bind (only_unsigned_int) fun _ =>
    OnlyStruct.bind (only_unsigned_int) fun _ =>
    OnlyStruct.bind (DataQueryDatumSpecification.only _) fun _ =>
    OnlyStruct.pure _

theorem DataQueryReliablePdu.sized (o : DataQueryReliablePdu) : Sized (DataQueryReliablePdu.serialize o) (DataQueryReliablePdu.wireSize o) := by
  unfold DataQueryReliablePdu.serialize
  refine Sized.of_eq (Sized.bind (SimulationManagementWithReliabilityFamilyPdu.sized o.toSimulationManagementWithReliabilityFamilyPdu) <|
    Sized.bind (sized_unsigned_byte o.requiredReliabilityService) <|
    Sized.bind (sized_unsigned_short o.pad1) <|
    Sized.bind (sized_unsigned_byte o.pad2) <|
    Sized.bind (sized_unsigned_int o.requestID) <|
    Sized.bind (sized_unsigned_int o.timeInterval) <|
    DataQueryDatumSpecification.sized o._dataQuery) ?_
  simp only [DataQueryReliablePdu.wireSize, SimulationManagementWithReliabilityFamilyPdu.wireSize, Pdu.wireSize, PduSuperclass.wireSize, EntityIdentifier.wireSize, SimulationAddress.wireSize, DataQueryDatumSpecification.wireSize]; try omega

theorem DataQueryReliablePdu.ok_iff (o : DataQueryReliablePdu) : (DataQueryReliablePdu.serialize o).Ok ↔ DataQueryReliablePdu.WireOk o := by
  unfold DataQueryReliablePdu.serialize DataQueryReliablePdu.WireOk
  exact ok_bind_iff (SimulationManagementWithReliabilityFamilyPdu.ok_iff o.toSimulationManagementWithReliabilityFamilyPdu) <|
    ok_bind_iff (ok_unsigned_byte) <|
    ok_bind_iff (ok_unsigned_short) <|
    ok_bind_iff (ok_unsigned_byte) <|
    ok_bind_iff (ok_unsigned_int) <|
    ok_bind_iff (ok_unsigned_int) <|
    DataQueryDatumSpecification.ok_iff o._dataQuery

theorem DataQueryReliablePdu.after_canon {o : DataQueryReliablePdu} (h : DataQueryReliablePdu.Canon o) : DataQueryReliablePdu.after DataQueryReliablePdu.init o = o := by
  cases o
  exact (DataQueryReliablePdu.mk.injEq ..).mpr ⟨SimulationManagementWithReliabilityFamilyPdu.after_canon trivial,
    rfl,
    rfl,
    rfl,
    rfl,
    rfl,
    DataQueryDatumSpecification.after_canon trivial⟩

theorem DataQueryReliablePdu.post : Post (DataQueryReliablePdu.parse DataQueryReliablePdu.init) (fun b o => (DataQueryReliablePdu.WireOk o ∧ DataQueryReliablePdu.Canon o) ∧ (DataQueryReliablePdu.NoNaN o → (DataQueryReliablePdu.serialize o).Emits b)) := by
  unfold DataQueryReliablePdu.parse
  refine Post.bind (SimulationManagementWithReliabilityFamilyPdu.post _) fun a0 b0 h0 => ?_
  refine Post.bind (post_unsigned_byte) fun a1 b1 h1 => ?_
  refine Post.bind (post_unsigned_short) fun a2 b2 h2 => ?_
  refine Post.bind (post_unsigned_byte) fun a3 b3 h3 => ?_
  refine Post.bind (post_unsigned_int) fun a4 b4 h4 => ?_
  refine Post.bind (post_unsigned_int) fun a5 b5 h5 => ?_
  refine Post.last (DataQueryDatumSpecification.post) fun a6 b6 h6 => ?_
  refine ⟨⟨⟨h0.1.1, h1.1, h2.1, h3.1, h4.1, h5.1, h6.1.1⟩,
    trivial⟩, fun _ => ?_⟩
  exact W.Emits.bind (h0.2 trivial) <|
      W.Emits.bind (h1.2) <|
      W.Emits.bind (h2.2) <|
      W.Emits.bind (h3.2) <|
      W.Emits.bind (h4.2) <|
      W.Emits.bind (h5.2) <|
      h6.2 trivial

theorem MinefieldStatePdu.rt (s o : MinefieldStatePdu) : RT (MinefieldStatePdu.serialize o) (MinefieldStatePdu.parse s) (MinefieldStatePdu.after s o) := by
  unfold MinefieldStatePdu.serialize MinefieldStatePdu.parse
  exact RT.bind (MinefieldFamilyPdu.rt s.toMinefieldFamilyPdu o.toMinefieldFamilyPdu) <|
    RT.bind (MinefieldIdentifier.rt s.minefieldID o.minefieldID) <|
    RT.bind (rt_unsigned_short o.minefieldSequence) <|
    RT.bind (rt_unsigned_byte o.forceID) <|
    RT.bind (rt_unsigned_byte ((o.perimeterPoints.length : Int))) <|
    RT.bind (EntityType.rt s.minefieldType o.minefieldType) <|
    RT.bind (rt_unsigned_short ((o.mineTypes.length : Int))) <|
    RT.bind (WorldCoordinates.rt s.minefieldLocation o.minefieldLocation) <|
    RT.bind (EulerAngles.rt s.minefieldOrientation o.minefieldOrientation) <|
    RT.bind (rt_unsigned_short o.appearance) <|
    RT.bind (rt_unsigned_short o.protocolMode) <|
    RT.bind (rt_list fun x _ => Vector2Float.rt _ x) <|
    RT.last (rt_list fun x _ => EntityType.rt _ x)

theorem MinefieldStatePdu.loc (s : MinefieldStatePdu) : Local (MinefieldStatePdu.parse s) := by
  unfold MinefieldStatePdu.parse
  exact Local.bind (MinefieldFamilyPdu.loc _) fun _ =>
    Local.bind (MinefieldIdentifier.loc _) fun _ =>
    Local.bind (loc_unsigned_short) fun _ =>
    Local.bind (loc_unsigned_byte) fun _ =>
    Local.bind (loc_unsigned_byte) fun _ =>
    Local.bind (EntityType.loc _) fun _ =>
    Local.bind (loc_unsigned_short) fun _ =>
    Local.bind (WorldCoordinates.loc _) fun _ =>
    Local.bind (EulerAngles.loc _) fun _ =>
    Local.bind (loc_unsigned_short) fun _ =>
    Local.bind (loc_unsigned_short) fun _ =>
    Local.bind (Local.times (Vector2Float.loc _) _) fun _ =>
    Local.bind (Local.times (EntityType.loc _) _) fun _ =>
    Local.pure _

theorem MinefieldStatePdu.only (s : MinefieldStatePdu) : OnlyStruct (MinefieldStatePdu.parse s) := by
  unfold MinefieldStatePdu.parse
  exact OnlyStruct.bind (MinefieldFamilyPdu.only _) fun _ =>
    OnlyStruct.bind (MinefieldIdentifier.only _) fun _ =>
    OnlyStruct.bind (only_unsigned_short) fun _ =>
    OnlyStruct.bind (only_unsigned_byte) fun _ =>
    OnlyStruct.bind (only_unsigned_byte) fun _ =>
    OnlyStruct.bind (EntityType.only _) fun _ =>
    OnlyStruct.bind (only_unsigned_short) fun _ =>
    OnlyStruct.bind (WorldCoordinates.only _) fun _ =>
    OnlyStruct.bind (EulerAngles.only _) fun _ =>
    OnlyStruct.bind (only_unsigned_short) fun _ =>
    OnlyStruct.bind (only_unsigned_short) fun _ =>
    OnlyStruct.bind (OnlyStruct.times (Vector2Float.only _) _) fun _ =>
    OnlyStruct.bind (OnlyStruct.times (EntityType.only _) _) fun _ =>
    OnlyStruct.pure _

theorem MinefieldStatePdu.sized (o : MinefieldStatePdu) : Sized (MinefieldStatePdu.serialize o) (MinefieldStatePdu.wireSize o) := by
  unfold MinefieldStatePdu.serialize
  refine Sized.of_eq (Sized.bind (MinefieldFamilyPdu.sized o.toMinefieldFamilyPdu) <|
    Sized.bind (MinefieldIdentifier.sized o.minefieldID) <|
    Sized.bind (sized_unsigned_short o.minefieldSequence) <|
    Sized.bind (sized_unsigned_byte o.forceID) <|
    Sized.bind (sized_unsigned_byte _) <|
    Sized.bind (EntityType.sized o.minefieldType) <|
    Sized.bind (sized_unsigned_short _) <|
    Sized.bind (WorldCoordinates.sized o.minefieldLocation) <|
    Sized.bind (EulerAngles.sized o.minefieldOrientation) <|
    Sized.bind (sized_unsigned_short o.appearance) <|
    Sized.bind (sized_unsigned_short o.protocolMode) <|
    Sized.bind (Sized.forEach_const Vector2Float.sized) <|
    Sized.forEach_const EntityType.sized) ?_
  simp only [MinefieldStatePdu.wireSize, MinefieldFamilyPdu.wireSize, Pdu.wireSize, PduSuperclass.wireSize, MinefieldIdentifier.wireSize, SimulationAddress.wireSize, EntityType.wireSize, WorldCoordinates.wireSize, EulerAngles.wireSize]; try omega

theorem MinefieldStatePdu.ok_iff (o : MinefieldStatePdu) : (MinefieldStatePdu.serialize o).Ok ↔ MinefieldStatePdu.WireOk o := by
  unfold MinefieldStatePdu.serialize MinefieldStatePdu.WireOk
  exact ok_bind_iff (MinefieldFamilyPdu.ok_iff o.toMinefieldFamilyPdu) <|
    ok_bind_iff (MinefieldIdentifier.ok_iff o.minefieldID) <|
    ok_bind_iff (ok_unsigned_short) <|
    ok_bind_iff (ok_unsigned_byte) <|
    ok_bind_iff (ok_unsigned_byte) <|
    ok_bind_iff (EntityType.ok_iff o.minefieldType) <|
    ok_bind_iff (ok_unsigned_short) <|
    ok_bind_tl (WorldCoordinates.ok_iff o.minefieldLocation) <|
    ok_bind_iff (EulerAngles.ok_iff o.minefieldOrientation) <|
    ok_bind_iff (ok_unsigned_short) <|
    ok_bind_iff (ok_unsigned_short) <|
    ok_bind_iff (ok_list Vector2Float.ok_iff) <|
    ok_list EntityType.ok_iff

theorem MinefieldStatePdu.after_canon {o : MinefieldStatePdu} (h : MinefieldStatePdu.Canon o) : MinefieldStatePdu.after MinefieldStatePdu.init o = o := by
  obtain ⟨h_minefieldOrientation, h_perimeterPoints⟩ := h
  cases o
  exact (MinefieldStatePdu.mk.injEq ..).mpr ⟨MinefieldFamilyPdu.after_canon trivial,
    MinefieldIdentifier.after_canon trivial,
    rfl,
    rfl,
    EntityType.after_canon trivial,
    WorldCoordinates.after_canon trivial,
    EulerAngles.after_canon h_minefieldOrientation,
    rfl,
    rfl,
    canon_list fun x hx => Vector2Float.after_canon (h_perimeterPoints x hx),
    canon_list fun x hx => EntityType.after_canon trivial⟩

theorem MinefieldStatePdu.post : Post (MinefieldStatePdu.parse MinefieldStatePdu.init) (fun b o => (MinefieldStatePdu.WireOk o ∧ MinefieldStatePdu.Canon o) ∧ (MinefieldStatePdu.NoNaN o → (MinefieldStatePdu.serialize o).Emits b)) := by
  unfold MinefieldStatePdu.parse
  refine Post.bind (MinefieldFamilyPdu.post _) fun a0 b0 h0 => ?_
  refine Post.bind (MinefieldIdentifier.post) fun a1 b1 h1 => ?_
  refine Post.bind (post_unsigned_short) fun a2 b2 h2 => ?_
  refine Post.bind (post_unsigned_byte) fun a3 b3 h3 => ?_
  refine Post.bind (post_unsigned_byte) fun a4 b4 h4 => ?_
  refine Post.bind (EntityType.post) fun a5 b5 h5 => ?_
  refine Post.bind (post_unsigned_short) fun a6 b6 h6 => ?_
  refine Post.bind (WorldCoordinates.post) fun a7 b7 h7 => ?_
  refine Post.bind (EulerAngles.post) fun a8 b8 h8 => ?_
  refine Post.bind (post_unsigned_short) fun a9 b9 h9 => ?_
  refine Post.bind (post_unsigned_short) fun a10 b10 h10 => ?_
  refine Post.bind (Post.times Vector2Float.post _) fun a11 b11 h11 => ?_
  refine Post.last (Post.times EntityType.post _) fun a12 b12 h12 => ?_
  obtain rfl : a4 = (a11.length : Int) := count_eq h4.1.1 h11.1
  obtain rfl : a6 = (a12.length : Int) := count_eq h6.1.1 h12.1
  refine ⟨⟨⟨h0.1.1, h1.1.1, h2.1, h3.1, h4.1, h5.1.1, h6.1, h8.1.1, h9.1, h10.1, fun x hx => (h11.2.1 x hx).1, fun x hx => (h12.2.1 x hx).1⟩,
    ⟨h8.1.2, fun x hx => (h11.2.1 x hx).2⟩⟩, fun hn => ?_⟩
  obtain ⟨n0, n1⟩ := hn
  exact W.Emits.bind (h0.2 trivial) <|
      W.Emits.bind (h1.2 trivial) <|
      W.Emits.bind (h2.2) <|
      W.Emits.bind (h3.2) <|
      W.Emits.bind (h4.2) <|
      W.Emits.bind (h5.2 trivial) <|
      W.Emits.bind (h6.2) <|
      W.Emits.bind (h7.2 trivial) <|
      W.Emits.bind (h8.2 n0) <|
      W.Emits.bind (h9.2) <|
      W.Emits.bind (h10.2) <|
      W.Emits.bind (h11.2.2 n1) <|
      h12.2.2 (fun _ _ => trivial)

theorem DataReliablePdu.rt (s o : DataReliablePdu) : RT (DataReliablePdu.serialize o) (DataReliablePdu.parse s) (DataReliablePdu.after s o) := by
  unfold DataReliablePdu.serialize DataReliablePdu.parse
  exact RT.bind (SimulationManagementWithReliabilityFamilyPdu.rt s.toSimulationManagementWithReliabilityFamilyPdu o.toSimulationManagementWithReliabilityFamilyPdu) <|
    RT.bind (rt_unsigned_int o.requestID) <|
    RT.bind (rt_unsigned_byte o.requiredReliabilityService) <|
    RT.bind (rt_unsigned_short o.pad1) <|
    RT.bind (rt_unsigned_byte o.pad2) <|
    RT.last (DatumSpecification.rt s._datums o._datums)

theorem DataReliablePdu.loc (s : DataReliablePdu) : Local (DataReliablePdu.parse s) := by
  unfold DataReliablePdu.parse
  exact Local.bind (SimulationManagementWithReliabilityFamilyPdu.loc _) fun _ =>
    Local.bind (loc_unsigned_int) fun _ =>
    Local.bind (loc_unsigned_byte) fun _ =>
    Local.bind (loc_unsigned_short) fun _ =>
    Local.bind (loc_unsigned_byte) fun _ =>
    Local.bind (DatumSpecification.loc _) fun _ =>
    Local.pure _

theorem DataReliablePdu.only (s : DataReliablePdu) : OnlyStruct (DataReliablePdu.parse s) := by
  unfold DataReliablePdu.parse
  exact OnlyStruct.bind (SimulationManagementWithReliabilityFamilyPdu.only _) fun _ =>
    OnlyStruct.bind (only_unsigned_int) fun _ =>
    OnlyStruct.bind (only_unsigned_byte) fun _ =>
    OnlyStruct.bind (only_unsigned_short) fun _ =>
    OnlyStruct.bind (only_unsigned_byte) fun _ =>
    OnlyStruct.bind (DatumSpecification.only _) fun _ =>
    OnlyStruct.pure _

theorem DataReliablePdu.sized (o : DataReliablePdu) : Sized (DataReliablePdu.serialize o) (DataReliablePdu.wireSize o) := by
  unfold DataReliablePdu.serialize
  refine Sized.of_eq (Sized.bind (SimulationManagementWithReliabilityFamilyPdu.sized o.toSimulationManagementWithReliabilityFamilyPdu) <|
    Sized.bind (sized_unsigned_int o.requestID) <|
    Sized.bind (sized_unsigned_byte o.requiredReliabilityService) <|
    Sized.bind (sized_unsigned_short o.pad1) <|
    Sized.bind (sized_unsigned_byte o.pad2) <|
    DatumSpecification.sized o._datums) ?_
  simp only [DataReliablePdu.wireSize, SimulationManagementWithReliabilityFamilyPdu.wireSize, Pdu.wireSize, PduSuperclass.wireSize, EntityIdentifier.wireSize, SimulationAddress.wireSize, DatumSpecification.wireSize]; try omega

theorem DataReliablePdu.ok_iff (o : DataReliablePdu) : (DataReliablePdu.serialize o).Ok ↔ DataReliablePdu.WireOk o := by
  unfold DataReliablePdu.serialize DataReliablePdu.WireOk
  exact ok_bind_iff (SimulationManagementWithReliabilityFamilyPdu.ok_iff o.toSimulationManagementWithReliabilityFamilyPdu) <|
    ok_bind_iff (ok_unsigned_int) <|
    ok_bind_iff (ok_unsigned_byte) <|
    ok_bind_iff (ok_unsigned_short) <|
    ok_bind_iff (ok_unsigned_byte) <|
    DatumSpecification.ok_iff o._datums

theorem DataReliablePdu.after_canon {o : DataReliablePdu} (h : DataReliablePdu.Canon o) : DataReliablePdu.after DataReliablePdu.init o = o := by
  have h__datums := h
  cases o
  exact (DataReliablePdu.mk.injEq ..).mpr ⟨SimulationManagementWithReliabilityFamilyPdu.after_canon trivial,
    rfl,
    rfl,
    rfl,
    rfl,
    DatumSpecification.after_canon h__datums⟩

theorem DataReliablePdu.post : Post (DataReliablePdu.parse DataReliablePdu.init) (fun _ o => DataReliablePdu.WireOk o ∧ DataReliablePdu.Canon o) := by
  unfold DataReliablePdu.parse
  refine Post.bind (SimulationManagementWithReliabilityFamilyPdu.post _) fun a0 b0 h0 => ?_
  refine Post.bind (post_unsigned_int) fun a1 b1 h1 => ?_
  refine Post.bind (post_unsigned_byte) fun a2 b2 h2 => ?_
  refine Post.bind (post_unsigned_short) fun a3 b3 h3 => ?_
  refine Post.bind (post_unsigned_byte) fun a4 b4 h4 => ?_
  refine Post.last (DatumSpecification.post) fun a5 b5 h5 => ?_
  exact ⟨⟨h0.1.1, h1.1, h2.1, h3.1, h4.1, h5.1⟩,
    h5.2⟩

theorem CommentPdu.rt (s o : CommentPdu) : RT (CommentPdu.serialize o) (CommentPdu.parse s) (CommentPdu.after s o) := by
  unfold CommentPdu.serialize CommentPdu.parse
  exact RT.bind (SimulationManagementFamilyPdu.rt s.toSimulationManagementFamilyPdu o.toSimulationManagementFamilyPdu) <|
    RT.last (DatumSpecification.rt s._datums o._datums)

theorem CommentPdu.loc (s : CommentPdu) : Local (CommentPdu.parse s) := by
  unfold CommentPdu.parse
  exact Local.bind (SimulationManagementFamilyPdu.loc _) fun _ =>
    Local.bind (DatumSpecification.loc _) fun _ =>
    Local.pure _

theorem CommentPdu.only (s : CommentPdu) : OnlyStruct (CommentPdu.parse s) := by
  unfold CommentPdu.parse
  exact OnlyStruct.bind (SimulationManagementFamilyPdu.only _) fun _ =>
    OnlyStruct.bind (DatumSpecification.only _) fun _ =>
    OnlyStruct.pure _

theorem CommentPdu.sized (o : CommentPdu) : Sized (CommentPdu.serialize o) (CommentPdu.wireSize o) := by
  unfold CommentPdu.serialize
  refine Sized.of_eq (Sized.bind (SimulationManagementFamilyPdu.sized o.toSimulationManagementFamilyPdu) <|
    DatumSpecification.sized o._datums) ?_
  simp only [CommentPdu.wireSize, SimulationManagementFamilyPdu.wireSize, Pdu.wireSize, PduSuperclass.wireSize, EntityIdentifier.wireSize, SimulationAddress.wireSize, DatumSpecification.wireSize]; try omega

theorem CommentPdu.ok_iff (o : CommentPdu) : (CommentPdu.serialize o).Ok ↔ CommentPdu.WireOk o := by
  unfold CommentPdu.serialize CommentPdu.WireOk
  exact ok_bind_iff (SimulationManagementFamilyPdu.ok_iff o.toSimulationManagementFamilyPdu) <|
    DatumSpecification.ok_iff o._datums

theorem CommentPdu.after_canon {o : CommentPdu} (h : CommentPdu.Canon o) : CommentPdu.after CommentPdu.init o = o := by
  have h__datums := h
  cases o
  exact (CommentPdu.mk.injEq ..).mpr ⟨SimulationManagementFamilyPdu.after_canon trivial,
    DatumSpecification.after_canon h__datums⟩

theorem CommentPdu.post : Post (CommentPdu.parse CommentPdu.init) (fun _ o => CommentPdu.WireOk o ∧ CommentPdu.Canon o) := by
  unfold CommentPdu.parse
  refine Post.bind (SimulationManagementFamilyPdu.post _) fun a0 b0 h0 => ?_
  refine Post.last (DatumSpecification.post) fun a1 b1 h1 => ?_
  exact ⟨⟨h0.1.1, h1.1⟩,
    h1.2⟩

theorem CommentReliablePdu.rt (s o : CommentReliablePdu) : RT (CommentReliablePdu.serialize o) (CommentReliablePdu.parse s) (CommentReliablePdu.after s o) := by
  unfold CommentReliablePdu.serialize CommentReliablePdu.parse
  exact RT.bind (SimulationManagementWithReliabilityFamilyPdu.rt s.toSimulationManagementWithReliabilityFamilyPdu o.toSimulationManagementWithReliabilityFamilyPdu) <|
    RT.last (DatumSpecification.rt s._datums o._datums)

theorem CommentReliablePdu.loc (s : CommentReliablePdu) : Local (CommentReliablePdu.parse s) := by
  unfold CommentReliablePdu.parse
  exact Local.bind (SimulationManagementWithReliabilityFamilyPdu.loc _) fun _ =>
    Local.bind (DatumSpecification.loc _) fun _ =>
    Local.pure _

theorem CommentReliablePdu.only (s : CommentReliablePdu) : OnlyStruct (CommentReliablePdu.parse s) := by
  unfold CommentReliablePdu.parse
  exact OnlyStruct.bind (SimulationManagementWithReliabilityFamilyPdu.only _) fun _ =>
    OnlyStruct.bind (DatumSpecification.only _) fun _ =>
    OnlyStruct.pure _

theorem CommentReliablePdu.sized (o : CommentReliablePdu) : Sized (CommentReliablePdu.serialize o) (CommentReliablePdu.wireSize o) := by
  unfold CommentReliablePdu.serialize
  refine Sized.of_eq (Sized.bind (SimulationManagementWithReliabilityFamilyPdu.sized o.toSimulationManagementWithReliabilityFamilyPdu) <|
    DatumSpecification.sized o._datums) ?_
  simp only [CommentReliablePdu.wireSize, SimulationManagementWithReliabilityFamilyPdu.wireSize, Pdu.wireSize, PduSuperclass.wireSize, EntityIdentifier.wireSize, SimulationAddress.wireSize, DatumSpecification.wireSize]; try omega

theorem CommentReliablePdu.ok_iff (o : CommentReliablePdu) : (CommentReliablePdu.serialize o).Ok ↔ CommentReliablePdu.WireOk o := by
  unfold CommentReliablePdu.serialize CommentReliablePdu.WireOk
  exact ok_bind_iff (SimulationManagementWithReliabilityFamilyPdu.ok_iff o.toSimulationManagementWithReliabilityFamilyPdu) <|
    DatumSpecification.ok_iff o._datums

theorem CommentReliablePdu.after_canon {o : CommentReliablePdu} (h : CommentReliablePdu.Canon o) : CommentReliablePdu.after CommentReliablePdu.init o = o := by
  have h__datums := h
  cases o
  exact (CommentReliablePdu.mk.injEq ..).mpr ⟨SimulationManagementWithReliabilityFamilyPdu.after_canon trivial,
    DatumSpecification.after_canon h__datums⟩

theorem CommentReliablePdu.post : Post (CommentReliablePdu.parse CommentReliablePdu.init) (fun _ o => CommentReliablePdu.WireOk o ∧ CommentReliablePdu.Canon o) := by
  unfold CommentReliablePdu.parse
  refine Post.bind (SimulationManagementWithReliabilityFamilyPdu.post _) fun a0 b0 h0 => ?_
  refine Post.last (DatumSpecification.post) fun a1 b1 h1 => ?_
  exact ⟨⟨h0.1.1, h1.1⟩,
    h1.2⟩

theorem DetonationPdu.rt (s o : DetonationPdu) : RT (DetonationPdu.serialize o) (DetonationPdu.parse s) (DetonationPdu.after s o) := by
  unfold DetonationPdu.serialize DetonationPdu.parse
  exact RT.bind (WarfareFamilyPdu.rt s.toWarfareFamilyPdu o.toWarfareFamilyPdu) <|
    RT.bind (EntityIdentifier.rt s.explodingEntityID o.explodingEntityID) <|
    RT.bind (EventIdentifier.rt s.eventID o.eventID) <|
    RT.bind (Vector3Float.rt s.velocity o.velocity) <|
    RT.bind (WorldCoordinates.rt s.location o.location) <|
    RT.bind (MunitionDescriptor.rt s.descriptor o.descriptor) <|
    RT.bind (Vector3Float.rt s.locationInEntityCoordinates o.locationInEntityCoordinates) <|
    RT.bind (rt_unsigned_byte o.detonationResult) <|
    RT.bind (rt_unsigned_byte ((o.variableParameters.length : Int))) <|
    RT.bind (rt_unsigned_short o.pad) <|
    RT.last (rt_list fun x _ => VariableParameter.rt _ x)

theorem DetonationPdu.loc (s : DetonationPdu) : Local (DetonationPdu.parse s) := by
  unfold DetonationPdu.parse
  exact Local.bind (WarfareFamilyPdu.loc _) fun _ =>
    Local.bind (EntityIdentifier.loc _) fun _ =>
    Local.bind (EventIdentifier.loc _) fun _ =>
    Local.bind (Vector3Float.loc _) fun _ =>
    Local.bind (WorldCoordinates.loc _) fun _ =>
    Local.bind (MunitionDescriptor.loc _) fun _ =>
    Local.bind (Vector3Float.loc _) fun _ =>
    Local.bind (loc_unsigned_byte) fun _ =>
    Local.bind (loc_unsigned_byte) fun _ =>
    Local.bind (loc_unsigned_short) fun _ =>
    Local.bind (Local.times (VariableParameter.loc _) _) fun _ =>
    Local.pure _

theorem DetonationPdu.only (s : DetonationPdu) : OnlyStruct (DetonationPdu.parse s) := by
  unfold DetonationPdu.parse
  exact OnlyStruct.bind (WarfareFamilyPdu.only _) fun _ =>
    OnlyStruct.bind (EntityIdentifier.only _) fun _ =>
    OnlyStruct.bind (EventIdentifier.only _) fun _ =>
    OnlyStruct.bind (Vector3Float.only _) fun _ =>
    OnlyStruct.bind (WorldCoordinates.only _) fun _ =>
    OnlyStruct.bind (MunitionDescriptor.only _) fun _ =>
    OnlyStruct.bind (Vector3Float.only _) fun _ =>
    OnlyStruct.bind (only_unsigned_byte) fun _ =>
    OnlyStruct.bind (only_unsigned_byte) fun _ =>
    OnlyStruct.bind (only_unsigned_short) fun _ =>
    OnlyStruct.bind (OnlyStruct.times (VariableParameter.only _) _) fun _ =>
    OnlyStruct.pure _

theorem DetonationPdu.sized (o : DetonationPdu) : Sized (DetonationPdu.serialize o) (DetonationPdu.wireSize o) := by
  unfold DetonationPdu.serialize
  refine Sized.of_eq (Sized.bind (WarfareFamilyPdu.sized o.toWarfareFamilyPdu) <|
    Sized.bind (EntityIdentifier.sized o.explodingEntityID) <|
    Sized.bind (EventIdentifier.sized o.eventID) <|
    Sized.bind (Vector3Float.sized o.velocity) <|
    Sized.bind (WorldCoordinates.sized o.location) <|
    Sized.bind (MunitionDescriptor.sized o.descriptor) <|
    Sized.bind (Vector3Float.sized o.locationInEntityCoordinates) <|
    Sized.bind (sized_unsigned_byte o.detonationResult) <|
    Sized.bind (sized_unsigned_byte _) <|
    Sized.bind (sized_unsigned_short o.pad) <|
    Sized.forEach_const VariableParameter.sized) ?_
  simp only [DetonationPdu.wireSize, WarfareFamilyPdu.wireSize, Pdu.wireSize, PduSuperclass.wireSize, EntityIdentifier.wireSize, SimulationAddress.wireSize, EventIdentifier.wireSize, Vector3Float.wireSize, WorldCoordinates.wireSize, MunitionDescriptor.wireSize, EntityType.wireSize]; try omega

theorem DetonationPdu.ok_iff (o : DetonationPdu) : (DetonationPdu.serialize o).Ok ↔ DetonationPdu.WireOk o := by
  unfold DetonationPdu.serialize DetonationPdu.WireOk
  exact ok_bind_iff (WarfareFamilyPdu.ok_iff o.toWarfareFamilyPdu) <|
    ok_bind_iff (EntityIdentifier.ok_iff o.explodingEntityID) <|
    ok_bind_iff (EventIdentifier.ok_iff o.eventID) <|
    ok_bind_iff (Vector3Float.ok_iff o.velocity) <|
    ok_bind_tl (WorldCoordinates.ok_iff o.location) <|
    ok_bind_iff (MunitionDescriptor.ok_iff o.descriptor) <|
    ok_bind_iff (Vector3Float.ok_iff o.locationInEntityCoordinates) <|
    ok_bind_iff (ok_unsigned_byte) <|
    ok_bind_iff (ok_unsigned_byte) <|
    ok_bind_iff (ok_unsigned_short) <|
    ok_list VariableParameter.ok_iff

theorem DetonationPdu.after_canon {o : DetonationPdu} (h : DetonationPdu.Canon o) : DetonationPdu.after DetonationPdu.init o = o := by
  obtain ⟨h_velocity, h_locationInEntityCoordinates⟩ := h
  cases o
  exact (DetonationPdu.mk.injEq ..).mpr ⟨WarfareFamilyPdu.after_canon trivial,
    EntityIdentifier.after_canon trivial,
    EventIdentifier.after_canon trivial,
    Vector3Float.after_canon h_velocity,
    WorldCoordinates.after_canon trivial,
    MunitionDescriptor.after_canon trivial,
    Vector3Float.after_canon h_locationInEntityCoordinates,
    rfl,
    rfl,
    canon_list fun x hx => VariableParameter.after_canon trivial⟩

theorem DetonationPdu.post : Post (DetonationPdu.parse DetonationPdu.init) (fun b o => (DetonationPdu.WireOk o ∧ DetonationPdu.Canon o) ∧ (DetonationPdu.NoNaN o → (DetonationPdu.serialize o).Emits b)) := by
  unfold DetonationPdu.parse
  refine Post.bind (WarfareFamilyPdu.post _) fun a0 b0 h0 => ?_
  refine Post.bind (EntityIdentifier.post) fun a1 b1 h1 => ?_
  refine Post.bind (EventIdentifier.post) fun a2 b2 h2 => ?_
  refine Post.bind (Vector3Float.post) fun a3 b3 h3 => ?_
  refine Post.bind (WorldCoordinates.post) fun a4 b4 h4 => ?_
  refine Post.bind (MunitionDescriptor.post) fun a5 b5 h5 => ?_
  refine Post.bind (Vector3Float.post) fun a6 b6 h6 => ?_
  refine Post.bind (post_unsigned_byte) fun a7 b7 h7 => ?_
  refine Post.bind (post_unsigned_byte) fun a8 b8 h8 => ?_
  refine Post.bind (post_unsigned_short) fun a9 b9 h9 => ?_
  refine Post.last (Post.times VariableParameter.post _) fun a10 b10 h10 => ?_
  obtain rfl : a8 = (a10.length : Int) := count_eq h8.1.1 h10.1
  refine ⟨⟨⟨h0.1.1, h1.1.1, h2.1.1, h3.1.1, h5.1.1, h6.1.1, h7.1, h8.1, h9.1, fun x hx => (h10.2.1 x hx).1⟩,
    ⟨h3.1.2, h6.1.2⟩⟩, fun hn => ?_⟩
  obtain ⟨n0, n1⟩ := hn
  exact W.Emits.bind (h0.2 trivial) <|
      W.Emits.bind (h1.2 trivial) <|
      W.Emits.bind (h2.2 trivial) <|
      W.Emits.bind (h3.2 n0) <|
      W.Emits.bind (h4.2 trivial) <|
      W.Emits.bind (h5.2 trivial) <|
      W.Emits.bind (h6.2 n1) <|
      W.Emits.bind (h7.2) <|
      W.Emits.bind (h8.2) <|
      W.Emits.bind (h9.2) <|
      h10.2.2 (fun _ _ => trivial)

theorem SetDataPdu.rt (s o : SetDataPdu) : RT (SetDataPdu.serialize o) (SetDataPdu.parse s) (SetDataPdu.after s o) := by
  unfold SetDataPdu.serialize SetDataPdu.parse
  exact RT.bind (SimulationManagementFamilyPdu.rt s.toSimulationManagementFamilyPdu o.toSimulationManagementFamilyPdu) <|
    RT.bind (rt_unsigned_int o.requestID) <|
    RT.bind (rt_unsigned_int o.padding1) <|
    RT.last (DatumSpecification.rt s._datums o._datums)

theorem SetDataPdu.loc (s : SetDataPdu) : Local (SetDataPdu.parse s) := by
  unfold SetDataPdu.parse
  exact Local.bind (SimulationManagementFamilyPdu.loc _) fun _ =>
    Local.bind (loc_unsigned_int) fun _ =>
    Local.bind (loc_unsigned_int) fun _ =>
    Local.bind (DatumSpecification.loc _) fun _ =>
    Local.pure _

theorem SetDataPdu.only (s : SetDataPdu) : OnlyStruct (SetDataPdu.parse s) := by
  unfold SetDataPdu.parse
  exact OnlyStruct.bind (SimulationManagementFamilyPdu.only _) fun _ =>
    OnlyStruct.bind (only_unsigned_int) fun _ =>
    OnlyStruct.bind (only_unsigned_int) fun _ =>
    OnlyStruct.bind (DatumSpecification.only _) fun _ =>
    OnlyStruct.pure _

theorem SetDataPdu.sized (o : SetDataPdu) : Sized (SetDataPdu.serialize o) (SetDataPdu.wireSize o) := by
  unfold SetDataPdu.serialize
  refine Sized.of_eq (Sized.bind (SimulationManagementFamilyPdu.sized o.toSimulationManagementFamilyPdu) <|
    Sized.bind (sized_unsigned_int o.requestID) <|
    Sized.bind (sized_unsigned_int o.padding1) <|
    DatumSpecification.sized o._datums) ?_
  simp only [SetDataPdu.wireSize, SimulationManagementFamilyPdu.wireSize, Pdu.wireSize, PduSuperclass.wireSize, EntityIdentifier.wireSize, SimulationAddress.wireSize, DatumSpecification.wireSize]; try omega

theorem SetDataPdu.ok_iff (o : SetDataPdu) : (SetDataPdu.serialize o).Ok ↔ SetDataPdu.WireOk o := by
  unfold SetDataPdu.serialize SetDataPdu.WireOk
  exact ok_bind_iff (SimulationManagementFamilyPdu.ok_iff o.toSimulationManagementFamilyPdu) <|
    ok_bind_iff (ok_unsigned_int) <|
    ok_bind_iff (ok_unsigned_int) <|
    DatumSpecification.ok_iff o._datums

theorem SetDataPdu.after_canon {o : SetDataPdu} (h : SetDataPdu.Canon o) : SetDataPdu.after SetDataPdu.init o = o := by
  have h__datums := h
  cases o
  exact (SetDataPdu.mk.injEq ..).mpr ⟨SimulationManagementFamilyPdu.after_canon trivial,
    rfl,
    rfl,
    DatumSpecification.after_canon h__datums⟩

theorem SetDataPdu.post : Post (SetDataPdu.parse SetDataPdu.init) (fun _ o => SetDataPdu.WireOk o ∧ SetDataPdu.Canon o) := by
  unfold SetDataPdu.parse
  refine Post.bind (SimulationManagementFamilyPdu.post _) fun a0 b0 h0 => ?_
  refine Post.bind (post_unsigned_int) fun a1 b1 h1 => ?_
  refine Post.bind (post_unsigned_int) fun a2 b2 h2 => ?_
  refine Post.last (DatumSpecification.post) fun a3 b3 h3 => ?_
  exact ⟨⟨h0.1.1, h1.1, h2.1, h3.1⟩,
    h3.2⟩

theorem RecordQueryReliablePdu.rt (s o : RecordQueryReliablePdu) : RT (RecordQueryReliablePdu.serialize o) (RecordQueryReliablePdu.parse s) (RecordQueryReliablePdu.after s o) := by
  unfold RecordQueryReliablePdu.serialize RecordQueryReliablePdu.parse
  exact RT.bind (SimulationManagementWithReliabilityFamilyPdu.rt s.toSimulationManagementWithReliabilityFamilyPdu o.toSimulationManagementWithReliabilityFamilyPdu) <|
    RT.bind (rt_unsigned_int o.requestID) <|
    RT.bind (rt_unsigned_byte o.requiredReliabilityService) <|
    RT.bind (rt_unsigned_short o.pad1) <|
    RT.bind (rt_unsigned_byte o.pad2) <|
    RT.bind (rt_unsigned_short o.eventType) <|
    RT.bind (rt_unsigned_int o.time) <|
    RT.bind (rt_unsigned_int ((o.recordIDs.length : Int))) <|
    RT.last (rt_list_throw)

theorem RecordQueryReliablePdu.loc (s : RecordQueryReliablePdu) : Local (RecordQueryReliablePdu.parse s) := by
  unfold RecordQueryReliablePdu.parse
  exact Local.bind (SimulationManagementWithReliabilityFamilyPdu.loc _) fun _ =>
    Local.bind (loc_unsigned_int) fun _ =>
    Local.bind (loc_unsigned_byte) fun _ =>
    Local.bind (loc_unsigned_short) fun _ =>
    Local.bind (loc_unsigned_byte) fun _ =>
    Local.bind (loc_unsigned_short) fun _ =>
    Local.bind (loc_unsigned_int) fun _ =>
    Local.bind (loc_unsigned_int) fun _ =>
    Local.bind (local_throw_times _ _) fun _ =>
    Local.pure _

theorem RecordQueryReliablePdu.sized (o : RecordQueryReliablePdu) : Sized (RecordQueryReliablePdu.serialize o) (RecordQueryReliablePdu.wireSize o) := by
  unfold RecordQueryReliablePdu.serialize
  refine Sized.of_eq (Sized.bind (SimulationManagementWithReliabilityFamilyPdu.sized o.toSimulationManagementWithReliabilityFamilyPdu) <|
    Sized.bind (sized_unsigned_int o.requestID) <|
    Sized.bind (sized_unsigned_byte o.requiredReliabilityService) <|
    Sized.bind (sized_unsigned_short o.pad1) <|
    Sized.bind (sized_unsigned_byte o.pad2) <|
    Sized.bind (sized_unsigned_short o.eventType) <|
    Sized.bind (sized_unsigned_int o.time) <|
    Sized.bind (sized_unsigned_int _) <|
    sized_list_throw) ?_
  simp only [RecordQueryReliablePdu.wireSize, SimulationManagementWithReliabilityFamilyPdu.wireSize, Pdu.wireSize, PduSuperclass.wireSize, EntityIdentifier.wireSize, SimulationAddress.wireSize]; try omega

theorem RecordQueryReliablePdu.ok_iff (o : RecordQueryReliablePdu) : (RecordQueryReliablePdu.serialize o).Ok ↔ RecordQueryReliablePdu.WireOk o := by
  unfold RecordQueryReliablePdu.serialize RecordQueryReliablePdu.WireOk
  exact ok_bind_iff (SimulationManagementWithReliabilityFamilyPdu.ok_iff o.toSimulationManagementWithReliabilityFamilyPdu) <|
    ok_bind_iff (ok_unsigned_int) <|
    ok_bind_iff (ok_unsigned_byte) <|
    ok_bind_iff (ok_unsigned_short) <|
    ok_bind_iff (ok_unsigned_byte) <|
    ok_bind_iff (ok_unsigned_short) <|
    ok_bind_iff (ok_unsigned_int) <|
    ok_bind_iff (ok_unsigned_int) <|
    ok_list_throw

theorem RecordQueryReliablePdu.after_canon {o : RecordQueryReliablePdu} (h : RecordQueryReliablePdu.Canon o) : RecordQueryReliablePdu.after RecordQueryReliablePdu.init o = o := by
  have h_recordIDs := h
  cases o
  exact (RecordQueryReliablePdu.mk.injEq ..).mpr ⟨SimulationManagementWithReliabilityFamilyPdu.after_canon trivial,
    rfl,
    rfl,
    rfl,
    rfl,
    rfl,
    rfl,
    h_recordIDs.symm⟩

theorem RecordQueryReliablePdu.post : Post (RecordQueryReliablePdu.parse RecordQueryReliablePdu.init) (fun b o => (RecordQueryReliablePdu.WireOk o ∧ RecordQueryReliablePdu.Canon o) ∧ (RecordQueryReliablePdu.NoNaN o → (RecordQueryReliablePdu.serialize o).Emits b)) := by
  unfold RecordQueryReliablePdu.parse
  refine Post.bind (SimulationManagementWithReliabilityFamilyPdu.post _) fun a0 b0 h0 => ?_
  refine Post.bind (post_unsigned_int) fun a1 b1 h1 => ?_
  refine Post.bind (post_unsigned_byte) fun a2 b2 h2 => ?_
  refine Post.bind (post_unsigned_short) fun a3 b3 h3 => ?_
  refine Post.bind (post_unsigned_byte) fun a4 b4 h4 => ?_
  refine Post.bind (post_unsigned_short) fun a5 b5 h5 => ?_
  refine Post.bind (post_unsigned_int) fun a6 b6 h6 => ?_
  refine Post.bind (post_unsigned_int) fun a7 b7 h7 => ?_
  refine Post.last (Post.times_throw _ _) fun a8 b8 h8 => ?_
  obtain rfl : a7 = 0 := zero_eq h7.1.1 h8.1
  obtain ⟨-, rfl, rfl⟩ := h8
  refine ⟨⟨⟨h0.1.1, h1.1, h2.1, h3.1, h4.1, h5.1, h6.1, h7.1, rfl⟩,
    rfl⟩, fun _ => ?_⟩
  exact W.Emits.bind (h0.2 trivial) <|
      W.Emits.bind (h1.2) <|
      W.Emits.bind (h2.2) <|
      W.Emits.bind (h3.2) <|
      W.Emits.bind (h4.2) <|
      W.Emits.bind (h5.2) <|
      W.Emits.bind (h6.2) <|
      W.Emits.bind (h7.2) <|
      W.emits_pure ()

theorem ActionResponsePdu.rt (s o : ActionResponsePdu) : RT (ActionResponsePdu.serialize o) (ActionResponsePdu.parse s) (ActionResponsePdu.after s o) := by
  unfold ActionResponsePdu.serialize ActionResponsePdu.parse
  exact RT.bind (SimulationManagementFamilyPdu.rt s.toSimulationManagementFamilyPdu o.toSimulationManagementFamilyPdu) <|
    RT.bind (rt_unsigned_int o.requestID) <|
    RT.bind (rt_unsigned_int o.requestStatus) <|
    RT.last (DatumSpecification.rt s._datums o._datums)

theorem ActionResponsePdu.loc (s : ActionResponsePdu) : Local (ActionResponsePdu.parse s) := by
  unfold ActionResponsePdu.parse
  exact Local.bind (SimulationManagementFamilyPdu.loc _) fun _ =>
    Local.bind (loc_unsigned_int) fun _ =>
    Local.bind (loc_unsigned_int) fun _ =>
    Local.bind (DatumSpecification.loc _) fun _ =>
    Local.pure _

theorem ActionResponsePdu.only (s : ActionResponsePdu) : OnlyStruct (ActionResponsePdu.parse s) := by
  unfold ActionResponsePdu.parse
  exact OnlyStruct.bind (SimulationManagementFamilyPdu.only _) fun _ =>
    OnlyStruct.bind (only_unsigned_int) fun _ =>
    OnlyStruct.bind (only_unsigned_int) fun _ =>
    OnlyStruct.bind (DatumSpecification.only _) fun _ =>
    OnlyStruct.pure _

theorem ActionResponsePdu.sized (o : ActionResponsePdu) : Sized (ActionResponsePdu.serialize o) (ActionResponsePdu.wireSize o) := by
  unfold ActionResponsePdu.serialize
  refine Sized.of_eq (Sized.bind (SimulationManagementFamilyPdu.sized o.toSimulationManagementFamilyPdu) <|
    Sized.bind (sized_unsigned_int o.requestID) <|
    Sized.bind (sized_unsigned_int o.requestStatus) <|
    DatumSpecification.sized o._datums) ?_
  simp only [ActionResponsePdu.wireSize, SimulationManagementFamilyPdu.wireSize, Pdu.wireSize, PduSuperclass.wireSize, EntityIdentifier.wireSize, SimulationAddress.wireSize, DatumSpecification.wireSize]; try omega

theorem ActionResponsePdu.ok_iff (o : ActionResponsePdu) : (ActionResponsePdu.serialize o).Ok ↔ ActionResponsePdu.WireOk o := by
  unfold ActionResponsePdu.serialize ActionResponsePdu.WireOk
  exact ok_bind_iff (SimulationManagementFamilyPdu.ok_iff o.toSimulationManagementFamilyPdu) <|
    ok_bind_iff (ok_unsigned_int) <|
    ok_bind_iff (ok_unsigned_int) <|
    DatumSpecification.ok_iff o._datums

theorem ActionResponsePdu.after_canon {o : ActionResponsePdu} (h : ActionResponsePdu.Canon o) : ActionResponsePdu.after ActionResponsePdu.init o = o := by
  have h__datums := h
  cases o
  exact (ActionResponsePdu.mk.injEq ..).mpr ⟨SimulationManagementFamilyPdu.after_canon trivial,
    rfl,
    rfl,
    DatumSpecification.after_canon h__datums⟩

theorem ActionResponsePdu.post : Post (ActionResponsePdu.parse ActionResponsePdu.init) (fun _ o => ActionResponsePdu.WireOk o ∧ ActionResponsePdu.Canon o) := by
  unfold ActionResponsePdu.parse
  refine Post.bind (SimulationManagementFamilyPdu.post _) fun a0 b0 h0 => ?_
  refine Post.bind (post_unsigned_int) fun a1 b1 h1 => ?_
  refine Post.bind (post_unsigned_int) fun a2 b2 h2 => ?_
  refine Post.last (DatumSpecification.post) fun a3 b3 h3 => ?_
  exact ⟨⟨h0.1.1, h1.1, h2.1, h3.1⟩,
    h3.2⟩

end Dis
