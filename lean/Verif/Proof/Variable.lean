import Verif.Proof.Bits
import Verif.Spec.Variable

/-!
# Proofs for the fixed-layout records of `opendis/record`

Generated by `tools/genvar.py`.
-/

set_option linter.unusedVariables false

namespace Dis

theorem BeamAntennaPattern.rt (bl : Option Int) (hbl : ∀ n, bl = some n → 0 ≤ n) (s o : BeamAntennaPattern) :
    RT (BeamAntennaPattern.serialize o) (BeamAntennaPattern.parse s bl) (BeamAntennaPattern.after s o) := by
  unfold BeamAntennaPattern.serialize BeamAntennaPattern.parse
  exact RT.silent (VariableRecord.parse_reads hbl) <|
    RT.bind (EulerAngles.rt s.beamDirection o.beamDirection) <|
    RT.bind (rt_float32 o.azimuthBeamwidth) <|
    RT.bind (rt_float32 o.elevationBeamwidth) <|
    RT.bind (rt_uint8 o.referenceSystem) <|
    RT.bind (rt_uint8 o.padding1) <|
    RT.bind (rt_uint16 o.padding2) <|
    RT.bind (rt_float32 o.ez) <|
    RT.bind (rt_float32 o.ex) <|
    RT.bind (rt_float32 o.phase) <|
    RT.last (rt_uint32 o.padding3)

theorem BeamAntennaPattern.loc (bl : Option Int) (s : BeamAntennaPattern) : Local (BeamAntennaPattern.parse s bl) := by
  unfold BeamAntennaPattern.parse
  exact Local.bind (VariableRecord.parse_loc bl) fun _ =>
    Local.bind (EulerAngles.loc _) fun _ =>
    Local.bind (loc_float32) fun _ =>
    Local.bind (loc_float32) fun _ =>
    Local.bind (loc_uint8) fun _ =>
    Local.bind (loc_uint8) fun _ =>
    Local.bind (loc_uint16) fun _ =>
    Local.bind (loc_float32) fun _ =>
    Local.bind (loc_float32) fun _ =>
    Local.bind (loc_float32) fun _ =>
    Local.bind (loc_uint32) fun _ =>
    Local.pure _

theorem BeamAntennaPattern.sized (o : BeamAntennaPattern) : Sized (BeamAntennaPattern.serialize o) (BeamAntennaPattern.wireSize o) := by
  unfold BeamAntennaPattern.serialize
  refine Sized.of_eq (Sized.bind (EulerAngles.sized o.beamDirection) <|
    Sized.bind (sized_float32 o.azimuthBeamwidth) <|
    Sized.bind (sized_float32 o.elevationBeamwidth) <|
    Sized.bind (sized_uint8 o.referenceSystem) <|
    Sized.bind (sized_uint8 o.padding1) <|
    Sized.bind (sized_uint16 o.padding2) <|
    Sized.bind (sized_float32 o.ez) <|
    Sized.bind (sized_float32 o.ex) <|
    Sized.bind (sized_float32 o.phase) <|
    sized_uint32 o.padding3) ?_
  simp only [BeamAntennaPattern.wireSize, EulerAngles.wireSize]; try omega

theorem BeamAntennaPattern.ok_iff (o : BeamAntennaPattern) : (BeamAntennaPattern.serialize o).Ok ↔ BeamAntennaPattern.WireOk o := by
  unfold BeamAntennaPattern.serialize BeamAntennaPattern.WireOk
  exact ok_bind_iff (EulerAngles.ok_iff o.beamDirection) <|
    ok_bind_iff (ok_float32) <|
    ok_bind_iff (ok_float32) <|
    ok_bind_iff (ok_uint8) <|
    ok_bind_iff (ok_uint8) <|
    ok_bind_iff (ok_uint16) <|
    ok_bind_iff (ok_float32) <|
    ok_bind_iff (ok_float32) <|
    ok_bind_iff (ok_float32) <|
    ok_uint32

theorem BeamAntennaPattern.after_canon {o : BeamAntennaPattern} (h : BeamAntennaPattern.Canon o) : BeamAntennaPattern.after BeamAntennaPattern.init o = o := by
  obtain ⟨c0, c1, c2, c3, c4, c5⟩ := h
  cases o
  exact (BeamAntennaPattern.mk.injEq ..).mpr ⟨EulerAngles.after_canon c0, c1, c2, rfl, rfl, rfl, c3, c4, c5, rfl⟩

theorem BeamAntennaPattern.post (bl : Option Int) : Post (BeamAntennaPattern.parse BeamAntennaPattern.init bl) (fun b o => (BeamAntennaPattern.WireOk o ∧ BeamAntennaPattern.Canon o) ∧
    (BeamAntennaPattern.NoNaN o → (BeamAntennaPattern.serialize o).Emits b)) := by
  unfold BeamAntennaPattern.parse
  refine Post.skip (VariableRecord.parse_silent bl) ?_
  refine Post.bind (EulerAngles.post) fun a0 b0 h0 => ?_
  refine Post.bind (post_float32) fun a1 b1 h1 => ?_
  refine Post.bind (post_float32) fun a2 b2 h2 => ?_
  refine Post.bind (post_uint8) fun a3 b3 h3 => ?_
  refine Post.bind (post_uint8) fun a4 b4 h4 => ?_
  refine Post.bind (post_uint16) fun a5 b5 h5 => ?_
  refine Post.bind (post_float32) fun a6 b6 h6 => ?_
  refine Post.bind (post_float32) fun a7 b7 h7 => ?_
  refine Post.bind (post_float32) fun a8 b8 h8 => ?_
  refine Post.last (post_uint32) fun a9 b9 h9 => ?_
  refine ⟨⟨⟨h0.1.1, h1.1.1, h2.1.1, h3.1, h4.1, h5.1, h6.1.1, h7.1.1, h8.1.1, h9.1⟩, ⟨h0.1.2, h1.1.2, h2.1.2, h6.1.2, h7.1.2, h8.1.2⟩⟩, fun hn => ?_⟩
  obtain ⟨n0, n1, n2, n3, n4, n5⟩ := hn
  exact W.Emits.bind (h0.2 n0) <|
      W.Emits.bind (h1.2 n1) <|
      W.Emits.bind (h2.2 n2) <|
      W.Emits.bind (h3.2) <|
      W.Emits.bind (h4.2) <|
      W.Emits.bind (h5.2) <|
      W.Emits.bind (h6.2 n3) <|
      W.Emits.bind (h7.2 n4) <|
      W.Emits.bind (h8.2 n5) <|
      h9.2

theorem ModulationType.rt (s o : ModulationType) :
    RT (ModulationType.serialize o) (ModulationType.parse s) (ModulationType.after s o) := by
  unfold ModulationType.serialize ModulationType.parse
  exact RT.bind (SpreadSpectrum.rt s.spreadSpectrum o.spreadSpectrum) <|
    RT.bind (rt_uint16 o.majorModulation) <|
    RT.bind (rt_uint16 o.detail) <|
    RT.last (rt_uint16 o.radioSystem)

theorem ModulationType.loc (s : ModulationType) : Local (ModulationType.parse s) := by
  unfold ModulationType.parse
  exact Local.bind (SpreadSpectrum.loc _) fun _ =>
    Local.bind (loc_uint16) fun _ =>
    Local.bind (loc_uint16) fun _ =>
    Local.bind (loc_uint16) fun _ =>
    Local.pure _

theorem ModulationType.sized (o : ModulationType) : Sized (ModulationType.serialize o) (ModulationType.wireSize o) := by
  unfold ModulationType.serialize
  refine Sized.of_eq (Sized.bind (SpreadSpectrum.sized o.spreadSpectrum) <|
    Sized.bind (sized_uint16 o.majorModulation) <|
    Sized.bind (sized_uint16 o.detail) <|
    sized_uint16 o.radioSystem) ?_
  simp only [ModulationType.wireSize, SpreadSpectrum.wireSize]; try omega

theorem ModulationType.ok_iff (o : ModulationType) : (ModulationType.serialize o).Ok ↔ ModulationType.WireOk o := by
  unfold ModulationType.serialize ModulationType.WireOk
  exact ok_bind_iff (SpreadSpectrum.ok_iff o.spreadSpectrum) <|
    ok_bind_iff (ok_uint16) <|
    ok_bind_iff (ok_uint16) <|
    ok_uint16

theorem ModulationType.after_canon {o : ModulationType} (h : ModulationType.Canon o) : ModulationType.after ModulationType.init o = o := by
  have c0 := h
  cases o
  exact (ModulationType.mk.injEq ..).mpr ⟨SpreadSpectrum.after_canon c0, rfl, rfl, rfl⟩

theorem ModulationType.post : Post (ModulationType.parse ModulationType.init) (fun _ o => ModulationType.WireOk o ∧ ModulationType.Canon o) := by
  unfold ModulationType.parse
  refine Post.bind (SpreadSpectrum.post) fun a0 b0 h0 => ?_
  refine Post.bind (post_uint16) fun a1 b1 h1 => ?_
  refine Post.bind (post_uint16) fun a2 b2 h2 => ?_
  refine Post.last (post_uint16) fun a3 b3 h3 => ?_
  exact ⟨⟨h0.1, h1.1, h2.1, h3.1⟩, h0.2⟩

theorem BasicHaveQuickMP.rt (bl : Option Int) (hbl : ∀ n, bl = some n → 0 ≤ n) (s o : BasicHaveQuickMP) :
    RT (BasicHaveQuickMP.serialize o) (BasicHaveQuickMP.parse s bl) (BasicHaveQuickMP.after s o) := by
  unfold BasicHaveQuickMP.serialize BasicHaveQuickMP.parse
  exact RT.silent (VariableRecord.parse_reads hbl) <|
    RT.bind (NetId.rt s.net_id o.net_id) <|
    RT.bind (rt_uint16 o.mwod_index) <|
    RT.bind (rt_uint16 o.reserved16) <|
    RT.bind (rt_uint8 o.reserved8_1) <|
    RT.bind (rt_uint8 o.reserved8_2) <|
    RT.bind (rt_uint32 o.time_of_day) <|
    RT.last (rt_uint32 o.padding)

theorem BasicHaveQuickMP.loc (bl : Option Int) (s : BasicHaveQuickMP) : Local (BasicHaveQuickMP.parse s bl) := by
  unfold BasicHaveQuickMP.parse
  exact Local.bind (VariableRecord.parse_loc bl) fun _ =>
    Local.bind (NetId.loc _) fun _ =>
    Local.bind (loc_uint16) fun _ =>
    Local.bind (loc_uint16) fun _ =>
    Local.bind (loc_uint8) fun _ =>
    Local.bind (loc_uint8) fun _ =>
    Local.bind (loc_uint32) fun _ =>
    Local.bind (loc_uint32) fun _ =>
    Local.pure _

theorem BasicHaveQuickMP.sized (o : BasicHaveQuickMP) : Sized (BasicHaveQuickMP.serialize o) (BasicHaveQuickMP.wireSize o) := by
  unfold BasicHaveQuickMP.serialize
  refine Sized.of_eq (Sized.bind (NetId.sized o.net_id) <|
    Sized.bind (sized_uint16 o.mwod_index) <|
    Sized.bind (sized_uint16 o.reserved16) <|
    Sized.bind (sized_uint8 o.reserved8_1) <|
    Sized.bind (sized_uint8 o.reserved8_2) <|
    Sized.bind (sized_uint32 o.time_of_day) <|
    sized_uint32 o.padding) ?_
  simp only [BasicHaveQuickMP.wireSize, NetId.wireSize]; try omega

theorem BasicHaveQuickMP.ok_iff (o : BasicHaveQuickMP) : (BasicHaveQuickMP.serialize o).Ok ↔ BasicHaveQuickMP.WireOk o := by
  unfold BasicHaveQuickMP.serialize BasicHaveQuickMP.WireOk
  exact ok_bind_iff (NetId.ok_iff o.net_id) <|
    ok_bind_iff (ok_uint16) <|
    ok_bind_iff (ok_uint16) <|
    ok_bind_iff (ok_uint8) <|
    ok_bind_iff (ok_uint8) <|
    ok_bind_iff (ok_uint32) <|
    ok_uint32

theorem BasicHaveQuickMP.after_canon {o : BasicHaveQuickMP} (h : BasicHaveQuickMP.Canon o) : BasicHaveQuickMP.after BasicHaveQuickMP.init o = o := by
  have c0 := h
  cases o
  exact (BasicHaveQuickMP.mk.injEq ..).mpr ⟨NetId.after_canon c0, rfl, rfl, rfl, rfl, rfl, rfl⟩

theorem BasicHaveQuickMP.post (bl : Option Int) : Post (BasicHaveQuickMP.parse BasicHaveQuickMP.init bl) (fun b o => (BasicHaveQuickMP.WireOk o ∧ BasicHaveQuickMP.Canon o) ∧
    (BasicHaveQuickMP.NoNaN o → (BasicHaveQuickMP.serialize o).Emits b)) := by
  unfold BasicHaveQuickMP.parse
  refine Post.skip (VariableRecord.parse_silent bl) ?_
  refine Post.bind (NetId.post) fun a0 b0 h0 => ?_
  refine Post.bind (post_uint16) fun a1 b1 h1 => ?_
  refine Post.bind (post_uint16) fun a2 b2 h2 => ?_
  refine Post.bind (post_uint8) fun a3 b3 h3 => ?_
  refine Post.bind (post_uint8) fun a4 b4 h4 => ?_
  refine Post.bind (post_uint32) fun a5 b5 h5 => ?_
  refine Post.last (post_uint32) fun a6 b6 h6 => ?_
  refine ⟨⟨⟨h0.1.1, h1.1, h2.1, h3.1, h4.1, h5.1, h6.1⟩, h0.1.2⟩, fun hn => ?_⟩
  have n0 := hn
  exact W.Emits.bind (h0.2 n0) <|
      W.Emits.bind (h1.2) <|
      W.Emits.bind (h2.2) <|
      W.Emits.bind (h3.2) <|
      W.Emits.bind (h4.2) <|
      W.Emits.bind (h5.2) <|
      h6.2

theorem CCTTSincgarsMP.rt (bl : Option Int) (hbl : ∀ n, bl = some n → 0 ≤ n) (s o : CCTTSincgarsMP) :
    RT (CCTTSincgarsMP.serialize o) (CCTTSincgarsMP.parse s bl) (CCTTSincgarsMP.after s o) := by
  unfold CCTTSincgarsMP.serialize CCTTSincgarsMP.parse
  exact RT.silent (VariableRecord.parse_reads hbl) <|
    RT.bind (rt_uint16 o.fh_net_id) <|
    RT.bind (rt_uint16 o.hop_set_id) <|
    RT.bind (rt_uint16 o.lockout_set_id) <|
    RT.bind (rt_uint8 o.start_of_message) <|
    RT.bind (rt_uint8 o.clear_channel) <|
    RT.bind (rt_uint32 o.fh_sync_time_offset) <|
    RT.bind (rt_uint16 o.transmission_security_key) <|
    RT.last (rt_uint16 o.padding)

theorem CCTTSincgarsMP.loc (bl : Option Int) (s : CCTTSincgarsMP) : Local (CCTTSincgarsMP.parse s bl) := by
  unfold CCTTSincgarsMP.parse
  exact Local.bind (VariableRecord.parse_loc bl) fun _ =>
    Local.bind (loc_uint16) fun _ =>
    Local.bind (loc_uint16) fun _ =>
    Local.bind (loc_uint16) fun _ =>
    Local.bind (loc_uint8) fun _ =>
    Local.bind (loc_uint8) fun _ =>
    Local.bind (loc_uint32) fun _ =>
    Local.bind (loc_uint16) fun _ =>
    Local.bind (loc_uint16) fun _ =>
    Local.pure _

theorem CCTTSincgarsMP.sized (o : CCTTSincgarsMP) : Sized (CCTTSincgarsMP.serialize o) (CCTTSincgarsMP.wireSize o) := by
  unfold CCTTSincgarsMP.serialize
  refine Sized.of_eq (Sized.bind (sized_uint16 o.fh_net_id) <|
    Sized.bind (sized_uint16 o.hop_set_id) <|
    Sized.bind (sized_uint16 o.lockout_set_id) <|
    Sized.bind (sized_uint8 o.start_of_message) <|
    Sized.bind (sized_uint8 o.clear_channel) <|
    Sized.bind (sized_uint32 o.fh_sync_time_offset) <|
    Sized.bind (sized_uint16 o.transmission_security_key) <|
    sized_uint16 o.padding) ?_
  simp only [CCTTSincgarsMP.wireSize]; try omega

theorem CCTTSincgarsMP.ok_iff (o : CCTTSincgarsMP) : (CCTTSincgarsMP.serialize o).Ok ↔ CCTTSincgarsMP.WireOk o := by
  unfold CCTTSincgarsMP.serialize CCTTSincgarsMP.WireOk
  exact ok_bind_iff (ok_uint16) <|
    ok_bind_iff (ok_uint16) <|
    ok_bind_iff (ok_uint16) <|
    ok_bind_iff (ok_uint8) <|
    ok_bind_iff (ok_uint8) <|
    ok_bind_iff (ok_uint32) <|
    ok_bind_iff (ok_uint16) <|
    ok_uint16

theorem CCTTSincgarsMP.after_canon {o : CCTTSincgarsMP} (h : CCTTSincgarsMP.Canon o) : CCTTSincgarsMP.after CCTTSincgarsMP.init o = o := by
  cases o
  exact (CCTTSincgarsMP.mk.injEq ..).mpr ⟨rfl, rfl, rfl, rfl, rfl, rfl, rfl, rfl⟩

theorem CCTTSincgarsMP.post (bl : Option Int) : Post (CCTTSincgarsMP.parse CCTTSincgarsMP.init bl) (fun b o => (CCTTSincgarsMP.WireOk o ∧ CCTTSincgarsMP.Canon o) ∧
    (CCTTSincgarsMP.NoNaN o → (CCTTSincgarsMP.serialize o).Emits b)) := by
  unfold CCTTSincgarsMP.parse
  refine Post.skip (VariableRecord.parse_silent bl) ?_
  refine Post.bind (post_uint16) fun a0 b0 h0 => ?_
  refine Post.bind (post_uint16) fun a1 b1 h1 => ?_
  refine Post.bind (post_uint16) fun a2 b2 h2 => ?_
  refine Post.bind (post_uint8) fun a3 b3 h3 => ?_
  refine Post.bind (post_uint8) fun a4 b4 h4 => ?_
  refine Post.bind (post_uint32) fun a5 b5 h5 => ?_
  refine Post.bind (post_uint16) fun a6 b6 h6 => ?_
  refine Post.last (post_uint16) fun a7 b7 h7 => ?_
  refine ⟨⟨⟨h0.1, h1.1, h2.1, h3.1, h4.1, h5.1, h6.1, h7.1⟩, trivial⟩, fun hn => ?_⟩
  exact W.Emits.bind (h0.2) <|
      W.Emits.bind (h1.2) <|
      W.Emits.bind (h2.2) <|
      W.Emits.bind (h3.2) <|
      W.Emits.bind (h4.2) <|
      W.Emits.bind (h5.2) <|
      W.Emits.bind (h6.2) <|
      h7.2

theorem HighFidelityHAVEQUICKRadio.rt (bl : Int) (hbl : 0 ≤ bl ∧ bl % 8 = 0) (s o : HighFidelityHAVEQUICKRadio) :
    RT (HighFidelityHAVEQUICKRadio.body o) (HighFidelityHAVEQUICKRadio.parse s bl) (HighFidelityHAVEQUICKRadio.after s o) := by
  unfold HighFidelityHAVEQUICKRadio.body HighFidelityHAVEQUICKRadio.parse
  exact RT.silent (StandardVariableRecord.parse_reads hbl) <|
    RT.bind (rt_uint16 o.padding1) <|
    RT.bind (NetId.rt s.netId o.netId) <|
    RT.bind (rt_uint8 o.todTransmitIndicator) <|
    RT.bind (rt_uint8 o.padding2) <|
    RT.bind (rt_uint32 o.todDelta) <|
    RT.bind (rt_uint32 o.wod1) <|
    RT.bind (rt_uint32 o.wod2) <|
    RT.bind (rt_uint32 o.wod3) <|
    RT.bind (rt_uint32 o.wod4) <|
    RT.bind (rt_uint32 o.wod5) <|
    RT.last (rt_uint32 o.wod6)

theorem HighFidelityHAVEQUICKRadio.loc (bl : Int) (s : HighFidelityHAVEQUICKRadio) : Local (HighFidelityHAVEQUICKRadio.parse s bl) := by
  unfold HighFidelityHAVEQUICKRadio.parse
  exact Local.bind (StandardVariableRecord.parse_loc bl) fun _ =>
    Local.bind (loc_uint16) fun _ =>
    Local.bind (NetId.loc _) fun _ =>
    Local.bind (loc_uint8) fun _ =>
    Local.bind (loc_uint8) fun _ =>
    Local.bind (loc_uint32) fun _ =>
    Local.bind (loc_uint32) fun _ =>
    Local.bind (loc_uint32) fun _ =>
    Local.bind (loc_uint32) fun _ =>
    Local.bind (loc_uint32) fun _ =>
    Local.bind (loc_uint32) fun _ =>
    Local.bind (loc_uint32) fun _ =>
    Local.pure _

theorem HighFidelityHAVEQUICKRadio.sized (o : HighFidelityHAVEQUICKRadio) : Sized (HighFidelityHAVEQUICKRadio.body o) (HighFidelityHAVEQUICKRadio.wireSize o) := by
  unfold HighFidelityHAVEQUICKRadio.body
  refine Sized.of_eq (Sized.bind (sized_uint16 o.padding1) <|
    Sized.bind (NetId.sized o.netId) <|
    Sized.bind (sized_uint8 o.todTransmitIndicator) <|
    Sized.bind (sized_uint8 o.padding2) <|
    Sized.bind (sized_uint32 o.todDelta) <|
    Sized.bind (sized_uint32 o.wod1) <|
    Sized.bind (sized_uint32 o.wod2) <|
    Sized.bind (sized_uint32 o.wod3) <|
    Sized.bind (sized_uint32 o.wod4) <|
    Sized.bind (sized_uint32 o.wod5) <|
    sized_uint32 o.wod6) ?_
  simp only [HighFidelityHAVEQUICKRadio.wireSize, NetId.wireSize]; try omega

theorem HighFidelityHAVEQUICKRadio.ok_iff (o : HighFidelityHAVEQUICKRadio) : (HighFidelityHAVEQUICKRadio.body o).Ok ↔ HighFidelityHAVEQUICKRadio.WireOk o := by
  unfold HighFidelityHAVEQUICKRadio.body HighFidelityHAVEQUICKRadio.WireOk
  exact ok_bind_iff (ok_uint16) <|
    ok_bind_iff (NetId.ok_iff o.netId) <|
    ok_bind_iff (ok_uint8) <|
    ok_bind_iff (ok_uint8) <|
    ok_bind_iff (ok_uint32) <|
    ok_bind_iff (ok_uint32) <|
    ok_bind_iff (ok_uint32) <|
    ok_bind_iff (ok_uint32) <|
    ok_bind_iff (ok_uint32) <|
    ok_bind_iff (ok_uint32) <|
    ok_uint32

theorem HighFidelityHAVEQUICKRadio.after_canon {o : HighFidelityHAVEQUICKRadio} (h : HighFidelityHAVEQUICKRadio.Canon o) : HighFidelityHAVEQUICKRadio.after HighFidelityHAVEQUICKRadio.init o = o := by
  have c0 := h
  cases o
  exact (HighFidelityHAVEQUICKRadio.mk.injEq ..).mpr ⟨rfl, NetId.after_canon c0, rfl, rfl, rfl, rfl, rfl, rfl, rfl, rfl, rfl⟩

theorem HighFidelityHAVEQUICKRadio.post (bl : Int) : Post (HighFidelityHAVEQUICKRadio.parse HighFidelityHAVEQUICKRadio.init bl) (fun b o => (HighFidelityHAVEQUICKRadio.WireOk o ∧ HighFidelityHAVEQUICKRadio.Canon o) ∧
    (HighFidelityHAVEQUICKRadio.NoNaN o → (HighFidelityHAVEQUICKRadio.body o).Emits b)) := by
  unfold HighFidelityHAVEQUICKRadio.parse
  refine Post.skip (StandardVariableRecord.parse_silent bl) ?_
  refine Post.bind (post_uint16) fun a0 b0 h0 => ?_
  refine Post.bind (NetId.post) fun a1 b1 h1 => ?_
  refine Post.bind (post_uint8) fun a2 b2 h2 => ?_
  refine Post.bind (post_uint8) fun a3 b3 h3 => ?_
  refine Post.bind (post_uint32) fun a4 b4 h4 => ?_
  refine Post.bind (post_uint32) fun a5 b5 h5 => ?_
  refine Post.bind (post_uint32) fun a6 b6 h6 => ?_
  refine Post.bind (post_uint32) fun a7 b7 h7 => ?_
  refine Post.bind (post_uint32) fun a8 b8 h8 => ?_
  refine Post.bind (post_uint32) fun a9 b9 h9 => ?_
  refine Post.last (post_uint32) fun a10 b10 h10 => ?_
  refine ⟨⟨⟨h0.1, h1.1.1, h2.1, h3.1, h4.1, h5.1, h6.1, h7.1, h8.1, h9.1, h10.1⟩, h1.1.2⟩, fun hn => ?_⟩
  have n0 := hn
  exact W.Emits.bind (h0.2) <|
      W.Emits.bind (h1.2 n0) <|
      W.Emits.bind (h2.2) <|
      W.Emits.bind (h3.2) <|
      W.Emits.bind (h4.2) <|
      W.Emits.bind (h5.2) <|
      W.Emits.bind (h6.2) <|
      W.Emits.bind (h7.2) <|
      W.Emits.bind (h8.2) <|
      W.Emits.bind (h9.2) <|
      h10.2

theorem DirectedEnergyDamage.rt (bl : Int) (hbl : 0 ≤ bl ∧ bl % 8 = 0) (s o : DirectedEnergyDamage) :
    RT (DirectedEnergyDamage.body o) (DirectedEnergyDamage.parse s bl) (DirectedEnergyDamage.after s o) := by
  unfold DirectedEnergyDamage.body DirectedEnergyDamage.parse
  exact RT.silent (StandardVariableRecord.parse_reads hbl) <|
    RT.bind (rt_uint16 o.padding) <|
    RT.bind (Vector3Float.rt s.damageLocation o.damageLocation) <|
    RT.bind (rt_float32 o.damageDiameter) <|
    RT.bind (rt_float32 o.temperature) <|
    RT.bind (rt_uint8 o.componentIdentification) <|
    RT.bind (rt_uint8 o.componentDamageStatus) <|
    RT.bind (rt_uint8 o.componentVisualDamageStatus) <|
    RT.bind (rt_uint8 o.componentVisualSmokeColor) <|
    RT.bind (EventIdentifier.rt s.fireEventID o.fireEventID) <|
    RT.last (rt_uint16 o.padding2)

theorem DirectedEnergyDamage.loc (bl : Int) (s : DirectedEnergyDamage) : Local (DirectedEnergyDamage.parse s bl) := by
  unfold DirectedEnergyDamage.parse
  exact Local.bind (StandardVariableRecord.parse_loc bl) fun _ =>
    Local.bind (loc_uint16) fun _ =>
    Local.bind (Vector3Float.loc _) fun _ =>
    Local.bind (loc_float32) fun _ =>
    Local.bind (loc_float32) fun _ =>
    Local.bind (loc_uint8) fun _ =>
    Local.bind (loc_uint8) fun _ =>
    Local.bind (loc_uint8) fun _ =>
    Local.bind (loc_uint8) fun _ =>
    Local.bind (EventIdentifier.loc _) fun _ =>
    Local.bind (loc_uint16) fun _ =>
    Local.pure _

theorem DirectedEnergyDamage.sized (o : DirectedEnergyDamage) : Sized (DirectedEnergyDamage.body o) (DirectedEnergyDamage.wireSize o) := by
  unfold DirectedEnergyDamage.body
  refine Sized.of_eq (Sized.bind (sized_uint16 o.padding) <|
    Sized.bind (Vector3Float.sized o.damageLocation) <|
    Sized.bind (sized_float32 o.damageDiameter) <|
    Sized.bind (sized_float32 o.temperature) <|
    Sized.bind (sized_uint8 o.componentIdentification) <|
    Sized.bind (sized_uint8 o.componentDamageStatus) <|
    Sized.bind (sized_uint8 o.componentVisualDamageStatus) <|
    Sized.bind (sized_uint8 o.componentVisualSmokeColor) <|
    Sized.bind (EventIdentifier.sized o.fireEventID) <|
    sized_uint16 o.padding2) ?_
  simp only [DirectedEnergyDamage.wireSize, EventIdentifier.wireSize, Vector3Float.wireSize]; try omega

theorem DirectedEnergyDamage.ok_iff (o : DirectedEnergyDamage) : (DirectedEnergyDamage.body o).Ok ↔ DirectedEnergyDamage.WireOk o := by
  unfold DirectedEnergyDamage.body DirectedEnergyDamage.WireOk
  exact ok_bind_iff (ok_uint16) <|
    ok_bind_iff (Vector3Float.ok_iff o.damageLocation) <|
    ok_bind_iff (ok_float32) <|
    ok_bind_iff (ok_float32) <|
    ok_bind_iff (ok_uint8) <|
    ok_bind_iff (ok_uint8) <|
    ok_bind_iff (ok_uint8) <|
    ok_bind_iff (ok_uint8) <|
    ok_bind_iff (EventIdentifier.ok_iff o.fireEventID) <|
    ok_uint16

theorem DirectedEnergyDamage.after_canon {o : DirectedEnergyDamage} (h : DirectedEnergyDamage.Canon o) : DirectedEnergyDamage.after DirectedEnergyDamage.init o = o := by
  obtain ⟨c0, c1, c2, c3⟩ := h
  cases o
  exact (DirectedEnergyDamage.mk.injEq ..).mpr ⟨rfl, Vector3Float.after_canon c0, c1, c2, rfl, rfl, rfl, rfl, EventIdentifier.after_canon c3, rfl⟩

theorem DirectedEnergyDamage.post (bl : Int) : Post (DirectedEnergyDamage.parse DirectedEnergyDamage.init bl) (fun b o => (DirectedEnergyDamage.WireOk o ∧ DirectedEnergyDamage.Canon o) ∧
    (DirectedEnergyDamage.NoNaN o → (DirectedEnergyDamage.body o).Emits b)) := by
  unfold DirectedEnergyDamage.parse
  refine Post.skip (StandardVariableRecord.parse_silent bl) ?_
  refine Post.bind (post_uint16) fun a0 b0 h0 => ?_
  refine Post.bind (Vector3Float.post) fun a1 b1 h1 => ?_
  refine Post.bind (post_float32) fun a2 b2 h2 => ?_
  refine Post.bind (post_float32) fun a3 b3 h3 => ?_
  refine Post.bind (post_uint8) fun a4 b4 h4 => ?_
  refine Post.bind (post_uint8) fun a5 b5 h5 => ?_
  refine Post.bind (post_uint8) fun a6 b6 h6 => ?_
  refine Post.bind (post_uint8) fun a7 b7 h7 => ?_
  refine Post.bind (EventIdentifier.post) fun a8 b8 h8 => ?_
  refine Post.last (post_uint16) fun a9 b9 h9 => ?_
  refine ⟨⟨⟨h0.1, h1.1.1, h2.1.1, h3.1.1, h4.1, h5.1, h6.1, h7.1, h8.1.1, h9.1⟩, ⟨h1.1.2, h2.1.2, h3.1.2, h8.1.2⟩⟩, fun hn => ?_⟩
  obtain ⟨n0, n1, n2, n3⟩ := hn
  exact W.Emits.bind (h0.2) <|
      W.Emits.bind (h1.2 n0) <|
      W.Emits.bind (h2.2 n1) <|
      W.Emits.bind (h3.2 n2) <|
      W.Emits.bind (h4.2) <|
      W.Emits.bind (h5.2) <|
      W.Emits.bind (h6.2) <|
      W.Emits.bind (h7.2) <|
      W.Emits.bind (h8.2 n3) <|
      h9.2

theorem DirectedEnergyTargetEnergyDeposition.rt (s o : DirectedEnergyTargetEnergyDeposition) :
    RT (DirectedEnergyTargetEnergyDeposition.serialize o) (DirectedEnergyTargetEnergyDeposition.parse s) (DirectedEnergyTargetEnergyDeposition.after s o) := by
  unfold DirectedEnergyTargetEnergyDeposition.serialize DirectedEnergyTargetEnergyDeposition.parse
  exact RT.bind (EntityIdentifier.rt s.targetEntityID o.targetEntityID) <|
    RT.bind (rt_uint16 o.padding) <|
    RT.last (rt_float32 o.peakIrradiance)

theorem DirectedEnergyTargetEnergyDeposition.loc (s : DirectedEnergyTargetEnergyDeposition) : Local (DirectedEnergyTargetEnergyDeposition.parse s) := by
  unfold DirectedEnergyTargetEnergyDeposition.parse
  exact Local.bind (EntityIdentifier.loc _) fun _ =>
    Local.bind (loc_uint16) fun _ =>
    Local.bind (loc_float32) fun _ =>
    Local.pure _

theorem DirectedEnergyTargetEnergyDeposition.sized (o : DirectedEnergyTargetEnergyDeposition) : Sized (DirectedEnergyTargetEnergyDeposition.serialize o) (DirectedEnergyTargetEnergyDeposition.wireSize o) := by
  unfold DirectedEnergyTargetEnergyDeposition.serialize
  refine Sized.of_eq (Sized.bind (EntityIdentifier.sized o.targetEntityID) <|
    Sized.bind (sized_uint16 o.padding) <|
    sized_float32 o.peakIrradiance) ?_
  simp only [DirectedEnergyTargetEnergyDeposition.wireSize, EntityIdentifier.wireSize]; try omega

theorem DirectedEnergyTargetEnergyDeposition.ok_iff (o : DirectedEnergyTargetEnergyDeposition) : (DirectedEnergyTargetEnergyDeposition.serialize o).Ok ↔ DirectedEnergyTargetEnergyDeposition.WireOk o := by
  unfold DirectedEnergyTargetEnergyDeposition.serialize DirectedEnergyTargetEnergyDeposition.WireOk
  exact ok_bind_iff (EntityIdentifier.ok_iff o.targetEntityID) <|
    ok_bind_iff (ok_uint16) <|
    ok_float32

theorem DirectedEnergyTargetEnergyDeposition.after_canon {o : DirectedEnergyTargetEnergyDeposition} (h : DirectedEnergyTargetEnergyDeposition.Canon o) : DirectedEnergyTargetEnergyDeposition.after DirectedEnergyTargetEnergyDeposition.init o = o := by
  obtain ⟨c0, c1⟩ := h
  cases o
  exact (DirectedEnergyTargetEnergyDeposition.mk.injEq ..).mpr ⟨EntityIdentifier.after_canon c0, rfl, c1⟩

theorem DirectedEnergyTargetEnergyDeposition.post : Post (DirectedEnergyTargetEnergyDeposition.parse DirectedEnergyTargetEnergyDeposition.init) (fun b o => (DirectedEnergyTargetEnergyDeposition.WireOk o ∧ DirectedEnergyTargetEnergyDeposition.Canon o) ∧
    (DirectedEnergyTargetEnergyDeposition.NoNaN o → (DirectedEnergyTargetEnergyDeposition.serialize o).Emits b)) := by
  unfold DirectedEnergyTargetEnergyDeposition.parse
  refine Post.bind (EntityIdentifier.post) fun a0 b0 h0 => ?_
  refine Post.bind (post_uint16) fun a1 b1 h1 => ?_
  refine Post.last (post_float32) fun a2 b2 h2 => ?_
  refine ⟨⟨⟨h0.1.1, h1.1, h2.1.1⟩, ⟨h0.1.2, h2.1.2⟩⟩, fun hn => ?_⟩
  obtain ⟨n0, n1⟩ := hn
  exact W.Emits.bind (h0.2 n0) <|
      W.Emits.bind (h1.2) <|
      h2.2 n1

theorem DirectedEnergyPrecisionAimpoint.rt (bl : Int) (hbl : 0 ≤ bl ∧ bl % 8 = 0) (s o : DirectedEnergyPrecisionAimpoint) :
    RT (DirectedEnergyPrecisionAimpoint.body o) (DirectedEnergyPrecisionAimpoint.parse s bl) (DirectedEnergyPrecisionAimpoint.after s o) := by
  unfold DirectedEnergyPrecisionAimpoint.body DirectedEnergyPrecisionAimpoint.parse
  exact RT.silent (StandardVariableRecord.parse_reads hbl) <|
    RT.bind (rt_uint16 o.padding) <|
    RT.bind (WorldCoordinates.rt s.targetSpotLocation o.targetSpotLocation) <|
    RT.bind (Vector3Float.rt s.targetSpotEntityLocation o.targetSpotEntityLocation) <|
    RT.bind (Vector3Float.rt s.targetSpotVelocity o.targetSpotVelocity) <|
    RT.bind (Vector3Float.rt s.targetSpotAcceleration o.targetSpotAcceleration) <|
    RT.bind (EntityIdentifier.rt s.targetEntityID o.targetEntityID) <|
    RT.bind (rt_uint8 o.targetComponentID) <|
    RT.bind (rt_uint8 o.beamSpotType) <|
    RT.bind (rt_float32 o.beamSpotCrossSectionSemiMajorAxis) <|
    RT.bind (rt_float32 o.beamSpotCrossSectionSemiMinorAxis) <|
    RT.bind (rt_float32 o.beamSpotCrossSectionOrientationAngle) <|
    RT.bind (rt_float32 o.peakIrradiance) <|
    RT.last (rt_uint32 o.padding2)

theorem DirectedEnergyPrecisionAimpoint.loc (bl : Int) (s : DirectedEnergyPrecisionAimpoint) : Local (DirectedEnergyPrecisionAimpoint.parse s bl) := by
  unfold DirectedEnergyPrecisionAimpoint.parse
  exact Local.bind (StandardVariableRecord.parse_loc bl) fun _ =>
    Local.bind (loc_uint16) fun _ =>
    Local.bind (WorldCoordinates.loc _) fun _ =>
    Local.bind (Vector3Float.loc _) fun _ =>
    Local.bind (Vector3Float.loc _) fun _ =>
    Local.bind (Vector3Float.loc _) fun _ =>
    Local.bind (EntityIdentifier.loc _) fun _ =>
    Local.bind (loc_uint8) fun _ =>
    Local.bind (loc_uint8) fun _ =>
    Local.bind (loc_float32) fun _ =>
    Local.bind (loc_float32) fun _ =>
    Local.bind (loc_float32) fun _ =>
    Local.bind (loc_float32) fun _ =>
    Local.bind (loc_uint32) fun _ =>
    Local.pure _

theorem DirectedEnergyPrecisionAimpoint.sized (o : DirectedEnergyPrecisionAimpoint) : Sized (DirectedEnergyPrecisionAimpoint.body o) (DirectedEnergyPrecisionAimpoint.wireSize o) := by
  unfold DirectedEnergyPrecisionAimpoint.body
  refine Sized.of_eq (Sized.bind (sized_uint16 o.padding) <|
    Sized.bind (WorldCoordinates.sized o.targetSpotLocation) <|
    Sized.bind (Vector3Float.sized o.targetSpotEntityLocation) <|
    Sized.bind (Vector3Float.sized o.targetSpotVelocity) <|
    Sized.bind (Vector3Float.sized o.targetSpotAcceleration) <|
    Sized.bind (EntityIdentifier.sized o.targetEntityID) <|
    Sized.bind (sized_uint8 o.targetComponentID) <|
    Sized.bind (sized_uint8 o.beamSpotType) <|
    Sized.bind (sized_float32 o.beamSpotCrossSectionSemiMajorAxis) <|
    Sized.bind (sized_float32 o.beamSpotCrossSectionSemiMinorAxis) <|
    Sized.bind (sized_float32 o.beamSpotCrossSectionOrientationAngle) <|
    Sized.bind (sized_float32 o.peakIrradiance) <|
    sized_uint32 o.padding2) ?_
  simp only [DirectedEnergyPrecisionAimpoint.wireSize, EntityIdentifier.wireSize, Vector3Float.wireSize, WorldCoordinates.wireSize]; try omega

theorem DirectedEnergyPrecisionAimpoint.ok_iff (o : DirectedEnergyPrecisionAimpoint) : (DirectedEnergyPrecisionAimpoint.body o).Ok ↔ DirectedEnergyPrecisionAimpoint.WireOk o := by
  unfold DirectedEnergyPrecisionAimpoint.body DirectedEnergyPrecisionAimpoint.WireOk
  exact ok_bind_iff (ok_uint16) <|
    ok_bind_iff (WorldCoordinates.ok_iff o.targetSpotLocation) <|
    ok_bind_iff (Vector3Float.ok_iff o.targetSpotEntityLocation) <|
    ok_bind_iff (Vector3Float.ok_iff o.targetSpotVelocity) <|
    ok_bind_iff (Vector3Float.ok_iff o.targetSpotAcceleration) <|
    ok_bind_iff (EntityIdentifier.ok_iff o.targetEntityID) <|
    ok_bind_iff (ok_uint8) <|
    ok_bind_iff (ok_uint8) <|
    ok_bind_iff (ok_float32) <|
    ok_bind_iff (ok_float32) <|
    ok_bind_iff (ok_float32) <|
    ok_bind_iff (ok_float32) <|
    ok_uint32

theorem DirectedEnergyPrecisionAimpoint.after_canon {o : DirectedEnergyPrecisionAimpoint} (h : DirectedEnergyPrecisionAimpoint.Canon o) : DirectedEnergyPrecisionAimpoint.after DirectedEnergyPrecisionAimpoint.init o = o := by
  obtain ⟨c0, c1, c2, c3, c4, c5, c6, c7, c8⟩ := h
  cases o
  exact (DirectedEnergyPrecisionAimpoint.mk.injEq ..).mpr ⟨rfl, WorldCoordinates.after_canon c0, Vector3Float.after_canon c1, Vector3Float.after_canon c2, Vector3Float.after_canon c3, EntityIdentifier.after_canon c4, rfl, rfl, c5, c6, c7, c8, rfl⟩

theorem DirectedEnergyPrecisionAimpoint.post (bl : Int) : Post (DirectedEnergyPrecisionAimpoint.parse DirectedEnergyPrecisionAimpoint.init bl) (fun b o => (DirectedEnergyPrecisionAimpoint.WireOk o ∧ DirectedEnergyPrecisionAimpoint.Canon o) ∧
    (DirectedEnergyPrecisionAimpoint.NoNaN o → (DirectedEnergyPrecisionAimpoint.body o).Emits b)) := by
  unfold DirectedEnergyPrecisionAimpoint.parse
  refine Post.skip (StandardVariableRecord.parse_silent bl) ?_
  refine Post.bind (post_uint16) fun a0 b0 h0 => ?_
  refine Post.bind (WorldCoordinates.post) fun a1 b1 h1 => ?_
  refine Post.bind (Vector3Float.post) fun a2 b2 h2 => ?_
  refine Post.bind (Vector3Float.post) fun a3 b3 h3 => ?_
  refine Post.bind (Vector3Float.post) fun a4 b4 h4 => ?_
  refine Post.bind (EntityIdentifier.post) fun a5 b5 h5 => ?_
  refine Post.bind (post_uint8) fun a6 b6 h6 => ?_
  refine Post.bind (post_uint8) fun a7 b7 h7 => ?_
  refine Post.bind (post_float32) fun a8 b8 h8 => ?_
  refine Post.bind (post_float32) fun a9 b9 h9 => ?_
  refine Post.bind (post_float32) fun a10 b10 h10 => ?_
  refine Post.bind (post_float32) fun a11 b11 h11 => ?_
  refine Post.last (post_uint32) fun a12 b12 h12 => ?_
  refine ⟨⟨⟨h0.1, h1.1.1, h2.1.1, h3.1.1, h4.1.1, h5.1.1, h6.1, h7.1, h8.1.1, h9.1.1, h10.1.1, h11.1.1, h12.1⟩, ⟨h1.1.2, h2.1.2, h3.1.2, h4.1.2, h5.1.2, h8.1.2, h9.1.2, h10.1.2, h11.1.2⟩⟩, fun hn => ?_⟩
  obtain ⟨n0, n1, n2, n3, n4, n5, n6, n7, n8⟩ := hn
  exact W.Emits.bind (h0.2) <|
      W.Emits.bind (h1.2 n0) <|
      W.Emits.bind (h2.2 n1) <|
      W.Emits.bind (h3.2 n2) <|
      W.Emits.bind (h4.2 n3) <|
      W.Emits.bind (h5.2 n4) <|
      W.Emits.bind (h6.2) <|
      W.Emits.bind (h7.2) <|
      W.Emits.bind (h8.2 n5) <|
      W.Emits.bind (h9.2 n6) <|
      W.Emits.bind (h10.2 n7) <|
      W.Emits.bind (h11.2 n8) <|
      h12.2

end Dis
