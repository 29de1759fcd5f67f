theorem SilentAggregateSystem.rt (s o : SilentAggregateSystem) :
    RT (SilentAggregateSystem.serialize o) (SilentAggregateSystem.parse s)
      (SilentAggregateSystem.after s o) := by
  unfold SilentAggregateSystem.serialize SilentAggregateSystem.parse
  refine RT.bind (rt_unsigned_short o.numberOfAggregates) <| RT.last ?_
  cases o.entityType with
  | none => exact RT.of_not_ok (W.not_ok_throw _)
  | some t => exact AggregateType.rt _ t

theorem SilentAggregateSystem.loc (s : SilentAggregateSystem) :
    Local (SilentAggregateSystem.parse s) := by
  unfold SilentAggregateSystem.parse
  exact Local.bind loc_unsigned_short fun _ => Local.bind (AggregateType.loc _) fun _ => Local.pure _

theorem SilentAggregateSystem.only (s : SilentAggregateSystem) :
    OnlyStruct (SilentAggregateSystem.parse s) := by
  unfold SilentAggregateSystem.parse
  exact OnlyStruct.bind only_unsigned_short fun _ =>
    OnlyStruct.bind (AggregateType.only _) fun _ => OnlyStruct.pure _

theorem SilentAggregateSystem.sized (o : SilentAggregateSystem) :
    Sized (SilentAggregateSystem.serialize o) (SilentAggregateSystem.wireSize o) := by
  unfold SilentAggregateSystem.serialize
  exact Sized.bind (n := 2) (m := 8) (sized_unsigned_short _) (sized_using AggregateType.sized)

theorem SilentAggregateSystem.ok_iff (o : SilentAggregateSystem) :
    (SilentAggregateSystem.serialize o).Ok ↔ SilentAggregateSystem.WireOk o := by
  unfold SilentAggregateSystem.serialize SilentAggregateSystem.WireOk
  refine ok_bind_iff ok_unsigned_short ?_
  rw [ok_using_attr]
  simp only [AggregateType.ok_iff]

theorem SilentAggregateSystem.after_canon {o : SilentAggregateSystem}
    (h : SilentAggregateSystem.Canon o) :
    SilentAggregateSystem.after SilentAggregateSystem.init o = o := h.elim

theorem SilentAggregateSystem.post : Post (SilentAggregateSystem.parse SilentAggregateSystem.init)
    (fun b o => SilentAggregateSystem.Live o →
      (SilentAggregateSystem.WireOk o ∧ SilentAggregateSystem.Canon o) ∧
      (SilentAggregateSystem.NoNaN o → (SilentAggregateSystem.serialize o).Emits b)) := by
  unfold SilentAggregateSystem.parse
  refine Post.bind post_unsigned_short fun a0 b0 h0 => ?_
  refine Post.last AggregateType.post fun a1 b1 h1 hl => hl.elim
