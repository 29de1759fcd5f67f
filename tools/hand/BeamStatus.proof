theorem BeamStatus.rt (s o : BeamStatus) :
    RT (BeamStatus.serialize o) (BeamStatus.parse s) (BeamStatus.after s o) := by
  unfold BeamStatus.serialize BeamStatus.parse
  refine RT.of_eq (RT.last (rt_unsigned_byte (o.beamState % 2))) ?_
  unfold BeamStatus.after
  rw [Int.emod_emod_of_dvd _ (by decide)]

theorem BeamStatus.loc (s : BeamStatus) : Local (BeamStatus.parse s) := by
  unfold BeamStatus.parse
  exact Local.bind loc_unsigned_byte fun _ => Local.pure _

theorem BeamStatus.only (s : BeamStatus) : OnlyStruct (BeamStatus.parse s) := by
  unfold BeamStatus.parse
  exact OnlyStruct.bind only_unsigned_byte fun _ => OnlyStruct.pure _

theorem BeamStatus.sized (o : BeamStatus) : Sized (BeamStatus.serialize o) (BeamStatus.wireSize o) :=
  sized_unsigned_byte _

theorem BeamStatus.ok_iff (o : BeamStatus) : (BeamStatus.serialize o).Ok ↔ BeamStatus.WireOk o := by
  refine iff_of_true (ok_unsigned_byte.2 ?_) trivial
  unfold U8; omega

theorem BeamStatus.after_canon {o : BeamStatus} (h : BeamStatus.Canon o) :
    BeamStatus.after BeamStatus.init o = o := by
  cases o
  refine (BeamStatus.mk.injEq ..).mpr ?_
  rcases h with h | h <;> · simp only at h ⊢; subst h; rfl

theorem BeamStatus.post : Post (BeamStatus.parse BeamStatus.init)
    (fun _ o => BeamStatus.WireOk o ∧ BeamStatus.Canon o) := by
  unfold BeamStatus.parse
  refine Post.last post_unsigned_byte fun a0 b0 h0 => ⟨trivial, ?_⟩
  unfold BeamStatus.Canon
  simp only
  omega
