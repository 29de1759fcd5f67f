theorem IFFData.rt (s o : IFFData) (hd : IFFData.Decodable o) :
    RT (IFFData.serialize o) (IFFData.parse s) (IFFData.after s o) := by
  obtain ⟨t, l, d⟩ := o
  cases (show d = [] from hd)
  unfold IFFData.serialize IFFData.parse
  exact RT.bind (rt_unsigned_int t) <| RT.bind (rt_unsigned_short 0) <| RT.last (RT.pure _ _)

theorem IFFData.loc (s : IFFData) : Local (IFFData.parse s) := by
  unfold IFFData.parse
  exact Local.bind loc_unsigned_int fun _ => Local.bind loc_unsigned_short fun _ =>
    Local.bind (Local.times loc_unsigned_byte _) fun _ => Local.pure _

theorem IFFData.only (s : IFFData) : OnlyStruct (IFFData.parse s) := by
  unfold IFFData.parse
  exact OnlyStruct.bind only_unsigned_int fun _ => OnlyStruct.bind only_unsigned_short fun _ =>
    OnlyStruct.bind (OnlyStruct.times only_unsigned_byte _) fun _ => OnlyStruct.pure _

theorem IFFData.sized (o : IFFData) : Sized (IFFData.serialize o) (IFFData.wireSize o) := by
  unfold IFFData.serialize
  refine Sized.of_eq (Sized.bind (sized_unsigned_int _) <| Sized.bind (sized_unsigned_short _) <|
    Sized.forEach_const sized_unsigned_byte) ?_
  simp only [IFFData.wireSize]; omega

theorem IFFData.ok_iff (o : IFFData) : (IFFData.serialize o).Ok ↔ IFFData.WireOk o := by
  unfold IFFData.serialize IFFData.WireOk
  exact ok_bind_iff ok_unsigned_int <| ok_bind_iff ok_unsigned_short <|
    ok_list fun _ => ok_unsigned_byte

theorem IFFData.after_canon {o : IFFData} (h : IFFData.Canon o) :
    IFFData.after IFFData.init o = o := by
  cases o
  exact (IFFData.mk.injEq ..).mpr ⟨rfl, h.1.symm, h.2.symm⟩

theorem IFFData.post : Post (IFFData.parse IFFData.init) (fun b o => IFFData.Live o →
    (IFFData.WireOk o ∧ IFFData.Canon o) ∧ (IFFData.NoNaN o → (IFFData.serialize o).Emits b)) := by
  unfold IFFData.parse
  refine Post.bind post_unsigned_int fun a0 b0 h0 => ?_
  refine Post.bind post_unsigned_short fun a1 b1 h1 => ?_
  refine Post.last (Post.times_all post_unsigned_byte _) fun a2 b2 h2 => ?_
  intro hl
  obtain rfl : a1 = 0 := hl
  obtain rfl : a2 = [] := List.eq_nil_of_length_eq_zero h2.1
  exact ⟨⟨⟨h0.1, h1.1, fun _ hx => nomatch hx⟩, rfl, rfl⟩,
    fun _ => W.Emits.bind h0.2 <| W.Emits.bind h1.2 h2.2.2⟩
