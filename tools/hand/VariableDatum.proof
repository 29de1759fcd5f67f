theorem VariableDatum.padding_eq (o : VariableDatum) :
    o.datumPaddingSizeInBits = (-o.variableDatumLength) % 64 := by
  unfold VariableDatum.datumPaddingSizeInBits
  split <;> omega

theorem VariableDatum.rt (s o : VariableDatum) :
    RT (VariableDatum.serialize o) (VariableDatum.parse s) (VariableDatum.after s o) := by
  unfold VariableDatum.serialize VariableDatum.parse
  exact RT.bind (rt_unsigned_int o.variableDatumID) <|
    RT.bind (rt_unsigned_int o.variableDatumLength) <|
    RT.bind (rt_array rt_unsigned_byte o.variableData _) <|
    RT.last (rt_pad rt_unsigned_byte 0 _ _)

theorem VariableDatum.loc (s : VariableDatum) : Local (VariableDatum.parse s) := by
  unfold VariableDatum.parse
  exact Local.bind loc_unsigned_int fun _ => Local.bind loc_unsigned_int fun _ =>
    Local.bind (Local.times loc_unsigned_byte _) fun _ =>
    Local.bind (Local.times loc_unsigned_byte _) fun _ => Local.pure _

theorem VariableDatum.only (s : VariableDatum) : OnlyStruct (VariableDatum.parse s) := by
  unfold VariableDatum.parse
  exact OnlyStruct.bind only_unsigned_int fun _ => OnlyStruct.bind only_unsigned_int fun _ =>
    OnlyStruct.bind (OnlyStruct.times only_unsigned_byte _) fun _ =>
    OnlyStruct.bind (OnlyStruct.times only_unsigned_byte _) fun _ => OnlyStruct.pure _

theorem VariableDatum.sized (o : VariableDatum) :
    Sized (VariableDatum.serialize o) (VariableDatum.wireSize o) := by
  unfold VariableDatum.serialize
  refine Sized.of_eq (Sized.bind (sized_unsigned_int _) <| Sized.bind (sized_unsigned_int _) <|
    Sized.bind (sized_array sized_unsigned_byte _ _ _) <| sized_pad (sized_unsigned_byte 0) _ _) ?_
  rw [VariableDatum.padding_eq]
  simp only [VariableDatum.wireSize]; omega

theorem VariableDatum.ok_iff (o : VariableDatum) :
    (VariableDatum.serialize o).Ok ↔ VariableDatum.WireOk o := by
  unfold VariableDatum.serialize VariableDatum.WireOk
  refine ok_bind_iff ok_unsigned_int <| ok_bind_iff ok_unsigned_int ?_
  rw [W.ok_bind, forRange_index_ok]
  have hp : (W.forRange 0 (o.datumPaddingSizeInBits / 8).toNat fun _ => write_unsigned_byte 0).Ok :=
    ok_pad (ok_unsigned_byte.2 ⟨by decide, by decide⟩) _ _
  simp only [List.drop_zero, Nat.zero_add, hp, and_true, ok_unsigned_byte]
  constructor
  · rintro ⟨h1, h2⟩; exact ⟨by omega, h2⟩
  · rintro ⟨h1, h2⟩; exact ⟨by omega, h2⟩

theorem VariableDatum.after_canon {o : VariableDatum} (h : VariableDatum.Canon o) :
    VariableDatum.after VariableDatum.init o = o := by
  cases o
  exact (VariableDatum.mk.injEq ..).mpr ⟨rfl, rfl, List.take_of_length_le (Nat.le_of_eq h)⟩

theorem VariableDatum.post : Post (VariableDatum.parse VariableDatum.init)
    (fun _ o => VariableDatum.WireOk o ∧ VariableDatum.Canon o) := by
  unfold VariableDatum.parse
  refine Post.bind post_unsigned_int fun a0 b0 h0 => ?_
  refine Post.bind post_unsigned_int fun a1 b1 h1 => ?_
  refine Post.bind (Post.times_all post_unsigned_byte _) fun a2 b2 h2 => ?_
  refine Post.last (Post.times_all post_unsigned_byte _) fun a3 b3 h3 => ?_
  exact ⟨⟨h0.1, h1.1, Nat.le_of_eq h2.1.symm, fun x hx => h2.2.1 x (List.mem_of_mem_take hx)⟩, h2.1⟩
