import Verif.Proof.Pdus5
import Verif.Proof.Stream2

/-!
# A parse that succeeds consumed the wire size of its result

Generated by `tools/gentakes.py`.
-/

set_option linter.unusedVariables false
set_option linter.unusedSimpArgs false

namespace Dis

/-- If `r` succeeds with `a`, it consumed `m a` bytes. -/
abbrev Takes {α : Type} (r : R α) (m : α → Nat) : Prop := Post r (fun b a => b.length = m a)

theorem Takes.times {α} {r : R α} {m : α → Nat} (h : Takes r m) (n : Nat) :
    Post (R.times n r) (fun b l => b.length = (l.map m).sum ∧ l.length = n) := by
  induction n with
  | zero => exact Post.pure _ ⟨rfl, rfl⟩
  | succ n ih =>
    refine Post.bind h fun x b1 h1 => Post.last ih fun xs b2 h2 => ⟨?_, by simp [h2.2]⟩
    simp [h1, h2.1]

theorem Takes.times_const {α} {r : R α} {m : α → Nat} {k : Nat} (h : Takes r m) (hk : ∀ a, m a = k) (n : Nat) :
    Post (R.times n r) (fun b l => b.length = k * l.length ∧ l.length = n) := by
  refine (Takes.times h n).mono fun b l hl => ⟨?_, hl.2⟩
  rw [hl.1]
  clear hl
  induction l with
  | nil => rfl
  | cons x xs ih => simp only [List.map_cons, List.sum_cons, ih, hk, List.length_cons, Nat.mul_add]; omega

theorem len_boolean : Takes read_boolean (fun _ => 1) :=
  (post_readFixed fun b v h => by
    cases hu : unpackU 1 b with
    | ok w => exact unpackU_len hu
    | error e => rw [hu] at h; cases h).mono fun b v h => by
    cases hu : unpackU 1 b with
    | ok w => exact unpackU_len hu
    | error e => rw [hu] at h; cases h

theorem len_byte : Takes read_byte (fun _ => 1) :=
  (post_readFixed fun _ _ => unpackS_len).mono fun _ _ => unpackS_len

theorem len_unsigned_byte : Takes read_unsigned_byte (fun _ => 1) :=
  (post_readFixed fun _ _ => unpackU_len).mono fun _ _ => unpackU_len

theorem len_uint8 : Takes read_uint8 (fun _ => 1) :=
  (post_readFixed fun _ _ => unpackU_len).mono fun _ _ => unpackU_len

theorem len_int8 : Takes read_int8 (fun _ => 1) :=
  (post_readFixed fun _ _ => unpackS_len).mono fun _ _ => unpackS_len

theorem len_short : Takes read_short (fun _ => 2) :=
  (post_readFixed fun _ _ => unpackS_len).mono fun _ _ => unpackS_len

theorem len_unsigned_short : Takes read_unsigned_short (fun _ => 2) :=
  (post_readFixed fun _ _ => unpackU_len).mono fun _ _ => unpackU_len

theorem len_uint16 : Takes read_uint16 (fun _ => 2) :=
  (post_readFixed fun _ _ => unpackU_len).mono fun _ _ => unpackU_len

theorem len_int16 : Takes read_int16 (fun _ => 2) :=
  (post_readFixed fun _ _ => unpackS_len).mono fun _ _ => unpackS_len

theorem len_int : Takes read_int (fun _ => 4) :=
  (post_readFixed fun _ _ => unpackS_len).mono fun _ _ => unpackS_len

theorem len_unsigned_int : Takes read_unsigned_int (fun _ => 4) :=
  (post_readFixed fun _ _ => unpackU_len).mono fun _ _ => unpackU_len

theorem len_uint32 : Takes read_uint32 (fun _ => 4) :=
  (post_readFixed fun _ _ => unpackU_len).mono fun _ _ => unpackU_len

theorem len_int32 : Takes read_int32 (fun _ => 4) :=
  (post_readFixed fun _ _ => unpackS_len).mono fun _ _ => unpackS_len

theorem len_long : Takes read_long (fun _ => 8) :=
  (post_readFixed fun _ _ => unpackS_len).mono fun _ _ => unpackS_len

theorem len_int64 : Takes read_int64 (fun _ => 8) :=
  (post_readFixed fun _ _ => unpackS_len).mono fun _ _ => unpackS_len

theorem len_uint64 : Takes read_uint64 (fun _ => 8) :=
  (post_readFixed fun _ _ => unpackS_len).mono fun _ _ => unpackS_len

theorem len_float : Takes read_float (fun _ => 4) :=
  (post_readFixed fun _ _ => unpackF_len).mono fun _ _ => unpackF_len

theorem len_float32 : Takes read_float32 (fun _ => 4) :=
  (post_readFixed fun _ _ => unpackF_len).mono fun _ _ => unpackF_len

theorem len_double : Takes read_double (fun _ => 8) :=
  (post_readFixed fun _ _ => unpackD_len).mono fun _ _ => unpackD_len

theorem len_float64 : Takes read_float64 (fun _ => 8) :=
  (post_readFixed fun _ _ => unpackD_len).mono fun _ _ => unpackD_len

theorem SimulationAddress.takes : Takes (SimulationAddress.parse SimulationAddress.init) SimulationAddress.wireSize := by
  unfold SimulationAddress.parse
  refine Post.bind len_unsigned_short fun a0 b0 h0 => ?_
  refine Post.bind len_unsigned_short fun a1 b1 h1 => ?_
  refine Post.pure _ ?_
  simp only [List.length_append, List.length_nil, SimulationAddress.init, List.nil_append, h0, h1, SimulationAddress.wireSize]
  all_goals clear h0 h1
  all_goals omega

theorem EntityIdentifier.takes : Takes (EntityIdentifier.parse EntityIdentifier.init) EntityIdentifier.wireSize := by
  unfold EntityIdentifier.parse
  refine Post.bind SimulationAddress.takes fun a0 b0 h0 => ?_
  refine Post.bind len_uint16 fun a1 b1 h1 => ?_
  refine Post.pure _ ?_
  simp only [List.length_append, List.length_nil, EntityIdentifier.init, List.nil_append, h0, h1, EntityIdentifier.wireSize, SimulationAddress.wireSize]
  all_goals clear h0 h1
  all_goals omega

theorem EulerAngles.takes : Takes (EulerAngles.parse EulerAngles.init) EulerAngles.wireSize := by
  unfold EulerAngles.parse
  refine Post.bind len_float32 fun a0 b0 h0 => ?_
  refine Post.bind len_float32 fun a1 b1 h1 => ?_
  refine Post.bind len_float32 fun a2 b2 h2 => ?_
  refine Post.pure _ ?_
  simp only [List.length_append, List.length_nil, EulerAngles.init, List.nil_append, h0, h1, h2, EulerAngles.wireSize]
  all_goals clear h0 h1 h2
  all_goals omega

theorem EventIdentifier.takes : Takes (EventIdentifier.parse EventIdentifier.init) EventIdentifier.wireSize := by
  unfold EventIdentifier.parse
  refine Post.bind SimulationAddress.takes fun a0 b0 h0 => ?_
  refine Post.bind len_unsigned_short fun a1 b1 h1 => ?_
  refine Post.pure _ ?_
  simp only [List.length_append, List.length_nil, EventIdentifier.init, List.nil_append, h0, h1, EventIdentifier.wireSize, SimulationAddress.wireSize]
  all_goals clear h0 h1
  all_goals omega

theorem Vector3Float.takes : Takes (Vector3Float.parse Vector3Float.init) Vector3Float.wireSize := by
  unfold Vector3Float.parse
  refine Post.bind len_float fun a0 b0 h0 => ?_
  refine Post.bind len_float fun a1 b1 h1 => ?_
  refine Post.bind len_float fun a2 b2 h2 => ?_
  refine Post.pure _ ?_
  simp only [List.length_append, List.length_nil, Vector3Float.init, List.nil_append, h0, h1, h2, Vector3Float.wireSize]
  all_goals clear h0 h1 h2
  all_goals omega

theorem WorldCoordinates.takes : Takes (WorldCoordinates.parse WorldCoordinates.init) WorldCoordinates.wireSize := by
  unfold WorldCoordinates.parse
  refine Post.bind len_float64 fun a0 b0 h0 => ?_
  refine Post.bind len_float64 fun a1 b1 h1 => ?_
  refine Post.bind len_float64 fun a2 b2 h2 => ?_
  refine Post.pure _ ?_
  simp only [List.length_append, List.length_nil, WorldCoordinates.init, List.nil_append, h0, h1, h2, WorldCoordinates.wireSize]
  all_goals clear h0 h1 h2
  all_goals omega

theorem DataQueryDatumSpecification.takes : Takes (DataQueryDatumSpecification.parse DataQueryDatumSpecification.init) DataQueryDatumSpecification.wireSize := by
  unfold DataQueryDatumSpecification.parse
  refine Post.bind len_unsigned_int fun a0 b0 h0 => ?_
  refine Post.bind len_unsigned_int fun a1 b1 h1 => ?_
  refine Post.bind (Takes.times_const len_unsigned_int (fun _ => rfl) _) fun a2 b2 h2 => ?_
  refine Post.bind (Takes.times_const len_unsigned_int (fun _ => rfl) _) fun a3 b3 h3 => ?_
  refine Post.pure _ ?_
  simp only [List.length_append, List.length_nil, DataQueryDatumSpecification.init, List.nil_append, h0, h1, h2.1, h3.1, DataQueryDatumSpecification.wireSize]
  all_goals clear h0 h1 h2 h3
  all_goals omega

theorem RadioIdentifier.takes : Takes (RadioIdentifier.parse RadioIdentifier.init) RadioIdentifier.wireSize := by
  unfold RadioIdentifier.parse
  refine Post.bind len_unsigned_short fun a0 b0 h0 => ?_
  refine Post.bind len_unsigned_short fun a1 b1 h1 => ?_
  refine Post.bind len_unsigned_short fun a2 b2 h2 => ?_
  refine Post.bind len_unsigned_short fun a3 b3 h3 => ?_
  refine Post.pure _ ?_
  simp only [List.length_append, List.length_nil, RadioIdentifier.init, List.nil_append, h0, h1, h2, h3, RadioIdentifier.wireSize]
  all_goals clear h0 h1 h2 h3
  all_goals omega

theorem RequestID.takes : Takes (RequestID.parse RequestID.init) RequestID.wireSize := by
  unfold RequestID.parse
  refine Post.bind len_unsigned_int fun a0 b0 h0 => ?_
  refine Post.pure _ ?_
  simp only [List.length_append, List.length_nil, RequestID.init, List.nil_append, h0, RequestID.wireSize]
  all_goals clear h0
  all_goals omega

theorem IFFData.takes : Takes (IFFData.parse IFFData.init) IFFData.wireSize := by
  unfold IFFData.parse
  refine Post.bind len_unsigned_int fun a0 b0 h0 => ?_
  refine Post.bind len_unsigned_short fun a1 b1 h1 => ?_
  refine Post.bind (Takes.times_const len_unsigned_byte (fun _ => rfl) _) fun a2 b2 h2 => ?_
  refine Post.pure _ ?_
  simp only [List.length_append, List.length_nil, IFFData.init, List.nil_append, h0, h1, h2.1, IFFData.wireSize]
  all_goals clear h0 h1 h2
  all_goals omega

theorem EntityType.takes : Takes (EntityType.parse EntityType.init) EntityType.wireSize := by
  unfold EntityType.parse
  refine Post.bind len_unsigned_byte fun a0 b0 h0 => ?_
  refine Post.bind len_unsigned_byte fun a1 b1 h1 => ?_
  refine Post.bind len_unsigned_short fun a2 b2 h2 => ?_
  refine Post.bind len_unsigned_byte fun a3 b3 h3 => ?_
  refine Post.bind len_unsigned_byte fun a4 b4 h4 => ?_
  refine Post.bind len_unsigned_byte fun a5 b5 h5 => ?_
  refine Post.bind len_unsigned_byte fun a6 b6 h6 => ?_
  refine Post.pure _ ?_
  simp only [List.length_append, List.length_nil, EntityType.init, List.nil_append, h0, h1, h2, h3, h4, h5, h6, EntityType.wireSize]
  all_goals clear h0 h1 h2 h3 h4 h5 h6
  all_goals omega

theorem MunitionDescriptor.takes : Takes (MunitionDescriptor.parse MunitionDescriptor.init) MunitionDescriptor.wireSize := by
  unfold MunitionDescriptor.parse
  refine Post.bind EntityType.takes fun a0 b0 h0 => ?_
  refine Post.bind len_unsigned_short fun a1 b1 h1 => ?_
  refine Post.bind len_unsigned_short fun a2 b2 h2 => ?_
  refine Post.bind len_unsigned_short fun a3 b3 h3 => ?_
  refine Post.bind len_unsigned_short fun a4 b4 h4 => ?_
  refine Post.pure _ ?_
  simp only [List.length_append, List.length_nil, MunitionDescriptor.init, List.nil_append, h0, h1, h2, h3, h4, MunitionDescriptor.wireSize, EntityType.wireSize]
  all_goals clear h0 h1 h2 h3 h4
  all_goals omega

theorem MinefieldSensorType.takes : Takes (MinefieldSensorType.parse MinefieldSensorType.init) MinefieldSensorType.wireSize := by
  unfold MinefieldSensorType.parse
  refine Post.bind len_unsigned_short fun a0 b0 h0 => ?_
  refine Post.pure _ ?_
  simp only [List.length_append, List.length_nil, MinefieldSensorType.init, List.nil_append, h0, MinefieldSensorType.wireSize]
  all_goals clear h0
  all_goals omega

theorem GroupID.takes : Takes (GroupID.parse GroupID.init) GroupID.wireSize := by
  unfold GroupID.parse
  refine Post.bind SimulationAddress.takes fun a0 b0 h0 => ?_
  refine Post.bind len_unsigned_short fun a1 b1 h1 => ?_
  refine Post.pure _ ?_
  simp only [List.length_append, List.length_nil, GroupID.init, List.nil_append, h0, h1, GroupID.wireSize, SimulationAddress.wireSize]
  all_goals clear h0 h1
  all_goals omega

theorem LayerHeader.takes : Takes (LayerHeader.parse LayerHeader.init) LayerHeader.wireSize := by
  unfold LayerHeader.parse
  refine Post.bind len_unsigned_byte fun a0 b0 h0 => ?_
  refine Post.bind len_unsigned_byte fun a1 b1 h1 => ?_
  refine Post.bind len_unsigned_short fun a2 b2 h2 => ?_
  refine Post.pure _ ?_
  simp only [List.length_append, List.length_nil, LayerHeader.init, List.nil_append, h0, h1, h2, LayerHeader.wireSize]
  all_goals clear h0 h1 h2
  all_goals omega

theorem UnsignedDISInteger.takes : Takes (UnsignedDISInteger.parse UnsignedDISInteger.init) UnsignedDISInteger.wireSize := by
  unfold UnsignedDISInteger.parse
  refine Post.bind len_unsigned_int fun a0 b0 h0 => ?_
  refine Post.pure _ ?_
  simp only [List.length_append, List.length_nil, UnsignedDISInteger.init, List.nil_append, h0, UnsignedDISInteger.wireSize]
  all_goals clear h0
  all_goals omega

theorem DeadReckoningParameters.takes : Takes (DeadReckoningParameters.parse DeadReckoningParameters.init) DeadReckoningParameters.wireSize := by
  unfold DeadReckoningParameters.parse
  refine Post.bind len_unsigned_byte fun a0 b0 h0 => ?_
  refine Post.bind (Takes.times_const len_unsigned_byte (fun _ => rfl) _) fun a1 b1 h1 => ?_
  refine Post.bind Vector3Float.takes fun a2 b2 h2 => ?_
  refine Post.bind Vector3Float.takes fun a3 b3 h3 => ?_
  refine Post.pure _ ?_
  simp only [List.length_append, List.length_nil, DeadReckoningParameters.init, List.nil_append, h0, h1.1, h2, h3, DeadReckoningParameters.wireSize, Vector3Float.wireSize]
  all_goals clear h0 h2 h3
  all_goals omega

theorem ProtocolMode.takes : Takes (ProtocolMode.parse ProtocolMode.init) ProtocolMode.wireSize := by
  unfold ProtocolMode.parse
  refine Post.bind len_unsigned_short fun a0 b0 h0 => ?_
  refine Post.pure _ ?_
  simp only [List.length_append, List.length_nil, ProtocolMode.init, List.nil_append, h0, ProtocolMode.wireSize]
  all_goals clear h0
  all_goals omega

theorem AngleDeception.takes : Takes (AngleDeception.parse AngleDeception.init) AngleDeception.wireSize := by
  unfold AngleDeception.parse
  refine Post.bind len_unsigned_int fun a0 b0 h0 => ?_
  refine Post.bind len_unsigned_short fun a1 b1 h1 => ?_
  refine Post.bind len_unsigned_short fun a2 b2 h2 => ?_
  refine Post.bind len_unsigned_byte fun a3 b3 h3 => ?_
  refine Post.bind len_unsigned_byte fun a4 b4 h4 => ?_
  refine Post.bind len_unsigned_byte fun a5 b5 h5 => ?_
  refine Post.bind len_unsigned_byte fun a6 b6 h6 => ?_
  refine Post.bind len_float fun a7 b7 h7 => ?_
  refine Post.bind len_float fun a8 b8 h8 => ?_
  refine Post.bind len_float fun a9 b9 h9 => ?_
  refine Post.bind len_float fun a10 b10 h10 => ?_
  refine Post.bind len_float fun a11 b11 h11 => ?_
  refine Post.bind len_float fun a12 b12 h12 => ?_
  refine Post.bind len_float fun a13 b13 h13 => ?_
  refine Post.bind len_float fun a14 b14 h14 => ?_
  refine Post.bind len_unsigned_int fun a15 b15 h15 => ?_
  refine Post.pure _ ?_
  simp only [List.length_append, List.length_nil, AngleDeception.init, List.nil_append, h0, h1, h2, h3, h4, h5, h6, h7, h8, h9, h10, h11, h12, h13, h14, h15, AngleDeception.wireSize]
  all_goals clear h0 h1 h2 h3 h4 h5 h6 h7 h8 h9 h10 h11 h12 h13 h14 h15
  all_goals omega

theorem EntityAssociation.takes : Takes (EntityAssociation.parse EntityAssociation.init) EntityAssociation.wireSize := by
  unfold EntityAssociation.parse
  refine Post.bind len_unsigned_byte fun a0 b0 h0 => ?_
  refine Post.bind len_unsigned_byte fun a1 b1 h1 => ?_
  refine Post.bind len_unsigned_byte fun a2 b2 h2 => ?_
  refine Post.bind len_unsigned_byte fun a3 b3 h3 => ?_
  refine Post.bind EntityIdentifier.takes fun a4 b4 h4 => ?_
  refine Post.bind len_unsigned_short fun a5 b5 h5 => ?_
  refine Post.bind len_unsigned_byte fun a6 b6 h6 => ?_
  refine Post.bind len_unsigned_byte fun a7 b7 h7 => ?_
  refine Post.bind len_unsigned_short fun a8 b8 h8 => ?_
  refine Post.pure _ ?_
  simp only [List.length_append, List.length_nil, EntityAssociation.init, List.nil_append, h0, h1, h2, h3, h4, h5, h6, h7, h8, EntityAssociation.wireSize, EntityIdentifier.wireSize]
  all_goals clear h0 h1 h2 h3 h4 h5 h6 h7 h8
  all_goals omega

theorem VectoringNozzleSystem.takes : Takes (VectoringNozzleSystem.parse VectoringNozzleSystem.init) VectoringNozzleSystem.wireSize := by
  unfold VectoringNozzleSystem.parse
  refine Post.bind len_float fun a0 b0 h0 => ?_
  refine Post.bind len_float fun a1 b1 h1 => ?_
  refine Post.pure _ ?_
  simp only [List.length_append, List.length_nil, VectoringNozzleSystem.init, List.nil_append, h0, h1, VectoringNozzleSystem.wireSize]
  all_goals clear h0 h1
  all_goals omega

theorem FalseTargetsAttribute.takes : Takes (FalseTargetsAttribute.parse FalseTargetsAttribute.init) FalseTargetsAttribute.wireSize := by
  unfold FalseTargetsAttribute.parse
  refine Post.bind len_unsigned_int fun a0 b0 h0 => ?_
  refine Post.bind len_unsigned_short fun a1 b1 h1 => ?_
  refine Post.bind len_unsigned_short fun a2 b2 h2 => ?_
  refine Post.bind len_unsigned_byte fun a3 b3 h3 => ?_
  refine Post.bind len_unsigned_byte fun a4 b4 h4 => ?_
  refine Post.bind len_unsigned_byte fun a5 b5 h5 => ?_
  refine Post.bind len_unsigned_byte fun a6 b6 h6 => ?_
  refine Post.bind len_unsigned_short fun a7 b7 h7 => ?_
  refine Post.bind len_float fun a8 b8 h8 => ?_
  refine Post.bind len_float fun a9 b9 h9 => ?_
  refine Post.bind len_float fun a10 b10 h10 => ?_
  refine Post.bind len_float fun a11 b11 h11 => ?_
  refine Post.bind len_float fun a12 b12 h12 => ?_
  refine Post.pure _ ?_
  simp only [List.length_append, List.length_nil, FalseTargetsAttribute.init, List.nil_append, h0, h1, h2, h3, h4, h5, h6, h7, h8, h9, h10, h11, h12, FalseTargetsAttribute.wireSize]
  all_goals clear h0 h1 h2 h3 h4 h5 h6 h7 h8 h9 h10 h11 h12
  all_goals omega

theorem MinefieldIdentifier.takes : Takes (MinefieldIdentifier.parse MinefieldIdentifier.init) MinefieldIdentifier.wireSize := by
  unfold MinefieldIdentifier.parse
  refine Post.bind SimulationAddress.takes fun a0 b0 h0 => ?_
  refine Post.bind len_unsigned_short fun a1 b1 h1 => ?_
  refine Post.pure _ ?_
  simp only [List.length_append, List.length_nil, MinefieldIdentifier.init, List.nil_append, h0, h1, MinefieldIdentifier.wireSize, SimulationAddress.wireSize]
  all_goals clear h0 h1
  all_goals omega

theorem RadioType.takes : Takes (RadioType.parse RadioType.init) RadioType.wireSize := by
  unfold RadioType.parse
  refine Post.bind len_unsigned_byte fun a0 b0 h0 => ?_
  refine Post.bind len_unsigned_byte fun a1 b1 h1 => ?_
  refine Post.bind len_unsigned_short fun a2 b2 h2 => ?_
  refine Post.bind len_unsigned_byte fun a3 b3 h3 => ?_
  refine Post.bind len_unsigned_byte fun a4 b4 h4 => ?_
  refine Post.bind len_unsigned_byte fun a5 b5 h5 => ?_
  refine Post.bind len_unsigned_byte fun a6 b6 h6 => ?_
  refine Post.pure _ ?_
  simp only [List.length_append, List.length_nil, RadioType.init, List.nil_append, h0, h1, h2, h3, h4, h5, h6, RadioType.wireSize]
  all_goals clear h0 h1 h2 h3 h4 h5 h6
  all_goals omega

theorem NamedLocationIdentification.takes : Takes (NamedLocationIdentification.parse NamedLocationIdentification.init) NamedLocationIdentification.wireSize := by
  unfold NamedLocationIdentification.parse
  refine Post.bind len_unsigned_short fun a0 b0 h0 => ?_
  refine Post.bind len_unsigned_short fun a1 b1 h1 => ?_
  refine Post.pure _ ?_
  simp only [List.length_append, List.length_nil, NamedLocationIdentification.init, List.nil_append, h0, h1, NamedLocationIdentification.wireSize]
  all_goals clear h0 h1
  all_goals omega

theorem IFFDataSpecification.takes : Takes (IFFDataSpecification.parse IFFDataSpecification.init) IFFDataSpecification.wireSize := by
  unfold IFFDataSpecification.parse
  refine Post.bind len_unsigned_short fun a0 b0 h0 => ?_
  refine Post.bind (Takes.times IFFData.takes _) fun a1 b1 h1 => ?_
  refine Post.pure _ ?_
  simp only [List.length_append, List.length_nil, IFFDataSpecification.init, List.nil_append, h0, h1.1, IFFDataSpecification.wireSize]
  all_goals clear h0 h1
  all_goals omega

theorem OwnershipStatus.takes : Takes (OwnershipStatus.parse OwnershipStatus.init) OwnershipStatus.wireSize := by
  unfold OwnershipStatus.parse
  refine Post.bind EntityIdentifier.takes fun a0 b0 h0 => ?_
  refine Post.bind len_unsigned_byte fun a1 b1 h1 => ?_
  refine Post.bind len_unsigned_byte fun a2 b2 h2 => ?_
  refine Post.pure _ ?_
  simp only [List.length_append, List.length_nil, OwnershipStatus.init, List.nil_append, h0, h1, h2, OwnershipStatus.wireSize, EntityIdentifier.wireSize]
  all_goals clear h0 h1 h2
  all_goals omega

theorem AttachedParts.takes : Takes (AttachedParts.parse AttachedParts.init) AttachedParts.wireSize := by
  unfold AttachedParts.parse
  refine Post.bind len_unsigned_byte fun a0 b0 h0 => ?_
  refine Post.bind len_unsigned_byte fun a1 b1 h1 => ?_
  refine Post.bind len_unsigned_short fun a2 b2 h2 => ?_
  refine Post.bind len_unsigned_int fun a3 b3 h3 => ?_
  refine Post.bind len_long fun a4 b4 h4 => ?_
  refine Post.pure _ ?_
  simp only [List.length_append, List.length_nil, AttachedParts.init, List.nil_append, h0, h1, h2, h3, h4, AttachedParts.wireSize]
  all_goals clear h0 h1 h2 h3 h4
  all_goals omega

theorem Attribute.takes : Takes (Attribute.parse Attribute.init) Attribute.wireSize := by
  unfold Attribute.parse
  refine Post.bind len_unsigned_int fun a0 b0 h0 => ?_
  refine Post.bind len_unsigned_short fun a1 b1 h1 => ?_
  refine Post.bind len_long fun a2 b2 h2 => ?_
  refine Post.pure _ ?_
  simp only [List.length_append, List.length_nil, Attribute.init, List.nil_append, h0, h1, h2, Attribute.wireSize]
  all_goals clear h0 h1 h2
  all_goals omega

theorem RecordQuerySpecification.takes : Takes (RecordQuerySpecification.parse RecordQuerySpecification.init) RecordQuerySpecification.wireSize := by
  unfold RecordQuerySpecification.parse
  refine Post.bind len_unsigned_int fun a0 b0 h0 => ?_
  refine Post.bind (Takes.times_const len_unsigned_int (fun _ => rfl) _) fun a1 b1 h1 => ?_
  refine Post.pure _ ?_
  simp only [List.length_append, List.length_nil, RecordQuerySpecification.init, List.nil_append, h0, h1.1, RecordQuerySpecification.wireSize]
  all_goals clear h0 h1
  all_goals omega

theorem ArticulatedParts.takes : Takes (ArticulatedParts.parse ArticulatedParts.init) ArticulatedParts.wireSize := by
  unfold ArticulatedParts.parse
  refine Post.bind len_unsigned_byte fun a0 b0 h0 => ?_
  refine Post.bind len_unsigned_byte fun a1 b1 h1 => ?_
  refine Post.bind len_unsigned_short fun a2 b2 h2 => ?_
  refine Post.bind len_unsigned_int fun a3 b3 h3 => ?_
  refine Post.bind len_long fun a4 b4 h4 => ?_
  refine Post.pure _ ?_
  simp only [List.length_append, List.length_nil, ArticulatedParts.init, List.nil_append, h0, h1, h2, h3, h4, ArticulatedParts.wireSize]
  all_goals clear h0 h1 h2 h3 h4
  all_goals omega

theorem ObjectType.takes : Takes (ObjectType.parse ObjectType.init) ObjectType.wireSize := by
  unfold ObjectType.parse
  refine Post.bind len_unsigned_byte fun a0 b0 h0 => ?_
  refine Post.bind len_unsigned_byte fun a1 b1 h1 => ?_
  refine Post.bind len_unsigned_byte fun a2 b2 h2 => ?_
  refine Post.bind len_unsigned_byte fun a3 b3 h3 => ?_
  refine Post.pure _ ?_
  simp only [List.length_append, List.length_nil, ObjectType.init, List.nil_append, h0, h1, h2, h3, ObjectType.wireSize]
  all_goals clear h0 h1 h2 h3
  all_goals omega

theorem Association.takes : Takes (Association.parse Association.init) Association.wireSize := by
  unfold Association.parse
  refine Post.bind len_unsigned_byte fun a0 b0 h0 => ?_
  refine Post.bind len_unsigned_byte fun a1 b1 h1 => ?_
  refine Post.bind EntityIdentifier.takes fun a2 b2 h2 => ?_
  refine Post.bind WorldCoordinates.takes fun a3 b3 h3 => ?_
  refine Post.pure _ ?_
  simp only [List.length_append, List.length_nil, Association.init, List.nil_append, h0, h1, h2, h3, Association.wireSize, EntityIdentifier.wireSize, WorldCoordinates.wireSize]
  all_goals clear h0 h1 h2 h3
  all_goals omega

theorem RecordSpecificationElement.takes : Takes (RecordSpecificationElement.parse RecordSpecificationElement.init) RecordSpecificationElement.wireSize := by
  unfold RecordSpecificationElement.parse
  refine Post.bind len_unsigned_int fun a0 b0 h0 => ?_
  refine Post.bind len_unsigned_int fun a1 b1 h1 => ?_
  refine Post.bind len_unsigned_short fun a2 b2 h2 => ?_
  refine Post.bind len_unsigned_short fun a3 b3 h3 => ?_
  refine Post.bind len_unsigned_short fun a4 b4 h4 => ?_
  refine Post.bind len_unsigned_byte fun a5 b5 h5 => ?_
  refine Post.pure _ ?_
  simp only [List.length_append, List.length_nil, RecordSpecificationElement.init, List.nil_append, h0, h1, h2, h3, h4, h5, RecordSpecificationElement.wireSize]
  all_goals clear h0 h1 h2 h3 h4 h5
  all_goals omega

theorem AntennaLocation.takes : Takes (AntennaLocation.parse AntennaLocation.init) AntennaLocation.wireSize := by
  unfold AntennaLocation.parse
  refine Post.bind WorldCoordinates.takes fun a0 b0 h0 => ?_
  refine Post.bind Vector3Float.takes fun a1 b1 h1 => ?_
  refine Post.pure _ ?_
  simp only [List.length_append, List.length_nil, AntennaLocation.init, List.nil_append, h0, h1, AntennaLocation.wireSize, Vector3Float.wireSize, WorldCoordinates.wireSize]
  all_goals clear h0 h1
  all_goals omega

theorem ObjectIdentifier.takes : Takes (ObjectIdentifier.parse ObjectIdentifier.init) ObjectIdentifier.wireSize := by
  unfold ObjectIdentifier.parse
  refine Post.bind SimulationAddress.takes fun a0 b0 h0 => ?_
  refine Post.bind len_unsigned_short fun a1 b1 h1 => ?_
  refine Post.pure _ ?_
  simp only [List.length_append, List.length_nil, ObjectIdentifier.init, List.nil_append, h0, h1, ObjectIdentifier.wireSize, SimulationAddress.wireSize]
  all_goals clear h0 h1
  all_goals omega

theorem AggregateIdentifier.takes : Takes (AggregateIdentifier.parse AggregateIdentifier.init) AggregateIdentifier.wireSize := by
  unfold AggregateIdentifier.parse
  refine Post.bind SimulationAddress.takes fun a0 b0 h0 => ?_
  refine Post.bind len_unsigned_short fun a1 b1 h1 => ?_
  refine Post.pure _ ?_
  simp only [List.length_append, List.length_nil, AggregateIdentifier.init, List.nil_append, h0, h1, AggregateIdentifier.wireSize, SimulationAddress.wireSize]
  all_goals clear h0 h1
  all_goals omega

theorem FixedDatum.takes : Takes (FixedDatum.parse FixedDatum.init) FixedDatum.wireSize := by
  unfold FixedDatum.parse
  refine Post.bind len_unsigned_int fun a0 b0 h0 => ?_
  refine Post.bind len_unsigned_int fun a1 b1 h1 => ?_
  refine Post.pure _ ?_
  simp only [List.length_append, List.length_nil, FixedDatum.init, List.nil_append, h0, h1, FixedDatum.wireSize]
  all_goals clear h0 h1
  all_goals omega

theorem VariableParameter.takes : Takes (VariableParameter.parse VariableParameter.init) VariableParameter.wireSize := by
  unfold VariableParameter.parse
  refine Post.bind len_unsigned_byte fun a0 b0 h0 => ?_
  refine Post.bind len_double fun a1 b1 h1 => ?_
  refine Post.bind len_unsigned_int fun a2 b2 h2 => ?_
  refine Post.bind len_unsigned_short fun a3 b3 h3 => ?_
  refine Post.bind len_unsigned_byte fun a4 b4 h4 => ?_
  refine Post.pure _ ?_
  simp only [List.length_append, List.length_nil, VariableParameter.init, List.nil_append, h0, h1, h2, h3, h4, VariableParameter.wireSize]
  all_goals clear h0 h1 h2 h3 h4
  all_goals omega

theorem ChangeOptions.takes : Takes (ChangeOptions.parse ChangeOptions.init) ChangeOptions.wireSize := by
  unfold ChangeOptions.parse
  refine Post.pure _ ?_
  simp only [List.length_append, List.length_nil, ChangeOptions.init, List.nil_append, ChangeOptions.wireSize]
  all_goals omega

theorem LiveSimulationAddress.takes : Takes (LiveSimulationAddress.parse LiveSimulationAddress.init) LiveSimulationAddress.wireSize := by
  unfold LiveSimulationAddress.parse
  refine Post.bind len_unsigned_byte fun a0 b0 h0 => ?_
  refine Post.bind len_unsigned_byte fun a1 b1 h1 => ?_
  refine Post.pure _ ?_
  simp only [List.length_append, List.length_nil, LiveSimulationAddress.init, List.nil_append, h0, h1, LiveSimulationAddress.wireSize]
  all_goals clear h0 h1
  all_goals omega

theorem EntityMarking.takes : Takes (EntityMarking.parse EntityMarking.init) EntityMarking.wireSize := by
  unfold EntityMarking.parse
  refine Post.bind len_unsigned_byte fun a0 b0 h0 => ?_
  refine Post.bind (Takes.times_const len_byte (fun _ => rfl) _) fun a1 b1 h1 => ?_
  refine Post.pure _ ?_
  simp only [List.length_append, List.length_nil, EntityMarking.init, List.nil_append, h0, h1.1, EntityMarking.wireSize]
  all_goals clear h0
  all_goals omega

theorem UAFundamentalParameter.takes : Takes (UAFundamentalParameter.parse UAFundamentalParameter.init) UAFundamentalParameter.wireSize := by
  unfold UAFundamentalParameter.parse
  refine Post.bind len_unsigned_short fun a0 b0 h0 => ?_
  refine Post.bind len_unsigned_short fun a1 b1 h1 => ?_
  refine Post.bind len_float fun a2 b2 h2 => ?_
  refine Post.bind len_float fun a3 b3 h3 => ?_
  refine Post.bind len_float fun a4 b4 h4 => ?_
  refine Post.bind len_float fun a5 b5 h5 => ?_
  refine Post.pure _ ?_
  simp only [List.length_append, List.length_nil, UAFundamentalParameter.init, List.nil_append, h0, h1, h2, h3, h4, h5, UAFundamentalParameter.wireSize]
  all_goals clear h0 h1 h2 h3 h4 h5
  all_goals omega

theorem ExplosionDescriptor.takes : Takes (ExplosionDescriptor.parse ExplosionDescriptor.init) ExplosionDescriptor.wireSize := by
  unfold ExplosionDescriptor.parse
  refine Post.bind EntityType.takes fun a0 b0 h0 => ?_
  refine Post.bind len_unsigned_short fun a1 b1 h1 => ?_
  refine Post.bind len_unsigned_short fun a2 b2 h2 => ?_
  refine Post.bind len_float fun a3 b3 h3 => ?_
  refine Post.pure _ ?_
  simp only [List.length_append, List.length_nil, ExplosionDescriptor.init, List.nil_append, h0, h1, h2, h3, ExplosionDescriptor.wireSize, EntityType.wireSize]
  all_goals clear h0 h1 h2 h3
  all_goals omega

theorem ClockTime.takes : Takes (ClockTime.parse ClockTime.init) ClockTime.wireSize := by
  unfold ClockTime.parse
  refine Post.bind len_unsigned_int fun a0 b0 h0 => ?_
  refine Post.bind len_unsigned_int fun a1 b1 h1 => ?_
  refine Post.pure _ ?_
  simp only [List.length_append, List.length_nil, ClockTime.init, List.nil_append, h0, h1, ClockTime.wireSize]
  all_goals clear h0 h1
  all_goals omega

theorem SecondaryOperationalData.takes : Takes (SecondaryOperationalData.parse SecondaryOperationalData.init) SecondaryOperationalData.wireSize := by
  unfold SecondaryOperationalData.parse
  refine Post.bind len_unsigned_byte fun a0 b0 h0 => ?_
  refine Post.bind len_unsigned_byte fun a1 b1 h1 => ?_
  refine Post.bind len_unsigned_short fun a2 b2 h2 => ?_
  refine Post.pure _ ?_
  simp only [List.length_append, List.length_nil, SecondaryOperationalData.init, List.nil_append, h0, h1, h2, SecondaryOperationalData.wireSize]
  all_goals clear h0 h1 h2
  all_goals omega

theorem EnvironmentType.takes : Takes (EnvironmentType.parse EnvironmentType.init) EnvironmentType.wireSize := by
  unfold EnvironmentType.parse
  refine Post.bind len_unsigned_byte fun a0 b0 h0 => ?_
  refine Post.bind len_unsigned_byte fun a1 b1 h1 => ?_
  refine Post.bind len_unsigned_short fun a2 b2 h2 => ?_
  refine Post.bind len_unsigned_byte fun a3 b3 h3 => ?_
  refine Post.bind len_unsigned_byte fun a4 b4 h4 => ?_
  refine Post.bind len_unsigned_byte fun a5 b5 h5 => ?_
  refine Post.bind len_unsigned_byte fun a6 b6 h6 => ?_
  refine Post.pure _ ?_
  simp only [List.length_append, List.length_nil, EnvironmentType.init, List.nil_append, h0, h1, h2, h3, h4, h5, h6, EnvironmentType.wireSize]
  all_goals clear h0 h1 h2 h3 h4 h5 h6
  all_goals omega

theorem TotalRecordSets.takes : Takes (TotalRecordSets.parse TotalRecordSets.init) TotalRecordSets.wireSize := by
  unfold TotalRecordSets.parse
  refine Post.bind len_unsigned_short fun a0 b0 h0 => ?_
  refine Post.bind len_unsigned_short fun a1 b1 h1 => ?_
  refine Post.pure _ ?_
  simp only [List.length_append, List.length_nil, TotalRecordSets.init, List.nil_append, h0, h1, TotalRecordSets.wireSize]
  all_goals clear h0 h1
  all_goals omega

theorem MineEntityIdentifier.takes : Takes (MineEntityIdentifier.parse MineEntityIdentifier.init) MineEntityIdentifier.wireSize := by
  unfold MineEntityIdentifier.parse
  refine Post.bind SimulationAddress.takes fun a0 b0 h0 => ?_
  refine Post.bind len_unsigned_short fun a1 b1 h1 => ?_
  refine Post.pure _ ?_
  simp only [List.length_append, List.length_nil, MineEntityIdentifier.init, List.nil_append, h0, h1, MineEntityIdentifier.wireSize, SimulationAddress.wireSize]
  all_goals clear h0 h1
  all_goals omega

theorem Relationship.takes : Takes (Relationship.parse Relationship.init) Relationship.wireSize := by
  unfold Relationship.parse
  refine Post.bind len_unsigned_short fun a0 b0 h0 => ?_
  refine Post.bind len_unsigned_short fun a1 b1 h1 => ?_
  refine Post.pure _ ?_
  simp only [List.length_append, List.length_nil, Relationship.init, List.nil_append, h0, h1, Relationship.wireSize]
  all_goals clear h0 h1
  all_goals omega

theorem EEFundamentalParameterData.takes : Takes (EEFundamentalParameterData.parse EEFundamentalParameterData.init) EEFundamentalParameterData.wireSize := by
  unfold EEFundamentalParameterData.parse
  refine Post.bind len_float fun a0 b0 h0 => ?_
  refine Post.bind len_float fun a1 b1 h1 => ?_
  refine Post.bind len_float fun a2 b2 h2 => ?_
  refine Post.bind len_float fun a3 b3 h3 => ?_
  refine Post.bind len_float fun a4 b4 h4 => ?_
  refine Post.bind len_float fun a5 b5 h5 => ?_
  refine Post.bind len_float fun a6 b6 h6 => ?_
  refine Post.bind len_float fun a7 b7 h7 => ?_
  refine Post.bind len_float fun a8 b8 h8 => ?_
  refine Post.bind len_float fun a9 b9 h9 => ?_
  refine Post.pure _ ?_
  simp only [List.length_append, List.length_nil, EEFundamentalParameterData.init, List.nil_append, h0, h1, h2, h3, h4, h5, h6, h7, h8, h9, EEFundamentalParameterData.wireSize]
  all_goals clear h0 h1 h2 h3 h4 h5 h6 h7 h8 h9
  all_goals omega

theorem JammingTechnique.takes : Takes (JammingTechnique.parse JammingTechnique.init) JammingTechnique.wireSize := by
  unfold JammingTechnique.parse
  refine Post.bind len_unsigned_byte fun a0 b0 h0 => ?_
  refine Post.bind len_unsigned_byte fun a1 b1 h1 => ?_
  refine Post.bind len_unsigned_byte fun a2 b2 h2 => ?_
  refine Post.bind len_unsigned_byte fun a3 b3 h3 => ?_
  refine Post.pure _ ?_
  simp only [List.length_append, List.length_nil, JammingTechnique.init, List.nil_append, h0, h1, h2, h3, JammingTechnique.wireSize]
  all_goals clear h0 h1 h2 h3
  all_goals omega

theorem VariableDatum.takes : Takes (VariableDatum.parse VariableDatum.init) VariableDatum.wireSize := by
  unfold VariableDatum.parse
  refine Post.bind post_unsigned_int fun a0 b0 h0 => ?_
  refine Post.bind post_unsigned_int fun a1 b1 h1 => ?_
  refine Post.bind (Takes.times_const len_unsigned_byte (fun _ => rfl) _) fun a2 b2 h2 => ?_
  refine Post.bind (Takes.times_const len_unsigned_byte (fun _ => rfl) _) fun a3 b3 h3 => ?_
  refine Post.pure _ ?_
  have e0 := sized_unsigned_int _ _ h0.2
  have e1 := sized_unsigned_int _ _ h1.2
  have e2 := h2.1
  have e3 := h3.1
  rw [h2.2] at e2
  rw [h3.2, VariableDatum.padding_eq] at e3
  dsimp only at e3
  simp only [List.length_append, List.length_nil, VariableDatum.wireSize]
  omega

theorem DatumSpecification.takes : Takes (DatumSpecification.parse DatumSpecification.init) DatumSpecification.wireSize := by
  unfold DatumSpecification.parse
  refine Post.bind len_unsigned_int fun a0 b0 h0 => ?_
  refine Post.bind len_unsigned_int fun a1 b1 h1 => ?_
  refine Post.bind (Takes.times_const FixedDatum.takes (fun _ => rfl) _) fun a2 b2 h2 => ?_
  refine Post.bind (Takes.times VariableDatum.takes _) fun a3 b3 h3 => ?_
  refine Post.pure _ ?_
  simp only [List.length_append, List.length_nil, DatumSpecification.init, List.nil_append, h0, h1, h2.1, h3.1, DatumSpecification.wireSize]
  all_goals clear h0 h1 h2 h3
  all_goals omega

theorem Expendable.takes : Takes (Expendable.parse Expendable.init) Expendable.wireSize := by
  unfold Expendable.parse
  refine Post.bind EntityType.takes fun a0 b0 h0 => ?_
  refine Post.bind len_unsigned_int fun a1 b1 h1 => ?_
  refine Post.bind len_unsigned_short fun a2 b2 h2 => ?_
  refine Post.bind len_unsigned_byte fun a3 b3 h3 => ?_
  refine Post.bind len_unsigned_byte fun a4 b4 h4 => ?_
  refine Post.pure _ ?_
  simp only [List.length_append, List.length_nil, Expendable.init, List.nil_append, h0, h1, h2, h3, h4, Expendable.wireSize, EntityType.wireSize]
  all_goals clear h0 h1 h2 h3 h4
  all_goals omega

theorem CommunicationsNodeID.takes : Takes (CommunicationsNodeID.parse CommunicationsNodeID.init) CommunicationsNodeID.wireSize := by
  unfold CommunicationsNodeID.parse
  refine Post.bind EntityIdentifier.takes fun a0 b0 h0 => ?_
  refine Post.bind len_unsigned_short fun a1 b1 h1 => ?_
  refine Post.pure _ ?_
  simp only [List.length_append, List.length_nil, CommunicationsNodeID.init, List.nil_append, h0, h1, CommunicationsNodeID.wireSize, EntityIdentifier.wireSize]
  all_goals clear h0 h1
  all_goals omega

theorem IOCommunicationsNode.takes : Takes (IOCommunicationsNode.parse IOCommunicationsNode.init) IOCommunicationsNode.wireSize := by
  unfold IOCommunicationsNode.parse
  refine Post.bind len_unsigned_int fun a0 b0 h0 => ?_
  refine Post.bind len_unsigned_short fun a1 b1 h1 => ?_
  refine Post.bind len_unsigned_byte fun a2 b2 h2 => ?_
  refine Post.bind len_unsigned_byte fun a3 b3 h3 => ?_
  refine Post.bind CommunicationsNodeID.takes fun a4 b4 h4 => ?_
  refine Post.pure _ ?_
  simp only [List.length_append, List.length_nil, IOCommunicationsNode.init, List.nil_append, h0, h1, h2, h3, h4, IOCommunicationsNode.wireSize, CommunicationsNodeID.wireSize]
  all_goals clear h0 h1 h2 h3 h4
  all_goals omega

theorem LinearSegmentParameter.takes : Takes (LinearSegmentParameter.parse LinearSegmentParameter.init) LinearSegmentParameter.wireSize := by
  unfold LinearSegmentParameter.parse
  refine Post.bind len_unsigned_byte fun a0 b0 h0 => ?_
  refine Post.bind len_unsigned_byte fun a1 b1 h1 => ?_
  refine Post.bind len_unsigned_short fun a2 b2 h2 => ?_
  refine Post.bind len_unsigned_int fun a3 b3 h3 => ?_
  refine Post.bind WorldCoordinates.takes fun a4 b4 h4 => ?_
  refine Post.bind EulerAngles.takes fun a5 b5 h5 => ?_
  refine Post.bind len_float fun a6 b6 h6 => ?_
  refine Post.bind len_float fun a7 b7 h7 => ?_
  refine Post.bind len_float fun a8 b8 h8 => ?_
  refine Post.bind len_float fun a9 b9 h9 => ?_
  refine Post.bind len_unsigned_int fun a10 b10 h10 => ?_
  refine Post.pure _ ?_
  simp only [List.length_append, List.length_nil, LinearSegmentParameter.init, List.nil_append, h0, h1, h2, h3, h4, h5, h6, h7, h8, h9, h10, LinearSegmentParameter.wireSize, EulerAngles.wireSize, WorldCoordinates.wireSize]
  all_goals clear h0 h1 h2 h3 h4 h5 h6 h7 h8 h9 h10
  all_goals omega

theorem SystemIdentifier.takes : Takes (SystemIdentifier.parse SystemIdentifier.init) SystemIdentifier.wireSize := by
  unfold SystemIdentifier.parse
  refine Post.bind len_unsigned_short fun a0 b0 h0 => ?_
  refine Post.bind len_unsigned_short fun a1 b1 h1 => ?_
  refine Post.bind len_unsigned_short fun a2 b2 h2 => ?_
  refine Post.bind ChangeOptions.takes fun a3 b3 h3 => ?_
  refine Post.pure _ ?_
  simp only [List.length_append, List.length_nil, SystemIdentifier.init, List.nil_append, h0, h1, h2, h3, SystemIdentifier.wireSize, ChangeOptions.wireSize]
  all_goals clear h0 h1 h2 h3
  all_goals omega

theorem TrackJamData.takes : Takes (TrackJamData.parse TrackJamData.init) TrackJamData.wireSize := by
  unfold TrackJamData.parse
  refine Post.bind EntityIdentifier.takes fun a0 b0 h0 => ?_
  refine Post.bind len_unsigned_byte fun a1 b1 h1 => ?_
  refine Post.bind len_unsigned_byte fun a2 b2 h2 => ?_
  refine Post.pure _ ?_
  simp only [List.length_append, List.length_nil, TrackJamData.init, List.nil_append, h0, h1, h2, TrackJamData.wireSize, EntityIdentifier.wireSize]
  all_goals clear h0 h1 h2
  all_goals omega

theorem AggregateType.takes : Takes (AggregateType.parse AggregateType.init) AggregateType.wireSize := by
  unfold AggregateType.parse
  refine Post.bind len_unsigned_byte fun a0 b0 h0 => ?_
  refine Post.bind len_unsigned_byte fun a1 b1 h1 => ?_
  refine Post.bind len_unsigned_short fun a2 b2 h2 => ?_
  refine Post.bind len_unsigned_byte fun a3 b3 h3 => ?_
  refine Post.bind len_unsigned_byte fun a4 b4 h4 => ?_
  refine Post.bind len_unsigned_byte fun a5 b5 h5 => ?_
  refine Post.bind len_unsigned_byte fun a6 b6 h6 => ?_
  refine Post.pure _ ?_
  simp only [List.length_append, List.length_nil, AggregateType.init, List.nil_append, h0, h1, h2, h3, h4, h5, h6, AggregateType.wireSize]
  all_goals clear h0 h1 h2 h3 h4 h5 h6
  all_goals omega

theorem SimulationIdentifier.takes : Takes (SimulationIdentifier.parse SimulationIdentifier.init) SimulationIdentifier.wireSize := by
  unfold SimulationIdentifier.parse
  refine Post.bind SimulationAddress.takes fun a0 b0 h0 => ?_
  refine Post.bind len_unsigned_short fun a1 b1 h1 => ?_
  refine Post.pure _ ?_
  simp only [List.length_append, List.length_nil, SimulationIdentifier.init, List.nil_append, h0, h1, SimulationIdentifier.wireSize, SimulationAddress.wireSize]
  all_goals clear h0 h1
  all_goals omega

theorem PduHeader.takes : Takes (PduHeader.parse PduHeader.init) PduHeader.wireSize := by
  unfold PduHeader.parse
  refine Post.bind len_unsigned_byte fun a0 b0 h0 => ?_
  refine Post.bind len_unsigned_byte fun a1 b1 h1 => ?_
  refine Post.bind len_unsigned_byte fun a2 b2 h2 => ?_
  refine Post.bind len_unsigned_byte fun a3 b3 h3 => ?_
  refine Post.bind len_unsigned_int fun a4 b4 h4 => ?_
  refine Post.bind len_unsigned_byte fun a5 b5 h5 => ?_
  refine Post.bind len_unsigned_short fun a6 b6 h6 => ?_
  refine Post.bind len_unsigned_byte fun a7 b7 h7 => ?_
  refine Post.pure _ ?_
  simp only [List.length_append, List.length_nil, PduHeader.init, List.nil_append, h0, h1, h2, h3, h4, h5, h6, h7, PduHeader.wireSize]
  all_goals clear h0 h1 h2 h3 h4 h5 h6 h7
  all_goals omega

theorem SimulationManagementPduHeader.takes : Takes (SimulationManagementPduHeader.parse SimulationManagementPduHeader.init) SimulationManagementPduHeader.wireSize := by
  unfold SimulationManagementPduHeader.parse
  refine Post.bind PduHeader.takes fun a0 b0 h0 => ?_
  refine Post.bind SimulationIdentifier.takes fun a1 b1 h1 => ?_
  refine Post.bind SimulationIdentifier.takes fun a2 b2 h2 => ?_
  refine Post.pure _ ?_
  simp only [List.length_append, List.length_nil, SimulationManagementPduHeader.init, List.nil_append, h0, h1, h2, SimulationManagementPduHeader.wireSize, PduHeader.wireSize, SimulationIdentifier.wireSize]
  all_goals clear h0 h1 h2
  all_goals omega

theorem BeamData.takes : Takes (BeamData.parse BeamData.init) BeamData.wireSize := by
  unfold BeamData.parse
  refine Post.bind len_float fun a0 b0 h0 => ?_
  refine Post.bind len_float fun a1 b1 h1 => ?_
  refine Post.bind len_float fun a2 b2 h2 => ?_
  refine Post.bind len_float fun a3 b3 h3 => ?_
  refine Post.bind len_float fun a4 b4 h4 => ?_
  refine Post.pure _ ?_
  simp only [List.length_append, List.length_nil, BeamData.init, List.nil_append, h0, h1, h2, h3, h4, BeamData.wireSize]
  all_goals clear h0 h1 h2 h3 h4
  all_goals omega

theorem EngineFuel.takes : Takes (EngineFuel.parse EngineFuel.init) EngineFuel.wireSize := by
  unfold EngineFuel.parse
  refine Post.bind len_unsigned_int fun a0 b0 h0 => ?_
  refine Post.bind len_unsigned_byte fun a1 b1 h1 => ?_
  refine Post.bind len_unsigned_byte fun a2 b2 h2 => ?_
  refine Post.bind len_unsigned_byte fun a3 b3 h3 => ?_
  refine Post.bind len_unsigned_byte fun a4 b4 h4 => ?_
  refine Post.pure _ ?_
  simp only [List.length_append, List.length_nil, EngineFuel.init, List.nil_append, h0, h1, h2, h3, h4, EngineFuel.wireSize]
  all_goals clear h0 h1 h2 h3 h4
  all_goals omega

theorem IOEffect.takes : Takes (IOEffect.parse IOEffect.init) IOEffect.wireSize := by
  unfold IOEffect.parse
  refine Post.bind len_unsigned_int fun a0 b0 h0 => ?_
  refine Post.bind len_unsigned_short fun a1 b1 h1 => ?_
  refine Post.bind len_unsigned_byte fun a2 b2 h2 => ?_
  refine Post.bind len_unsigned_byte fun a3 b3 h3 => ?_
  refine Post.bind len_unsigned_byte fun a4 b4 h4 => ?_
  refine Post.bind len_unsigned_byte fun a5 b5 h5 => ?_
  refine Post.bind len_unsigned_short fun a6 b6 h6 => ?_
  refine Post.bind len_unsigned_short fun a7 b7 h7 => ?_
  refine Post.bind len_unsigned_short fun a8 b8 h8 => ?_
  refine Post.pure _ ?_
  simp only [List.length_append, List.length_nil, IOEffect.init, List.nil_append, h0, h1, h2, h3, h4, h5, h6, h7, h8, IOEffect.wireSize]
  all_goals clear h0 h1 h2 h3 h4 h5 h6 h7 h8
  all_goals omega

theorem GridAxisDescriptorVariable.takes' : Post (GridAxisDescriptorVariable.parse GridAxisDescriptorVariable.init)
    (fun b o => b.length = GridAxisDescriptorVariable.wireSize o ∧ o.xiValues = []) := by
  unfold GridAxisDescriptorVariable.parse
  refine Post.bind len_double fun a0 b0 h0 => ?_
  refine Post.bind len_double fun a1 b1 h1 => ?_
  refine Post.bind len_unsigned_short fun a2 b2 h2 => ?_
  refine Post.bind len_unsigned_byte fun a3 b3 h3 => ?_
  refine Post.bind len_unsigned_byte fun a4 b4 h4 => ?_
  refine Post.bind len_unsigned_short fun a5 b5 h5 => ?_
  refine Post.bind len_unsigned_short fun a6 b6 h6 => ?_
  refine Post.bind len_double fun a7 b7 h7 => ?_
  refine Post.bind len_double fun a8 b8 h8 => ?_
  refine Post.bind (Post.times_throw _ _) fun a9 b9 h9 => ?_
  refine Post.pure _ ?_
  obtain ⟨-, rfl, rfl⟩ := h9
  refine ⟨?_, ?_⟩
  all_goals simp only [List.length_append, List.length_nil, GridAxisDescriptorVariable.init, List.nil_append, h0, h1, h2, h3, h4, h5, h6, h7, h8, GridAxisDescriptorVariable.wireSize]
  all_goals clear h0 h1 h2 h3 h4 h5 h6 h7 h8
  all_goals first | rfl | omega

theorem GridAxisDescriptorVariable.takes : Takes (GridAxisDescriptorVariable.parse GridAxisDescriptorVariable.init) GridAxisDescriptorVariable.wireSize :=
  GridAxisDescriptorVariable.takes'.mono fun _ _ h => h.1

theorem SupplyQuantity.takes : Takes (SupplyQuantity.parse SupplyQuantity.init) SupplyQuantity.wireSize := by
  unfold SupplyQuantity.parse
  refine Post.bind EntityType.takes fun a0 b0 h0 => ?_
  refine Post.bind len_float fun a1 b1 h1 => ?_
  refine Post.pure _ ?_
  simp only [List.length_append, List.length_nil, SupplyQuantity.init, List.nil_append, h0, h1, SupplyQuantity.wireSize, EntityType.wireSize]
  all_goals clear h0 h1
  all_goals omega

theorem SilentEntitySystem.takes' : Post (SilentEntitySystem.parse SilentEntitySystem.init)
    (fun b o => b.length = SilentEntitySystem.wireSize o ∧ o.appearanceRecordList = []) := by
  unfold SilentEntitySystem.parse
  refine Post.bind len_unsigned_short fun a0 b0 h0 => ?_
  refine Post.bind len_unsigned_short fun a1 b1 h1 => ?_
  refine Post.bind EntityType.takes fun a2 b2 h2 => ?_
  refine Post.bind (Post.times_throw _ _) fun a3 b3 h3 => ?_
  refine Post.pure _ ?_
  obtain ⟨-, rfl, rfl⟩ := h3
  refine ⟨?_, ?_⟩
  all_goals simp only [List.length_append, List.length_nil, SilentEntitySystem.init, List.nil_append, h0, h1, h2, SilentEntitySystem.wireSize, EntityType.wireSize]
  all_goals clear h0 h1 h2
  all_goals first | rfl | omega

theorem SilentEntitySystem.takes : Takes (SilentEntitySystem.parse SilentEntitySystem.init) SilentEntitySystem.wireSize :=
  SilentEntitySystem.takes'.mono fun _ _ h => h.1

theorem SilentAggregateSystem.takes : Takes (SilentAggregateSystem.parse SilentAggregateSystem.init) SilentAggregateSystem.wireSize := by
  unfold SilentAggregateSystem.parse
  refine Post.bind len_unsigned_short fun a0 b0 h0 => ?_
  refine Post.bind AggregateType.takes fun a1 b1 h1 => ?_
  refine Post.pure _ ?_
  simp only [List.length_append, List.length_nil, SilentAggregateSystem.init, List.nil_append, h0, h1, SilentAggregateSystem.wireSize, AggregateType.wireSize]
  all_goals clear h0 h1
  all_goals omega

theorem BlankingSector.takes : Takes (BlankingSector.parse BlankingSector.init) BlankingSector.wireSize := by
  unfold BlankingSector.parse
  refine Post.bind len_int fun a0 b0 h0 => ?_
  refine Post.bind len_unsigned_short fun a1 b1 h1 => ?_
  refine Post.bind len_unsigned_short fun a2 b2 h2 => ?_
  refine Post.bind len_unsigned_byte fun a3 b3 h3 => ?_
  refine Post.bind len_unsigned_byte fun a4 b4 h4 => ?_
  refine Post.bind len_unsigned_byte fun a5 b5 h5 => ?_
  refine Post.bind len_unsigned_byte fun a6 b6 h6 => ?_
  refine Post.bind len_float fun a7 b7 h7 => ?_
  refine Post.bind len_float fun a8 b8 h8 => ?_
  refine Post.bind len_float fun a9 b9 h9 => ?_
  refine Post.bind len_float fun a10 b10 h10 => ?_
  refine Post.bind len_float fun a11 b11 h11 => ?_
  refine Post.bind len_int fun a12 b12 h12 => ?_
  refine Post.bind len_int fun a13 b13 h13 => ?_
  refine Post.pure _ ?_
  simp only [List.length_append, List.length_nil, BlankingSector.init, List.nil_append, h0, h1, h2, h3, h4, h5, h6, h7, h8, h9, h10, h11, h12, h13, BlankingSector.wireSize]
  all_goals clear h0 h1 h2 h3 h4 h5 h6 h7 h8 h9 h10 h11 h12 h13
  all_goals omega

theorem LaunchedMunitionRecord.takes : Takes (LaunchedMunitionRecord.parse LaunchedMunitionRecord.init) LaunchedMunitionRecord.wireSize := by
  unfold LaunchedMunitionRecord.parse
  refine Post.bind EventIdentifier.takes fun a0 b0 h0 => ?_
  refine Post.bind len_unsigned_short fun a1 b1 h1 => ?_
  refine Post.bind EventIdentifier.takes fun a2 b2 h2 => ?_
  refine Post.bind len_unsigned_short fun a3 b3 h3 => ?_
  refine Post.bind EventIdentifier.takes fun a4 b4 h4 => ?_
  refine Post.bind len_unsigned_short fun a5 b5 h5 => ?_
  refine Post.bind WorldCoordinates.takes fun a6 b6 h6 => ?_
  refine Post.pure _ ?_
  simp only [List.length_append, List.length_nil, LaunchedMunitionRecord.init, List.nil_append, h0, h1, h2, h3, h4, h5, h6, LaunchedMunitionRecord.wireSize, EventIdentifier.wireSize, WorldCoordinates.wireSize]
  all_goals clear h0 h1 h2 h3 h4 h5 h6
  all_goals omega

theorem IFFFundamentalParameterData.takes : Takes (IFFFundamentalParameterData.parse IFFFundamentalParameterData.init) IFFFundamentalParameterData.wireSize := by
  unfold IFFFundamentalParameterData.parse
  refine Post.bind len_float fun a0 b0 h0 => ?_
  refine Post.bind len_float fun a1 b1 h1 => ?_
  refine Post.bind len_float fun a2 b2 h2 => ?_
  refine Post.bind len_float fun a3 b3 h3 => ?_
  refine Post.bind len_unsigned_int fun a4 b4 h4 => ?_
  refine Post.bind len_unsigned_byte fun a5 b5 h5 => ?_
  refine Post.bind (Takes.times_const len_unsigned_byte (fun _ => rfl) _) fun a6 b6 h6 => ?_
  refine Post.pure _ ?_
  simp only [List.length_append, List.length_nil, IFFFundamentalParameterData.init, List.nil_append, h0, h1, h2, h3, h4, h5, h6.1, IFFFundamentalParameterData.wireSize]
  all_goals clear h0 h1 h2 h3 h4 h5
  all_goals omega

theorem FundamentalOperationalData.takes : Takes (FundamentalOperationalData.parse FundamentalOperationalData.init) FundamentalOperationalData.wireSize := by
  unfold FundamentalOperationalData.parse
  refine Post.bind len_unsigned_byte fun a0 b0 h0 => ?_
  refine Post.bind len_unsigned_byte fun a1 b1 h1 => ?_
  refine Post.bind len_unsigned_byte fun a2 b2 h2 => ?_
  refine Post.bind len_unsigned_byte fun a3 b3 h3 => ?_
  refine Post.bind len_unsigned_short fun a4 b4 h4 => ?_
  refine Post.bind len_unsigned_short fun a5 b5 h5 => ?_
  refine Post.bind len_unsigned_short fun a6 b6 h6 => ?_
  refine Post.bind len_unsigned_short fun a7 b7 h7 => ?_
  refine Post.bind len_unsigned_short fun a8 b8 h8 => ?_
  refine Post.bind len_unsigned_short fun a9 b9 h9 => ?_
  refine Post.pure _ ?_
  simp only [List.length_append, List.length_nil, FundamentalOperationalData.init, List.nil_append, h0, h1, h2, h3, h4, h5, h6, h7, h8, h9, FundamentalOperationalData.wireSize]
  all_goals clear h0 h1 h2 h3 h4 h5 h6 h7 h8 h9
  all_goals omega

theorem IntercomCommunicationsParameters.takes : Takes (IntercomCommunicationsParameters.parse IntercomCommunicationsParameters.init) IntercomCommunicationsParameters.wireSize := by
  unfold IntercomCommunicationsParameters.parse
  refine Post.bind len_unsigned_short fun a0 b0 h0 => ?_
  refine Post.bind len_unsigned_short fun a1 b1 h1 => ?_
  refine Post.bind len_unsigned_int fun a2 b2 h2 => ?_
  refine Post.pure _ ?_
  simp only [List.length_append, List.length_nil, IntercomCommunicationsParameters.init, List.nil_append, h0, h1, h2, IntercomCommunicationsParameters.wireSize]
  all_goals clear h0 h1 h2
  all_goals omega

theorem Munition.takes : Takes (Munition.parse Munition.init) Munition.wireSize := by
  unfold Munition.parse
  refine Post.bind EntityType.takes fun a0 b0 h0 => ?_
  refine Post.bind len_unsigned_int fun a1 b1 h1 => ?_
  refine Post.bind len_unsigned_short fun a2 b2 h2 => ?_
  refine Post.bind len_unsigned_byte fun a3 b3 h3 => ?_
  refine Post.bind len_unsigned_byte fun a4 b4 h4 => ?_
  refine Post.pure _ ?_
  simp only [List.length_append, List.length_nil, Munition.init, List.nil_append, h0, h1, h2, h3, h4, Munition.wireSize, EntityType.wireSize]
  all_goals clear h0 h1 h2 h3 h4
  all_goals omega

theorem StandardVariableSpecification.takes' : Post (StandardVariableSpecification.parse StandardVariableSpecification.init)
    (fun b o => b.length = StandardVariableSpecification.wireSize o ∧ o.standardVariables = []) := by
  unfold StandardVariableSpecification.parse
  refine Post.bind len_unsigned_short fun a0 b0 h0 => ?_
  refine Post.bind (Post.times_throw _ _) fun a1 b1 h1 => ?_
  refine Post.pure _ ?_
  obtain ⟨-, rfl, rfl⟩ := h1
  refine ⟨?_, ?_⟩
  all_goals simp only [List.length_append, List.length_nil, StandardVariableSpecification.init, List.nil_append, h0, StandardVariableSpecification.wireSize]
  all_goals clear h0
  all_goals first | rfl | omega

theorem StandardVariableSpecification.takes : Takes (StandardVariableSpecification.parse StandardVariableSpecification.init) StandardVariableSpecification.wireSize :=
  StandardVariableSpecification.takes'.mono fun _ _ h => h.1

theorem Vector2Float.takes : Takes (Vector2Float.parse Vector2Float.init) Vector2Float.wireSize := by
  unfold Vector2Float.parse
  refine Post.bind len_float fun a0 b0 h0 => ?_
  refine Post.bind len_float fun a1 b1 h1 => ?_
  refine Post.pure _ ?_
  simp only [List.length_append, List.length_nil, Vector2Float.init, List.nil_append, h0, h1, Vector2Float.wireSize]
  all_goals clear h0 h1
  all_goals omega

theorem Environment.takes : Takes (Environment.parse Environment.init) Environment.wireSize := by
  unfold Environment.parse
  refine Post.bind len_unsigned_int fun a0 b0 h0 => ?_
  refine Post.bind len_unsigned_short fun a1 b1 h1 => ?_
  refine Post.bind len_unsigned_byte fun a2 b2 h2 => ?_
  refine Post.bind len_unsigned_byte fun a3 b3 h3 => ?_
  refine Post.pure _ ?_
  simp only [List.length_append, List.length_nil, Environment.init, List.nil_append, h0, h1, h2, h3, Environment.wireSize]
  all_goals clear h0 h1 h2 h3
  all_goals omega

theorem AcousticEmitter.takes : Takes (AcousticEmitter.parse AcousticEmitter.init) AcousticEmitter.wireSize := by
  unfold AcousticEmitter.parse
  refine Post.bind len_unsigned_short fun a0 b0 h0 => ?_
  refine Post.bind len_unsigned_byte fun a1 b1 h1 => ?_
  refine Post.bind len_unsigned_byte fun a2 b2 h2 => ?_
  refine Post.pure _ ?_
  simp only [List.length_append, List.length_nil, AcousticEmitter.init, List.nil_append, h0, h1, h2, AcousticEmitter.wireSize]
  all_goals clear h0 h1 h2
  all_goals omega

theorem AngularVelocityVector.takes : Takes (AngularVelocityVector.parse AngularVelocityVector.init) AngularVelocityVector.wireSize := by
  unfold AngularVelocityVector.parse
  refine Post.bind len_float fun a0 b0 h0 => ?_
  refine Post.bind len_float fun a1 b1 h1 => ?_
  refine Post.bind len_float fun a2 b2 h2 => ?_
  refine Post.pure _ ?_
  simp only [List.length_append, List.length_nil, AngularVelocityVector.init, List.nil_append, h0, h1, h2, AngularVelocityVector.wireSize]
  all_goals clear h0 h1 h2
  all_goals omega

theorem AggregateMarking.takes : Takes (AggregateMarking.parse AggregateMarking.init) AggregateMarking.wireSize := by
  unfold AggregateMarking.parse
  refine Post.bind len_unsigned_byte fun a0 b0 h0 => ?_
  refine Post.bind (Takes.times_const len_unsigned_byte (fun _ => rfl) _) fun a1 b1 h1 => ?_
  refine Post.pure _ ?_
  simp only [List.length_append, List.length_nil, AggregateMarking.init, List.nil_append, h0, h1.1, AggregateMarking.wireSize]
  all_goals clear h0
  all_goals omega

theorem DataFilterRecord.takes : Takes (DataFilterRecord.parse DataFilterRecord.init) DataFilterRecord.wireSize := by
  unfold DataFilterRecord.parse
  refine Post.bind len_unsigned_int fun a0 b0 h0 => ?_
  refine Post.pure _ ?_
  simp only [List.length_append, List.length_nil, DataFilterRecord.init, List.nil_append, h0, DataFilterRecord.wireSize]
  all_goals clear h0
  all_goals omega

theorem IntercomIdentifier.takes : Takes (IntercomIdentifier.parse IntercomIdentifier.init) IntercomIdentifier.wireSize := by
  unfold IntercomIdentifier.parse
  refine Post.bind len_unsigned_short fun a0 b0 h0 => ?_
  refine Post.bind len_unsigned_short fun a1 b1 h1 => ?_
  refine Post.bind len_unsigned_short fun a2 b2 h2 => ?_
  refine Post.bind len_unsigned_short fun a3 b3 h3 => ?_
  refine Post.pure _ ?_
  simp only [List.length_append, List.length_nil, IntercomIdentifier.init, List.nil_append, h0, h1, h2, h3, IntercomIdentifier.wireSize]
  all_goals clear h0 h1 h2 h3
  all_goals omega

theorem StorageFuel.takes : Takes (StorageFuel.parse StorageFuel.init) StorageFuel.wireSize := by
  unfold StorageFuel.parse
  refine Post.bind len_unsigned_int fun a0 b0 h0 => ?_
  refine Post.bind len_unsigned_byte fun a1 b1 h1 => ?_
  refine Post.bind len_unsigned_byte fun a2 b2 h2 => ?_
  refine Post.bind len_unsigned_byte fun a3 b3 h3 => ?_
  refine Post.bind len_unsigned_byte fun a4 b4 h4 => ?_
  refine Post.pure _ ?_
  simp only [List.length_append, List.length_nil, StorageFuel.init, List.nil_append, h0, h1, h2, h3, h4, StorageFuel.wireSize]
  all_goals clear h0 h1 h2 h3 h4
  all_goals omega

theorem Sensor.takes : Takes (Sensor.parse Sensor.init) Sensor.wireSize := by
  unfold Sensor.parse
  refine Post.bind len_unsigned_byte fun a0 b0 h0 => ?_
  refine Post.bind len_unsigned_byte fun a1 b1 h1 => ?_
  refine Post.bind len_unsigned_short fun a2 b2 h2 => ?_
  refine Post.bind len_unsigned_int fun a3 b3 h3 => ?_
  refine Post.bind len_unsigned_short fun a4 b4 h4 => ?_
  refine Post.bind len_unsigned_short fun a5 b5 h5 => ?_
  refine Post.pure _ ?_
  simp only [List.length_append, List.length_nil, Sensor.init, List.nil_append, h0, h1, h2, h3, h4, h5, Sensor.wireSize]
  all_goals clear h0 h1 h2 h3 h4 h5
  all_goals omega

theorem MunitionReload.takes : Takes (MunitionReload.parse MunitionReload.init) MunitionReload.wireSize := by
  unfold MunitionReload.parse
  refine Post.bind EntityType.takes fun a0 b0 h0 => ?_
  refine Post.bind len_unsigned_int fun a1 b1 h1 => ?_
  refine Post.bind len_unsigned_short fun a2 b2 h2 => ?_
  refine Post.bind len_unsigned_short fun a3 b3 h3 => ?_
  refine Post.bind len_unsigned_int fun a4 b4 h4 => ?_
  refine Post.bind len_unsigned_int fun a5 b5 h5 => ?_
  refine Post.pure _ ?_
  simp only [List.length_append, List.length_nil, MunitionReload.init, List.nil_append, h0, h1, h2, h3, h4, h5, MunitionReload.wireSize, EntityType.wireSize]
  all_goals clear h0 h1 h2 h3 h4 h5
  all_goals omega

theorem StorageFuelReload.takes : Takes (StorageFuelReload.parse StorageFuelReload.init) StorageFuelReload.wireSize := by
  unfold StorageFuelReload.parse
  refine Post.bind len_unsigned_int fun a0 b0 h0 => ?_
  refine Post.bind len_unsigned_int fun a1 b1 h1 => ?_
  refine Post.bind len_unsigned_byte fun a2 b2 h2 => ?_
  refine Post.bind len_unsigned_byte fun a3 b3 h3 => ?_
  refine Post.bind len_unsigned_byte fun a4 b4 h4 => ?_
  refine Post.bind len_unsigned_byte fun a5 b5 h5 => ?_
  refine Post.bind len_unsigned_byte fun a6 b6 h6 => ?_
  refine Post.bind len_unsigned_byte fun a7 b7 h7 => ?_
  refine Post.pure _ ?_
  simp only [List.length_append, List.length_nil, StorageFuelReload.init, List.nil_append, h0, h1, h2, h3, h4, h5, h6, h7, StorageFuelReload.wireSize]
  all_goals clear h0 h1 h2 h3 h4 h5 h6 h7
  all_goals omega

theorem ExpendableReload.takes : Takes (ExpendableReload.parse ExpendableReload.init) ExpendableReload.wireSize := by
  unfold ExpendableReload.parse
  refine Post.bind EntityType.takes fun a0 b0 h0 => ?_
  refine Post.bind len_unsigned_int fun a1 b1 h1 => ?_
  refine Post.bind len_unsigned_short fun a2 b2 h2 => ?_
  refine Post.bind len_unsigned_short fun a3 b3 h3 => ?_
  refine Post.bind len_unsigned_int fun a4 b4 h4 => ?_
  refine Post.bind len_unsigned_int fun a5 b5 h5 => ?_
  refine Post.pure _ ?_
  simp only [List.length_append, List.length_nil, ExpendableReload.init, List.nil_append, h0, h1, h2, h3, h4, h5, ExpendableReload.wireSize, EntityType.wireSize]
  all_goals clear h0 h1 h2 h3 h4 h5
  all_goals omega

theorem EngineFuelReload.takes : Takes (EngineFuelReload.parse EngineFuelReload.init) EngineFuelReload.wireSize := by
  unfold EngineFuelReload.parse
  refine Post.bind len_unsigned_int fun a0 b0 h0 => ?_
  refine Post.bind len_unsigned_int fun a1 b1 h1 => ?_
  refine Post.bind len_unsigned_int fun a2 b2 h2 => ?_
  refine Post.bind len_unsigned_int fun a3 b3 h3 => ?_
  refine Post.bind len_unsigned_byte fun a4 b4 h4 => ?_
  refine Post.bind len_unsigned_byte fun a5 b5 h5 => ?_
  refine Post.bind len_unsigned_byte fun a6 b6 h6 => ?_
  refine Post.pure _ ?_
  simp only [List.length_append, List.length_nil, EngineFuelReload.init, List.nil_append, h0, h1, h2, h3, h4, h5, h6, EngineFuelReload.wireSize]
  all_goals clear h0 h1 h2 h3 h4 h5 h6
  all_goals omega

theorem UnattachedIdentifier.takes : Takes (UnattachedIdentifier.parse UnattachedIdentifier.init) UnattachedIdentifier.wireSize := by
  unfold UnattachedIdentifier.parse
  refine Post.bind SimulationAddress.takes fun a0 b0 h0 => ?_
  refine Post.bind len_unsigned_short fun a1 b1 h1 => ?_
  refine Post.pure _ ?_
  simp only [List.length_append, List.length_nil, UnattachedIdentifier.init, List.nil_append, h0, h1, UnattachedIdentifier.wireSize, SimulationAddress.wireSize]
  all_goals clear h0 h1
  all_goals omega

theorem EntityTypeVP.takes : Takes (EntityTypeVP.parse EntityTypeVP.init) EntityTypeVP.wireSize := by
  unfold EntityTypeVP.parse
  refine Post.bind len_unsigned_byte fun a0 b0 h0 => ?_
  refine Post.bind len_unsigned_byte fun a1 b1 h1 => ?_
  refine Post.bind EntityType.takes fun a2 b2 h2 => ?_
  refine Post.bind len_unsigned_short fun a3 b3 h3 => ?_
  refine Post.bind len_unsigned_int fun a4 b4 h4 => ?_
  refine Post.pure _ ?_
  simp only [List.length_append, List.length_nil, EntityTypeVP.init, List.nil_append, h0, h1, h2, h3, h4, EntityTypeVP.wireSize, EntityType.wireSize]
  all_goals clear h0 h1 h2 h3 h4
  all_goals omega

theorem BeamStatus.takes : Takes (BeamStatus.parse BeamStatus.init) BeamStatus.wireSize := by
  unfold BeamStatus.parse
  exact Post.last len_unsigned_byte fun _ _ h => h

theorem EnvironmentGeneral.takes : Takes (EnvironmentGeneral.parse EnvironmentGeneral.init) EnvironmentGeneral.wireSize := by
  unfold EnvironmentGeneral.parse
  refine Post.bind len_unsigned_int fun a0 b0 h0 => ?_
  refine Post.bind len_unsigned_byte fun a1 b1 h1 => ?_
  refine Post.bind len_unsigned_byte fun a2 b2 h2 => ?_
  refine Post.bind len_unsigned_byte fun a3 b3 h3 => ?_
  refine Post.bind len_unsigned_byte fun a4 b4 h4 => ?_
  refine Post.bind len_unsigned_byte fun a5 b5 h5 => ?_
  refine Post.pure _ ?_
  simp only [List.length_append, List.length_nil, EnvironmentGeneral.init, List.nil_append, h0, h1, h2, h3, h4, h5, EnvironmentGeneral.wireSize]
  all_goals clear h0 h1 h2 h3 h4 h5
  all_goals omega

theorem GridAxis.takes : Takes (GridAxis.parse GridAxis.init) GridAxis.wireSize := by
  unfold GridAxis.parse
  refine Post.bind len_double fun a0 b0 h0 => ?_
  refine Post.bind len_double fun a1 b1 h1 => ?_
  refine Post.bind len_unsigned_short fun a2 b2 h2 => ?_
  refine Post.bind len_unsigned_byte fun a3 b3 h3 => ?_
  refine Post.bind len_unsigned_byte fun a4 b4 h4 => ?_
  refine Post.bind len_unsigned_short fun a5 b5 h5 => ?_
  refine Post.bind len_unsigned_short fun a6 b6 h6 => ?_
  refine Post.pure _ ?_
  simp only [List.length_append, List.length_nil, GridAxis.init, List.nil_append, h0, h1, h2, h3, h4, h5, h6, GridAxis.wireSize]
  all_goals clear h0 h1 h2 h3 h4 h5 h6
  all_goals omega

theorem RecordSpecification.takes' : Post (RecordSpecification.parse RecordSpecification.init)
    (fun b o => b.length = RecordSpecification.wireSize o ∧ o.recordSets = []) := by
  unfold RecordSpecification.parse
  refine Post.bind len_unsigned_int fun a0 b0 h0 => ?_
  refine Post.bind (Post.times_throw _ _) fun a1 b1 h1 => ?_
  refine Post.pure _ ?_
  obtain ⟨-, rfl, rfl⟩ := h1
  refine ⟨?_, ?_⟩
  all_goals simp only [List.length_append, List.length_nil, RecordSpecification.init, List.nil_append, h0, RecordSpecification.wireSize]
  all_goals clear h0
  all_goals first | rfl | omega

theorem RecordSpecification.takes : Takes (RecordSpecification.parse RecordSpecification.init) RecordSpecification.wireSize :=
  RecordSpecification.takes'.mono fun _ _ h => h.1

theorem EventIdentifierLiveEntity.takes : Takes (EventIdentifierLiveEntity.parse EventIdentifierLiveEntity.init) EventIdentifierLiveEntity.wireSize := by
  unfold EventIdentifierLiveEntity.parse
  refine Post.bind len_unsigned_byte fun a0 b0 h0 => ?_
  refine Post.bind len_unsigned_byte fun a1 b1 h1 => ?_
  refine Post.bind len_unsigned_short fun a2 b2 h2 => ?_
  refine Post.pure _ ?_
  simp only [List.length_append, List.length_nil, EventIdentifierLiveEntity.init, List.nil_append, h0, h1, h2, EventIdentifierLiveEntity.wireSize]
  all_goals clear h0 h1 h2
  all_goals omega

theorem ExpendableDescriptor.takes : Takes (ExpendableDescriptor.parse ExpendableDescriptor.init) ExpendableDescriptor.wireSize := by
  unfold ExpendableDescriptor.parse
  refine Post.bind EntityType.takes fun a0 b0 h0 => ?_
  refine Post.bind len_long fun a1 b1 h1 => ?_
  refine Post.pure _ ?_
  simp only [List.length_append, List.length_nil, ExpendableDescriptor.init, List.nil_append, h0, h1, ExpendableDescriptor.wireSize, EntityType.wireSize]
  all_goals clear h0 h1
  all_goals omega

theorem PropulsionSystemData.takes : Takes (PropulsionSystemData.parse PropulsionSystemData.init) PropulsionSystemData.wireSize := by
  unfold PropulsionSystemData.parse
  refine Post.bind len_float fun a0 b0 h0 => ?_
  refine Post.bind len_float fun a1 b1 h1 => ?_
  refine Post.pure _ ?_
  simp only [List.length_append, List.length_nil, PropulsionSystemData.init, List.nil_append, h0, h1, PropulsionSystemData.wireSize]
  all_goals clear h0 h1
  all_goals omega

theorem LiveEntityIdentifier.takes : Takes (LiveEntityIdentifier.parse LiveEntityIdentifier.init) LiveEntityIdentifier.wireSize := by
  unfold LiveEntityIdentifier.parse
  refine Post.bind LiveSimulationAddress.takes fun a0 b0 h0 => ?_
  refine Post.bind len_unsigned_short fun a1 b1 h1 => ?_
  refine Post.pure _ ?_
  simp only [List.length_append, List.length_nil, LiveEntityIdentifier.init, List.nil_append, h0, h1, LiveEntityIdentifier.wireSize, LiveSimulationAddress.wireSize]
  all_goals clear h0 h1
  all_goals omega

theorem SeparationVP.takes : Takes (SeparationVP.parse SeparationVP.init) SeparationVP.wireSize := by
  unfold SeparationVP.parse
  refine Post.bind len_unsigned_byte fun a0 b0 h0 => ?_
  refine Post.bind len_unsigned_byte fun a1 b1 h1 => ?_
  refine Post.bind len_unsigned_byte fun a2 b2 h2 => ?_
  refine Post.bind len_unsigned_byte fun a3 b3 h3 => ?_
  refine Post.bind EntityIdentifier.takes fun a4 b4 h4 => ?_
  refine Post.bind len_unsigned_short fun a5 b5 h5 => ?_
  refine Post.bind len_unsigned_int fun a6 b6 h6 => ?_
  refine Post.pure _ ?_
  simp only [List.length_append, List.length_nil, SeparationVP.init, List.nil_append, h0, h1, h2, h3, h4, h5, h6, SeparationVP.wireSize, EntityIdentifier.wireSize]
  all_goals clear h0 h1 h2 h3 h4 h5 h6
  all_goals omega

theorem EmitterSystem.takes : Takes (EmitterSystem.parse EmitterSystem.init) EmitterSystem.wireSize := by
  unfold EmitterSystem.parse
  refine Post.bind len_unsigned_short fun a0 b0 h0 => ?_
  refine Post.bind len_unsigned_byte fun a1 b1 h1 => ?_
  refine Post.bind len_unsigned_byte fun a2 b2 h2 => ?_
  refine Post.pure _ ?_
  simp only [List.length_append, List.length_nil, EmitterSystem.init, List.nil_append, h0, h1, h2, EmitterSystem.wireSize]
  all_goals clear h0 h1 h2
  all_goals omega

theorem PduStatus.takes : Takes (PduStatus.parse PduStatus.init) PduStatus.wireSize := by
  unfold PduStatus.parse
  refine Post.bind len_unsigned_byte fun a0 b0 h0 => ?_
  refine Post.pure _ ?_
  simp only [List.length_append, List.length_nil, PduStatus.init, List.nil_append, h0, PduStatus.wireSize]
  all_goals clear h0
  all_goals omega

theorem EmissionSystemBeamRecord.takes : Takes (EmissionSystemBeamRecord.parse EmissionSystemBeamRecord.init) EmissionSystemBeamRecord.wireSize := by
  unfold EmissionSystemBeamRecord.parse
  refine Post.bind len_unsigned_byte fun a0 b0 h0 => ?_
  refine Post.bind len_unsigned_byte fun a1 b1 h1 => ?_
  refine Post.bind len_unsigned_short fun a2 b2 h2 => ?_
  refine Post.bind EEFundamentalParameterData.takes fun a3 b3 h3 => ?_
  refine Post.bind len_unsigned_byte fun a4 b4 h4 => ?_
  refine Post.bind len_unsigned_byte fun a5 b5 h5 => ?_
  refine Post.bind len_unsigned_byte fun a6 b6 h6 => ?_
  refine Post.bind BeamStatus.takes fun a7 b7 h7 => ?_
  refine Post.bind len_unsigned_int fun a8 b8 h8 => ?_
  refine Post.bind (Takes.times_const TrackJamData.takes (fun _ => rfl) _) fun a9 b9 h9 => ?_
  refine Post.pure _ ?_
  simp only [List.length_append, List.length_nil, EmissionSystemBeamRecord.init, List.nil_append, h0, h1, h2, h3, h4, h5, h6, h7, h8, h9.1, EmissionSystemBeamRecord.wireSize, BeamStatus.wireSize, EEFundamentalParameterData.wireSize]
  all_goals clear h0 h1 h2 h3 h4 h5 h6 h7 h8 h9
  all_goals omega

theorem EmissionSystemRecord.takes : Takes (EmissionSystemRecord.parse EmissionSystemRecord.init) EmissionSystemRecord.wireSize := by
  unfold EmissionSystemRecord.parse
  refine Post.bind len_unsigned_byte fun a0 b0 h0 => ?_
  refine Post.bind len_unsigned_byte fun a1 b1 h1 => ?_
  refine Post.bind len_unsigned_short fun a2 b2 h2 => ?_
  refine Post.bind EmitterSystem.takes fun a3 b3 h3 => ?_
  refine Post.bind Vector3Float.takes fun a4 b4 h4 => ?_
  refine Post.bind (Takes.times EmissionSystemBeamRecord.takes _) fun a5 b5 h5 => ?_
  refine Post.pure _ ?_
  simp only [List.length_append, List.length_nil, EmissionSystemRecord.init, List.nil_append, h0, h1, h2, h3, h4, h5.1, EmissionSystemRecord.wireSize, EmitterSystem.wireSize, Vector3Float.wireSize]
  all_goals clear h0 h1 h2 h3 h4 h5
  all_goals omega

theorem PduSuperclass.takes (s : PduSuperclass) : Takes (PduSuperclass.parse s) PduSuperclass.wireSize := by
  unfold PduSuperclass.parse
  refine Post.bind len_unsigned_byte fun a0 b0 h0 => ?_
  refine Post.bind len_unsigned_byte fun a1 b1 h1 => ?_
  refine Post.bind len_unsigned_byte fun a2 b2 h2 => ?_
  refine Post.bind len_unsigned_byte fun a3 b3 h3 => ?_
  refine Post.bind len_unsigned_int fun a4 b4 h4 => ?_
  refine Post.bind len_unsigned_short fun a5 b5 h5 => ?_
  refine Post.pure _ ?_
  simp only [List.length_append, List.length_nil, h0, h1, h2, h3, h4, h5, PduSuperclass.wireSize]
  all_goals clear h0 h1 h2 h3 h4 h5
  all_goals omega

theorem LiveEntityPdu.takes (s : LiveEntityPdu) : Takes (LiveEntityPdu.parse s) LiveEntityPdu.wireSize := by
  unfold LiveEntityPdu.parse
  refine Post.bind (PduSuperclass.takes _) fun a0 b0 h0 => ?_
  refine Post.bind len_unsigned_short fun a1 b1 h1 => ?_
  refine Post.bind len_unsigned_byte fun a2 b2 h2 => ?_
  refine Post.pure _ ?_
  simp only [List.length_append, List.length_nil, h0, h1, h2, LiveEntityPdu.wireSize, PduSuperclass.wireSize]
  all_goals clear h0 h1 h2
  all_goals omega

theorem Pdu.takes (s : Pdu) : Takes (Pdu.parse s) Pdu.wireSize := by
  unfold Pdu.parse
  refine Post.bind (PduSuperclass.takes _) fun a0 b0 h0 => ?_
  refine Post.bind len_unsigned_byte fun a1 b1 h1 => ?_
  refine Post.bind len_unsigned_byte fun a2 b2 h2 => ?_
  refine Post.pure _ ?_
  simp only [List.length_append, List.length_nil, h0, h1, h2, Pdu.wireSize, PduSuperclass.wireSize]
  all_goals clear h0 h1 h2
  all_goals omega

theorem EntityInformationFamilyPdu.takes (s : EntityInformationFamilyPdu) : Takes (EntityInformationFamilyPdu.parse s) EntityInformationFamilyPdu.wireSize := by
  unfold EntityInformationFamilyPdu.parse
  refine Post.bind (Pdu.takes _) fun a0 b0 h0 => ?_
  refine Post.pure _ ?_
  simp only [List.length_append, List.length_nil, h0, EntityInformationFamilyPdu.wireSize, Pdu.wireSize]
  all_goals clear h0
  all_goals omega

theorem LogisticsFamilyPdu.takes (s : LogisticsFamilyPdu) : Takes (LogisticsFamilyPdu.parse s) LogisticsFamilyPdu.wireSize := by
  unfold LogisticsFamilyPdu.parse
  refine Post.bind (Pdu.takes _) fun a0 b0 h0 => ?_
  refine Post.pure _ ?_
  simp only [List.length_append, List.length_nil, h0, LogisticsFamilyPdu.wireSize, Pdu.wireSize]
  all_goals clear h0
  all_goals omega

theorem EntityStateUpdatePdu.takes : Takes (EntityStateUpdatePdu.parse EntityStateUpdatePdu.init) EntityStateUpdatePdu.wireSize := by
  unfold EntityStateUpdatePdu.parse
  refine Post.bind (EntityInformationFamilyPdu.takes _) fun a0 b0 h0 => ?_
  refine Post.bind EntityIdentifier.takes fun a1 b1 h1 => ?_
  refine Post.bind len_byte fun a2 b2 h2 => ?_
  refine Post.bind len_unsigned_byte fun a3 b3 h3 => ?_
  refine Post.bind Vector3Float.takes fun a4 b4 h4 => ?_
  refine Post.bind WorldCoordinates.takes fun a5 b5 h5 => ?_
  refine Post.bind EulerAngles.takes fun a6 b6 h6 => ?_
  refine Post.bind len_unsigned_int fun a7 b7 h7 => ?_
  refine Post.bind (Takes.times_const VariableParameter.takes (fun _ => rfl) _) fun a8 b8 h8 => ?_
  refine Post.pure _ ?_
  simp only [List.length_append, List.length_nil, EntityStateUpdatePdu.init, List.nil_append, h0, h1, h2, h3, h4, h5, h6, h7, h8.1, EntityStateUpdatePdu.wireSize, EntityIdentifier.wireSize, EntityInformationFamilyPdu.wireSize, EulerAngles.wireSize, Vector3Float.wireSize, WorldCoordinates.wireSize]
  all_goals clear h0 h1 h2 h3 h4 h5 h6 h7 h8
  all_goals omega

theorem ServiceRequestPdu.takes : Takes (ServiceRequestPdu.parse ServiceRequestPdu.init) ServiceRequestPdu.wireSize := by
  unfold ServiceRequestPdu.parse
  refine Post.bind (LogisticsFamilyPdu.takes _) fun a0 b0 h0 => ?_
  refine Post.bind EntityIdentifier.takes fun a1 b1 h1 => ?_
  refine Post.bind EntityIdentifier.takes fun a2 b2 h2 => ?_
  refine Post.bind len_unsigned_byte fun a3 b3 h3 => ?_
  refine Post.bind len_unsigned_byte fun a4 b4 h4 => ?_
  refine Post.bind len_short fun a5 b5 h5 => ?_
  refine Post.bind (Takes.times_const SupplyQuantity.takes (fun _ => rfl) _) fun a6 b6 h6 => ?_
  refine Post.pure _ ?_
  simp only [List.length_append, List.length_nil, ServiceRequestPdu.init, List.nil_append, h0, h1, h2, h3, h4, h5, h6.1, ServiceRequestPdu.wireSize, EntityIdentifier.wireSize, LogisticsFamilyPdu.wireSize]
  all_goals clear h0 h1 h2 h3 h4 h5 h6
  all_goals omega

theorem RepairCompletePdu.takes : Takes (RepairCompletePdu.parse RepairCompletePdu.init) RepairCompletePdu.wireSize := by
  unfold RepairCompletePdu.parse
  refine Post.bind (LogisticsFamilyPdu.takes _) fun a0 b0 h0 => ?_
  refine Post.bind EntityIdentifier.takes fun a1 b1 h1 => ?_
  refine Post.bind EntityIdentifier.takes fun a2 b2 h2 => ?_
  refine Post.bind len_unsigned_short fun a3 b3 h3 => ?_
  refine Post.bind len_short fun a4 b4 h4 => ?_
  refine Post.pure _ ?_
  simp only [List.length_append, List.length_nil, RepairCompletePdu.init, List.nil_append, h0, h1, h2, h3, h4, RepairCompletePdu.wireSize, EntityIdentifier.wireSize, LogisticsFamilyPdu.wireSize]
  all_goals clear h0 h1 h2 h3 h4
  all_goals omega

theorem SyntheticEnvironmentFamilyPdu.takes (s : SyntheticEnvironmentFamilyPdu) : Takes (SyntheticEnvironmentFamilyPdu.parse s) SyntheticEnvironmentFamilyPdu.wireSize := by
  unfold SyntheticEnvironmentFamilyPdu.parse
  refine Post.bind (Pdu.takes _) fun a0 b0 h0 => ?_
  refine Post.pure _ ?_
  simp only [List.length_append, List.length_nil, h0, SyntheticEnvironmentFamilyPdu.wireSize, Pdu.wireSize]
  all_goals clear h0
  all_goals omega

theorem CollisionPdu.takes : Takes (CollisionPdu.parse CollisionPdu.init) CollisionPdu.wireSize := by
  unfold CollisionPdu.parse
  refine Post.bind (EntityInformationFamilyPdu.takes _) fun a0 b0 h0 => ?_
  refine Post.bind EntityIdentifier.takes fun a1 b1 h1 => ?_
  refine Post.bind EntityIdentifier.takes fun a2 b2 h2 => ?_
  refine Post.bind EventIdentifier.takes fun a3 b3 h3 => ?_
  refine Post.bind len_unsigned_byte fun a4 b4 h4 => ?_
  refine Post.bind len_byte fun a5 b5 h5 => ?_
  refine Post.bind Vector3Float.takes fun a6 b6 h6 => ?_
  refine Post.bind len_float fun a7 b7 h7 => ?_
  refine Post.bind Vector3Float.takes fun a8 b8 h8 => ?_
  refine Post.pure _ ?_
  simp only [List.length_append, List.length_nil, CollisionPdu.init, List.nil_append, h0, h1, h2, h3, h4, h5, h6, h7, h8, CollisionPdu.wireSize, EntityIdentifier.wireSize, EntityInformationFamilyPdu.wireSize, EventIdentifier.wireSize, Vector3Float.wireSize]
  all_goals clear h0 h1 h2 h3 h4 h5 h6 h7 h8
  all_goals omega

theorem RepairResponsePdu.takes : Takes (RepairResponsePdu.parse RepairResponsePdu.init) RepairResponsePdu.wireSize := by
  unfold RepairResponsePdu.parse
  refine Post.bind (LogisticsFamilyPdu.takes _) fun a0 b0 h0 => ?_
  refine Post.bind EntityIdentifier.takes fun a1 b1 h1 => ?_
  refine Post.bind EntityIdentifier.takes fun a2 b2 h2 => ?_
  refine Post.bind len_unsigned_byte fun a3 b3 h3 => ?_
  refine Post.bind len_short fun a4 b4 h4 => ?_
  refine Post.bind len_byte fun a5 b5 h5 => ?_
  refine Post.pure _ ?_
  simp only [List.length_append, List.length_nil, RepairResponsePdu.init, List.nil_append, h0, h1, h2, h3, h4, h5, RepairResponsePdu.wireSize, EntityIdentifier.wireSize, LogisticsFamilyPdu.wireSize]
  all_goals clear h0 h1 h2 h3 h4 h5
  all_goals omega

theorem SimulationManagementFamilyPdu.takes (s : SimulationManagementFamilyPdu) : Takes (SimulationManagementFamilyPdu.parse s) SimulationManagementFamilyPdu.wireSize := by
  unfold SimulationManagementFamilyPdu.parse
  refine Post.bind (Pdu.takes _) fun a0 b0 h0 => ?_
  refine Post.bind EntityIdentifier.takes fun a1 b1 h1 => ?_
  refine Post.bind EntityIdentifier.takes fun a2 b2 h2 => ?_
  refine Post.pure _ ?_
  simp only [List.length_append, List.length_nil, h0, h1, h2, SimulationManagementFamilyPdu.wireSize, EntityIdentifier.wireSize, Pdu.wireSize]
  all_goals clear h0 h1 h2
  all_goals omega

theorem DataQueryPdu.takes : Takes (DataQueryPdu.parse DataQueryPdu.init) DataQueryPdu.wireSize := by
  unfold DataQueryPdu.parse
  refine Post.bind (SimulationManagementFamilyPdu.takes _) fun a0 b0 h0 => ?_
  refine Post.bind len_unsigned_int fun a1 b1 h1 => ?_
  refine Post.bind len_unsigned_int fun a2 b2 h2 => ?_
  refine Post.bind DataQueryDatumSpecification.takes fun a3 b3 h3 => ?_
  refine Post.pure _ ?_
  simp only [List.length_append, List.length_nil, DataQueryPdu.init, List.nil_append, h0, h1, h2, h3, DataQueryPdu.wireSize, DataQueryDatumSpecification.wireSize, SimulationManagementFamilyPdu.wireSize]
  all_goals clear h0 h1 h2 h3
  all_goals omega

theorem CreateEntityPdu.takes : Takes (CreateEntityPdu.parse CreateEntityPdu.init) CreateEntityPdu.wireSize := by
  unfold CreateEntityPdu.parse
  refine Post.bind (SimulationManagementFamilyPdu.takes _) fun a0 b0 h0 => ?_
  refine Post.bind len_unsigned_int fun a1 b1 h1 => ?_
  refine Post.pure _ ?_
  simp only [List.length_append, List.length_nil, CreateEntityPdu.init, List.nil_append, h0, h1, CreateEntityPdu.wireSize, SimulationManagementFamilyPdu.wireSize]
  all_goals clear h0 h1
  all_goals omega

theorem RadioCommunicationsFamilyPdu.takes (s : RadioCommunicationsFamilyPdu) : Takes (RadioCommunicationsFamilyPdu.parse s) RadioCommunicationsFamilyPdu.wireSize := by
  unfold RadioCommunicationsFamilyPdu.parse
  refine Post.bind (Pdu.takes _) fun a0 b0 h0 => ?_
  refine Post.pure _ ?_
  simp only [List.length_append, List.length_nil, h0, RadioCommunicationsFamilyPdu.wireSize, Pdu.wireSize]
  all_goals clear h0
  all_goals omega

theorem IntercomSignalPdu.takes' : Post (IntercomSignalPdu.parse IntercomSignalPdu.init)
    (fun b o => b.length = IntercomSignalPdu.wireSize o ∧ o.data = []) := by
  unfold IntercomSignalPdu.parse
  refine Post.bind (RadioCommunicationsFamilyPdu.takes _) fun a0 b0 h0 => ?_
  refine Post.bind EntityIdentifier.takes fun a1 b1 h1 => ?_
  refine Post.bind len_unsigned_short fun a2 b2 h2 => ?_
  refine Post.bind len_unsigned_short fun a3 b3 h3 => ?_
  refine Post.bind len_unsigned_short fun a4 b4 h4 => ?_
  refine Post.bind len_unsigned_int fun a5 b5 h5 => ?_
  refine Post.bind len_unsigned_short fun a6 b6 h6 => ?_
  refine Post.bind len_unsigned_short fun a7 b7 h7 => ?_
  refine Post.bind (Post.times_throw _ _) fun a8 b8 h8 => ?_
  refine Post.pure _ ?_
  obtain ⟨-, rfl, rfl⟩ := h8
  refine ⟨?_, ?_⟩
  all_goals simp only [List.length_append, List.length_nil, IntercomSignalPdu.init, List.nil_append, h0, h1, h2, h3, h4, h5, h6, h7, IntercomSignalPdu.wireSize, EntityIdentifier.wireSize, RadioCommunicationsFamilyPdu.wireSize]
  all_goals clear h0 h1 h2 h3 h4 h5 h6 h7
  all_goals first | rfl | omega

theorem IntercomSignalPdu.takes : Takes (IntercomSignalPdu.parse IntercomSignalPdu.init) IntercomSignalPdu.wireSize :=
  IntercomSignalPdu.takes'.mono fun _ _ h => h.1

theorem RemoveEntityPdu.takes : Takes (RemoveEntityPdu.parse RemoveEntityPdu.init) RemoveEntityPdu.wireSize := by
  unfold RemoveEntityPdu.parse
  refine Post.bind (SimulationManagementFamilyPdu.takes _) fun a0 b0 h0 => ?_
  refine Post.bind len_unsigned_int fun a1 b1 h1 => ?_
  refine Post.pure _ ?_
  simp only [List.length_append, List.length_nil, RemoveEntityPdu.init, List.nil_append, h0, h1, RemoveEntityPdu.wireSize, SimulationManagementFamilyPdu.wireSize]
  all_goals clear h0 h1
  all_goals omega

theorem ResupplyReceivedPdu.takes' : Post (ResupplyReceivedPdu.parse ResupplyReceivedPdu.init)
    (fun b o => b.length = ResupplyReceivedPdu.wireSize o ∧ o.supplies = []) := by
  unfold ResupplyReceivedPdu.parse
  refine Post.bind (LogisticsFamilyPdu.takes _) fun a0 b0 h0 => ?_
  refine Post.bind EntityIdentifier.takes fun a1 b1 h1 => ?_
  refine Post.bind EntityIdentifier.takes fun a2 b2 h2 => ?_
  refine Post.bind len_unsigned_byte fun a3 b3 h3 => ?_
  refine Post.bind len_short fun a4 b4 h4 => ?_
  refine Post.bind len_byte fun a5 b5 h5 => ?_
  refine Post.bind (Post.times_throw _ _) fun a6 b6 h6 => ?_
  refine Post.pure _ ?_
  obtain ⟨-, rfl, rfl⟩ := h6
  refine ⟨?_, ?_⟩
  all_goals simp only [List.length_append, List.length_nil, ResupplyReceivedPdu.init, List.nil_append, h0, h1, h2, h3, h4, h5, ResupplyReceivedPdu.wireSize, EntityIdentifier.wireSize, LogisticsFamilyPdu.wireSize]
  all_goals clear h0 h1 h2 h3 h4 h5
  all_goals first | rfl | omega

theorem ResupplyReceivedPdu.takes : Takes (ResupplyReceivedPdu.parse ResupplyReceivedPdu.init) ResupplyReceivedPdu.wireSize :=
  ResupplyReceivedPdu.takes'.mono fun _ _ h => h.1

theorem WarfareFamilyPdu.takes (s : WarfareFamilyPdu) : Takes (WarfareFamilyPdu.parse s) WarfareFamilyPdu.wireSize := by
  unfold WarfareFamilyPdu.parse
  refine Post.bind (Pdu.takes _) fun a0 b0 h0 => ?_
  refine Post.bind EntityIdentifier.takes fun a1 b1 h1 => ?_
  refine Post.bind EntityIdentifier.takes fun a2 b2 h2 => ?_
  refine Post.pure _ ?_
  simp only [List.length_append, List.length_nil, h0, h1, h2, WarfareFamilyPdu.wireSize, EntityIdentifier.wireSize, Pdu.wireSize]
  all_goals clear h0 h1 h2
  all_goals omega

theorem CollisionElasticPdu.takes : Takes (CollisionElasticPdu.parse CollisionElasticPdu.init) CollisionElasticPdu.wireSize := by
  unfold CollisionElasticPdu.parse
  refine Post.bind (EntityInformationFamilyPdu.takes _) fun a0 b0 h0 => ?_
  refine Post.bind EntityIdentifier.takes fun a1 b1 h1 => ?_
  refine Post.bind EntityIdentifier.takes fun a2 b2 h2 => ?_
  refine Post.bind EventIdentifier.takes fun a3 b3 h3 => ?_
  refine Post.bind len_short fun a4 b4 h4 => ?_
  refine Post.bind Vector3Float.takes fun a5 b5 h5 => ?_
  refine Post.bind len_float fun a6 b6 h6 => ?_
  refine Post.bind Vector3Float.takes fun a7 b7 h7 => ?_
  refine Post.bind len_float fun a8 b8 h8 => ?_
  refine Post.bind len_float fun a9 b9 h9 => ?_
  refine Post.bind len_float fun a10 b10 h10 => ?_
  refine Post.bind len_float fun a11 b11 h11 => ?_
  refine Post.bind len_float fun a12 b12 h12 => ?_
  refine Post.bind len_float fun a13 b13 h13 => ?_
  refine Post.bind Vector3Float.takes fun a14 b14 h14 => ?_
  refine Post.bind len_float fun a15 b15 h15 => ?_
  refine Post.pure _ ?_
  simp only [List.length_append, List.length_nil, CollisionElasticPdu.init, List.nil_append, h0, h1, h2, h3, h4, h5, h6, h7, h8, h9, h10, h11, h12, h13, h14, h15, CollisionElasticPdu.wireSize, EntityIdentifier.wireSize, EntityInformationFamilyPdu.wireSize, EventIdentifier.wireSize, Vector3Float.wireSize]
  all_goals clear h0 h1 h2 h3 h4 h5 h6 h7 h8 h9 h10 h11 h12 h13 h14 h15
  all_goals omega

theorem ActionRequestPdu.takes : Takes (ActionRequestPdu.parse ActionRequestPdu.init) ActionRequestPdu.wireSize := by
  unfold ActionRequestPdu.parse
  refine Post.bind (SimulationManagementFamilyPdu.takes _) fun a0 b0 h0 => ?_
  refine Post.bind len_unsigned_int fun a1 b1 h1 => ?_
  refine Post.bind len_unsigned_int fun a2 b2 h2 => ?_
  refine Post.bind DatumSpecification.takes fun a3 b3 h3 => ?_
  refine Post.pure _ ?_
  simp only [List.length_append, List.length_nil, ActionRequestPdu.init, List.nil_append, h0, h1, h2, h3, ActionRequestPdu.wireSize, DatumSpecification.wireSize, SimulationManagementFamilyPdu.wireSize]
  all_goals clear h0 h1 h2 h3
  all_goals omega

theorem AcknowledgePdu.takes : Takes (AcknowledgePdu.parse AcknowledgePdu.init) AcknowledgePdu.wireSize := by
  unfold AcknowledgePdu.parse
  refine Post.bind (SimulationManagementFamilyPdu.takes _) fun a0 b0 h0 => ?_
  refine Post.bind len_unsigned_short fun a1 b1 h1 => ?_
  refine Post.bind len_unsigned_short fun a2 b2 h2 => ?_
  refine Post.bind len_unsigned_int fun a3 b3 h3 => ?_
  refine Post.pure _ ?_
  simp only [List.length_append, List.length_nil, AcknowledgePdu.init, List.nil_append, h0, h1, h2, h3, AcknowledgePdu.wireSize, SimulationManagementFamilyPdu.wireSize]
  all_goals clear h0 h1 h2 h3
  all_goals omega

theorem DistributedEmissionsFamilyPdu.takes (s : DistributedEmissionsFamilyPdu) : Takes (DistributedEmissionsFamilyPdu.parse s) DistributedEmissionsFamilyPdu.wireSize := by
  unfold DistributedEmissionsFamilyPdu.parse
  refine Post.bind (Pdu.takes _) fun a0 b0 h0 => ?_
  refine Post.pure _ ?_
  simp only [List.length_append, List.length_nil, h0, DistributedEmissionsFamilyPdu.wireSize, Pdu.wireSize]
  all_goals clear h0
  all_goals omega

theorem SimulationManagementWithReliabilityFamilyPdu.takes (s : SimulationManagementWithReliabilityFamilyPdu) : Takes (SimulationManagementWithReliabilityFamilyPdu.parse s) SimulationManagementWithReliabilityFamilyPdu.wireSize := by
  unfold SimulationManagementWithReliabilityFamilyPdu.parse
  refine Post.bind (Pdu.takes _) fun a0 b0 h0 => ?_
  refine Post.bind EntityIdentifier.takes fun a1 b1 h1 => ?_
  refine Post.bind EntityIdentifier.takes fun a2 b2 h2 => ?_
  refine Post.pure _ ?_
  simp only [List.length_append, List.length_nil, h0, h1, h2, SimulationManagementWithReliabilityFamilyPdu.wireSize, EntityIdentifier.wireSize, Pdu.wireSize]
  all_goals clear h0 h1 h2
  all_goals omega

theorem ActionRequestReliablePdu.takes : Takes (ActionRequestReliablePdu.parse ActionRequestReliablePdu.init) ActionRequestReliablePdu.wireSize := by
  unfold ActionRequestReliablePdu.parse
  refine Post.bind (SimulationManagementWithReliabilityFamilyPdu.takes _) fun a0 b0 h0 => ?_
  refine Post.bind len_unsigned_byte fun a1 b1 h1 => ?_
  refine Post.bind len_unsigned_short fun a2 b2 h2 => ?_
  refine Post.bind len_unsigned_byte fun a3 b3 h3 => ?_
  refine Post.bind len_unsigned_int fun a4 b4 h4 => ?_
  refine Post.bind len_unsigned_int fun a5 b5 h5 => ?_
  refine Post.bind len_int fun a6 b6 h6 => ?_
  refine Post.bind DatumSpecification.takes fun a7 b7 h7 => ?_
  refine Post.pure _ ?_
  simp only [List.length_append, List.length_nil, ActionRequestReliablePdu.init, List.nil_append, h0, h1, h2, h3, h4, h5, h6, h7, ActionRequestReliablePdu.wireSize, DatumSpecification.wireSize, SimulationManagementWithReliabilityFamilyPdu.wireSize]
  all_goals clear h0 h1 h2 h3 h4 h5 h6 h7
  all_goals omega

theorem DesignatorPdu.takes : Takes (DesignatorPdu.parse DesignatorPdu.init) DesignatorPdu.wireSize := by
  unfold DesignatorPdu.parse
  refine Post.bind (DistributedEmissionsFamilyPdu.takes _) fun a0 b0 h0 => ?_
  refine Post.bind EntityIdentifier.takes fun a1 b1 h1 => ?_
  refine Post.bind len_unsigned_short fun a2 b2 h2 => ?_
  refine Post.bind EntityIdentifier.takes fun a3 b3 h3 => ?_
  refine Post.bind len_unsigned_short fun a4 b4 h4 => ?_
  refine Post.bind len_float fun a5 b5 h5 => ?_
  refine Post.bind len_float fun a6 b6 h6 => ?_
  refine Post.bind Vector3Float.takes fun a7 b7 h7 => ?_
  refine Post.bind WorldCoordinates.takes fun a8 b8 h8 => ?_
  refine Post.bind len_byte fun a9 b9 h9 => ?_
  refine Post.bind len_unsigned_short fun a10 b10 h10 => ?_
  refine Post.bind len_byte fun a11 b11 h11 => ?_
  refine Post.bind Vector3Float.takes fun a12 b12 h12 => ?_
  refine Post.pure _ ?_
  simp only [List.length_append, List.length_nil, DesignatorPdu.init, List.nil_append, h0, h1, h2, h3, h4, h5, h6, h7, h8, h9, h10, h11, h12, DesignatorPdu.wireSize, DistributedEmissionsFamilyPdu.wireSize, EntityIdentifier.wireSize, Vector3Float.wireSize, WorldCoordinates.wireSize]
  all_goals clear h0 h1 h2 h3 h4 h5 h6 h7 h8 h9 h10 h11 h12
  all_goals omega

theorem StopFreezePdu.takes : Takes (StopFreezePdu.parse StopFreezePdu.init) StopFreezePdu.wireSize := by
  unfold StopFreezePdu.parse
  refine Post.bind (SimulationManagementFamilyPdu.takes _) fun a0 b0 h0 => ?_
  refine Post.bind ClockTime.takes fun a1 b1 h1 => ?_
  refine Post.bind len_unsigned_byte fun a2 b2 h2 => ?_
  refine Post.bind len_unsigned_byte fun a3 b3 h3 => ?_
  refine Post.bind len_short fun a4 b4 h4 => ?_
  refine Post.bind len_unsigned_int fun a5 b5 h5 => ?_
  refine Post.pure _ ?_
  simp only [List.length_append, List.length_nil, StopFreezePdu.init, List.nil_append, h0, h1, h2, h3, h4, h5, StopFreezePdu.wireSize, ClockTime.wireSize, SimulationManagementFamilyPdu.wireSize]
  all_goals clear h0 h1 h2 h3 h4 h5
  all_goals omega

theorem EntityStatePdu.takes : Takes (EntityStatePdu.parse EntityStatePdu.init) EntityStatePdu.wireSize := by
  unfold EntityStatePdu.parse
  refine Post.bind (EntityInformationFamilyPdu.takes _) fun a0 b0 h0 => ?_
  refine Post.bind EntityIdentifier.takes fun a1 b1 h1 => ?_
  refine Post.bind len_unsigned_byte fun a2 b2 h2 => ?_
  refine Post.bind len_unsigned_byte fun a3 b3 h3 => ?_
  refine Post.bind EntityType.takes fun a4 b4 h4 => ?_
  refine Post.bind EntityType.takes fun a5 b5 h5 => ?_
  refine Post.bind Vector3Float.takes fun a6 b6 h6 => ?_
  refine Post.bind WorldCoordinates.takes fun a7 b7 h7 => ?_
  refine Post.bind EulerAngles.takes fun a8 b8 h8 => ?_
  refine Post.bind len_unsigned_int fun a9 b9 h9 => ?_
  refine Post.bind DeadReckoningParameters.takes fun a10 b10 h10 => ?_
  refine Post.bind EntityMarking.takes fun a11 b11 h11 => ?_
  refine Post.bind len_unsigned_int fun a12 b12 h12 => ?_
  refine Post.bind (Takes.times_const VariableParameter.takes (fun _ => rfl) _) fun a13 b13 h13 => ?_
  refine Post.pure _ ?_
  simp only [List.length_append, List.length_nil, EntityStatePdu.init, List.nil_append, h0, h1, h2, h3, h4, h5, h6, h7, h8, h9, h10, h11, h12, h13.1, EntityStatePdu.wireSize, DeadReckoningParameters.wireSize, EntityIdentifier.wireSize, EntityInformationFamilyPdu.wireSize, EntityMarking.wireSize, EntityType.wireSize, EulerAngles.wireSize, Vector3Float.wireSize, WorldCoordinates.wireSize]
  all_goals clear h0 h1 h2 h3 h4 h5 h6 h7 h8 h9 h10 h11 h12 h13
  all_goals omega

theorem EntityManagementFamilyPdu.takes (s : EntityManagementFamilyPdu) : Takes (EntityManagementFamilyPdu.parse s) EntityManagementFamilyPdu.wireSize := by
  unfold EntityManagementFamilyPdu.parse
  refine Post.bind (Pdu.takes _) fun a0 b0 h0 => ?_
  refine Post.pure _ ?_
  simp only [List.length_append, List.length_nil, h0, EntityManagementFamilyPdu.wireSize, Pdu.wireSize]
  all_goals clear h0
  all_goals omega

theorem StartResumePdu.takes : Takes (StartResumePdu.parse StartResumePdu.init) StartResumePdu.wireSize := by
  unfold StartResumePdu.parse
  refine Post.bind (SimulationManagementFamilyPdu.takes _) fun a0 b0 h0 => ?_
  refine Post.bind ClockTime.takes fun a1 b1 h1 => ?_
  refine Post.bind ClockTime.takes fun a2 b2 h2 => ?_
  refine Post.bind len_unsigned_int fun a3 b3 h3 => ?_
  refine Post.pure _ ?_
  simp only [List.length_append, List.length_nil, StartResumePdu.init, List.nil_append, h0, h1, h2, h3, StartResumePdu.wireSize, ClockTime.wireSize, SimulationManagementFamilyPdu.wireSize]
  all_goals clear h0 h1 h2 h3
  all_goals omega

theorem ElectromagneticEmissionsPdu.takes : Takes (ElectromagneticEmissionsPdu.parse ElectromagneticEmissionsPdu.init) ElectromagneticEmissionsPdu.wireSize := by
  unfold ElectromagneticEmissionsPdu.parse
  refine Post.bind (DistributedEmissionsFamilyPdu.takes _) fun a0 b0 h0 => ?_
  refine Post.bind EntityIdentifier.takes fun a1 b1 h1 => ?_
  refine Post.bind EventIdentifier.takes fun a2 b2 h2 => ?_
  refine Post.bind len_unsigned_byte fun a3 b3 h3 => ?_
  refine Post.bind len_unsigned_byte fun a4 b4 h4 => ?_
  refine Post.bind len_unsigned_short fun a5 b5 h5 => ?_
  refine Post.bind (Takes.times EmissionSystemRecord.takes _) fun a6 b6 h6 => ?_
  refine Post.pure _ ?_
  simp only [List.length_append, List.length_nil, ElectromagneticEmissionsPdu.init, List.nil_append, h0, h1, h2, h3, h4, h5, h6.1, ElectromagneticEmissionsPdu.wireSize, DistributedEmissionsFamilyPdu.wireSize, EntityIdentifier.wireSize, EventIdentifier.wireSize]
  all_goals clear h0 h1 h2 h3 h4 h5 h6
  all_goals omega

theorem ResupplyOfferPdu.takes : Takes (ResupplyOfferPdu.parse ResupplyOfferPdu.init) ResupplyOfferPdu.wireSize := by
  unfold ResupplyOfferPdu.parse
  refine Post.bind (LogisticsFamilyPdu.takes _) fun a0 b0 h0 => ?_
  refine Post.bind EntityIdentifier.takes fun a1 b1 h1 => ?_
  refine Post.bind EntityIdentifier.takes fun a2 b2 h2 => ?_
  refine Post.bind len_unsigned_byte fun a3 b3 h3 => ?_
  refine Post.bind len_byte fun a4 b4 h4 => ?_
  refine Post.bind len_short fun a5 b5 h5 => ?_
  refine Post.bind (Takes.times_const SupplyQuantity.takes (fun _ => rfl) _) fun a6 b6 h6 => ?_
  refine Post.pure _ ?_
  simp only [List.length_append, List.length_nil, ResupplyOfferPdu.init, List.nil_append, h0, h1, h2, h3, h4, h5, h6.1, ResupplyOfferPdu.wireSize, EntityIdentifier.wireSize, LogisticsFamilyPdu.wireSize]
  all_goals clear h0 h1 h2 h3 h4 h5 h6
  all_goals omega

theorem MinefieldFamilyPdu.takes (s : MinefieldFamilyPdu) : Takes (MinefieldFamilyPdu.parse s) MinefieldFamilyPdu.wireSize := by
  unfold MinefieldFamilyPdu.parse
  refine Post.bind (Pdu.takes _) fun a0 b0 h0 => ?_
  refine Post.pure _ ?_
  simp only [List.length_append, List.length_nil, h0, MinefieldFamilyPdu.wireSize, Pdu.wireSize]
  all_goals clear h0
  all_goals omega

theorem SetDataReliablePdu.takes : Takes (SetDataReliablePdu.parse SetDataReliablePdu.init) SetDataReliablePdu.wireSize := by
  unfold SetDataReliablePdu.parse
  refine Post.bind (SimulationManagementWithReliabilityFamilyPdu.takes _) fun a0 b0 h0 => ?_
  refine Post.bind len_unsigned_byte fun a1 b1 h1 => ?_
  refine Post.bind len_unsigned_short fun a2 b2 h2 => ?_
  refine Post.bind len_unsigned_byte fun a3 b3 h3 => ?_
  refine Post.bind len_unsigned_int fun a4 b4 h4 => ?_
  refine Post.bind DatumSpecification.takes fun a5 b5 h5 => ?_
  refine Post.pure _ ?_
  simp only [List.length_append, List.length_nil, SetDataReliablePdu.init, List.nil_append, h0, h1, h2, h3, h4, h5, SetDataReliablePdu.wireSize, DatumSpecification.wireSize, SimulationManagementWithReliabilityFamilyPdu.wireSize]
  all_goals clear h0 h1 h2 h3 h4 h5
  all_goals omega

theorem EventReportPdu.takes : Takes (EventReportPdu.parse EventReportPdu.init) EventReportPdu.wireSize := by
  unfold EventReportPdu.parse
  refine Post.bind (SimulationManagementFamilyPdu.takes _) fun a0 b0 h0 => ?_
  refine Post.bind len_unsigned_int fun a1 b1 h1 => ?_
  refine Post.bind len_unsigned_int fun a2 b2 h2 => ?_
  refine Post.bind DatumSpecification.takes fun a3 b3 h3 => ?_
  refine Post.pure _ ?_
  simp only [List.length_append, List.length_nil, EventReportPdu.init, List.nil_append, h0, h1, h2, h3, EventReportPdu.wireSize, DatumSpecification.wireSize, SimulationManagementFamilyPdu.wireSize]
  all_goals clear h0 h1 h2 h3
  all_goals omega

theorem PointObjectStatePdu.takes : Takes (PointObjectStatePdu.parse PointObjectStatePdu.init) PointObjectStatePdu.wireSize := by
  unfold PointObjectStatePdu.parse
  refine Post.bind (SyntheticEnvironmentFamilyPdu.takes _) fun a0 b0 h0 => ?_
  refine Post.bind EntityIdentifier.takes fun a1 b1 h1 => ?_
  refine Post.bind EntityIdentifier.takes fun a2 b2 h2 => ?_
  refine Post.bind len_unsigned_short fun a3 b3 h3 => ?_
  refine Post.bind len_unsigned_byte fun a4 b4 h4 => ?_
  refine Post.bind len_unsigned_byte fun a5 b5 h5 => ?_
  refine Post.bind ObjectType.takes fun a6 b6 h6 => ?_
  refine Post.bind WorldCoordinates.takes fun a7 b7 h7 => ?_
  refine Post.bind EulerAngles.takes fun a8 b8 h8 => ?_
  refine Post.bind len_double fun a9 b9 h9 => ?_
  refine Post.bind SimulationAddress.takes fun a10 b10 h10 => ?_
  refine Post.bind SimulationAddress.takes fun a11 b11 h11 => ?_
  refine Post.bind len_unsigned_int fun a12 b12 h12 => ?_
  refine Post.pure _ ?_
  simp only [List.length_append, List.length_nil, PointObjectStatePdu.init, List.nil_append, h0, h1, h2, h3, h4, h5, h6, h7, h8, h9, h10, h11, h12, PointObjectStatePdu.wireSize, EntityIdentifier.wireSize, EulerAngles.wireSize, ObjectType.wireSize, SimulationAddress.wireSize, SyntheticEnvironmentFamilyPdu.wireSize, WorldCoordinates.wireSize]
  all_goals clear h0 h1 h2 h3 h4 h5 h6 h7 h8 h9 h10 h11 h12
  all_goals omega

theorem DataPdu.takes : Takes (DataPdu.parse DataPdu.init) DataPdu.wireSize := by
  unfold DataPdu.parse
  refine Post.bind (SimulationManagementFamilyPdu.takes _) fun a0 b0 h0 => ?_
  refine Post.bind len_unsigned_int fun a1 b1 h1 => ?_
  refine Post.bind len_unsigned_int fun a2 b2 h2 => ?_
  refine Post.bind DatumSpecification.takes fun a3 b3 h3 => ?_
  refine Post.pure _ ?_
  simp only [List.length_append, List.length_nil, DataPdu.init, List.nil_append, h0, h1, h2, h3, DataPdu.wireSize, DatumSpecification.wireSize, SimulationManagementFamilyPdu.wireSize]
  all_goals clear h0 h1 h2 h3
  all_goals omega

theorem FastEntityStatePdu.takes : Takes (FastEntityStatePdu.parse FastEntityStatePdu.init) FastEntityStatePdu.wireSize := by
  unfold FastEntityStatePdu.parse
  refine Post.bind (EntityInformationFamilyPdu.takes _) fun a0 b0 h0 => ?_
  refine Post.bind len_unsigned_short fun a1 b1 h1 => ?_
  refine Post.bind len_unsigned_short fun a2 b2 h2 => ?_
  refine Post.bind len_unsigned_short fun a3 b3 h3 => ?_
  refine Post.bind len_unsigned_byte fun a4 b4 h4 => ?_
  refine Post.bind len_byte fun a5 b5 h5 => ?_
  refine Post.bind len_unsigned_byte fun a6 b6 h6 => ?_
  refine Post.bind len_unsigned_byte fun a7 b7 h7 => ?_
  refine Post.bind len_unsigned_short fun a8 b8 h8 => ?_
  refine Post.bind len_unsigned_byte fun a9 b9 h9 => ?_
  refine Post.bind len_unsigned_byte fun a10 b10 h10 => ?_
  refine Post.bind len_unsigned_byte fun a11 b11 h11 => ?_
  refine Post.bind len_unsigned_byte fun a12 b12 h12 => ?_
  refine Post.bind len_unsigned_byte fun a13 b13 h13 => ?_
  refine Post.bind len_unsigned_byte fun a14 b14 h14 => ?_
  refine Post.bind len_unsigned_short fun a15 b15 h15 => ?_
  refine Post.bind len_unsigned_byte fun a16 b16 h16 => ?_
  refine Post.bind len_unsigned_byte fun a17 b17 h17 => ?_
  refine Post.bind len_unsigned_byte fun a18 b18 h18 => ?_
  refine Post.bind len_unsigned_byte fun a19 b19 h19 => ?_
  refine Post.bind len_float fun a20 b20 h20 => ?_
  refine Post.bind len_float fun a21 b21 h21 => ?_
  refine Post.bind len_float fun a22 b22 h22 => ?_
  refine Post.bind len_double fun a23 b23 h23 => ?_
  refine Post.bind len_double fun a24 b24 h24 => ?_
  refine Post.bind len_double fun a25 b25 h25 => ?_
  refine Post.bind len_float fun a26 b26 h26 => ?_
  refine Post.bind len_float fun a27 b27 h27 => ?_
  refine Post.bind len_float fun a28 b28 h28 => ?_
  refine Post.bind len_int fun a29 b29 h29 => ?_
  refine Post.bind len_unsigned_byte fun a30 b30 h30 => ?_
  refine Post.bind (Takes.times_const len_byte (fun _ => rfl) _) fun a31 b31 h31 => ?_
  refine Post.bind len_float fun a32 b32 h32 => ?_
  refine Post.bind len_float fun a33 b33 h33 => ?_
  refine Post.bind len_float fun a34 b34 h34 => ?_
  refine Post.bind len_float fun a35 b35 h35 => ?_
  refine Post.bind len_float fun a36 b36 h36 => ?_
  refine Post.bind len_float fun a37 b37 h37 => ?_
  refine Post.bind (Takes.times_const len_byte (fun _ => rfl) _) fun a38 b38 h38 => ?_
  refine Post.bind len_int fun a39 b39 h39 => ?_
  refine Post.bind (Takes.times_const VariableParameter.takes (fun _ => rfl) _) fun a40 b40 h40 => ?_
  refine Post.pure _ ?_
  simp only [List.length_append, List.length_nil, FastEntityStatePdu.init, List.nil_append, h0, h1, h2, h3, h4, h5, h6, h7, h8, h9, h10, h11, h12, h13, h14, h15, h16, h17, h18, h19, h20, h21, h22, h23, h24, h25, h26, h27, h28, h29, h30, h31.1, h32, h33, h34, h35, h36, h37, h38.1, h39, h40.1, FastEntityStatePdu.wireSize, EntityInformationFamilyPdu.wireSize]
  all_goals clear h0 h1 h2 h3 h4 h5 h6 h7 h8 h9 h10 h11 h12 h13 h14 h15 h16 h17 h18 h19 h20 h21 h22 h23 h24 h25 h26 h27 h28 h29 h30 h32 h33 h34 h35 h36 h37 h39 h40
  all_goals omega

theorem AcknowledgeReliablePdu.takes : Takes (AcknowledgeReliablePdu.parse AcknowledgeReliablePdu.init) AcknowledgeReliablePdu.wireSize := by
  unfold AcknowledgeReliablePdu.parse
  refine Post.bind (SimulationManagementWithReliabilityFamilyPdu.takes _) fun a0 b0 h0 => ?_
  refine Post.bind len_unsigned_short fun a1 b1 h1 => ?_
  refine Post.bind len_unsigned_short fun a2 b2 h2 => ?_
  refine Post.bind len_unsigned_int fun a3 b3 h3 => ?_
  refine Post.pure _ ?_
  simp only [List.length_append, List.length_nil, AcknowledgeReliablePdu.init, List.nil_append, h0, h1, h2, h3, AcknowledgeReliablePdu.wireSize, SimulationManagementWithReliabilityFamilyPdu.wireSize]
  all_goals clear h0 h1 h2 h3
  all_goals omega

theorem StartResumeReliablePdu.takes : Takes (StartResumeReliablePdu.parse StartResumeReliablePdu.init) StartResumeReliablePdu.wireSize := by
  unfold StartResumeReliablePdu.parse
  refine Post.bind (SimulationManagementWithReliabilityFamilyPdu.takes _) fun a0 b0 h0 => ?_
  refine Post.bind ClockTime.takes fun a1 b1 h1 => ?_
  refine Post.bind ClockTime.takes fun a2 b2 h2 => ?_
  refine Post.bind len_unsigned_byte fun a3 b3 h3 => ?_
  refine Post.bind len_unsigned_short fun a4 b4 h4 => ?_
  refine Post.bind len_unsigned_byte fun a5 b5 h5 => ?_
  refine Post.bind len_unsigned_int fun a6 b6 h6 => ?_
  refine Post.pure _ ?_
  simp only [List.length_append, List.length_nil, StartResumeReliablePdu.init, List.nil_append, h0, h1, h2, h3, h4, h5, h6, StartResumeReliablePdu.wireSize, ClockTime.wireSize, SimulationManagementWithReliabilityFamilyPdu.wireSize]
  all_goals clear h0 h1 h2 h3 h4 h5 h6
  all_goals omega

theorem ArealObjectStatePdu.takes : Takes (ArealObjectStatePdu.parse ArealObjectStatePdu.init) ArealObjectStatePdu.wireSize := by
  unfold ArealObjectStatePdu.parse
  refine Post.bind (SyntheticEnvironmentFamilyPdu.takes _) fun a0 b0 h0 => ?_
  refine Post.bind EntityIdentifier.takes fun a1 b1 h1 => ?_
  refine Post.bind EntityIdentifier.takes fun a2 b2 h2 => ?_
  refine Post.bind len_unsigned_short fun a3 b3 h3 => ?_
  refine Post.bind len_unsigned_byte fun a4 b4 h4 => ?_
  refine Post.bind len_unsigned_byte fun a5 b5 h5 => ?_
  refine Post.bind ObjectType.takes fun a6 b6 h6 => ?_
  refine Post.bind len_unsigned_int fun a7 b7 h7 => ?_
  refine Post.bind len_unsigned_short fun a8 b8 h8 => ?_
  refine Post.bind len_unsigned_short fun a9 b9 h9 => ?_
  refine Post.bind SimulationAddress.takes fun a10 b10 h10 => ?_
  refine Post.bind SimulationAddress.takes fun a11 b11 h11 => ?_
  refine Post.bind (Takes.times_const WorldCoordinates.takes (fun _ => rfl) _) fun a12 b12 h12 => ?_
  refine Post.pure _ ?_
  simp only [List.length_append, List.length_nil, ArealObjectStatePdu.init, List.nil_append, h0, h1, h2, h3, h4, h5, h6, h7, h8, h9, h10, h11, h12.1, ArealObjectStatePdu.wireSize, EntityIdentifier.wireSize, ObjectType.wireSize, SimulationAddress.wireSize, SyntheticEnvironmentFamilyPdu.wireSize]
  all_goals clear h0 h1 h2 h3 h4 h5 h6 h7 h8 h9 h10 h11 h12
  all_goals omega

theorem DataQueryReliablePdu.takes : Takes (DataQueryReliablePdu.parse DataQueryReliablePdu.init) DataQueryReliablePdu.wireSize := by
  unfold DataQueryReliablePdu.parse
  refine Post.bind (SimulationManagementWithReliabilityFamilyPdu.takes _) fun a0 b0 h0 => ?_
  refine Post.bind len_unsigned_byte fun a1 b1 h1 => ?_
  refine Post.bind len_unsigned_short fun a2 b2 h2 => ?_
  refine Post.bind len_unsigned_byte fun a3 b3 h3 => ?_
  refine Post.bind len_unsigned_int fun a4 b4 h4 => ?_
  refine Post.bind len_unsigned_int fun a5 b5 h5 => ?_
  refine Post.bind DataQueryDatumSpecification.takes fun a6 b6 h6 => ?_
  refine Post.pure _ ?_
  simp only [List.length_append, List.length_nil, DataQueryReliablePdu.init, List.nil_append, h0, h1, h2, h3, h4, h5, h6, DataQueryReliablePdu.wireSize, DataQueryDatumSpecification.wireSize, SimulationManagementWithReliabilityFamilyPdu.wireSize]
  all_goals clear h0 h1 h2 h3 h4 h5 h6
  all_goals omega

theorem MinefieldStatePdu.takes : Takes (MinefieldStatePdu.parse MinefieldStatePdu.init) MinefieldStatePdu.wireSize := by
  unfold MinefieldStatePdu.parse
  refine Post.bind (MinefieldFamilyPdu.takes _) fun a0 b0 h0 => ?_
  refine Post.bind MinefieldIdentifier.takes fun a1 b1 h1 => ?_
  refine Post.bind len_unsigned_short fun a2 b2 h2 => ?_
  refine Post.bind len_unsigned_byte fun a3 b3 h3 => ?_
  refine Post.bind len_unsigned_byte fun a4 b4 h4 => ?_
  refine Post.bind EntityType.takes fun a5 b5 h5 => ?_
  refine Post.bind len_unsigned_short fun a6 b6 h6 => ?_
  refine Post.bind WorldCoordinates.takes fun a7 b7 h7 => ?_
  refine Post.bind EulerAngles.takes fun a8 b8 h8 => ?_
  refine Post.bind len_unsigned_short fun a9 b9 h9 => ?_
  refine Post.bind len_unsigned_short fun a10 b10 h10 => ?_
  refine Post.bind (Takes.times_const Vector2Float.takes (fun _ => rfl) _) fun a11 b11 h11 => ?_
  refine Post.bind (Takes.times_const EntityType.takes (fun _ => rfl) _) fun a12 b12 h12 => ?_
  refine Post.pure _ ?_
  simp only [List.length_append, List.length_nil, MinefieldStatePdu.init, List.nil_append, h0, h1, h2, h3, h4, h5, h6, h7, h8, h9, h10, h11.1, h12.1, MinefieldStatePdu.wireSize, EntityType.wireSize, EulerAngles.wireSize, MinefieldFamilyPdu.wireSize, MinefieldIdentifier.wireSize, WorldCoordinates.wireSize]
  all_goals clear h0 h1 h2 h3 h4 h5 h6 h7 h8 h9 h10 h11 h12
  all_goals omega

theorem DataReliablePdu.takes : Takes (DataReliablePdu.parse DataReliablePdu.init) DataReliablePdu.wireSize := by
  unfold DataReliablePdu.parse
  refine Post.bind (SimulationManagementWithReliabilityFamilyPdu.takes _) fun a0 b0 h0 => ?_
  refine Post.bind len_unsigned_int fun a1 b1 h1 => ?_
  refine Post.bind len_unsigned_byte fun a2 b2 h2 => ?_
  refine Post.bind len_unsigned_short fun a3 b3 h3 => ?_
  refine Post.bind len_unsigned_byte fun a4 b4 h4 => ?_
  refine Post.bind DatumSpecification.takes fun a5 b5 h5 => ?_
  refine Post.pure _ ?_
  simp only [List.length_append, List.length_nil, DataReliablePdu.init, List.nil_append, h0, h1, h2, h3, h4, h5, DataReliablePdu.wireSize, DatumSpecification.wireSize, SimulationManagementWithReliabilityFamilyPdu.wireSize]
  all_goals clear h0 h1 h2 h3 h4 h5
  all_goals omega

theorem CommentPdu.takes : Takes (CommentPdu.parse CommentPdu.init) CommentPdu.wireSize := by
  unfold CommentPdu.parse
  refine Post.bind (SimulationManagementFamilyPdu.takes _) fun a0 b0 h0 => ?_
  refine Post.bind DatumSpecification.takes fun a1 b1 h1 => ?_
  refine Post.pure _ ?_
  simp only [List.length_append, List.length_nil, CommentPdu.init, List.nil_append, h0, h1, CommentPdu.wireSize, DatumSpecification.wireSize, SimulationManagementFamilyPdu.wireSize]
  all_goals clear h0 h1
  all_goals omega

theorem CommentReliablePdu.takes : Takes (CommentReliablePdu.parse CommentReliablePdu.init) CommentReliablePdu.wireSize := by
  unfold CommentReliablePdu.parse
  refine Post.bind (SimulationManagementWithReliabilityFamilyPdu.takes _) fun a0 b0 h0 => ?_
  refine Post.bind DatumSpecification.takes fun a1 b1 h1 => ?_
  refine Post.pure _ ?_
  simp only [List.length_append, List.length_nil, CommentReliablePdu.init, List.nil_append, h0, h1, CommentReliablePdu.wireSize, DatumSpecification.wireSize, SimulationManagementWithReliabilityFamilyPdu.wireSize]
  all_goals clear h0 h1
  all_goals omega

theorem DetonationPdu.takes : Takes (DetonationPdu.parse DetonationPdu.init) DetonationPdu.wireSize := by
  unfold DetonationPdu.parse
  refine Post.bind (WarfareFamilyPdu.takes _) fun a0 b0 h0 => ?_
  refine Post.bind EntityIdentifier.takes fun a1 b1 h1 => ?_
  refine Post.bind EventIdentifier.takes fun a2 b2 h2 => ?_
  refine Post.bind Vector3Float.takes fun a3 b3 h3 => ?_
  refine Post.bind WorldCoordinates.takes fun a4 b4 h4 => ?_
  refine Post.bind MunitionDescriptor.takes fun a5 b5 h5 => ?_
  refine Post.bind Vector3Float.takes fun a6 b6 h6 => ?_
  refine Post.bind len_unsigned_byte fun a7 b7 h7 => ?_
  refine Post.bind len_unsigned_byte fun a8 b8 h8 => ?_
  refine Post.bind len_unsigned_short fun a9 b9 h9 => ?_
  refine Post.bind (Takes.times_const VariableParameter.takes (fun _ => rfl) _) fun a10 b10 h10 => ?_
  refine Post.pure _ ?_
  simp only [List.length_append, List.length_nil, DetonationPdu.init, List.nil_append, h0, h1, h2, h3, h4, h5, h6, h7, h8, h9, h10.1, DetonationPdu.wireSize, EntityIdentifier.wireSize, EventIdentifier.wireSize, MunitionDescriptor.wireSize, Vector3Float.wireSize, WarfareFamilyPdu.wireSize, WorldCoordinates.wireSize]
  all_goals clear h0 h1 h2 h3 h4 h5 h6 h7 h8 h9 h10
  all_goals omega

theorem SetDataPdu.takes : Takes (SetDataPdu.parse SetDataPdu.init) SetDataPdu.wireSize := by
  unfold SetDataPdu.parse
  refine Post.bind (SimulationManagementFamilyPdu.takes _) fun a0 b0 h0 => ?_
  refine Post.bind len_unsigned_int fun a1 b1 h1 => ?_
  refine Post.bind len_unsigned_int fun a2 b2 h2 => ?_
  refine Post.bind DatumSpecification.takes fun a3 b3 h3 => ?_
  refine Post.pure _ ?_
  simp only [List.length_append, List.length_nil, SetDataPdu.init, List.nil_append, h0, h1, h2, h3, SetDataPdu.wireSize, DatumSpecification.wireSize, SimulationManagementFamilyPdu.wireSize]
  all_goals clear h0 h1 h2 h3
  all_goals omega

theorem RecordQueryReliablePdu.takes' : Post (RecordQueryReliablePdu.parse RecordQueryReliablePdu.init)
    (fun b o => b.length = RecordQueryReliablePdu.wireSize o ∧ o.recordIDs = []) := by
  unfold RecordQueryReliablePdu.parse
  refine Post.bind (SimulationManagementWithReliabilityFamilyPdu.takes _) fun a0 b0 h0 => ?_
  refine Post.bind len_unsigned_int fun a1 b1 h1 => ?_
  refine Post.bind len_unsigned_byte fun a2 b2 h2 => ?_
  refine Post.bind len_unsigned_short fun a3 b3 h3 => ?_
  refine Post.bind len_unsigned_byte fun a4 b4 h4 => ?_
  refine Post.bind len_unsigned_short fun a5 b5 h5 => ?_
  refine Post.bind len_unsigned_int fun a6 b6 h6 => ?_
  refine Post.bind len_unsigned_int fun a7 b7 h7 => ?_
  refine Post.bind (Post.times_throw _ _) fun a8 b8 h8 => ?_
  refine Post.pure _ ?_
  obtain ⟨-, rfl, rfl⟩ := h8
  refine ⟨?_, ?_⟩
  all_goals simp only [List.length_append, List.length_nil, RecordQueryReliablePdu.init, List.nil_append, h0, h1, h2, h3, h4, h5, h6, h7, RecordQueryReliablePdu.wireSize, SimulationManagementWithReliabilityFamilyPdu.wireSize]
  all_goals clear h0 h1 h2 h3 h4 h5 h6 h7
  all_goals first | rfl | omega

theorem RecordQueryReliablePdu.takes : Takes (RecordQueryReliablePdu.parse RecordQueryReliablePdu.init) RecordQueryReliablePdu.wireSize :=
  RecordQueryReliablePdu.takes'.mono fun _ _ h => h.1

theorem ActionResponsePdu.takes : Takes (ActionResponsePdu.parse ActionResponsePdu.init) ActionResponsePdu.wireSize := by
  unfold ActionResponsePdu.parse
  refine Post.bind (SimulationManagementFamilyPdu.takes _) fun a0 b0 h0 => ?_
  refine Post.bind len_unsigned_int fun a1 b1 h1 => ?_
  refine Post.bind len_unsigned_int fun a2 b2 h2 => ?_
  refine Post.bind DatumSpecification.takes fun a3 b3 h3 => ?_
  refine Post.pure _ ?_
  simp only [List.length_append, List.length_nil, ActionResponsePdu.init, List.nil_append, h0, h1, h2, h3, ActionResponsePdu.wireSize, DatumSpecification.wireSize, SimulationManagementFamilyPdu.wireSize]
  all_goals clear h0 h1 h2 h3
  all_goals omega

theorem FirePdu.takes : Takes (FirePdu.parse FirePdu.init) FirePdu.wireSize := by
  unfold FirePdu.parse
  refine Post.bind (WarfareFamilyPdu.takes _) fun a0 b0 h0 => ?_
  refine Post.bind EntityIdentifier.takes fun a1 b1 h1 => ?_
  refine Post.bind EventIdentifier.takes fun a2 b2 h2 => ?_
  refine Post.bind len_unsigned_int fun a3 b3 h3 => ?_
  refine Post.bind WorldCoordinates.takes fun a4 b4 h4 => ?_
  refine Post.bind MunitionDescriptor.takes fun a5 b5 h5 => ?_
  refine Post.bind Vector3Float.takes fun a6 b6 h6 => ?_
  refine Post.bind len_float fun a7 b7 h7 => ?_
  refine Post.pure _ ?_
  simp only [List.length_append, List.length_nil, FirePdu.init, List.nil_append, h0, h1, h2, h3, h4, h5, h6, h7, FirePdu.wireSize, EntityIdentifier.wireSize, EventIdentifier.wireSize, MunitionDescriptor.wireSize, Vector3Float.wireSize, WarfareFamilyPdu.wireSize, WorldCoordinates.wireSize]
  all_goals clear h0 h1 h2 h3 h4 h5 h6 h7
  all_goals omega

theorem ReceiverPdu.takes : Takes (ReceiverPdu.parse ReceiverPdu.init) ReceiverPdu.wireSize := by
  unfold ReceiverPdu.parse
  refine Post.bind (RadioCommunicationsFamilyPdu.takes _) fun a0 b0 h0 => ?_
  refine Post.bind len_unsigned_short fun a1 b1 h1 => ?_
  refine Post.bind len_unsigned_short fun a2 b2 h2 => ?_
  refine Post.bind len_float fun a3 b3 h3 => ?_
  refine Post.bind EntityIdentifier.takes fun a4 b4 h4 => ?_
  refine Post.bind len_unsigned_short fun a5 b5 h5 => ?_
  refine Post.pure _ ?_
  simp only [List.length_append, List.length_nil, ReceiverPdu.init, List.nil_append, h0, h1, h2, h3, h4, h5, ReceiverPdu.wireSize, EntityIdentifier.wireSize, RadioCommunicationsFamilyPdu.wireSize]
  all_goals clear h0 h1 h2 h3 h4 h5
  all_goals omega

theorem UaPdu.takes' : Post (UaPdu.parse UaPdu.init)
    (fun b o => b.length = UaPdu.wireSize o ∧ o.shaftRPMs = [] ∧ o.apaData = [] ∧ o.emitterSystems = []) := by
  unfold UaPdu.parse
  refine Post.bind (DistributedEmissionsFamilyPdu.takes _) fun a0 b0 h0 => ?_
  refine Post.bind EntityIdentifier.takes fun a1 b1 h1 => ?_
  refine Post.bind EventIdentifier.takes fun a2 b2 h2 => ?_
  refine Post.bind len_byte fun a3 b3 h3 => ?_
  refine Post.bind len_byte fun a4 b4 h4 => ?_
  refine Post.bind len_unsigned_short fun a5 b5 h5 => ?_
  refine Post.bind len_unsigned_byte fun a6 b6 h6 => ?_
  refine Post.bind len_unsigned_byte fun a7 b7 h7 => ?_
  refine Post.bind len_unsigned_byte fun a8 b8 h8 => ?_
  refine Post.bind len_unsigned_byte fun a9 b9 h9 => ?_
  refine Post.bind (Post.times_throw _ _) fun a10 b10 h10 => ?_
  refine Post.bind (Post.times_throw _ _) fun a11 b11 h11 => ?_
  refine Post.bind (Post.times_throw _ _) fun a12 b12 h12 => ?_
  refine Post.pure _ ?_
  obtain ⟨-, rfl, rfl⟩ := h10
  obtain ⟨-, rfl, rfl⟩ := h11
  obtain ⟨-, rfl, rfl⟩ := h12
  refine ⟨?_, ?_, ?_, ?_⟩
  all_goals simp only [List.length_append, List.length_nil, UaPdu.init, List.nil_append, h0, h1, h2, h3, h4, h5, h6, h7, h8, h9, UaPdu.wireSize, DistributedEmissionsFamilyPdu.wireSize, EntityIdentifier.wireSize, EventIdentifier.wireSize]
  all_goals clear h0 h1 h2 h3 h4 h5 h6 h7 h8 h9
  all_goals first | rfl | omega

theorem UaPdu.takes : Takes (UaPdu.parse UaPdu.init) UaPdu.wireSize :=
  UaPdu.takes'.mono fun _ _ h => h.1

theorem SignalPdu.takes : Takes (SignalPdu.parse SignalPdu.init) SignalPdu.wireSize := by
  unfold SignalPdu.parse
  refine Post.bind (RadioCommunicationsFamilyPdu.takes _) fun a0 b0 h0 => ?_
  refine Post.bind EntityIdentifier.takes fun a1 b1 h1 => ?_
  refine Post.bind len_unsigned_short fun a2 b2 h2 => ?_
  refine Post.bind len_unsigned_short fun a3 b3 h3 => ?_
  refine Post.bind len_unsigned_short fun a4 b4 h4 => ?_
  refine Post.bind len_unsigned_int fun a5 b5 h5 => ?_
  refine Post.bind len_unsigned_short fun a6 b6 h6 => ?_
  refine Post.bind len_unsigned_short fun a7 b7 h7 => ?_
  refine Post.bind (Takes.times_const len_unsigned_byte (fun _ => rfl) _) fun a8 b8 h8 => ?_
  refine Post.pure _ ?_
  simp only [List.length_append, List.length_nil, SignalPdu.init, List.nil_append, h0, h1, h2, h3, h4, h5, h6, h7, h8.1, SignalPdu.wireSize, EntityIdentifier.wireSize, RadioCommunicationsFamilyPdu.wireSize]
  all_goals clear h0 h1 h2 h3 h4 h5 h6 h7 h8
  all_goals omega

theorem RemoveEntityReliablePdu.takes : Takes (RemoveEntityReliablePdu.parse RemoveEntityReliablePdu.init) RemoveEntityReliablePdu.wireSize := by
  unfold RemoveEntityReliablePdu.parse
  refine Post.bind (SimulationManagementWithReliabilityFamilyPdu.takes _) fun a0 b0 h0 => ?_
  refine Post.bind len_unsigned_byte fun a1 b1 h1 => ?_
  refine Post.bind len_unsigned_short fun a2 b2 h2 => ?_
  refine Post.bind len_unsigned_byte fun a3 b3 h3 => ?_
  refine Post.bind len_unsigned_int fun a4 b4 h4 => ?_
  refine Post.pure _ ?_
  simp only [List.length_append, List.length_nil, RemoveEntityReliablePdu.init, List.nil_append, h0, h1, h2, h3, h4, RemoveEntityReliablePdu.wireSize, SimulationManagementWithReliabilityFamilyPdu.wireSize]
  all_goals clear h0 h1 h2 h3 h4
  all_goals omega

theorem SeesPdu.takes' : Post (SeesPdu.parse SeesPdu.init)
    (fun b o => b.length = SeesPdu.wireSize o ∧ o.propulsionSystemData = [] ∧ o.vectoringSystemData = []) := by
  unfold SeesPdu.parse
  refine Post.bind (DistributedEmissionsFamilyPdu.takes _) fun a0 b0 h0 => ?_
  refine Post.bind EntityIdentifier.takes fun a1 b1 h1 => ?_
  refine Post.bind len_unsigned_short fun a2 b2 h2 => ?_
  refine Post.bind len_unsigned_short fun a3 b3 h3 => ?_
  refine Post.bind len_unsigned_short fun a4 b4 h4 => ?_
  refine Post.bind len_unsigned_short fun a5 b5 h5 => ?_
  refine Post.bind len_unsigned_short fun a6 b6 h6 => ?_
  refine Post.bind (Post.times_throw _ _) fun a7 b7 h7 => ?_
  refine Post.bind (Post.times_throw _ _) fun a8 b8 h8 => ?_
  refine Post.pure _ ?_
  obtain ⟨-, rfl, rfl⟩ := h7
  obtain ⟨-, rfl, rfl⟩ := h8
  refine ⟨?_, ?_, ?_⟩
  all_goals simp only [List.length_append, List.length_nil, SeesPdu.init, List.nil_append, h0, h1, h2, h3, h4, h5, h6, SeesPdu.wireSize, DistributedEmissionsFamilyPdu.wireSize, EntityIdentifier.wireSize]
  all_goals clear h0 h1 h2 h3 h4 h5 h6
  all_goals first | rfl | omega

theorem SeesPdu.takes : Takes (SeesPdu.parse SeesPdu.init) SeesPdu.wireSize :=
  SeesPdu.takes'.mono fun _ _ h => h.1

theorem CreateEntityReliablePdu.takes : Takes (CreateEntityReliablePdu.parse CreateEntityReliablePdu.init) CreateEntityReliablePdu.wireSize := by
  unfold CreateEntityReliablePdu.parse
  refine Post.bind (SimulationManagementWithReliabilityFamilyPdu.takes _) fun a0 b0 h0 => ?_
  refine Post.bind len_unsigned_byte fun a1 b1 h1 => ?_
  refine Post.bind len_unsigned_short fun a2 b2 h2 => ?_
  refine Post.bind len_unsigned_byte fun a3 b3 h3 => ?_
  refine Post.bind len_unsigned_int fun a4 b4 h4 => ?_
  refine Post.pure _ ?_
  simp only [List.length_append, List.length_nil, CreateEntityReliablePdu.init, List.nil_append, h0, h1, h2, h3, h4, CreateEntityReliablePdu.wireSize, SimulationManagementWithReliabilityFamilyPdu.wireSize]
  all_goals clear h0 h1 h2 h3 h4
  all_goals omega

theorem StopFreezeReliablePdu.takes : Takes (StopFreezeReliablePdu.parse StopFreezeReliablePdu.init) StopFreezeReliablePdu.wireSize := by
  unfold StopFreezeReliablePdu.parse
  refine Post.bind (SimulationManagementWithReliabilityFamilyPdu.takes _) fun a0 b0 h0 => ?_
  refine Post.bind ClockTime.takes fun a1 b1 h1 => ?_
  refine Post.bind len_unsigned_byte fun a2 b2 h2 => ?_
  refine Post.bind len_unsigned_byte fun a3 b3 h3 => ?_
  refine Post.bind len_unsigned_byte fun a4 b4 h4 => ?_
  refine Post.bind len_unsigned_byte fun a5 b5 h5 => ?_
  refine Post.bind len_unsigned_int fun a6 b6 h6 => ?_
  refine Post.pure _ ?_
  simp only [List.length_append, List.length_nil, StopFreezeReliablePdu.init, List.nil_append, h0, h1, h2, h3, h4, h5, h6, StopFreezeReliablePdu.wireSize, ClockTime.wireSize, SimulationManagementWithReliabilityFamilyPdu.wireSize]
  all_goals clear h0 h1 h2 h3 h4 h5 h6
  all_goals omega

theorem EventReportReliablePdu.takes : Takes (EventReportReliablePdu.parse EventReportReliablePdu.init) EventReportReliablePdu.wireSize := by
  unfold EventReportReliablePdu.parse
  refine Post.bind (SimulationManagementWithReliabilityFamilyPdu.takes _) fun a0 b0 h0 => ?_
  refine Post.bind len_unsigned_short fun a1 b1 h1 => ?_
  refine Post.bind len_unsigned_int fun a2 b2 h2 => ?_
  refine Post.bind DatumSpecification.takes fun a3 b3 h3 => ?_
  refine Post.pure _ ?_
  simp only [List.length_append, List.length_nil, EventReportReliablePdu.init, List.nil_append, h0, h1, h2, h3, EventReportReliablePdu.wireSize, DatumSpecification.wireSize, SimulationManagementWithReliabilityFamilyPdu.wireSize]
  all_goals clear h0 h1 h2 h3
  all_goals omega

theorem MinefieldResponseNackPdu.takes' : Post (MinefieldResponseNackPdu.parse MinefieldResponseNackPdu.init)
    (fun b o => b.length = MinefieldResponseNackPdu.wireSize o ∧ o.missingPduSequenceNumbers = []) := by
  unfold MinefieldResponseNackPdu.parse
  refine Post.bind (MinefieldFamilyPdu.takes _) fun a0 b0 h0 => ?_
  refine Post.bind EntityIdentifier.takes fun a1 b1 h1 => ?_
  refine Post.bind EntityIdentifier.takes fun a2 b2 h2 => ?_
  refine Post.bind len_unsigned_byte fun a3 b3 h3 => ?_
  refine Post.bind len_unsigned_byte fun a4 b4 h4 => ?_
  refine Post.bind (Post.times_throw _ _) fun a5 b5 h5 => ?_
  refine Post.pure _ ?_
  obtain ⟨-, rfl, rfl⟩ := h5
  refine ⟨?_, ?_⟩
  all_goals simp only [List.length_append, List.length_nil, MinefieldResponseNackPdu.init, List.nil_append, h0, h1, h2, h3, h4, MinefieldResponseNackPdu.wireSize, EntityIdentifier.wireSize, MinefieldFamilyPdu.wireSize]
  all_goals clear h0 h1 h2 h3 h4
  all_goals first | rfl | omega

theorem MinefieldResponseNackPdu.takes : Takes (MinefieldResponseNackPdu.parse MinefieldResponseNackPdu.init) MinefieldResponseNackPdu.wireSize :=
  MinefieldResponseNackPdu.takes'.mono fun _ _ h => h.1

theorem ActionResponseReliablePdu.takes : Takes (ActionResponseReliablePdu.parse ActionResponseReliablePdu.init) ActionResponseReliablePdu.wireSize := by
  unfold ActionResponseReliablePdu.parse
  refine Post.bind (SimulationManagementWithReliabilityFamilyPdu.takes _) fun a0 b0 h0 => ?_
  refine Post.bind len_unsigned_int fun a1 b1 h1 => ?_
  refine Post.bind len_unsigned_int fun a2 b2 h2 => ?_
  refine Post.bind DatumSpecification.takes fun a3 b3 h3 => ?_
  refine Post.pure _ ?_
  simp only [List.length_append, List.length_nil, ActionResponseReliablePdu.init, List.nil_append, h0, h1, h2, h3, ActionResponseReliablePdu.wireSize, DatumSpecification.wireSize, SimulationManagementWithReliabilityFamilyPdu.wireSize]
  all_goals clear h0 h1 h2 h3
  all_goals omega

theorem IsPartOfPdu.takes : Takes (IsPartOfPdu.parse IsPartOfPdu.init) IsPartOfPdu.wireSize := by
  unfold IsPartOfPdu.parse
  refine Post.bind (EntityManagementFamilyPdu.takes _) fun a0 b0 h0 => ?_
  refine Post.bind EntityIdentifier.takes fun a1 b1 h1 => ?_
  refine Post.bind EntityIdentifier.takes fun a2 b2 h2 => ?_
  refine Post.bind Relationship.takes fun a3 b3 h3 => ?_
  refine Post.bind Vector3Float.takes fun a4 b4 h4 => ?_
  refine Post.bind NamedLocationIdentification.takes fun a5 b5 h5 => ?_
  refine Post.bind EntityType.takes fun a6 b6 h6 => ?_
  refine Post.pure _ ?_
  simp only [List.length_append, List.length_nil, IsPartOfPdu.init, List.nil_append, h0, h1, h2, h3, h4, h5, h6, IsPartOfPdu.wireSize, EntityIdentifier.wireSize, EntityManagementFamilyPdu.wireSize, EntityType.wireSize, NamedLocationIdentification.wireSize, Relationship.wireSize, Vector3Float.wireSize]
  all_goals clear h0 h1 h2 h3 h4 h5 h6
  all_goals omega

theorem AggregateStatePdu.takes : Takes (AggregateStatePdu.parse AggregateStatePdu.init) AggregateStatePdu.wireSize := by
  unfold AggregateStatePdu.parse
  refine Post.bind (EntityManagementFamilyPdu.takes _) fun a0 b0 h0 => ?_
  refine Post.bind AggregateIdentifier.takes fun a1 b1 h1 => ?_
  refine Post.bind len_unsigned_byte fun a2 b2 h2 => ?_
  refine Post.bind len_unsigned_byte fun a3 b3 h3 => ?_
  refine Post.bind AggregateType.takes fun a4 b4 h4 => ?_
  refine Post.bind len_unsigned_int fun a5 b5 h5 => ?_
  refine Post.bind AggregateMarking.takes fun a6 b6 h6 => ?_
  refine Post.bind Vector3Float.takes fun a7 b7 h7 => ?_
  refine Post.bind EulerAngles.takes fun a8 b8 h8 => ?_
  refine Post.bind Vector3Float.takes fun a9 b9 h9 => ?_
  refine Post.bind WorldCoordinates.takes fun a10 b10 h10 => ?_
  refine Post.bind len_unsigned_short fun a11 b11 h11 => ?_
  refine Post.bind len_unsigned_short fun a12 b12 h12 => ?_
  refine Post.bind len_unsigned_short fun a13 b13 h13 => ?_
  refine Post.bind len_unsigned_short fun a14 b14 h14 => ?_
  refine Post.bind (Takes.times_const AggregateIdentifier.takes (fun _ => rfl) _) fun a15 b15 h15 => ?_
  refine Post.bind (Takes.times_const EntityIdentifier.takes (fun _ => rfl) _) fun a16 b16 h16 => ?_
  refine Post.bind (Takes.times_const SilentAggregateSystem.takes (fun _ => rfl) _) fun a17 b17 h17 => ?_
  refine Post.bind (Takes.times_const SilentEntitySystem.takes (fun _ => rfl) _) fun a18 b18 h18 => ?_
  refine Post.bind len_unsigned_int fun a19 b19 h19 => ?_
  refine Post.bind (Takes.times VariableDatum.takes _) fun a20 b20 h20 => ?_
  refine Post.pure _ ?_
  simp only [List.length_append, List.length_nil, AggregateStatePdu.init, List.nil_append, h0, h1, h2, h3, h4, h5, h6, h7, h8, h9, h10, h11, h12, h13, h14, h15.1, h16.1, h17.1, h18.1, h19, h20.1, AggregateStatePdu.wireSize, AggregateIdentifier.wireSize, AggregateMarking.wireSize, AggregateType.wireSize, EntityManagementFamilyPdu.wireSize, EulerAngles.wireSize, Vector3Float.wireSize, WorldCoordinates.wireSize]
  all_goals clear h0 h1 h2 h3 h4 h5 h6 h7 h8 h9 h10 h11 h12 h13 h14 h15 h16 h17 h18 h19 h20
  all_goals omega

end Dis
