import Verif.Proof.Takes
import Verif.Proof.Special
import Verif.Spec.Received

/-!
# Bytes consumed by the parses of the records of `opendis/record` and the PDUs that hold them
-/

namespace Dis

theorem Takes.of_emits {α} {r : R α} {w : α → W Unit} {P : α → Prop} {m : α → Nat}
    (h : Post r (fun b x => P x ∧ (w x).Emits b)) (hs : ∀ a, Sized (w a) (m a)) : Takes r m :=
  h.mono fun _ _ hq => hs _ _ hq.2

theorem Bitfield.len {ws : List Nat} : Takes (Bitfield.parse ws) (fun _ => ws.sum / 8) := by
  intro pre suf a s' h
  obtain ⟨b, rest, h1, h2, h3, rfl⟩ := Bitfield.parse_inv h
  exact ⟨b, rest, h1, h2, h3⟩

theorem SpreadSpectrum.takes : Takes (SpreadSpectrum.parse SpreadSpectrum.init) (fun _ => 2) := by
  unfold SpreadSpectrum.parse
  exact Post.last Bitfield.len fun _ _ h => h

theorem ModulationType.takes : Takes (ModulationType.parse ModulationType.init) ModulationType.wireSize := by
  unfold ModulationType.parse
  refine Post.bind SpreadSpectrum.takes fun a0 b0 h0 => ?_
  refine Post.bind len_uint16 fun a1 b1 h1 => ?_
  refine Post.bind len_uint16 fun a2 b2 h2 => ?_
  refine Post.last len_uint16 fun a3 b3 h3 => ?_
  simp only [List.length_append, h0, h1, h2, h3, ModulationType.wireSize]

theorem NetId.takes (s : NetId) : Takes (NetId.parse s) (fun _ => 2) := by
  unfold NetId.parse
  exact Post.last Bitfield.len fun _ _ h => h

theorem DEFireFlags.takes (s : DEFireFlags) : Takes (DEFireFlags.parse s) (fun _ => 2) := by
  unfold DEFireFlags.parse
  exact Post.last Bitfield.len fun _ _ h => h

theorem BeamAntennaPattern.takes (bl : Option Int) :
    Takes (BeamAntennaPattern.parse BeamAntennaPattern.init bl) BeamAntennaPattern.wireSize := by
  unfold BeamAntennaPattern.parse
  refine Post.skip (VariableRecord.parse_silent bl) ?_
  refine Post.bind EulerAngles.takes fun a0 b0 h0 => ?_
  refine Post.bind len_float32 fun a1 b1 h1 => ?_
  refine Post.bind len_float32 fun a2 b2 h2 => ?_
  refine Post.bind len_uint8 fun a3 b3 h3 => ?_
  refine Post.bind len_uint8 fun a4 b4 h4 => ?_
  refine Post.bind len_uint16 fun a5 b5 h5 => ?_
  refine Post.bind len_float32 fun a6 b6 h6 => ?_
  refine Post.bind len_float32 fun a7 b7 h7 => ?_
  refine Post.bind len_float32 fun a8 b8 h8 => ?_
  refine Post.last len_uint32 fun a9 b9 h9 => ?_
  simp only [List.length_append, h0, h1, h2, h3, h4, h5, h6, h7, h8, h9, BeamAntennaPattern.wireSize,
    EulerAngles.wireSize]

theorem BasicHaveQuickMP.takes (bl : Option Int) :
    Takes (BasicHaveQuickMP.parse BasicHaveQuickMP.init bl) BasicHaveQuickMP.wireSize := by
  unfold BasicHaveQuickMP.parse
  refine Post.skip (VariableRecord.parse_silent bl) ?_
  refine Post.bind (NetId.takes _) fun a0 b0 h0 => ?_
  refine Post.bind len_uint16 fun a1 b1 h1 => ?_
  refine Post.bind len_uint16 fun a2 b2 h2 => ?_
  refine Post.bind len_uint8 fun a3 b3 h3 => ?_
  refine Post.bind len_uint8 fun a4 b4 h4 => ?_
  refine Post.bind len_uint32 fun a5 b5 h5 => ?_
  refine Post.last len_uint32 fun a6 b6 h6 => ?_
  simp only [List.length_append, h0, h1, h2, h3, h4, h5, h6, BasicHaveQuickMP.wireSize]

theorem CCTTSincgarsMP.takes (bl : Option Int) :
    Takes (CCTTSincgarsMP.parse CCTTSincgarsMP.init bl) CCTTSincgarsMP.wireSize := by
  unfold CCTTSincgarsMP.parse
  refine Post.skip (VariableRecord.parse_silent bl) ?_
  refine Post.bind len_uint16 fun a0 b0 h0 => ?_
  refine Post.bind len_uint16 fun a1 b1 h1 => ?_
  refine Post.bind len_uint16 fun a2 b2 h2 => ?_
  refine Post.bind len_uint8 fun a3 b3 h3 => ?_
  refine Post.bind len_uint8 fun a4 b4 h4 => ?_
  refine Post.bind len_uint32 fun a5 b5 h5 => ?_
  refine Post.bind len_uint16 fun a6 b6 h6 => ?_
  refine Post.last len_uint16 fun a7 b7 h7 => ?_
  simp only [List.length_append, h0, h1, h2, h3, h4, h5, h6, h7, CCTTSincgarsMP.wireSize]

theorem HighFidelityHAVEQUICKRadio.takes (bl : Int) :
    Takes (HighFidelityHAVEQUICKRadio.parse HighFidelityHAVEQUICKRadio.init bl) (fun _ => 34) := by
  unfold HighFidelityHAVEQUICKRadio.parse
  refine Post.skip (StandardVariableRecord.parse_silent bl) ?_
  refine Post.bind len_uint16 fun a0 b0 h0 => ?_
  refine Post.bind (NetId.takes _) fun a1 b1 h1 => ?_
  refine Post.bind len_uint8 fun a2 b2 h2 => ?_
  refine Post.bind len_uint8 fun a3 b3 h3 => ?_
  refine Post.bind len_uint32 fun a4 b4 h4 => ?_
  refine Post.bind len_uint32 fun a5 b5 h5 => ?_
  refine Post.bind len_uint32 fun a6 b6 h6 => ?_
  refine Post.bind len_uint32 fun a7 b7 h7 => ?_
  refine Post.bind len_uint32 fun a8 b8 h8 => ?_
  refine Post.bind len_uint32 fun a9 b9 h9 => ?_
  refine Post.last len_uint32 fun a10 b10 h10 => ?_
  simp only [List.length_append, h0, h1, h2, h3, h4, h5, h6, h7, h8, h9, h10]

theorem DirectedEnergyDamage.takes (bl : Int) :
    Takes (DirectedEnergyDamage.parse DirectedEnergyDamage.init bl) (fun _ => 34) := by
  unfold DirectedEnergyDamage.parse
  refine Post.skip (StandardVariableRecord.parse_silent bl) ?_
  refine Post.bind len_unsigned_short fun a0 b0 h0 => ?_
  refine Post.bind Vector3Float.takes fun a1 b1 h1 => ?_
  refine Post.bind len_float32 fun a2 b2 h2 => ?_
  refine Post.bind len_float32 fun a3 b3 h3 => ?_
  refine Post.bind len_uint8 fun a4 b4 h4 => ?_
  refine Post.bind len_uint8 fun a5 b5 h5 => ?_
  refine Post.bind len_uint8 fun a6 b6 h6 => ?_
  refine Post.bind len_uint8 fun a7 b7 h7 => ?_
  refine Post.bind EventIdentifier.takes fun a8 b8 h8 => ?_
  refine Post.last len_uint16 fun a9 b9 h9 => ?_
  simp only [List.length_append, h0, h1, h2, h3, h4, h5, h6, h7, h8, h9, Vector3Float.wireSize,
    EventIdentifier.wireSize]

theorem DirectedEnergyTargetEnergyDeposition.takes :
    Takes (DirectedEnergyTargetEnergyDeposition.parse DirectedEnergyTargetEnergyDeposition.init)
      DirectedEnergyTargetEnergyDeposition.wireSize := by
  unfold DirectedEnergyTargetEnergyDeposition.parse
  refine Post.bind EntityIdentifier.takes fun a0 b0 h0 => ?_
  refine Post.bind len_uint16 fun a1 b1 h1 => ?_
  refine Post.last len_float32 fun a2 b2 h2 => ?_
  simp only [List.length_append, h0, h1, h2, DirectedEnergyTargetEnergyDeposition.wireSize,
    EntityIdentifier.wireSize]

theorem DirectedEnergyAreaAimpoint.takes (bl : Int) :
    Takes (DirectedEnergyAreaAimpoint.parse DirectedEnergyAreaAimpoint.init bl)
      DirectedEnergyAreaAimpoint.wireSize := by
  unfold DirectedEnergyAreaAimpoint.parse
  refine Post.skip (StandardVariableRecord.parse_silent bl) ?_
  refine Post.bind len_uint16 fun a0 b0 h0 => ?_
  refine Post.bind len_uint16 fun a1 b1 h1 => ?_
  refine Post.bind len_uint16 fun a2 b2 h2 => ?_
  refine Post.bind (Takes.times_const (BeamAntennaPattern.takes (some 40)) (fun _ => rfl) _) fun a3 b3 h3 => ?_
  refine Post.last (Takes.times_const DirectedEnergyTargetEnergyDeposition.takes (fun _ => rfl) _) fun a4 b4 h4 => ?_
  simp only [List.length_append, h0, h1, h2, h3.1, h4.1, DirectedEnergyAreaAimpoint.wireSize,
    DirectedEnergyAreaAimpoint.init, List.nil_append]
  omega

theorem DirectedEnergyPrecisionAimpoint.takes (bl : Int) :
    Takes (DirectedEnergyPrecisionAimpoint.parse DirectedEnergyPrecisionAimpoint.init bl) (fun _ => 90) := by
  unfold DirectedEnergyPrecisionAimpoint.parse
  refine Post.skip (StandardVariableRecord.parse_silent bl) ?_
  refine Post.bind len_uint16 fun a0 b0 h0 => ?_
  refine Post.bind WorldCoordinates.takes fun a1 b1 h1 => ?_
  refine Post.bind Vector3Float.takes fun a2 b2 h2 => ?_
  refine Post.bind Vector3Float.takes fun a3 b3 h3 => ?_
  refine Post.bind Vector3Float.takes fun a4 b4 h4 => ?_
  refine Post.bind EntityIdentifier.takes fun a5 b5 h5 => ?_
  refine Post.bind len_uint8 fun a6 b6 h6 => ?_
  refine Post.bind len_uint8 fun a7 b7 h7 => ?_
  refine Post.bind len_float32 fun a8 b8 h8 => ?_
  refine Post.bind len_float32 fun a9 b9 h9 => ?_
  refine Post.bind len_float32 fun a10 b10 h10 => ?_
  refine Post.bind len_float32 fun a11 b11 h11 => ?_
  refine Post.last len_uint32 fun a12 b12 h12 => ?_
  simp only [List.length_append, h0, h1, h2, h3, h4, h5, h6, h7, h8, h9, h10, h11, h12,
    Vector3Float.wireSize, WorldCoordinates.wireSize, EntityIdentifier.wireSize]

/-! ## Lists of standard variable records -/

theorem SVClass.takes (c : SVClass) (bl : Int) : Takes (SVClass.parse c bl) SVRecord.contentsSize := by
  cases c with
  | highFidelityHAVEQUICKRadio =>
    exact Post.last (HighFidelityHAVEQUICKRadio.takes bl) fun _ _ h => h
  | directedEnergyPrecisionAimpoint =>
    exact Post.last (DirectedEnergyPrecisionAimpoint.takes bl) fun _ _ h => h
  | directedEnergyAreaAimpoint =>
    exact Post.last (DirectedEnergyAreaAimpoint.takes bl) fun _ _ h => h
  | directedEnergyDamage => exact Post.last (DirectedEnergyDamage.takes bl) fun _ _ h => h
  | unknown t =>
    exact Post.last (UnknownStandardVariableRecord.post _ bl) fun _ _ h => congrArg List.length h

theorem parseStandardVariableRecord.takes (e : SVBase) :
    Takes (parseStandardVariableRecord e) (fun r => 6 + r.contentsSize) := by
  unfold parseStandardVariableRecord
  refine Post.bind len_uint32 fun _ _ h1 => Post.bind len_uint16 fun _ _ h2 =>
    Post.bind (Post.ofExcept _) fun _ _ h3 => (SVClass.takes _ _).mono fun _ _ h4 => ?_
  simp only [List.length_append, h1, h2, h3.1, h4, List.length_nil]
  omega

theorem EntityDamageStatusPdu.takes : Takes (EntityDamageStatusPdu.parse EntityDamageStatusPdu.init)
    EntityDamageStatusPdu.receivedSize := by
  unfold EntityDamageStatusPdu.parse
  refine Post.bind (WarfareFamilyPdu.takes _) fun a0 b0 h0 => ?_
  refine Post.bind EntityIdentifier.takes fun a1 b1 h1 => ?_
  refine Post.bind len_uint16 fun a2 b2 h2 => ?_
  refine Post.bind len_uint16 fun a3 b3 h3 => ?_
  refine Post.bind len_uint16 fun a4 b4 h4 => ?_
  refine Post.last (Takes.times (parseStandardVariableRecord.takes _) _) fun a5 b5 h5 => ?_
  simp only [List.length_append, h0, h1, h2, h3, h4, h5.1, EntityDamageStatusPdu.receivedSize,
    EntityDamageStatusPdu.init, List.nil_append, WarfareFamilyPdu.wireSize, EntityIdentifier.wireSize]
  omega

theorem DirectedEnergyFirePdu.takes : Takes (DirectedEnergyFirePdu.parse DirectedEnergyFirePdu.init)
    DirectedEnergyFirePdu.receivedSize := by
  unfold DirectedEnergyFirePdu.parse
  refine Post.bind (WarfareFamilyPdu.takes _) fun a0 b0 h0 => ?_
  refine Post.bind EntityType.takes fun a1 b1 h1 => ?_
  refine Post.bind ClockTime.takes fun a2 b2 h2 => ?_
  refine Post.bind len_float32 fun a3 b3 h3 => ?_
  refine Post.bind Vector3Float.takes fun a4 b4 h4 => ?_
  refine Post.bind len_float32 fun a5 b5 h5 => ?_
  refine Post.bind len_float32 fun a6 b6 h6 => ?_
  refine Post.bind len_uint32 fun a7 b7 h7 => ?_
  refine Post.bind len_float32 fun a8 b8 h8 => ?_
  refine Post.bind len_float32 fun a9 b9 h9 => ?_
  refine Post.bind (DEFireFlags.takes _) fun a10 b10 h10 => ?_
  refine Post.bind len_uint8 fun a11 b11 h11 => ?_
  refine Post.bind len_uint8 fun a12 b12 h12 => ?_
  refine Post.bind len_uint32 fun a13 b13 h13 => ?_
  refine Post.bind len_uint16 fun a14 b14 h14 => ?_
  refine Post.bind len_uint16 fun a15 b15 h15 => ?_
  refine Post.last (Takes.times (parseStandardVariableRecord.takes _) _) fun a16 b16 h16 => ?_
  simp only [List.length_append, h0, h1, h2, h3, h4, h5, h6, h7, h8, h9, h10, h11, h12, h13, h14, h15,
    h16.1, DirectedEnergyFirePdu.receivedSize, DirectedEnergyFirePdu.init, List.nil_append,
    WarfareFamilyPdu.wireSize, EntityType.wireSize, ClockTime.wireSize, Vector3Float.wireSize]
  clear h0 h1 h2 h3 h4 h5 h6 h7 h8 h9 h10 h11 h12 h13 h14 h15 h16
  omega

theorem TransmitterPdu.parseModulationParameters_takes (t : ModulationType) (n : Int) :
    Takes (TransmitterPdu.parseModulationParameters t n)
      (fun o => (o.map ModulationParametersRecord.wireSize).getD 0) := by
  unfold TransmitterPdu.parseModulationParameters
  split
  · split
    · split
      · exact Post.pure _ rfl
      · exact Post.pure _ rfl
    · split
      · exact Post.last (BasicHaveQuickMP.takes _) fun _ _ h => h
      · split
        · exact Post.last (CCTTSincgarsMP.takes _) fun _ _ h => h
        · unfold UnknownRadio.parse
          refine Post.last (Q1 := fun b o => b = o.data) ?_ fun _ _ h => congrArg List.length h
          refine Post.skip (VariableRecord.parse_silent _) ?_
          exact Post.last (post_read_bytes _) fun _ _ h => h
  · exact Post.pure _ rfl

theorem TransmitterPdu.parseAntennaPattern_takes (t n : Int) :
    Takes (TransmitterPdu.parseAntennaPattern t n)
      (fun o => (o.map AntennaPatternRecord.wireSize).getD 0) := by
  unfold TransmitterPdu.parseAntennaPattern
  split
  · split
    · exact Post.last (BeamAntennaPattern.takes _) fun _ _ h => h
    · unfold UnknownAntennaPattern.parse
      refine Post.last (Q1 := fun b o => b = o.data) ?_ fun _ _ h => congrArg List.length h
      refine Post.skip (VariableRecord.parse_silent _) ?_
      exact Post.last (post_read_bytes _) fun _ _ h => h
  · exact Post.pure _ rfl

theorem TransmitterPdu.takes : Takes (TransmitterPdu.parse TransmitterPdu.init)
    TransmitterPdu.receivedSize := by
  unfold TransmitterPdu.parse
  refine Post.bind (RadioCommunicationsFamilyPdu.takes _) fun a0 b0 h0 => ?_
  refine Post.bind EntityIdentifier.takes fun a1 b1 h1 => ?_
  refine Post.bind len_uint16 fun a2 b2 h2 => ?_
  refine Post.bind EntityType.takes fun a3 b3 h3 => ?_
  refine Post.bind len_uint8 fun a4 b4 h4 => ?_
  refine Post.bind len_uint8 fun a5 b5 h5 => ?_
  refine Post.bind len_uint16 fun a6 b6 h6 => ?_
  refine Post.bind WorldCoordinates.takes fun a7 b7 h7 => ?_
  refine Post.bind Vector3Float.takes fun a8 b8 h8 => ?_
  refine Post.bind len_uint16 fun a9 b9 h9 => ?_
  refine Post.bind len_uint16 fun a10 b10 h10 => ?_
  refine Post.bind len_uint64 fun a11 b11 h11 => ?_
  refine Post.bind len_float32 fun a12 b12 h12 => ?_
  refine Post.bind len_float32 fun a13 b13 h13 => ?_
  refine Post.bind ModulationType.takes fun a14 b14 h14 => ?_
  refine Post.bind len_uint16 fun a15 b15 h15 => ?_
  refine Post.bind len_uint16 fun a16 b16 h16 => ?_
  refine Post.bind len_uint8 fun a17 b17 h17 => ?_
  refine Post.bind len_uint16 fun a18 b18 h18 => ?_
  refine Post.bind len_uint8 fun a19 b19 h19 => ?_
  refine Post.bind (TransmitterPdu.parseModulationParameters_takes _ _) fun a20 b20 h20 => ?_
  refine Post.bind (TransmitterPdu.parseAntennaPattern_takes _ _) fun a21 b21 h21 => ?_
  refine Post.last (Takes.times (parseStandardVariableRecord.takes _) _) fun a22 b22 h22 => ?_
  simp only [List.length_append, h0, h1, h2, h3, h4, h5, h6, h7, h8, h9, h10, h11, h12, h13, h14, h15,
    h16, h17, h18, h19, h20, h21, h22.1, TransmitterPdu.receivedSize, TransmitterPdu.init, List.nil_append,
    RadioCommunicationsFamilyPdu.wireSize, EntityType.wireSize, EntityIdentifier.wireSize,
    WorldCoordinates.wireSize, Vector3Float.wireSize, ModulationType.wireSize]
  clear h0 h1 h2 h3 h4 h5 h6 h7 h8 h9 h10 h11 h12 h13 h14 h15 h16 h17 h18 h19 h20 h21 h22
  omega

end Dis
