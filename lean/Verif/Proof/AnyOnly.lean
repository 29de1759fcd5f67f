import Verif.Proof.TakesSpecial
import Verif.Proof.AnyPdu
import Verif.Spec.Raised

/-!
# Exceptions the factory's classes raise, and the size of what they re-send

Generated by `tools/genonly.py`.
-/

namespace Dis

/-- Every exception `r` raises is in `E`. -/
def Only {α} (E : List PyErr) (r : R α) : Prop := ∀ st e, (r st).1 = .error e → e ∈ E

theorem Only.pure {α E} (a : α) : Only E (Pure.pure a : R α) := by intro st e h; cases h

theorem Only.throw {α E e} (h : e ∈ E) : Only E (R.throw e : R α) := by intro st e' h'; cases h'; exact h

theorem Only.bind {α β E} {r : R α} {k : α → R β} (h1 : Only E r) (h2 : ∀ a, Only E (k a)) :
    Only E (r >>= k) := by
  intro st e h
  rcases hr : r st with ⟨x, s1⟩
  cases x with
  | ok a => rw [R.bind_ok hr] at h; exact h2 a _ _ h
  | error e' => rw [R.bind_error hr] at h; cases h; exact h1 st _ (by rw [hr])

theorem Only.times {α E} {r : R α} (h : Only E r) (n : Nat) : Only E (R.times n r) := by
  induction n with
  | zero => exact Only.pure _
  | succ n ih => exact Only.bind h fun _ => Only.bind ih fun _ => Only.pure _

theorem OnlyStruct.to {α E} {r : R α} (h : OnlyStruct r) (hE : PyErr.structError ∈ E) : Only E r :=
  fun st e he => h st e he ▸ hE

theorem Only.ofExcept {α E} {x : Except PyErr α} (h : ∀ e, x = .error e → e ∈ E) : Only E (R.ofExcept x) :=
  fun _ e he => h e he

theorem Only.read_bytes {E n} : Only E (read_bytes n) := by intro st e h; cases h

theorem Takes.resend {α} {r : R α} {m : α → Nat} {w : α → W Unit} {k : α → AnyPdu} (h : Takes r m)
    (hs : ∀ a, Sized (w a) (m a)) (hk : ∀ a, (k a).serialize = w a) :
    Post (r >>= fun x => Pure.pure (k x)) (fun b p => ∀ b', p.serialize.Emits b' → b'.length = b.length) :=
  Post.last h fun a b hb b' hb' => by rw [hk] at hb'; rw [hs a b' hb', hb]

theorem IntercomControlPdu.noPost {Q} :
    Post (IntercomControlPdu.parse IntercomControlPdu.init) Q := by
  unfold IntercomControlPdu.parse
  refine Post.bind (RadioCommunicationsFamilyPdu.takes _) fun _ _ _ => ?_
  iterate 2 refine Post.bind len_unsigned_byte fun _ _ _ => ?_
  refine Post.bind EntityIdentifier.takes fun _ _ _ => ?_
  iterate 5 refine Post.bind len_unsigned_byte fun _ _ _ => ?_
  refine Post.bind EntityIdentifier.takes fun _ _ _ => ?_
  refine Post.bind len_unsigned_short fun _ _ _ => ?_
  refine Post.bind len_unsigned_int fun _ _ _ => ?_
  exact Post.bind (Post.throw (Q := fun _ _ => False) _) fun _ _ h => h.elim

theorem SilentEntitySystem.raises (s : SilentEntitySystem) : Only [.structError, .nameError] (SilentEntitySystem.parse s) := by
  unfold SilentEntitySystem.parse
  refine Only.bind (only_unsigned_short.to (by decide)) fun _ => ?_
  refine Only.bind (only_unsigned_short.to (by decide)) fun _ => ?_
  refine Only.bind ((EntityType.only _).to (by decide)) fun _ => ?_
  refine Only.bind ((Only.throw (by decide)).times _) fun _ => ?_
  exact Only.pure _

theorem ResupplyReceivedPdu.raises (s : ResupplyReceivedPdu) : Only [.structError, .nameError] (ResupplyReceivedPdu.parse s) := by
  unfold ResupplyReceivedPdu.parse
  refine Only.bind ((LogisticsFamilyPdu.only _).to (by decide)) fun _ => ?_
  refine Only.bind ((EntityIdentifier.only _).to (by decide)) fun _ => ?_
  refine Only.bind ((EntityIdentifier.only _).to (by decide)) fun _ => ?_
  refine Only.bind (only_unsigned_byte.to (by decide)) fun _ => ?_
  refine Only.bind (only_short.to (by decide)) fun _ => ?_
  refine Only.bind (only_byte.to (by decide)) fun _ => ?_
  refine Only.bind ((Only.throw (by decide)).times _) fun _ => ?_
  exact Only.pure _

theorem UaPdu.raises (s : UaPdu) : Only [.structError, .nameError] (UaPdu.parse s) := by
  unfold UaPdu.parse
  refine Only.bind ((DistributedEmissionsFamilyPdu.only _).to (by decide)) fun _ => ?_
  refine Only.bind ((EntityIdentifier.only _).to (by decide)) fun _ => ?_
  refine Only.bind ((EventIdentifier.only _).to (by decide)) fun _ => ?_
  refine Only.bind (only_byte.to (by decide)) fun _ => ?_
  refine Only.bind (only_byte.to (by decide)) fun _ => ?_
  refine Only.bind (only_unsigned_short.to (by decide)) fun _ => ?_
  refine Only.bind (only_unsigned_byte.to (by decide)) fun _ => ?_
  refine Only.bind (only_unsigned_byte.to (by decide)) fun _ => ?_
  refine Only.bind (only_unsigned_byte.to (by decide)) fun _ => ?_
  refine Only.bind (only_unsigned_byte.to (by decide)) fun _ => ?_
  refine Only.bind ((Only.throw (by decide)).times _) fun _ => ?_
  refine Only.bind ((Only.throw (by decide)).times _) fun _ => ?_
  refine Only.bind ((Only.throw (by decide)).times _) fun _ => ?_
  exact Only.pure _

theorem IntercomSignalPdu.raises (s : IntercomSignalPdu) : Only [.structError, .nameError] (IntercomSignalPdu.parse s) := by
  unfold IntercomSignalPdu.parse
  refine Only.bind ((RadioCommunicationsFamilyPdu.only _).to (by decide)) fun _ => ?_
  refine Only.bind ((EntityIdentifier.only _).to (by decide)) fun _ => ?_
  refine Only.bind (only_unsigned_short.to (by decide)) fun _ => ?_
  refine Only.bind (only_unsigned_short.to (by decide)) fun _ => ?_
  refine Only.bind (only_unsigned_short.to (by decide)) fun _ => ?_
  refine Only.bind (only_unsigned_int.to (by decide)) fun _ => ?_
  refine Only.bind (only_unsigned_short.to (by decide)) fun _ => ?_
  refine Only.bind (only_unsigned_short.to (by decide)) fun _ => ?_
  refine Only.bind ((Only.throw (by decide)).times _) fun _ => ?_
  exact Only.pure _

theorem AggregateStatePdu.raises (s : AggregateStatePdu) : Only [.structError, .nameError] (AggregateStatePdu.parse s) := by
  unfold AggregateStatePdu.parse
  refine Only.bind ((EntityManagementFamilyPdu.only _).to (by decide)) fun _ => ?_
  refine Only.bind ((AggregateIdentifier.only _).to (by decide)) fun _ => ?_
  refine Only.bind (only_unsigned_byte.to (by decide)) fun _ => ?_
  refine Only.bind (only_unsigned_byte.to (by decide)) fun _ => ?_
  refine Only.bind ((AggregateType.only _).to (by decide)) fun _ => ?_
  refine Only.bind (only_unsigned_int.to (by decide)) fun _ => ?_
  refine Only.bind ((AggregateMarking.only _).to (by decide)) fun _ => ?_
  refine Only.bind ((Vector3Float.only _).to (by decide)) fun _ => ?_
  refine Only.bind ((EulerAngles.only _).to (by decide)) fun _ => ?_
  refine Only.bind ((Vector3Float.only _).to (by decide)) fun _ => ?_
  refine Only.bind ((WorldCoordinates.only _).to (by decide)) fun _ => ?_
  refine Only.bind (only_unsigned_short.to (by decide)) fun _ => ?_
  refine Only.bind (only_unsigned_short.to (by decide)) fun _ => ?_
  refine Only.bind (only_unsigned_short.to (by decide)) fun _ => ?_
  refine Only.bind (only_unsigned_short.to (by decide)) fun _ => ?_
  refine Only.bind (((AggregateIdentifier.only _).to (by decide)).times _) fun _ => ?_
  refine Only.bind (((EntityIdentifier.only _).to (by decide)).times _) fun _ => ?_
  refine Only.bind (((SilentAggregateSystem.only _).to (by decide)).times _) fun _ => ?_
  refine Only.bind ((SilentEntitySystem.raises _).times _) fun _ => ?_
  refine Only.bind (only_unsigned_int.to (by decide)) fun _ => ?_
  refine Only.bind (((VariableDatum.only _).to (by decide)).times _) fun _ => ?_
  exact Only.pure _

theorem MinefieldResponseNackPdu.raises (s : MinefieldResponseNackPdu) : Only [.structError, .nameError] (MinefieldResponseNackPdu.parse s) := by
  unfold MinefieldResponseNackPdu.parse
  refine Only.bind ((MinefieldFamilyPdu.only _).to (by decide)) fun _ => ?_
  refine Only.bind ((EntityIdentifier.only _).to (by decide)) fun _ => ?_
  refine Only.bind ((EntityIdentifier.only _).to (by decide)) fun _ => ?_
  refine Only.bind (only_unsigned_byte.to (by decide)) fun _ => ?_
  refine Only.bind (only_unsigned_byte.to (by decide)) fun _ => ?_
  refine Only.bind ((Only.throw (by decide)).times _) fun _ => ?_
  exact Only.pure _

theorem RecordQueryReliablePdu.raises (s : RecordQueryReliablePdu) : Only [.structError, .nameError] (RecordQueryReliablePdu.parse s) := by
  unfold RecordQueryReliablePdu.parse
  refine Only.bind ((SimulationManagementWithReliabilityFamilyPdu.only _).to (by decide)) fun _ => ?_
  refine Only.bind (only_unsigned_int.to (by decide)) fun _ => ?_
  refine Only.bind (only_unsigned_byte.to (by decide)) fun _ => ?_
  refine Only.bind (only_unsigned_short.to (by decide)) fun _ => ?_
  refine Only.bind (only_unsigned_byte.to (by decide)) fun _ => ?_
  refine Only.bind (only_unsigned_short.to (by decide)) fun _ => ?_
  refine Only.bind (only_unsigned_int.to (by decide)) fun _ => ?_
  refine Only.bind (only_unsigned_int.to (by decide)) fun _ => ?_
  refine Only.bind ((Only.throw (by decide)).times _) fun _ => ?_
  exact Only.pure _

theorem SeesPdu.raises (s : SeesPdu) : Only [.structError, .nameError] (SeesPdu.parse s) := by
  unfold SeesPdu.parse
  refine Only.bind ((DistributedEmissionsFamilyPdu.only _).to (by decide)) fun _ => ?_
  refine Only.bind ((EntityIdentifier.only _).to (by decide)) fun _ => ?_
  refine Only.bind (only_unsigned_short.to (by decide)) fun _ => ?_
  refine Only.bind (only_unsigned_short.to (by decide)) fun _ => ?_
  refine Only.bind (only_unsigned_short.to (by decide)) fun _ => ?_
  refine Only.bind (only_unsigned_short.to (by decide)) fun _ => ?_
  refine Only.bind (only_unsigned_short.to (by decide)) fun _ => ?_
  refine Only.bind ((Only.throw (by decide)).times _) fun _ => ?_
  refine Only.bind ((Only.throw (by decide)).times _) fun _ => ?_
  exact Only.pure _

theorem IntercomControlPdu.raises (s : IntercomControlPdu) : Only [.structError, .typeError] (IntercomControlPdu.parse s) := by
  unfold IntercomControlPdu.parse
  refine Only.bind ((RadioCommunicationsFamilyPdu.only _).to (by decide)) fun _ => ?_
  refine Only.bind (only_unsigned_byte.to (by decide)) fun _ => ?_
  refine Only.bind (only_unsigned_byte.to (by decide)) fun _ => ?_
  refine Only.bind ((EntityIdentifier.only _).to (by decide)) fun _ => ?_
  refine Only.bind (only_unsigned_byte.to (by decide)) fun _ => ?_
  refine Only.bind (only_unsigned_byte.to (by decide)) fun _ => ?_
  refine Only.bind (only_unsigned_byte.to (by decide)) fun _ => ?_
  refine Only.bind (only_unsigned_byte.to (by decide)) fun _ => ?_
  refine Only.bind (only_unsigned_byte.to (by decide)) fun _ => ?_
  refine Only.bind ((EntityIdentifier.only _).to (by decide)) fun _ => ?_
  refine Only.bind (only_unsigned_short.to (by decide)) fun _ => ?_
  refine Only.bind (only_unsigned_int.to (by decide)) fun _ => ?_
  refine Only.bind (Only.throw (by decide)) fun _ => ?_
  exact Only.pure _

theorem Bitfield.raises {E ws} (h : PyErr.valueError ∈ E) : Only E (Bitfield.parse ws) := by
  unfold Bitfield.parse
  refine Only.bind Only.read_bytes fun b => Only.ofExcept fun e he => ?_
  unfold Bitfield.fromBufferCopy at he
  split at he
  · cases he; exact h
  · cases he

theorem VariableRecord.raises {E bl} (h : PyErr.valueError ∈ E) : Only E (VariableRecord.parse bl) := by
  unfold VariableRecord.parse
  split
  · exact Only.pure _
  · split
    · exact Only.pure _
    · exact Only.throw h

theorem StandardVariableRecord.raises {E bl} (h : PyErr.valueError ∈ E) :
    Only E (StandardVariableRecord.parse bl) := by
  unfold StandardVariableRecord.parse
  refine Only.bind (VariableRecord.raises h) fun _ => ?_
  split
  · exact Only.pure _
  · exact Only.throw h

/-- The exceptions of records. -/
abbrev RecordErrors : List PyErr := [.structError, .typeError, .valueError]

theorem NetId.raises (s) : Only RecordErrors (NetId.parse s) := by
  unfold NetId.parse
  exact Only.bind (Bitfield.raises (by decide)) fun _ => Only.pure _

theorem DEFireFlags.raises (s) : Only RecordErrors (DEFireFlags.parse s) := by
  unfold DEFireFlags.parse
  exact Only.bind (Bitfield.raises (by decide)) fun _ => Only.pure _

theorem SpreadSpectrum.raises (s) : Only RecordErrors (SpreadSpectrum.parse s) := by
  unfold SpreadSpectrum.parse
  exact Only.bind (Bitfield.raises (by decide)) fun _ => Only.pure _

theorem ModulationType.raises (s) : Only RecordErrors (ModulationType.parse s) := by
  unfold ModulationType.parse
  exact Only.bind (SpreadSpectrum.raises _) fun _ => Only.bind (only_uint16.to (by decide)) fun _ =>
    Only.bind (only_uint16.to (by decide)) fun _ => Only.bind (only_uint16.to (by decide)) fun _ => Only.pure _

theorem BeamAntennaPattern.raises (s bl) : Only RecordErrors (BeamAntennaPattern.parse s bl) := by
  unfold BeamAntennaPattern.parse
  refine Only.bind (VariableRecord.raises (by decide)) fun _ => ?_
  refine Only.bind ((EulerAngles.only _).to (by decide)) fun _ => ?_
  refine Only.bind (only_float32.to (by decide)) fun _ => ?_
  refine Only.bind (only_float32.to (by decide)) fun _ => ?_
  refine Only.bind (only_uint8.to (by decide)) fun _ => ?_
  refine Only.bind (only_uint8.to (by decide)) fun _ => ?_
  refine Only.bind (only_uint16.to (by decide)) fun _ => ?_
  refine Only.bind (only_float32.to (by decide)) fun _ => ?_
  refine Only.bind (only_float32.to (by decide)) fun _ => ?_
  refine Only.bind (only_float32.to (by decide)) fun _ => ?_
  refine Only.bind (only_uint32.to (by decide)) fun _ => ?_
  exact Only.pure _

theorem BasicHaveQuickMP.raises (s bl) : Only RecordErrors (BasicHaveQuickMP.parse s bl) := by
  unfold BasicHaveQuickMP.parse
  refine Only.bind (VariableRecord.raises (by decide)) fun _ => ?_
  refine Only.bind (NetId.raises _) fun _ => ?_
  refine Only.bind (only_uint16.to (by decide)) fun _ => ?_
  refine Only.bind (only_uint16.to (by decide)) fun _ => ?_
  refine Only.bind (only_uint8.to (by decide)) fun _ => ?_
  refine Only.bind (only_uint8.to (by decide)) fun _ => ?_
  refine Only.bind (only_uint32.to (by decide)) fun _ => ?_
  refine Only.bind (only_uint32.to (by decide)) fun _ => ?_
  exact Only.pure _

theorem CCTTSincgarsMP.raises (s bl) : Only RecordErrors (CCTTSincgarsMP.parse s bl) := by
  unfold CCTTSincgarsMP.parse
  refine Only.bind (VariableRecord.raises (by decide)) fun _ => ?_
  refine Only.bind (only_uint16.to (by decide)) fun _ => ?_
  refine Only.bind (only_uint16.to (by decide)) fun _ => ?_
  refine Only.bind (only_uint16.to (by decide)) fun _ => ?_
  refine Only.bind (only_uint8.to (by decide)) fun _ => ?_
  refine Only.bind (only_uint8.to (by decide)) fun _ => ?_
  refine Only.bind (only_uint32.to (by decide)) fun _ => ?_
  refine Only.bind (only_uint16.to (by decide)) fun _ => ?_
  refine Only.bind (only_uint16.to (by decide)) fun _ => ?_
  exact Only.pure _

theorem HighFidelityHAVEQUICKRadio.raises (s bl) :
    Only RecordErrors (HighFidelityHAVEQUICKRadio.parse s bl) := by
  unfold HighFidelityHAVEQUICKRadio.parse
  refine Only.bind (StandardVariableRecord.raises (by decide)) fun _ => ?_
  refine Only.bind (only_uint16.to (by decide)) fun _ => ?_
  refine Only.bind (NetId.raises _) fun _ => ?_
  refine Only.bind (only_uint8.to (by decide)) fun _ => ?_
  refine Only.bind (only_uint8.to (by decide)) fun _ => ?_
  iterate 7 refine Only.bind (only_uint32.to (by decide)) fun _ => ?_
  exact Only.pure _

theorem DirectedEnergyDamage.raises (s bl) : Only RecordErrors (DirectedEnergyDamage.parse s bl) := by
  unfold DirectedEnergyDamage.parse
  refine Only.bind (StandardVariableRecord.raises (by decide)) fun _ => ?_
  refine Only.bind (only_unsigned_short.to (by decide)) fun _ => ?_
  refine Only.bind ((Vector3Float.only _).to (by decide)) fun _ => ?_
  iterate 2 refine Only.bind (only_float32.to (by decide)) fun _ => ?_
  iterate 4 refine Only.bind (only_uint8.to (by decide)) fun _ => ?_
  refine Only.bind ((EventIdentifier.only _).to (by decide)) fun _ => ?_
  refine Only.bind (only_uint16.to (by decide)) fun _ => ?_
  exact Only.pure _

theorem DirectedEnergyTargetEnergyDeposition.raises (s) :
    Only RecordErrors (DirectedEnergyTargetEnergyDeposition.parse s) := by
  unfold DirectedEnergyTargetEnergyDeposition.parse
  refine Only.bind ((EntityIdentifier.only _).to (by decide)) fun _ => ?_
  refine Only.bind (only_uint16.to (by decide)) fun _ => ?_
  refine Only.bind (only_float32.to (by decide)) fun _ => ?_
  exact Only.pure _

theorem DirectedEnergyAreaAimpoint.raises (s bl) :
    Only RecordErrors (DirectedEnergyAreaAimpoint.parse s bl) := by
  unfold DirectedEnergyAreaAimpoint.parse
  refine Only.bind (StandardVariableRecord.raises (by decide)) fun _ => ?_
  iterate 3 refine Only.bind (only_uint16.to (by decide)) fun _ => ?_
  refine Only.bind ((BeamAntennaPattern.raises _ _).times _) fun _ => ?_
  refine Only.bind ((DirectedEnergyTargetEnergyDeposition.raises _).times _) fun _ => ?_
  exact Only.pure _

theorem DirectedEnergyPrecisionAimpoint.raises (s bl) :
    Only RecordErrors (DirectedEnergyPrecisionAimpoint.parse s bl) := by
  unfold DirectedEnergyPrecisionAimpoint.parse
  refine Only.bind (StandardVariableRecord.raises (by decide)) fun _ => ?_
  refine Only.bind (only_uint16.to (by decide)) fun _ => ?_
  refine Only.bind ((WorldCoordinates.only _).to (by decide)) fun _ => ?_
  iterate 3 refine Only.bind ((Vector3Float.only _).to (by decide)) fun _ => ?_
  refine Only.bind ((EntityIdentifier.only _).to (by decide)) fun _ => ?_
  iterate 2 refine Only.bind (only_uint8.to (by decide)) fun _ => ?_
  iterate 4 refine Only.bind (only_float32.to (by decide)) fun _ => ?_
  refine Only.bind (only_uint32.to (by decide)) fun _ => ?_
  exact Only.pure _

theorem UnknownStandardVariableRecord.raises (s bl) :
    Only RecordErrors (UnknownStandardVariableRecord.parse s bl) := by
  unfold UnknownStandardVariableRecord.parse
  refine Only.bind (StandardVariableRecord.raises (by decide)) fun _ => ?_
  exact Only.bind Only.read_bytes fun _ => Only.pure _

theorem SVClass.raises (c : SVClass) (bl : Int) : Only RecordErrors (SVClass.parse c bl) := by
  cases c with
  | highFidelityHAVEQUICKRadio => exact Only.bind (HighFidelityHAVEQUICKRadio.raises _ _) fun _ => Only.pure _
  | directedEnergyPrecisionAimpoint =>
    exact Only.bind (DirectedEnergyPrecisionAimpoint.raises _ _) fun _ => Only.pure _
  | directedEnergyAreaAimpoint => exact Only.bind (DirectedEnergyAreaAimpoint.raises _ _) fun _ => Only.pure _
  | directedEnergyDamage => exact Only.bind (DirectedEnergyDamage.raises _ _) fun _ => Only.pure _
  | unknown t => exact Only.bind (UnknownStandardVariableRecord.raises _ _) fun _ => Only.pure _

theorem getStandardVariableClass_raises {t e x} (h : getStandardVariableClass t e = .error x) :
    x ∈ RecordErrors := by
  unfold getStandardVariableClass at h
  split at h
  · cases h; decide
  · dsimp only at h
    split at h
    · cases h; decide
    · cases h

theorem parseStandardVariableRecord.raises (e) : Only RecordErrors (parseStandardVariableRecord e) := by
  unfold parseStandardVariableRecord
  refine Only.bind (only_uint32.to (by decide)) fun _ => ?_
  refine Only.bind (only_uint16.to (by decide)) fun _ => ?_
  refine Only.bind (Only.ofExcept fun _ h => getStandardVariableClass_raises h) fun _ => SVClass.raises _ _

theorem EntityDamageStatusPdu.raises (s) : Only RecordErrors (EntityDamageStatusPdu.parse s) := by
  unfold EntityDamageStatusPdu.parse
  refine Only.bind ((WarfareFamilyPdu.only _).to (by decide)) fun _ => ?_
  refine Only.bind ((EntityIdentifier.only _).to (by decide)) fun _ => ?_
  iterate 3 refine Only.bind (only_uint16.to (by decide)) fun _ => ?_
  exact Only.bind ((parseStandardVariableRecord.raises _).times _) fun _ => Only.pure _

theorem DirectedEnergyFirePdu.raises (s) : Only RecordErrors (DirectedEnergyFirePdu.parse s) := by
  unfold DirectedEnergyFirePdu.parse
  refine Only.bind ((WarfareFamilyPdu.only _).to (by decide)) fun _ => ?_
  refine Only.bind ((EntityType.only _).to (by decide)) fun _ => ?_
  refine Only.bind ((ClockTime.only _).to (by decide)) fun _ => ?_
  refine Only.bind (only_float32.to (by decide)) fun _ => ?_
  refine Only.bind ((Vector3Float.only _).to (by decide)) fun _ => ?_
  iterate 2 refine Only.bind (only_float32.to (by decide)) fun _ => ?_
  refine Only.bind (only_uint32.to (by decide)) fun _ => ?_
  iterate 2 refine Only.bind (only_float32.to (by decide)) fun _ => ?_
  refine Only.bind (DEFireFlags.raises _) fun _ => ?_
  iterate 2 refine Only.bind (only_uint8.to (by decide)) fun _ => ?_
  refine Only.bind (only_uint32.to (by decide)) fun _ => ?_
  iterate 2 refine Only.bind (only_uint16.to (by decide)) fun _ => ?_
  exact Only.bind ((parseStandardVariableRecord.raises _).times _) fun _ => Only.pure _

theorem TransmitterPdu.parseModulationParameters_raises (t n) :
    Only RecordErrors (TransmitterPdu.parseModulationParameters t n) := by
  unfold TransmitterPdu.parseModulationParameters
  split
  · split
    · split <;> exact Only.pure _
    · split
      · exact Only.bind (BasicHaveQuickMP.raises _ _) fun _ => Only.pure _
      · split
        · exact Only.bind (CCTTSincgarsMP.raises _ _) fun _ => Only.pure _
        · refine Only.bind ?_ fun _ => Only.pure _
          exact Only.bind (VariableRecord.raises (by decide)) fun _ =>
            Only.bind Only.read_bytes fun _ => Only.pure _
  · exact Only.pure _

theorem TransmitterPdu.parseAntennaPattern_raises (t n) :
    Only RecordErrors (TransmitterPdu.parseAntennaPattern t n) := by
  unfold TransmitterPdu.parseAntennaPattern
  split
  · split
    · exact Only.bind (BeamAntennaPattern.raises _ _) fun _ => Only.pure _
    · refine Only.bind ?_ fun _ => Only.pure _
      exact Only.bind (VariableRecord.raises (by decide)) fun _ =>
        Only.bind Only.read_bytes fun _ => Only.pure _
  · exact Only.pure _

theorem TransmitterPdu.raises (s) : Only RecordErrors (TransmitterPdu.parse s) := by
  unfold TransmitterPdu.parse
  refine Only.bind ((RadioCommunicationsFamilyPdu.only _).to (by decide)) fun _ => ?_
  refine Only.bind ((EntityIdentifier.only _).to (by decide)) fun _ => ?_
  refine Only.bind (only_uint16.to (by decide)) fun _ => ?_
  refine Only.bind ((EntityType.only _).to (by decide)) fun _ => ?_
  iterate 2 refine Only.bind (only_uint8.to (by decide)) fun _ => ?_
  refine Only.bind (only_uint16.to (by decide)) fun _ => ?_
  refine Only.bind ((WorldCoordinates.only _).to (by decide)) fun _ => ?_
  refine Only.bind ((Vector3Float.only _).to (by decide)) fun _ => ?_
  iterate 2 refine Only.bind (only_uint16.to (by decide)) fun _ => ?_
  refine Only.bind (only_uint64.to (by decide)) fun _ => ?_
  iterate 2 refine Only.bind (only_float32.to (by decide)) fun _ => ?_
  refine Only.bind (ModulationType.raises _) fun _ => ?_
  iterate 2 refine Only.bind (only_uint16.to (by decide)) fun _ => ?_
  refine Only.bind (only_uint8.to (by decide)) fun _ => ?_
  refine Only.bind (only_uint16.to (by decide)) fun _ => ?_
  refine Only.bind (only_uint8.to (by decide)) fun _ => ?_
  refine Only.bind (TransmitterPdu.parseModulationParameters_raises _ _) fun _ => ?_
  refine Only.bind (TransmitterPdu.parseAntennaPattern_raises _ _) fun _ => ?_
  exact Only.bind ((parseStandardVariableRecord.raises _).times _) fun _ => Only.pure _

theorem PduClass.raises : ∀ c : PduClass, Only c.exceptions c.decode
  | .EntityStateUpdatePdu => Only.bind ((Dis.EntityStateUpdatePdu.only _).to (by decide)) fun _ => Only.pure _
  | .ServiceRequestPdu => Only.bind ((Dis.ServiceRequestPdu.only _).to (by decide)) fun _ => Only.pure _
  | .RepairCompletePdu => Only.bind ((Dis.RepairCompletePdu.only _).to (by decide)) fun _ => Only.pure _
  | .CollisionPdu => Only.bind ((Dis.CollisionPdu.only _).to (by decide)) fun _ => Only.pure _
  | .RepairResponsePdu => Only.bind ((Dis.RepairResponsePdu.only _).to (by decide)) fun _ => Only.pure _
  | .DataQueryPdu => Only.bind ((Dis.DataQueryPdu.only _).to (by decide)) fun _ => Only.pure _
  | .LinearObjectStatePdu => fun _ _ h => by cases h; decide
  | .CreateEntityPdu => Only.bind ((Dis.CreateEntityPdu.only _).to (by decide)) fun _ => Only.pure _
  | .IntercomSignalPdu => Only.bind (Dis.IntercomSignalPdu.raises _) fun _ => Only.pure _
  | .RemoveEntityPdu => Only.bind ((Dis.RemoveEntityPdu.only _).to (by decide)) fun _ => Only.pure _
  | .ResupplyReceivedPdu => Only.bind (Dis.ResupplyReceivedPdu.raises _) fun _ => Only.pure _
  | .CollisionElasticPdu => Only.bind ((Dis.CollisionElasticPdu.only _).to (by decide)) fun _ => Only.pure _
  | .ActionRequestPdu => Only.bind ((Dis.ActionRequestPdu.only _).to (by decide)) fun _ => Only.pure _
  | .AcknowledgePdu => Only.bind ((Dis.AcknowledgePdu.only _).to (by decide)) fun _ => Only.pure _
  | .ActionRequestReliablePdu => Only.bind ((Dis.ActionRequestReliablePdu.only _).to (by decide)) fun _ => Only.pure _
  | .DesignatorPdu => Only.bind ((Dis.DesignatorPdu.only _).to (by decide)) fun _ => Only.pure _
  | .StopFreezePdu => Only.bind ((Dis.StopFreezePdu.only _).to (by decide)) fun _ => Only.pure _
  | .EntityStatePdu => Only.bind ((Dis.EntityStatePdu.only _).to (by decide)) fun _ => Only.pure _
  | .StartResumePdu => Only.bind ((Dis.StartResumePdu.only _).to (by decide)) fun _ => Only.pure _
  | .TransmitterPdu => Only.bind (Dis.TransmitterPdu.raises _) fun _ => Only.pure _
  | .ElectromagneticEmissionsPdu => Only.bind ((Dis.ElectromagneticEmissionsPdu.only _).to (by decide)) fun _ => Only.pure _
  | .ResupplyOfferPdu => Only.bind ((Dis.ResupplyOfferPdu.only _).to (by decide)) fun _ => Only.pure _
  | .SetDataReliablePdu => Only.bind ((Dis.SetDataReliablePdu.only _).to (by decide)) fun _ => Only.pure _
  | .EventReportPdu => Only.bind ((Dis.EventReportPdu.only _).to (by decide)) fun _ => Only.pure _
  | .PointObjectStatePdu => Only.bind ((Dis.PointObjectStatePdu.only _).to (by decide)) fun _ => Only.pure _
  | .DataPdu => Only.bind ((Dis.DataPdu.only _).to (by decide)) fun _ => Only.pure _
  | .FastEntityStatePdu => Only.bind ((Dis.FastEntityStatePdu.only _).to (by decide)) fun _ => Only.pure _
  | .AcknowledgeReliablePdu => Only.bind ((Dis.AcknowledgeReliablePdu.only _).to (by decide)) fun _ => Only.pure _
  | .StartResumeReliablePdu => Only.bind ((Dis.StartResumeReliablePdu.only _).to (by decide)) fun _ => Only.pure _
  | .ArealObjectStatePdu => Only.bind ((Dis.ArealObjectStatePdu.only _).to (by decide)) fun _ => Only.pure _
  | .DataQueryReliablePdu => Only.bind ((Dis.DataQueryReliablePdu.only _).to (by decide)) fun _ => Only.pure _
  | .MinefieldStatePdu => Only.bind ((Dis.MinefieldStatePdu.only _).to (by decide)) fun _ => Only.pure _
  | .DataReliablePdu => Only.bind ((Dis.DataReliablePdu.only _).to (by decide)) fun _ => Only.pure _
  | .CommentPdu => Only.bind ((Dis.CommentPdu.only _).to (by decide)) fun _ => Only.pure _
  | .CommentReliablePdu => Only.bind ((Dis.CommentReliablePdu.only _).to (by decide)) fun _ => Only.pure _
  | .DirectedEnergyFirePdu => Only.bind (Dis.DirectedEnergyFirePdu.raises _) fun _ => Only.pure _
  | .DetonationPdu => Only.bind ((Dis.DetonationPdu.only _).to (by decide)) fun _ => Only.pure _
  | .SetDataPdu => Only.bind ((Dis.SetDataPdu.only _).to (by decide)) fun _ => Only.pure _
  | .RecordQueryReliablePdu => Only.bind (Dis.RecordQueryReliablePdu.raises _) fun _ => Only.pure _
  | .ActionResponsePdu => Only.bind ((Dis.ActionResponsePdu.only _).to (by decide)) fun _ => Only.pure _
  | .EntityDamageStatusPdu => Only.bind (Dis.EntityDamageStatusPdu.raises _) fun _ => Only.pure _
  | .FirePdu => Only.bind ((Dis.FirePdu.only _).to (by decide)) fun _ => Only.pure _
  | .ReceiverPdu => Only.bind ((Dis.ReceiverPdu.only _).to (by decide)) fun _ => Only.pure _
  | .UaPdu => Only.bind (Dis.UaPdu.raises _) fun _ => Only.pure _
  | .IntercomControlPdu => Only.bind (Dis.IntercomControlPdu.raises _) fun _ => Only.pure _
  | .SignalPdu => Only.bind ((Dis.SignalPdu.only _).to (by decide)) fun _ => Only.pure _
  | .RemoveEntityReliablePdu => Only.bind ((Dis.RemoveEntityReliablePdu.only _).to (by decide)) fun _ => Only.pure _
  | .SeesPdu => Only.bind (Dis.SeesPdu.raises _) fun _ => Only.pure _
  | .CreateEntityReliablePdu => Only.bind ((Dis.CreateEntityReliablePdu.only _).to (by decide)) fun _ => Only.pure _
  | .StopFreezeReliablePdu => Only.bind ((Dis.StopFreezeReliablePdu.only _).to (by decide)) fun _ => Only.pure _
  | .EventReportReliablePdu => Only.bind ((Dis.EventReportReliablePdu.only _).to (by decide)) fun _ => Only.pure _
  | .MinefieldResponseNackPdu => Only.bind (Dis.MinefieldResponseNackPdu.raises _) fun _ => Only.pure _
  | .ActionResponseReliablePdu => Only.bind ((Dis.ActionResponseReliablePdu.only _).to (by decide)) fun _ => Only.pure _
  | .IsPartOfPdu => Only.bind ((Dis.IsPartOfPdu.only _).to (by decide)) fun _ => Only.pure _
  | .AggregateStatePdu => Only.bind (Dis.AggregateStatePdu.raises _) fun _ => Only.pure _

theorem PduClass.resend : ∀ c : PduClass, c ∉ [.TransmitterPdu, .EntityDamageStatusPdu, .DirectedEnergyFirePdu] →
    Post c.decode (fun b p => ∀ b', p.serialize.Emits b' → b'.length = b.length)
  | .EntityStateUpdatePdu, _ => Takes.resend Dis.EntityStateUpdatePdu.takes Dis.EntityStateUpdatePdu.sized fun _ => rfl
  | .ServiceRequestPdu, _ => Takes.resend Dis.ServiceRequestPdu.takes Dis.ServiceRequestPdu.sized fun _ => rfl
  | .RepairCompletePdu, _ => Takes.resend Dis.RepairCompletePdu.takes Dis.RepairCompletePdu.sized fun _ => rfl
  | .CollisionPdu, _ => Takes.resend Dis.CollisionPdu.takes Dis.CollisionPdu.sized fun _ => rfl
  | .RepairResponsePdu, _ => Takes.resend Dis.RepairResponsePdu.takes Dis.RepairResponsePdu.sized fun _ => rfl
  | .DataQueryPdu, _ => Takes.resend Dis.DataQueryPdu.takes Dis.DataQueryPdu.sized fun _ => rfl
  | .LinearObjectStatePdu, _ => fun _ _ _ _ h => nomatch h
  | .CreateEntityPdu, _ => Takes.resend Dis.CreateEntityPdu.takes Dis.CreateEntityPdu.sized fun _ => rfl
  | .IntercomSignalPdu, _ => Takes.resend Dis.IntercomSignalPdu.takes Dis.IntercomSignalPdu.sized fun _ => rfl
  | .RemoveEntityPdu, _ => Takes.resend Dis.RemoveEntityPdu.takes Dis.RemoveEntityPdu.sized fun _ => rfl
  | .ResupplyReceivedPdu, _ => Takes.resend Dis.ResupplyReceivedPdu.takes Dis.ResupplyReceivedPdu.sized fun _ => rfl
  | .CollisionElasticPdu, _ => Takes.resend Dis.CollisionElasticPdu.takes Dis.CollisionElasticPdu.sized fun _ => rfl
  | .ActionRequestPdu, _ => Takes.resend Dis.ActionRequestPdu.takes Dis.ActionRequestPdu.sized fun _ => rfl
  | .AcknowledgePdu, _ => Takes.resend Dis.AcknowledgePdu.takes Dis.AcknowledgePdu.sized fun _ => rfl
  | .ActionRequestReliablePdu, _ => Takes.resend Dis.ActionRequestReliablePdu.takes Dis.ActionRequestReliablePdu.sized fun _ => rfl
  | .DesignatorPdu, _ => Takes.resend Dis.DesignatorPdu.takes Dis.DesignatorPdu.sized fun _ => rfl
  | .StopFreezePdu, _ => Takes.resend Dis.StopFreezePdu.takes Dis.StopFreezePdu.sized fun _ => rfl
  | .EntityStatePdu, _ => Takes.resend Dis.EntityStatePdu.takes Dis.EntityStatePdu.sized fun _ => rfl
  | .StartResumePdu, _ => Takes.resend Dis.StartResumePdu.takes Dis.StartResumePdu.sized fun _ => rfl
  | .TransmitterPdu, h => absurd (by decide) h
  | .ElectromagneticEmissionsPdu, _ => Takes.resend Dis.ElectromagneticEmissionsPdu.takes Dis.ElectromagneticEmissionsPdu.sized fun _ => rfl
  | .ResupplyOfferPdu, _ => Takes.resend Dis.ResupplyOfferPdu.takes Dis.ResupplyOfferPdu.sized fun _ => rfl
  | .SetDataReliablePdu, _ => Takes.resend Dis.SetDataReliablePdu.takes Dis.SetDataReliablePdu.sized fun _ => rfl
  | .EventReportPdu, _ => Takes.resend Dis.EventReportPdu.takes Dis.EventReportPdu.sized fun _ => rfl
  | .PointObjectStatePdu, _ => Takes.resend Dis.PointObjectStatePdu.takes Dis.PointObjectStatePdu.sized fun _ => rfl
  | .DataPdu, _ => Takes.resend Dis.DataPdu.takes Dis.DataPdu.sized fun _ => rfl
  | .FastEntityStatePdu, _ => Takes.resend Dis.FastEntityStatePdu.takes Dis.FastEntityStatePdu.sized fun _ => rfl
  | .AcknowledgeReliablePdu, _ => Takes.resend Dis.AcknowledgeReliablePdu.takes Dis.AcknowledgeReliablePdu.sized fun _ => rfl
  | .StartResumeReliablePdu, _ => Takes.resend Dis.StartResumeReliablePdu.takes Dis.StartResumeReliablePdu.sized fun _ => rfl
  | .ArealObjectStatePdu, _ => Takes.resend Dis.ArealObjectStatePdu.takes Dis.ArealObjectStatePdu.sized fun _ => rfl
  | .DataQueryReliablePdu, _ => Takes.resend Dis.DataQueryReliablePdu.takes Dis.DataQueryReliablePdu.sized fun _ => rfl
  | .MinefieldStatePdu, _ => Takes.resend Dis.MinefieldStatePdu.takes Dis.MinefieldStatePdu.sized fun _ => rfl
  | .DataReliablePdu, _ => Takes.resend Dis.DataReliablePdu.takes Dis.DataReliablePdu.sized fun _ => rfl
  | .CommentPdu, _ => Takes.resend Dis.CommentPdu.takes Dis.CommentPdu.sized fun _ => rfl
  | .CommentReliablePdu, _ => Takes.resend Dis.CommentReliablePdu.takes Dis.CommentReliablePdu.sized fun _ => rfl
  | .DirectedEnergyFirePdu, h => absurd (by decide) h
  | .DetonationPdu, _ => Takes.resend Dis.DetonationPdu.takes Dis.DetonationPdu.sized fun _ => rfl
  | .SetDataPdu, _ => Takes.resend Dis.SetDataPdu.takes Dis.SetDataPdu.sized fun _ => rfl
  | .RecordQueryReliablePdu, _ => Takes.resend Dis.RecordQueryReliablePdu.takes Dis.RecordQueryReliablePdu.sized fun _ => rfl
  | .ActionResponsePdu, _ => Takes.resend Dis.ActionResponsePdu.takes Dis.ActionResponsePdu.sized fun _ => rfl
  | .EntityDamageStatusPdu, h => absurd (by decide) h
  | .FirePdu, _ => Takes.resend Dis.FirePdu.takes Dis.FirePdu.sized fun _ => rfl
  | .ReceiverPdu, _ => Takes.resend Dis.ReceiverPdu.takes Dis.ReceiverPdu.sized fun _ => rfl
  | .UaPdu, _ => Takes.resend Dis.UaPdu.takes Dis.UaPdu.sized fun _ => rfl
  | .IntercomControlPdu, _ => Post.bind (Dis.IntercomControlPdu.noPost (Q := fun _ _ => False)) fun _ _ h => h.elim
  | .SignalPdu, _ => Takes.resend Dis.SignalPdu.takes Dis.SignalPdu.sized fun _ => rfl
  | .RemoveEntityReliablePdu, _ => Takes.resend Dis.RemoveEntityReliablePdu.takes Dis.RemoveEntityReliablePdu.sized fun _ => rfl
  | .SeesPdu, _ => Takes.resend Dis.SeesPdu.takes Dis.SeesPdu.sized fun _ => rfl
  | .CreateEntityReliablePdu, _ => Takes.resend Dis.CreateEntityReliablePdu.takes Dis.CreateEntityReliablePdu.sized fun _ => rfl
  | .StopFreezeReliablePdu, _ => Takes.resend Dis.StopFreezeReliablePdu.takes Dis.StopFreezeReliablePdu.sized fun _ => rfl
  | .EventReportReliablePdu, _ => Takes.resend Dis.EventReportReliablePdu.takes Dis.EventReportReliablePdu.sized fun _ => rfl
  | .MinefieldResponseNackPdu, _ => Takes.resend Dis.MinefieldResponseNackPdu.takes Dis.MinefieldResponseNackPdu.sized fun _ => rfl
  | .ActionResponseReliablePdu, _ => Takes.resend Dis.ActionResponseReliablePdu.takes Dis.ActionResponseReliablePdu.sized fun _ => rfl
  | .IsPartOfPdu, _ => Takes.resend Dis.IsPartOfPdu.takes Dis.IsPartOfPdu.sized fun _ => rfl
  | .AggregateStatePdu, _ => Takes.resend Dis.AggregateStatePdu.takes Dis.AggregateStatePdu.sized fun _ => rfl

theorem PduClass.header : ∀ c : PduClass, Post c.decode (fun b _ => 12 ≤ b.length)
  | .EntityStateUpdatePdu => Post.last Dis.EntityStateUpdatePdu.takes fun _ _ h => by simp only [h, Dis.EntityStateUpdatePdu.wireSize]; omega
  | .ServiceRequestPdu => Post.last Dis.ServiceRequestPdu.takes fun _ _ h => by simp only [h, Dis.ServiceRequestPdu.wireSize]; omega
  | .RepairCompletePdu => Post.last Dis.RepairCompletePdu.takes fun _ _ h => by simp only [h, Dis.RepairCompletePdu.wireSize]; omega
  | .CollisionPdu => Post.last Dis.CollisionPdu.takes fun _ _ h => by simp only [h, Dis.CollisionPdu.wireSize]; omega
  | .RepairResponsePdu => Post.last Dis.RepairResponsePdu.takes fun _ _ h => by simp only [h, Dis.RepairResponsePdu.wireSize]; omega
  | .DataQueryPdu => Post.last Dis.DataQueryPdu.takes fun _ _ h => by simp only [h, Dis.DataQueryPdu.wireSize]; omega
  | .LinearObjectStatePdu => fun _ _ _ _ h => nomatch h
  | .CreateEntityPdu => Post.last Dis.CreateEntityPdu.takes fun _ _ h => by simp only [h, Dis.CreateEntityPdu.wireSize]; omega
  | .IntercomSignalPdu => Post.last Dis.IntercomSignalPdu.takes fun _ _ h => by simp only [h, Dis.IntercomSignalPdu.wireSize]; omega
  | .RemoveEntityPdu => Post.last Dis.RemoveEntityPdu.takes fun _ _ h => by simp only [h, Dis.RemoveEntityPdu.wireSize]; omega
  | .ResupplyReceivedPdu => Post.last Dis.ResupplyReceivedPdu.takes fun _ _ h => by simp only [h, Dis.ResupplyReceivedPdu.wireSize]; omega
  | .CollisionElasticPdu => Post.last Dis.CollisionElasticPdu.takes fun _ _ h => by simp only [h, Dis.CollisionElasticPdu.wireSize]; omega
  | .ActionRequestPdu => Post.last Dis.ActionRequestPdu.takes fun _ _ h => by simp only [h, Dis.ActionRequestPdu.wireSize]; omega
  | .AcknowledgePdu => Post.last Dis.AcknowledgePdu.takes fun _ _ h => by simp only [h, Dis.AcknowledgePdu.wireSize]; omega
  | .ActionRequestReliablePdu => Post.last Dis.ActionRequestReliablePdu.takes fun _ _ h => by simp only [h, Dis.ActionRequestReliablePdu.wireSize]; omega
  | .DesignatorPdu => Post.last Dis.DesignatorPdu.takes fun _ _ h => by simp only [h, Dis.DesignatorPdu.wireSize]; omega
  | .StopFreezePdu => Post.last Dis.StopFreezePdu.takes fun _ _ h => by simp only [h, Dis.StopFreezePdu.wireSize]; omega
  | .EntityStatePdu => Post.last Dis.EntityStatePdu.takes fun _ _ h => by simp only [h, Dis.EntityStatePdu.wireSize]; omega
  | .StartResumePdu => Post.last Dis.StartResumePdu.takes fun _ _ h => by simp only [h, Dis.StartResumePdu.wireSize]; omega
  | .TransmitterPdu => Post.last Dis.TransmitterPdu.takes fun _ _ h => by simp only [h, Dis.TransmitterPdu.receivedSize]; omega
  | .ElectromagneticEmissionsPdu => Post.last Dis.ElectromagneticEmissionsPdu.takes fun _ _ h => by simp only [h, Dis.ElectromagneticEmissionsPdu.wireSize]; omega
  | .ResupplyOfferPdu => Post.last Dis.ResupplyOfferPdu.takes fun _ _ h => by simp only [h, Dis.ResupplyOfferPdu.wireSize]; omega
  | .SetDataReliablePdu => Post.last Dis.SetDataReliablePdu.takes fun _ _ h => by simp only [h, Dis.SetDataReliablePdu.wireSize]; omega
  | .EventReportPdu => Post.last Dis.EventReportPdu.takes fun _ _ h => by simp only [h, Dis.EventReportPdu.wireSize]; omega
  | .PointObjectStatePdu => Post.last Dis.PointObjectStatePdu.takes fun _ _ h => by simp only [h, Dis.PointObjectStatePdu.wireSize]; omega
  | .DataPdu => Post.last Dis.DataPdu.takes fun _ _ h => by simp only [h, Dis.DataPdu.wireSize]; omega
  | .FastEntityStatePdu => Post.last Dis.FastEntityStatePdu.takes fun _ _ h => by simp only [h, Dis.FastEntityStatePdu.wireSize]; omega
  | .AcknowledgeReliablePdu => Post.last Dis.AcknowledgeReliablePdu.takes fun _ _ h => by simp only [h, Dis.AcknowledgeReliablePdu.wireSize]; omega
  | .StartResumeReliablePdu => Post.last Dis.StartResumeReliablePdu.takes fun _ _ h => by simp only [h, Dis.StartResumeReliablePdu.wireSize]; omega
  | .ArealObjectStatePdu => Post.last Dis.ArealObjectStatePdu.takes fun _ _ h => by simp only [h, Dis.ArealObjectStatePdu.wireSize]; omega
  | .DataQueryReliablePdu => Post.last Dis.DataQueryReliablePdu.takes fun _ _ h => by simp only [h, Dis.DataQueryReliablePdu.wireSize]; omega
  | .MinefieldStatePdu => Post.last Dis.MinefieldStatePdu.takes fun _ _ h => by simp only [h, Dis.MinefieldStatePdu.wireSize]; omega
  | .DataReliablePdu => Post.last Dis.DataReliablePdu.takes fun _ _ h => by simp only [h, Dis.DataReliablePdu.wireSize]; omega
  | .CommentPdu => Post.last Dis.CommentPdu.takes fun _ _ h => by simp only [h, Dis.CommentPdu.wireSize]; omega
  | .CommentReliablePdu => Post.last Dis.CommentReliablePdu.takes fun _ _ h => by simp only [h, Dis.CommentReliablePdu.wireSize]; omega
  | .DirectedEnergyFirePdu => Post.last Dis.DirectedEnergyFirePdu.takes fun _ _ h => by simp only [h, Dis.DirectedEnergyFirePdu.receivedSize]; omega
  | .DetonationPdu => Post.last Dis.DetonationPdu.takes fun _ _ h => by simp only [h, Dis.DetonationPdu.wireSize]; omega
  | .SetDataPdu => Post.last Dis.SetDataPdu.takes fun _ _ h => by simp only [h, Dis.SetDataPdu.wireSize]; omega
  | .RecordQueryReliablePdu => Post.last Dis.RecordQueryReliablePdu.takes fun _ _ h => by simp only [h, Dis.RecordQueryReliablePdu.wireSize]; omega
  | .ActionResponsePdu => Post.last Dis.ActionResponsePdu.takes fun _ _ h => by simp only [h, Dis.ActionResponsePdu.wireSize]; omega
  | .EntityDamageStatusPdu => Post.last Dis.EntityDamageStatusPdu.takes fun _ _ h => by simp only [h, Dis.EntityDamageStatusPdu.receivedSize]; omega
  | .FirePdu => Post.last Dis.FirePdu.takes fun _ _ h => by simp only [h, Dis.FirePdu.wireSize]; omega
  | .ReceiverPdu => Post.last Dis.ReceiverPdu.takes fun _ _ h => by simp only [h, Dis.ReceiverPdu.wireSize]; omega
  | .UaPdu => Post.last Dis.UaPdu.takes fun _ _ h => by simp only [h, Dis.UaPdu.wireSize]; omega
  | .IntercomControlPdu => Post.bind (Dis.IntercomControlPdu.noPost (Q := fun _ _ => False)) fun _ _ h => h.elim
  | .SignalPdu => Post.last Dis.SignalPdu.takes fun _ _ h => by simp only [h, Dis.SignalPdu.wireSize]; omega
  | .RemoveEntityReliablePdu => Post.last Dis.RemoveEntityReliablePdu.takes fun _ _ h => by simp only [h, Dis.RemoveEntityReliablePdu.wireSize]; omega
  | .SeesPdu => Post.last Dis.SeesPdu.takes fun _ _ h => by simp only [h, Dis.SeesPdu.wireSize]; omega
  | .CreateEntityReliablePdu => Post.last Dis.CreateEntityReliablePdu.takes fun _ _ h => by simp only [h, Dis.CreateEntityReliablePdu.wireSize]; omega
  | .StopFreezeReliablePdu => Post.last Dis.StopFreezeReliablePdu.takes fun _ _ h => by simp only [h, Dis.StopFreezeReliablePdu.wireSize]; omega
  | .EventReportReliablePdu => Post.last Dis.EventReportReliablePdu.takes fun _ _ h => by simp only [h, Dis.EventReportReliablePdu.wireSize]; omega
  | .MinefieldResponseNackPdu => Post.last Dis.MinefieldResponseNackPdu.takes fun _ _ h => by simp only [h, Dis.MinefieldResponseNackPdu.wireSize]; omega
  | .ActionResponseReliablePdu => Post.last Dis.ActionResponseReliablePdu.takes fun _ _ h => by simp only [h, Dis.ActionResponseReliablePdu.wireSize]; omega
  | .IsPartOfPdu => Post.last Dis.IsPartOfPdu.takes fun _ _ h => by simp only [h, Dis.IsPartOfPdu.wireSize]; omega
  | .AggregateStatePdu => Post.last Dis.AggregateStatePdu.takes fun _ _ h => by simp only [h, Dis.AggregateStatePdu.wireSize]; omega

end Dis
