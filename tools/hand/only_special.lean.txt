theorem Bitfield.raises {E ws} (h : PyErr.valueError ∈ E) : Only E (Bitfield.parse ws) := by
  unfold Bitfield.parse
  refine Only.bind Only.read_bytes fun b => Only.ofExcept fun e he => ?_
  unfold Bitfield.fromBufferCopy at he
  split at he
  · cases he; exact h
  · cases he

theorem VariableRecord.raises {E bl} (h : PyErr.valueError ∈ E) : Only E (VariableRecord.parse bl) := by
  unfold VariableRecord.parse
  split
  · exact Only.pure _
  · split
    · exact Only.pure _
    · exact Only.throw h

theorem StandardVariableRecord.raises {E bl} (h : PyErr.valueError ∈ E) :
    Only E (StandardVariableRecord.parse bl) := by
  unfold StandardVariableRecord.parse
  refine Only.bind (VariableRecord.raises h) fun _ => ?_
  split
  · exact Only.pure _
  · exact Only.throw h

/-- The exceptions of records. -/
abbrev RecordErrors : List PyErr := [.structError, .typeError, .valueError]

theorem NetId.raises (s) : Only RecordErrors (NetId.parse s) := by
  unfold NetId.parse
  exact Only.bind (Bitfield.raises (by decide)) fun _ => Only.pure _

theorem DEFireFlags.raises (s) : Only RecordErrors (DEFireFlags.parse s) := by
  unfold DEFireFlags.parse
  exact Only.bind (Bitfield.raises (by decide)) fun _ => Only.pure _

theorem SpreadSpectrum.raises (s) : Only RecordErrors (SpreadSpectrum.parse s) := by
  unfold SpreadSpectrum.parse
  exact Only.bind (Bitfield.raises (by decide)) fun _ => Only.pure _

theorem ModulationType.raises (s) : Only RecordErrors (ModulationType.parse s) := by
  unfold ModulationType.parse
  exact Only.bind (SpreadSpectrum.raises _) fun _ => Only.bind (only_uint16.to (by decide)) fun _ =>
    Only.bind (only_uint16.to (by decide)) fun _ => Only.bind (only_uint16.to (by decide)) fun _ => Only.pure _

theorem BeamAntennaPattern.raises (s bl) : Only RecordErrors (BeamAntennaPattern.parse s bl) := by
  unfold BeamAntennaPattern.parse
  refine Only.bind (VariableRecord.raises (by decide)) fun _ => ?_
  refine Only.bind ((EulerAngles.only _).to (by decide)) fun _ => ?_
  refine Only.bind (only_float32.to (by decide)) fun _ => ?_
  refine Only.bind (only_float32.to (by decide)) fun _ => ?_
  refine Only.bind (only_uint8.to (by decide)) fun _ => ?_
  refine Only.bind (only_uint8.to (by decide)) fun _ => ?_
  refine Only.bind (only_uint16.to (by decide)) fun _ => ?_
  refine Only.bind (only_float32.to (by decide)) fun _ => ?_
  refine Only.bind (only_float32.to (by decide)) fun _ => ?_
  refine Only.bind (only_float32.to (by decide)) fun _ => ?_
  refine Only.bind (only_uint32.to (by decide)) fun _ => ?_
  exact Only.pure _

theorem BasicHaveQuickMP.raises (s bl) : Only RecordErrors (BasicHaveQuickMP.parse s bl) := by
  unfold BasicHaveQuickMP.parse
  refine Only.bind (VariableRecord.raises (by decide)) fun _ => ?_
  refine Only.bind (NetId.raises _) fun _ => ?_
  refine Only.bind (only_uint16.to (by decide)) fun _ => ?_
  refine Only.bind (only_uint16.to (by decide)) fun _ => ?_
  refine Only.bind (only_uint8.to (by decide)) fun _ => ?_
  refine Only.bind (only_uint8.to (by decide)) fun _ => ?_
  refine Only.bind (only_uint32.to (by decide)) fun _ => ?_
  refine Only.bind (only_uint32.to (by decide)) fun _ => ?_
  exact Only.pure _

theorem CCTTSincgarsMP.raises (s bl) : Only RecordErrors (CCTTSincgarsMP.parse s bl) := by
  unfold CCTTSincgarsMP.parse
  refine Only.bind (VariableRecord.raises (by decide)) fun _ => ?_
  refine Only.bind (only_uint16.to (by decide)) fun _ => ?_
  refine Only.bind (only_uint16.to (by decide)) fun _ => ?_
  refine Only.bind (only_uint16.to (by decide)) fun _ => ?_
  refine Only.bind (only_uint8.to (by decide)) fun _ => ?_
  refine Only.bind (only_uint8.to (by decide)) fun _ => ?_
  refine Only.bind (only_uint32.to (by decide)) fun _ => ?_
  refine Only.bind (only_uint16.to (by decide)) fun _ => ?_
  refine Only.bind (only_uint16.to (by decide)) fun _ => ?_
  exact Only.pure _

theorem HighFidelityHAVEQUICKRadio.raises (s bl) :
    Only RecordErrors (HighFidelityHAVEQUICKRadio.parse s bl) := by
  unfold HighFidelityHAVEQUICKRadio.parse
  refine Only.bind (StandardVariableRecord.raises (by decide)) fun _ => ?_
  refine Only.bind (only_uint16.to (by decide)) fun _ => ?_
  refine Only.bind (NetId.raises _) fun _ => ?_
  refine Only.bind (only_uint8.to (by decide)) fun _ => ?_
  refine Only.bind (only_uint8.to (by decide)) fun _ => ?_
  iterate 7 refine Only.bind (only_uint32.to (by decide)) fun _ => ?_
  exact Only.pure _

theorem DirectedEnergyDamage.raises (s bl) : Only RecordErrors (DirectedEnergyDamage.parse s bl) := by
  unfold DirectedEnergyDamage.parse
  refine Only.bind (StandardVariableRecord.raises (by decide)) fun _ => ?_
  refine Only.bind (only_unsigned_short.to (by decide)) fun _ => ?_
  refine Only.bind ((Vector3Float.only _).to (by decide)) fun _ => ?_
  iterate 2 refine Only.bind (only_float32.to (by decide)) fun _ => ?_
  iterate 4 refine Only.bind (only_uint8.to (by decide)) fun _ => ?_
  refine Only.bind ((EventIdentifier.only _).to (by decide)) fun _ => ?_
  refine Only.bind (only_uint16.to (by decide)) fun _ => ?_
  exact Only.pure _

theorem DirectedEnergyTargetEnergyDeposition.raises (s) :
    Only RecordErrors (DirectedEnergyTargetEnergyDeposition.parse s) := by
  unfold DirectedEnergyTargetEnergyDeposition.parse
  refine Only.bind ((EntityIdentifier.only _).to (by decide)) fun _ => ?_
  refine Only.bind (only_uint16.to (by decide)) fun _ => ?_
  refine Only.bind (only_float32.to (by decide)) fun _ => ?_
  exact Only.pure _

theorem DirectedEnergyAreaAimpoint.raises (s bl) :
    Only RecordErrors (DirectedEnergyAreaAimpoint.parse s bl) := by
  unfold DirectedEnergyAreaAimpoint.parse
  refine Only.bind (StandardVariableRecord.raises (by decide)) fun _ => ?_
  iterate 3 refine Only.bind (only_uint16.to (by decide)) fun _ => ?_
  refine Only.bind ((BeamAntennaPattern.raises _ _).times _) fun _ => ?_
  refine Only.bind ((DirectedEnergyTargetEnergyDeposition.raises _).times _) fun _ => ?_
  exact Only.pure _

theorem DirectedEnergyPrecisionAimpoint.raises (s bl) :
    Only RecordErrors (DirectedEnergyPrecisionAimpoint.parse s bl) := by
  unfold DirectedEnergyPrecisionAimpoint.parse
  refine Only.bind (StandardVariableRecord.raises (by decide)) fun _ => ?_
  refine Only.bind (only_uint16.to (by decide)) fun _ => ?_
  refine Only.bind ((WorldCoordinates.only _).to (by decide)) fun _ => ?_
  iterate 3 refine Only.bind ((Vector3Float.only _).to (by decide)) fun _ => ?_
  refine Only.bind ((EntityIdentifier.only _).to (by decide)) fun _ => ?_
  iterate 2 refine Only.bind (only_uint8.to (by decide)) fun _ => ?_
  iterate 4 refine Only.bind (only_float32.to (by decide)) fun _ => ?_
  refine Only.bind (only_uint32.to (by decide)) fun _ => ?_
  exact Only.pure _

theorem UnknownStandardVariableRecord.raises (s bl) :
    Only RecordErrors (UnknownStandardVariableRecord.parse s bl) := by
  unfold UnknownStandardVariableRecord.parse
  refine Only.bind (StandardVariableRecord.raises (by decide)) fun _ => ?_
  exact Only.bind Only.read_bytes fun _ => Only.pure _

theorem SVClass.raises (c : SVClass) (bl : Int) : Only RecordErrors (SVClass.parse c bl) := by
  cases c with
  | highFidelityHAVEQUICKRadio => exact Only.bind (HighFidelityHAVEQUICKRadio.raises _ _) fun _ => Only.pure _
  | directedEnergyPrecisionAimpoint =>
    exact Only.bind (DirectedEnergyPrecisionAimpoint.raises _ _) fun _ => Only.pure _
  | directedEnergyAreaAimpoint => exact Only.bind (DirectedEnergyAreaAimpoint.raises _ _) fun _ => Only.pure _
  | directedEnergyDamage => exact Only.bind (DirectedEnergyDamage.raises _ _) fun _ => Only.pure _
  | unknown t => exact Only.bind (UnknownStandardVariableRecord.raises _ _) fun _ => Only.pure _

theorem getStandardVariableClass_raises {t e x} (h : getStandardVariableClass t e = .error x) :
    x ∈ RecordErrors := by
  unfold getStandardVariableClass at h
  split at h
  · cases h; decide
  · dsimp only at h
    split at h
    · cases h; decide
    · cases h

theorem parseStandardVariableRecord.raises (e) : Only RecordErrors (parseStandardVariableRecord e) := by
  unfold parseStandardVariableRecord
  refine Only.bind (only_uint32.to (by decide)) fun _ => ?_
  refine Only.bind (only_uint16.to (by decide)) fun _ => ?_
  refine Only.bind (Only.ofExcept fun _ h => getStandardVariableClass_raises h) fun _ => SVClass.raises _ _

theorem EntityDamageStatusPdu.raises (s) : Only RecordErrors (EntityDamageStatusPdu.parse s) := by
  unfold EntityDamageStatusPdu.parse
  refine Only.bind ((WarfareFamilyPdu.only _).to (by decide)) fun _ => ?_
  refine Only.bind ((EntityIdentifier.only _).to (by decide)) fun _ => ?_
  iterate 3 refine Only.bind (only_uint16.to (by decide)) fun _ => ?_
  exact Only.bind ((parseStandardVariableRecord.raises _).times _) fun _ => Only.pure _

theorem DirectedEnergyFirePdu.raises (s) : Only RecordErrors (DirectedEnergyFirePdu.parse s) := by
  unfold DirectedEnergyFirePdu.parse
  refine Only.bind ((WarfareFamilyPdu.only _).to (by decide)) fun _ => ?_
  refine Only.bind ((EntityType.only _).to (by decide)) fun _ => ?_
  refine Only.bind ((ClockTime.only _).to (by decide)) fun _ => ?_
  refine Only.bind (only_float32.to (by decide)) fun _ => ?_
  refine Only.bind ((Vector3Float.only _).to (by decide)) fun _ => ?_
  iterate 2 refine Only.bind (only_float32.to (by decide)) fun _ => ?_
  refine Only.bind (only_uint32.to (by decide)) fun _ => ?_
  iterate 2 refine Only.bind (only_float32.to (by decide)) fun _ => ?_
  refine Only.bind (DEFireFlags.raises _) fun _ => ?_
  iterate 2 refine Only.bind (only_uint8.to (by decide)) fun _ => ?_
  refine Only.bind (only_uint32.to (by decide)) fun _ => ?_
  iterate 2 refine Only.bind (only_uint16.to (by decide)) fun _ => ?_
  exact Only.bind ((parseStandardVariableRecord.raises _).times _) fun _ => Only.pure _

theorem TransmitterPdu.parseModulationParameters_raises (t n) :
    Only RecordErrors (TransmitterPdu.parseModulationParameters t n) := by
  unfold TransmitterPdu.parseModulationParameters
  split
  · split
    · split <;> exact Only.pure _
    · split
      · exact Only.bind (BasicHaveQuickMP.raises _ _) fun _ => Only.pure _
      · split
        · exact Only.bind (CCTTSincgarsMP.raises _ _) fun _ => Only.pure _
        · refine Only.bind ?_ fun _ => Only.pure _
          exact Only.bind (VariableRecord.raises (by decide)) fun _ =>
            Only.bind Only.read_bytes fun _ => Only.pure _
  · exact Only.pure _

theorem TransmitterPdu.parseAntennaPattern_raises (t n) :
    Only RecordErrors (TransmitterPdu.parseAntennaPattern t n) := by
  unfold TransmitterPdu.parseAntennaPattern
  split
  · split
    · exact Only.bind (BeamAntennaPattern.raises _ _) fun _ => Only.pure _
    · refine Only.bind ?_ fun _ => Only.pure _
      exact Only.bind (VariableRecord.raises (by decide)) fun _ =>
        Only.bind Only.read_bytes fun _ => Only.pure _
  · exact Only.pure _

theorem TransmitterPdu.raises (s) : Only RecordErrors (TransmitterPdu.parse s) := by
  unfold TransmitterPdu.parse
  refine Only.bind ((RadioCommunicationsFamilyPdu.only _).to (by decide)) fun _ => ?_
  refine Only.bind ((EntityIdentifier.only _).to (by decide)) fun _ => ?_
  refine Only.bind (only_uint16.to (by decide)) fun _ => ?_
  refine Only.bind ((EntityType.only _).to (by decide)) fun _ => ?_
  iterate 2 refine Only.bind (only_uint8.to (by decide)) fun _ => ?_
  refine Only.bind (only_uint16.to (by decide)) fun _ => ?_
  refine Only.bind ((WorldCoordinates.only _).to (by decide)) fun _ => ?_
  refine Only.bind ((Vector3Float.only _).to (by decide)) fun _ => ?_
  iterate 2 refine Only.bind (only_uint16.to (by decide)) fun _ => ?_
  refine Only.bind (only_uint64.to (by decide)) fun _ => ?_
  iterate 2 refine Only.bind (only_float32.to (by decide)) fun _ => ?_
  refine Only.bind (ModulationType.raises _) fun _ => ?_
  iterate 2 refine Only.bind (only_uint16.to (by decide)) fun _ => ?_
  refine Only.bind (only_uint8.to (by decide)) fun _ => ?_
  refine Only.bind (only_uint16.to (by decide)) fun _ => ?_
  refine Only.bind (only_uint8.to (by decide)) fun _ => ?_
  refine Only.bind (TransmitterPdu.parseModulationParameters_raises _ _) fun _ => ?_
  refine Only.bind (TransmitterPdu.parseAntennaPattern_raises _ _) fun _ => ?_
  exact Only.bind ((parseStandardVariableRecord.raises _).times _) fun _ => Only.pure _
