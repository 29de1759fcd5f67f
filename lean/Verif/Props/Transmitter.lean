import Verif.Proof.RecordsInPdus

/-!
# C26: the Transmitter PDU, and C27 for the PDUs that carry records

`TransmitterPdu.Decodable` says that the modulation parameters match the radio system, the antenna
pattern is absent or an announced beam, and there are no variable transmitter parameters. C26 is
violated for frequencies of 2^63 and above; the theorems ending in `_partial` are its true part.
-/

namespace Dis

/-! ## C26 -/

/-- **C26.** The PDU is read back: every field of `o`, singles rounded, bit fields reduced to their
widths, and the frequency as a signed number. -/
theorem C26_round_trip_partial (o : TransmitterPdu) (hd : o.Decodable) (b : Bytes)
    (hb : o.serialize.Emits b) :
    Reads (TransmitterPdu.parse TransmitterPdu.init) b (TransmitterPdu.after TransmitterPdu.init o) :=
  TransmitterPdu.rt _ _ hd b hb

/-- **C26.** A PDU with a frequency below 2^63, single-precision values in its singles and bit-field
values within their widths comes back equal in every attribute. -/
theorem C26_exact_partial (o : TransmitterPdu) (hd : o.Decodable) (hc : o.Canon) (b : Bytes)
    (hb : o.serialize.Emits b) : (TransmitterPdu.parse TransmitterPdu.init).Returns b o := by
  have := (C26_round_trip_partial o hd b hb).returns
  rwa [TransmitterPdu.after_canon hc] at this

/-- **C26.** Cut short anywhere, the PDU is rejected, unless its modulation parameters are of an
unknown kind. -/
theorem C26_truncated (o : TransmitterPdu) (hd : o.Decodable)
    (hu : ∀ r, o.modulationParameters ≠ some (.unknown r)) (b : Bytes) (hb : o.serialize.Emits b)
    (t u : Bytes) (htu : b = t ++ u) (hne : u ≠ []) :
    (TransmitterPdu.parse TransmitterPdu.init).Raises t :=
  let ⟨e, s, h⟩ := (TransmitterPdu.tr TransmitterPdu.init o hd hu b hb).2 t u htu hne []
  ⟨e, by rw [List.nil_append, List.length_nil] at h; rw [h]⟩

/-- **C26 (violated).** A frequency of 2^63 or more comes back as a negative number, and the PDU read
back cannot be serialized. -/
theorem C26_high_frequency (o : TransmitterPdu) (hd : o.Decodable)
    (hf : 9223372036854775808 ≤ o.frequency) (b : Bytes) (hb : o.serialize.Emits b) :
    ∃ o', (TransmitterPdu.parse TransmitterPdu.init).Returns b o' ∧
      o'.frequency = o.frequency - 18446744073709551616 ∧ o'.frequency < 0 ∧ o' ≠ o ∧
      ¬ o'.serialize.Ok := by
  have hfreq : (TransmitterPdu.after TransmitterPdu.init o).frequency
      = o.frequency - 18446744073709551616 := by
    show signed64 o.frequency = _
    unfold signed64
    rw [if_neg (by omega)]
  have hok := (TransmitterPdu.ok_iff o).1 hb.ok
  have hU : U64 o.frequency := hok.2.2.2.2.2.2.2.2.2.2.2.1
  have hneg : (TransmitterPdu.after TransmitterPdu.init o).frequency < 0 := by
    rw [hfreq]; have := hU.2; omega
  refine ⟨_, (C26_round_trip_partial o hd b hb).returns, hfreq, hneg, ?_, ?_⟩
  · intro h
    rw [h] at hneg
    omega
  · intro h
    have h2 := (TransmitterPdu.ok_iff _).1 h
    have hU2 : U64 (TransmitterPdu.after TransmitterPdu.init o).frequency :=
      h2.2.2.2.2.2.2.2.2.2.2.2.1
    have := hU2.1
    omega

/-- **C26 (violated).** An antenna pattern of another type loses its last six bytes; one of fewer than
six bytes swallows whatever follows the PDU. -/
theorem C26_unknown_antenna (o : TransmitterPdu) (hm : o.ModulationDecodable) (data : Bytes)
    (ha : o.antennaPattern = some (.unknown ⟨data⟩)) (ht : o.antennaPatternType ≠ 1) (hd : data ≠ [])
    (hv : o.variableTransmitterParameters = []) (b : Bytes) (hb : o.serialize.Emits b)
    (pre post : Bytes) (o' : TransmitterPdu) (s : InStream)
    (h : TransmitterPdu.parse TransmitterPdu.init ⟨pre ++ b ++ post, pre.length⟩ = (.ok o', s)) :
    ∃ x, o'.antennaPattern = some (.unknown ⟨x⟩) ∧
      (6 ≤ data.length → x = data.take (data.length - 6)) ∧ (data.length < 6 → data <+: x) := by
  refine TransmitterPdu.makes (P := fun o' => ∃ x, o'.antennaPattern = some (.unknown ⟨x⟩) ∧
      (6 ≤ data.length → x = data.take (data.length - 6)) ∧ (data.length < 6 → data <+: x))
    TransmitterPdu.init o hm ?_ b hb pre post o' s h
  unfold TransmitterPdu.antennaPatternLength
  rw [ha, hv]
  refine Makes.first (makes_unknown_antenna ht hd) ?_
  rintro a hx st c s hk
  obtain ⟨l, s1, h1, h2⟩ := R.bind_inv hk
  cases h2
  exact hx

/-- **C26 (violated).** Modulation parameters without contents are gone after reading. -/
theorem C26_empty_modulation (o : TransmitterPdu) (ha : o.AntennaDecodable)
    (hv : o.variableTransmitterParameters = [])
    (hm : o.modulationParameters = some .generic ∨ o.modulationParameters = some .simpleIntercom ∨
      o.modulationParameters = some (.unknown ⟨[]⟩)) (b : Bytes) (hb : o.serialize.Emits b) :
    ∃ o', (TransmitterPdu.parse TransmitterPdu.init).Returns b o' ∧ o'.modulationParameters = none := by
  have e : o.serialize = ({ o with modulationParameters := none } : TransmitterPdu).serialize := by
    cases o with
    | mk base rid rn ret ts is al ral apt fr tfb pw mt cs ck p2 p3 mp ap vtp =>
      rcases hm with rfl | rfl | rfl <;> rfl
  rw [e] at hb
  exact ⟨_, (C26_round_trip_partial { o with modulationParameters := none } ⟨trivial, ha, hv⟩ b
    hb).returns, rfl⟩

/-- **C26 (violated).** Variable transmitter parameters do not come back (nor do they as the rounded
records), unless the padding of the first one is its own length. -/
theorem C26_records (o : TransmitterPdu) (hm : o.ModulationDecodable) (ha : o.AntennaDecodable)
    (r : SVRecord) (rs : List SVRecord) (hv : o.variableTransmitterParameters = r :: rs)
    (hr : r.firstPadding ≠ some r.announced) (b : Bytes) (hb : o.serialize.Emits b)
    (o' : TransmitterPdu) (h : (TransmitterPdu.parse TransmitterPdu.init).Returns b o') :
    o'.variableTransmitterParameters ≠ o.variableTransmitterParameters ∧
    o'.variableTransmitterParameters ≠ o.variableTransmitterParameters.map SVRecord.after := by
  refine Makes.returns (TransmitterPdu.makes (P := fun o' =>
      o'.variableTransmitterParameters ≠ o.variableTransmitterParameters ∧
      o'.variableTransmitterParameters ≠ o.variableTransmitterParameters.map SVRecord.after)
    TransmitterPdu.init o hm ?_) hb h
  rw [hv]
  exact Makes.bind (tr_antenna o ha).rt <| Makes.last (makes_records hr) fun l hl => hl

/-! ## C27 in the other PDUs with records -/

/-- **C27 (violated).** Damage descriptions do not come back. -/
theorem C27_damage_status (o : EntityDamageStatusPdu) (r : SVRecord) (rs : List SVRecord)
    (hv : o.damageDescriptions = r :: rs) (hr : r.firstPadding ≠ some r.announced) (b : Bytes)
    (hb : o.serialize.Emits b) (o' : EntityDamageStatusPdu)
    (h : (EntityDamageStatusPdu.parse EntityDamageStatusPdu.init).Returns b o') :
    o'.damageDescriptions ≠ o.damageDescriptions ∧
    o'.damageDescriptions ≠ o.damageDescriptions.map SVRecord.after := by
  obtain ⟨l, hl, e⟩ := Makes.returns (EntityDamageStatusPdu.makes
    (P := fun l => l ≠ o.damageDescriptions ∧ l ≠ o.damageDescriptions.map SVRecord.after)
    EntityDamageStatusPdu.init o (by rw [hv]; exact makes_records hr)) hb h
  rw [e]; exact hl

/-- **C27 (violated).** Directed energy records do not come back. -/
theorem C27_directed_energy_fire (o : DirectedEnergyFirePdu) (r : SVRecord) (rs : List SVRecord)
    (hv : o.dERecords = r :: rs) (hr : r.firstPadding ≠ some r.announced) (b : Bytes)
    (hb : o.serialize.Emits b) (o' : DirectedEnergyFirePdu)
    (h : (DirectedEnergyFirePdu.parse DirectedEnergyFirePdu.init).Returns b o') :
    o'.dERecords ≠ o.dERecords ∧ o'.dERecords ≠ o.dERecords.map SVRecord.after := by
  obtain ⟨l, hl, e⟩ := Makes.returns (DirectedEnergyFirePdu.makes
    (P := fun l => l ≠ o.dERecords ∧ l ≠ o.dERecords.map SVRecord.after)
    DirectedEnergyFirePdu.init o (by rw [hv]; exact makes_records hr)) hb h
  rw [e]; exact hl

/-! ## Concrete cases -/

/-- A SINCGARS radio on a directional antenna. -/
def exampleTransmitter : TransmitterPdu :=
  TransmitterPdu.init (radioNumber := 7) (transmitState := 2) (antennaPatternType := 1)
    (frequency := 30000000) (power := F64.mk 0 1028 0)
    (modulationType := some (ModulationType.init none 2 0 6))
    (modulationParameters := some (.sincgars CCTTSincgarsMP.init))
    (antennaPattern := some (.beam (BeamAntennaPattern.init (azimuthBeamwidth := F64.mk 0 1022 0))))

example : exampleTransmitter.Decodable := ⟨rfl, rfl, rfl⟩

example : exampleTransmitter.serialize.Emits exampleTransmitter.serialize.out :=
  ⟨rfl, (), by decide +kernel⟩

example : (TransmitterPdu.parse TransmitterPdu.init).Returns exampleTransmitter.serialize.out
    exampleTransmitter := by
  unfold R.Returns; decide +kernel

example : (TransmitterPdu.parse TransmitterPdu.init).Raises
    (exampleTransmitter.serialize.out.take 159) := by
  unfold R.Raises; exact ⟨.structError, by decide +kernel⟩

-- a frequency of 2^63
example : ({ exampleTransmitter with frequency := 9223372036854775808 } :
    TransmitterPdu).serialize.Emits ({ exampleTransmitter with frequency := 9223372036854775808 } :
    TransmitterPdu).serialize.out := ⟨rfl, (), by decide +kernel⟩

-- eight bytes of an unknown antenna pattern come back as two
example : ((TransmitterPdu.parse TransmitterPdu.init ⟨({ exampleTransmitter with
      antennaPatternType := 2, antennaPattern := some (.unknown ⟨[1, 2, 3, 4, 5, 6, 7, 8]⟩) } :
      TransmitterPdu).serialize.out, 0⟩).1.toOption.map (·.antennaPattern))
    = some (some (.unknown ⟨[1, 2]⟩)) := by decide +kernel

-- a truncated PDU with unknown modulation parameters is accepted
example : ((TransmitterPdu.parse TransmitterPdu.init ⟨(TransmitterPdu.init
      (modulationType := some (ModulationType.init none 2 0 9))
      (modulationParameters := some (.unknown ⟨[1, 2, 3, 4]⟩))).serialize.out.take 106,
      0⟩).1.toOption.map (·.modulationParameters))
    = some (some (.unknown ⟨[1, 2]⟩)) := by decide +kernel

-- a radio record
example : (SVRecord.highFidelityHAVEQUICKRadio exampleRadio).firstPadding ≠
    some (SVRecord.highFidelityHAVEQUICKRadio exampleRadio).announced := by decide

example : ({ exampleTransmitter with variableTransmitterParameters :=
    [.highFidelityHAVEQUICKRadio exampleRadio] } : TransmitterPdu).serialize.Ok :=
  ⟨(), by decide +kernel⟩

example : (EntityDamageStatusPdu.init none [.directedEnergyDamage DirectedEnergyDamage.init]).serialize.Ok :=
  ⟨(), by decide +kernel⟩

end Dis
