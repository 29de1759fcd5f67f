import Verif.Props.Records

/-! # PDUs with variable records, unknown antenna patterns and empty modulation parameters -/

namespace Dis

/-- Whatever the reader returns on the bytes of the writer satisfies `P`. -/
def Makes {α} (w : W Unit) (r : R α) (P : α → Prop) : Prop :=
  ∀ b, w.Emits b → ∀ pre post a s, r ⟨pre ++ b ++ post, pre.length⟩ = (.ok a, s) → P a

theorem Makes.bind {α β} {w w2 : W Unit} {r : R α} {k : α → R β} {a P} (h1 : RT w r a)
    (h2 : Makes w2 (k a) P) : Makes (w >>= fun _ => w2) (r >>= k) P := by
  intro b hb pre post c s h
  obtain ⟨b1, b2, rfl, e1, e2⟩ := W.emits_bind.1 hb
  have e := h1 _ e1 pre (b2 ++ post)
  simp only [List.append_assoc] at e h
  rw [R.bind_ok e] at h
  refine h2 _ e2 (pre ++ b1) post c s ?_
  simpa [List.append_assoc] using h

theorem Makes.last {α β} {w : W Unit} {r : R α} {f : α → β} {P Q} (h1 : Makes w r P)
    (h2 : ∀ a, P a → Q (f a)) : Makes w (r >>= fun x => Pure.pure (f x)) Q := by
  intro b hb pre post c s h
  obtain ⟨a, s1, hr, hk⟩ := R.bind_inv h
  cases hk
  exact h2 a (h1 b hb pre post a _ hr)

theorem Makes.first {α β} {w w2 : W Unit} {r : R α} {k : α → R β} {P Q} (h1 : Makes w r P)
    (h2 : ∀ a, P a → ∀ st c s, k a st = (.ok c, s) → Q c) : Makes (w >>= fun _ => w2) (r >>= k) Q := by
  intro b hb pre post c s h
  obtain ⟨b1, b2, rfl, e1, e2⟩ := W.emits_bind.1 hb
  obtain ⟨a, s1, hr, hk⟩ := R.bind_inv h
  refine h2 a ?_ s1 c s hk
  refine h1 b1 e1 pre (b2 ++ post) a s1 ?_
  simpa [List.append_assoc] using hr

/-- A list of records that is not empty is not read back. -/
theorem makes_records {r : SVRecord} {rs : List SVRecord} {e : SVBase}
    (hr : r.firstPadding ≠ some r.announced) :
    Makes (W.forEach (r :: rs) SVRecord.serialize)
      (R.times ((r :: rs).length : Int).toNat (parseStandardVariableRecord e))
      (fun l => l ≠ (r :: rs) ∧ l ≠ (r :: rs).map SVRecord.after) := by
  rw [show ((r :: rs).length : Int).toNat = rs.length + 1 by simp]
  refine Makes.first (P := fun a => a ≠ r ∧ a ≠ r.after) ?_ ?_
  · intro b hb pre post a s h
    refine ⟨?_, C27_differs r hr b hb e pre post a s h⟩
    rintro rfl
    cases hp : a.firstPadding with
    | none =>
      cases a <;> simp [SVRecord.firstPadding] at hp
      exact C27_differs _ hr b hb e pre post _ s h rfl
    | some p =>
      exact hr (C27_length_as_padding a (by rw [hp]; rfl) b hb e pre post a s h)
  · intro a ha st c s h
    obtain ⟨l, s1, h1, h2⟩ := R.bind_inv h
    cases h2
    constructor
    · intro h; injection h with h _; exact ha.1 h
    · intro h; injection h with h _; exact ha.2 h

theorem TransmitterPdu.makes {P : TransmitterPdu → Prop} (s o : TransmitterPdu)
    (hm : o.ModulationDecodable)
    (h : Makes (W.whenSome o.antennaPattern AntennaPatternRecord.serialize >>= fun _ =>
        W.forEach o.variableTransmitterParameters SVRecord.serialize)
      (TransmitterPdu.parseAntennaPattern o.antennaPatternType o.antennaPatternLength >>= fun ap =>
        R.times (o.variableTransmitterParameters.length : Int).toNat
          (parseStandardVariableRecord .variableTransmitterParameters) >>= fun vtps =>
        pure ({ TransmitterPdu.after s o with
          antennaPattern := ap
          variableTransmitterParameters := s.variableTransmitterParameters ++ vtps } : TransmitterPdu))
      P) : Makes (TransmitterPdu.serialize o) (TransmitterPdu.parse s) P := by
  unfold TransmitterPdu.serialize TransmitterPdu.parse
  exact Makes.bind (RadioCommunicationsFamilyPdu.rt s.toRadioCommunicationsFamilyPdu
      o.toRadioCommunicationsFamilyPdu) <|
    Makes.bind (EntityIdentifier.rt s.radioReferenceID o.radioReferenceID) <|
    Makes.bind (rt_uint16 o.radioNumber) <|
    Makes.bind (EntityType.rt s.radioEntityType o.radioEntityType) <|
    Makes.bind (rt_uint8 o.transmitState) <|
    Makes.bind (rt_uint8 o.inputSource) <|
    Makes.bind (rt_uint16 o.variableTransmitterParameters.length) <|
    Makes.bind (WorldCoordinates.rt s.antennaLocation o.antennaLocation) <|
    Makes.bind (Vector3Float.rt s.relativeAntennaLocation o.relativeAntennaLocation) <|
    Makes.bind (rt_uint16 o.antennaPatternType) <|
    Makes.bind (rt_uint16 o.antennaPatternLength) <|
    Makes.bind (rt_uint64' o.frequency) <|
    Makes.bind (rt_float32 o.transmitFrequencyBandwidth) <|
    Makes.bind (rt_float32 o.power) <|
    Makes.bind (ModulationType.rt s.modulationType o.modulationType) <|
    Makes.bind (rt_uint16 o.cryptoSystem) <|
    Makes.bind (rt_uint16 o.cryptoKeyId) <|
    Makes.bind (rt_uint8 o.modulationParametersLength) <|
    Makes.bind (rt_uint16 o.padding2) <|
    Makes.bind (rt_uint8 o.padding3) <|
    Makes.bind (rt_modulation o s.modulationType hm) h

theorem makes_unknown_antenna {t : Int} {data : Bytes} (ht : t ≠ 1) (hd : data ≠ []) :
    Makes (AntennaPatternRecord.serialize (.unknown ⟨data⟩))
      (TransmitterPdu.parseAntennaPattern t data.length)
      (fun a => ∃ x, a = some (AntennaPatternRecord.unknown ⟨x⟩) ∧
        (6 ≤ data.length → x = data.take (data.length - 6)) ∧ (data.length < 6 → data <+: x)) := by
  have hl : data.length ≠ 0 := by simpa using hd
  rw [parseAnt_unknown (by omega) ht]
  intro b hb pre post a s h
  have eb : b = data := emits_bytes.1 hb
  subst eb
  obtain ⟨r, s1, h1, h2⟩ := R.bind_inv h
  cases h2
  unfold UnknownAntennaPattern.parse at h1
  obtain ⟨u, s2, h3, h4⟩ := R.bind_inv h1
  cases VariableRecord.parse_silent _ _ _ _ h3
  obtain ⟨x, s3, h5, h6⟩ := R.bind_inv h4
  cases h6
  refine ⟨x, rfl, ?_⟩
  unfold read_bytes R.readRaw at h5
  simp only [Prod.mk.injEq, Except.ok.injEq, List.append_assoc, List.drop_left] at h5
  obtain ⟨h5, -⟩ := h5
  split at h5
  · refine ⟨fun h => by omega, fun _ => ⟨post, h5⟩⟩
  · refine ⟨fun h => ?_, fun h => by omega⟩
    rw [← h5, show ((b.length : Int) - 6).toNat = b.length - 6 by omega,
      List.take_append_of_le_length (by omega)]

theorem EntityDamageStatusPdu.makes {P : List SVRecord → Prop} (s o : EntityDamageStatusPdu)
    (h : Makes (W.forEach o.damageDescriptions SVRecord.serialize)
      (R.times (o.damageDescriptions.length : Int).toNat
        (parseStandardVariableRecord .damageDescription)) P) :
    Makes (EntityDamageStatusPdu.serialize o) (EntityDamageStatusPdu.parse s)
      (fun o' => ∃ l, P l ∧ o'.damageDescriptions = s.damageDescriptions ++ l) := by
  unfold EntityDamageStatusPdu.serialize EntityDamageStatusPdu.parse
  exact Makes.bind (WarfareFamilyPdu.rt s.toWarfareFamilyPdu o.toWarfareFamilyPdu) <|
    Makes.bind (EntityIdentifier.rt s.damagedEntityID o.damagedEntityID) <|
    Makes.bind (rt_uint16 o.padding1) <|
    Makes.bind (rt_uint16 o.padding2) <|
    Makes.bind (rt_uint16 o.damageDescriptions.length) <|
    Makes.last h fun l hl => ⟨l, hl, rfl⟩

theorem DirectedEnergyFirePdu.makes {P : List SVRecord → Prop} (s o : DirectedEnergyFirePdu)
    (h : Makes (W.forEach o.dERecords SVRecord.serialize)
      (R.times (o.dERecords.length : Int).toNat
        (parseStandardVariableRecord .damageDescription)) P) :
    Makes (DirectedEnergyFirePdu.serialize o) (DirectedEnergyFirePdu.parse s)
      (fun o' => ∃ l, P l ∧ o'.dERecords = s.dERecords ++ l) := by
  unfold DirectedEnergyFirePdu.serialize DirectedEnergyFirePdu.parse
  exact Makes.bind (WarfareFamilyPdu.rt s.toWarfareFamilyPdu o.toWarfareFamilyPdu) <|
    Makes.bind (EntityType.rt s.munitionType o.munitionType) <|
    Makes.bind (ClockTime.rt s.shotStartTime o.shotStartTime) <|
    Makes.bind (rt_attr_float32 o.commulativeShotTime) <|
    Makes.bind (Vector3Float.rt s.apertureEmitterLocation o.apertureEmitterLocation) <|
    Makes.bind (rt_float32 o.apertureDiameter) <|
    Makes.bind (rt_float32 o.wavelength) <|
    Makes.bind (rt_uint32 o.padding1) <|
    Makes.bind (rt_float32 o.pulseRepetitionFrequency) <|
    Makes.bind (rt_float32 o.pulseWidth) <|
    Makes.bind (DEFireFlags.rt s.flags o.flags) <|
    Makes.bind (rt_uint8 o.pulseShape) <|
    Makes.bind (rt_uint8 o.padding2) <|
    Makes.bind (rt_uint32 o.padding3) <|
    Makes.bind (rt_uint16 o.padding4) <|
    Makes.bind (rt_uint16 o.dERecords.length) <|
    Makes.last h fun l hl => ⟨l, hl, rfl⟩

theorem Makes.returns {α} {w : W Unit} {r : R α} {P} (h : Makes w r P) {b a} (hb : w.Emits b)
    (hr : r.Returns b a) : P a := by
  unfold R.Returns at hr
  rcases hs : r ⟨b, 0⟩ with ⟨x, s⟩
  rw [hs] at hr
  simp only at hr
  subst hr
  exact h b hb [] [] a s (by simpa using hs)

end Dis
