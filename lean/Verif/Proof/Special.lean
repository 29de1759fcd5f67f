import Verif.Proof.SV

/-! # Proofs for the PDUs that carry variable records -/

namespace Dis

/-! ## Round trip together with rejection of truncated input -/

/-- Whenever the writer succeeds, the reader reads its output back as `a` and raises on every proper
prefix of it. -/
def TR {α} (w : W Unit) (r : R α) (a : α) : Prop :=
  ∀ b, w.Emits b → Reads r b a ∧ ∀ t u, b = t ++ u → u ≠ [] →
    ∀ pre, ∃ e s, r ⟨pre ++ t, pre.length⟩ = (.error e, s)

theorem TR.of_local {α} {w : W Unit} {r : R α} {a} (h : RT w r a) (hl : Local r) : TR w r a := by
  intro b hb
  refine ⟨h b hb, fun t u hbt hu pre => ?_⟩
  rcases hr : r ⟨pre ++ t, pre.length⟩ with ⟨x, s'⟩
  cases x with
  | error e => exact ⟨e, s', rfl⟩
  | ok a' =>
    exfalso
    obtain ⟨b', rest, rfl, -, hr'⟩ := hl pre t a' s' hr
    have hp : b' <+: b := ⟨rest ++ u, by rw [hbt, List.append_assoc]⟩
    have := congrArg List.length (hr'.prefix_free (h b hb) hp)
    rw [hbt] at this
    simp at this
    exact hu this.2

theorem TR.bind {α β} {w : W Unit} {w2 : W Unit} {r : R α} {k : α → R β} {a c}
    (h1 : TR w r a) (h2 : TR w2 (k a) c) : TR (w >>= fun _ => w2) (r >>= k) c := by
  intro b hb
  obtain ⟨b1, b2, rfl, e1, e2⟩ := W.emits_bind.1 hb
  obtain ⟨r1, t1⟩ := h1 _ e1
  obtain ⟨r2, t2⟩ := h2 _ e2
  refine ⟨r1.bind r2, fun t u ht hu pre => ?_⟩
  rcases List.append_eq_append_iff.1 ht with ⟨x, rfl, hx⟩ | ⟨x, rfl, hx⟩
  · obtain ⟨e, s, h⟩ := t2 x u hx hu (pre ++ b1)
    have h' := r1 pre x
    refine ⟨e, s, ?_⟩
    rw [show pre ++ (b1 ++ x) = pre ++ b1 ++ x by simp, R.bind_ok h',
      ← show (pre ++ b1).length = pre.length + b1.length by simp, h]
  · by_cases hx0 : x = []
    · subst hx0
      simp only [List.append_nil, List.nil_append] at ht hx ⊢
      subst hx
      obtain ⟨e, s, h⟩ := t2 [] u (by simp) hu (pre ++ t)
      have h' := r1 pre []
      simp only [List.append_nil] at h h'
      refine ⟨e, s, ?_⟩
      rw [R.bind_ok h', ← show (pre ++ t).length = pre.length + t.length by simp, h]
    · obtain ⟨e, s, h⟩ := t1 t x rfl hx0 pre
      exact ⟨e, s, R.bind_error h⟩

theorem TR.last {α β} {w : W Unit} {r : R α} {f : α → β} {a}
    (h1 : TR w r a) : TR w (r >>= fun x => pure (f x)) (f a) := by
  intro b hb
  obtain ⟨r1, t1⟩ := h1 b hb
  refine ⟨r1.map f, fun t u ht hu pre => ?_⟩
  obtain ⟨e, s, h⟩ := t1 t u ht hu pre
  exact ⟨e, s, R.bind_error h⟩

theorem TR.of_rt_nil {α} {w : W Unit} {r : R α} {a} (h : RT w r a) (hw : w.Emits []) : TR w r a := by
  intro b hb
  have e : b = [] := by rw [← hb.out_eq, hw.out_eq]
  subst e
  refine ⟨h _ hb, fun t u ht hu => ?_⟩
  have := List.append_eq_nil_iff.1 ht.symm
  exact absurd this.2 hu

theorem TR.of_eq {α} {w : W Unit} {r : R α} {a a'} (h : TR w r a) (e : a = a') : TR w r a' := e ▸ h

theorem TR.rt {α} {w : W Unit} {r : R α} {a} (h : TR w r a) : RT w r a := fun b hb => (h b hb).1

/-! ## TransmitterPdu -/

theorem rt_uint64' (v : Int) : RT (write_uint64 v) read_uint64 (signed64 v) := rt_uint64 v

theorem someNonneg {n : Int} (h : 0 ≤ n) : ∀ m, some n = some m → 0 ≤ m := by rintro m ⟨⟩; exact h

theorem noneNonneg : ∀ m : Int, none = some m → 0 ≤ m := by rintro m ⟨⟩

theorem parseMod_none (m : ModulationType) :
    TransmitterPdu.parseModulationParameters m 0 = pure none := by
  unfold TransmitterPdu.parseModulationParameters
  rw [if_neg (by omega)]

theorem parseMod_haveQuick {m : ModulationType} {n : Int} (hn : n > 0)
    (h : m.radioSystem = 2 ∨ m.radioSystem = 3 ∨ m.radioSystem = 4) :
    TransmitterPdu.parseModulationParameters m n =
      (BasicHaveQuickMP.parse BasicHaveQuickMP.init >>= fun r =>
        pure (some (ModulationParametersRecord.haveQuick r))) := by
  unfold TransmitterPdu.parseModulationParameters
  rw [if_pos hn, if_neg (by omega), if_pos h]

theorem parseMod_sincgars {m : ModulationType} {n : Int} (hn : n > 0) (h : m.radioSystem = 6) :
    TransmitterPdu.parseModulationParameters m n =
      (CCTTSincgarsMP.parse CCTTSincgarsMP.init >>= fun r =>
        pure (some (ModulationParametersRecord.sincgars r))) := by
  unfold TransmitterPdu.parseModulationParameters
  rw [if_pos hn, if_neg (by omega), if_neg (by omega), if_pos h]

theorem parseMod_unknown {m : ModulationType} {n : Int} (hn : n > 0)
    (h : m.radioSystem ≠ 1 ∧ m.radioSystem ≠ 2 ∧ m.radioSystem ≠ 3 ∧ m.radioSystem ≠ 4 ∧
      m.radioSystem ≠ 6) :
    TransmitterPdu.parseModulationParameters m n =
      (UnknownRadio.parse {} (some n) >>= fun r =>
        pure (some (ModulationParametersRecord.unknown r))) := by
  unfold TransmitterPdu.parseModulationParameters
  rw [if_pos hn, if_neg h.1, if_neg (by omega), if_neg (by omega)]

theorem parseMod_intercom {m : ModulationType} {n : Int} (hn : n > 0) (h : m.radioSystem = 1) :
    TransmitterPdu.parseModulationParameters m n =
      pure (some (if m.majorModulation = 0 then .simpleIntercom else .generic)) := by
  unfold TransmitterPdu.parseModulationParameters
  rw [if_pos hn, if_pos h]
  split <;> rfl

theorem UnknownRadio.rt (s r : UnknownRadio) {n : Int} (hn : (r.data.length : Int) = n) :
    RT (UnknownRadio.serialize r) (UnknownRadio.parse s (some n)) r := by
  unfold UnknownRadio.parse
  refine RT.silent (VariableRecord.parse_reads (someNonneg (by omega))) ?_
  exact RT.last (f := fun d => ({ data := d } : UnknownRadio)) (rt_bytes r.data hn)

theorem rt_modulation (o : TransmitterPdu) (s : ModulationType) (h : o.ModulationDecodable) :
    RT (W.whenSome o.modulationParameters ModulationParametersRecord.serialize)
      (TransmitterPdu.parseModulationParameters (ModulationType.after s o.modulationType)
        o.modulationParametersLength)
      (o.modulationParameters.map ModulationParametersRecord.after) := by
  unfold TransmitterPdu.ModulationDecodable at h
  unfold TransmitterPdu.modulationParametersLength
  rcases hm : o.modulationParameters with _ | ⟨r⟩ | _ | _ | ⟨r⟩ | ⟨r⟩ <;> rw [hm] at h
  · show RT (pure ()) (TransmitterPdu.parseModulationParameters _ 0) none
    rw [parseMod_none]; exact RT.pure _ _
  · obtain ⟨h0, h1⟩ := h
    have hp : r.marshalledSize > 0 := by
      have : r.data.length ≠ 0 := by simpa using h0
      unfold UnknownRadio.marshalledSize; omega
    show RT (UnknownRadio.serialize r) (TransmitterPdu.parseModulationParameters _ r.marshalledSize)
      (some (.unknown r))
    rw [parseMod_unknown (m := ModulationType.after s o.modulationType) hp h1]
    exact RT.last (f := fun r => some (ModulationParametersRecord.unknown r)) (UnknownRadio.rt _ r rfl)
  · exact h.elim
  · exact h.elim
  · show RT (BasicHaveQuickMP.serialize r) (TransmitterPdu.parseModulationParameters _ 16) _
    rw [parseMod_haveQuick (m := ModulationType.after s o.modulationType) (n := 16) (by omega) h]
    exact RT.last (f := fun r => some (ModulationParametersRecord.haveQuick r))
      (BasicHaveQuickMP.rt _ noneNonneg _ r)
  · show RT (CCTTSincgarsMP.serialize r) (TransmitterPdu.parseModulationParameters _ 16) _
    rw [parseMod_sincgars (m := ModulationType.after s o.modulationType) (n := 16) (by omega) h]
    exact RT.last (f := fun r => some (ModulationParametersRecord.sincgars r))
      (CCTTSincgarsMP.rt _ noneNonneg _ r)

/-- The reader of the modulation parameters reads a fixed layout unless it falls back to the
placeholder class. -/
theorem loc_modulation (m : ModulationType) (n : Int)
    (h : n ≤ 0 ∨ m.radioSystem = 1 ∨ m.radioSystem = 2 ∨ m.radioSystem = 3 ∨ m.radioSystem = 4 ∨
      m.radioSystem = 6) : Local (TransmitterPdu.parseModulationParameters m n) := by
  by_cases hn : n > 0
  · by_cases h1 : m.radioSystem = 1
    · rw [parseMod_intercom hn h1]; exact Local.pure _
    by_cases h6 : m.radioSystem = 6
    · rw [parseMod_sincgars hn h6]
      exact Local.bind (CCTTSincgarsMP.loc _ _) fun _ => Local.pure _
    · rw [parseMod_haveQuick hn (by omega)]
      exact Local.bind (BasicHaveQuickMP.loc _ _) fun _ => Local.pure _
  · unfold TransmitterPdu.parseModulationParameters
    rw [if_neg hn]; exact Local.pure _

theorem parseAnt_none (t : Int) : TransmitterPdu.parseAntennaPattern t 0 = pure none := by
  unfold TransmitterPdu.parseAntennaPattern
  rw [if_neg (by omega)]

theorem parseAnt_beam {n : Int} (hn : n > 0) :
    TransmitterPdu.parseAntennaPattern 1 n = (BeamAntennaPattern.parse BeamAntennaPattern.init >>=
      fun r => pure (some (AntennaPatternRecord.beam r))) := by
  unfold TransmitterPdu.parseAntennaPattern
  rw [if_pos hn, if_pos rfl]

theorem parseAnt_unknown {t n : Int} (hn : n > 0) (ht : t ≠ 1) :
    TransmitterPdu.parseAntennaPattern t n = (UnknownAntennaPattern.parse {} n >>=
      fun r => pure (some (AntennaPatternRecord.unknown r))) := by
  unfold TransmitterPdu.parseAntennaPattern
  rw [if_pos hn, if_neg ht]

theorem tr_antenna (o : TransmitterPdu) (h : o.AntennaDecodable) :
    TR (W.whenSome o.antennaPattern AntennaPatternRecord.serialize)
      (TransmitterPdu.parseAntennaPattern o.antennaPatternType o.antennaPatternLength)
      (o.antennaPattern.map AntennaPatternRecord.after) := by
  unfold TransmitterPdu.AntennaDecodable at h
  unfold TransmitterPdu.antennaPatternLength
  rcases hm : o.antennaPattern with _ | ⟨r⟩ | ⟨r⟩ <;> rw [hm] at h
  · show TR (pure ()) (TransmitterPdu.parseAntennaPattern _ 0) none
    rw [parseAnt_none]; exact TR.of_local (RT.pure _ _) (Local.pure _)
  · exact h.elim
  · show TR (BeamAntennaPattern.serialize r) (TransmitterPdu.parseAntennaPattern _ 40) _
    simp only at h
    rw [h, parseAnt_beam (by omega)]
    exact TR.last (f := fun r => some (AntennaPatternRecord.beam r))
      (TR.of_local (BeamAntennaPattern.rt _ (someNonneg (by omega)) _ r) (BeamAntennaPattern.loc _ _))

/-- The modulation parameters are not of the placeholder class, whose reader accepts short input. -/
def TransmitterPdu.NoUnknownRadio (o : TransmitterPdu) : Prop :=
  ∀ r, o.modulationParameters ≠ some (.unknown r)

theorem tr_modulation (o : TransmitterPdu) (s : ModulationType) (h : o.ModulationDecodable)
    (hu : o.NoUnknownRadio) :
    TR (W.whenSome o.modulationParameters ModulationParametersRecord.serialize)
      (TransmitterPdu.parseModulationParameters (ModulationType.after s o.modulationType)
        o.modulationParametersLength)
      (o.modulationParameters.map ModulationParametersRecord.after) := by
  refine TR.of_local (rt_modulation o s h) (loc_modulation _ _ ?_)
  unfold TransmitterPdu.ModulationDecodable at h
  unfold TransmitterPdu.modulationParametersLength
  rcases hm : o.modulationParameters with _ | ⟨r⟩ | _ | _ | ⟨r⟩ | ⟨r⟩ <;> rw [hm] at h
  · exact Or.inl (Int.le_refl 0)
  · exact absurd hm (hu r)
  · exact h.elim
  · exact h.elim
  · rcases h with h | h | h
    · exact Or.inr (Or.inr (Or.inl h))
    · exact Or.inr (Or.inr (Or.inr (Or.inl h)))
    · exact Or.inr (Or.inr (Or.inr (Or.inr (Or.inl h))))
  · exact Or.inr (Or.inr (Or.inr (Or.inr (Or.inr h))))

theorem rt_no_records {l : List SVRecord} (h : l = []) (e : SVBase) :
    RT (W.forEach l SVRecord.serialize)
      (R.times (l.length : Int).toNat (parseStandardVariableRecord e)) [] := by
  subst h; exact RT.pure _ _

theorem TransmitterPdu.rt (s o : TransmitterPdu) (h : o.Decodable) :
    RT (TransmitterPdu.serialize o) (TransmitterPdu.parse s) (TransmitterPdu.after s o) := by
  obtain ⟨hm, ha, hv⟩ := h
  unfold TransmitterPdu.serialize TransmitterPdu.parse
  refine RT.of_eq (RT.bind (RadioCommunicationsFamilyPdu.rt s.toRadioCommunicationsFamilyPdu
      o.toRadioCommunicationsFamilyPdu) <|
    RT.bind (EntityIdentifier.rt s.radioReferenceID o.radioReferenceID) <|
    RT.bind (rt_uint16 o.radioNumber) <|
    RT.bind (EntityType.rt s.radioEntityType o.radioEntityType) <|
    RT.bind (rt_uint8 o.transmitState) <|
    RT.bind (rt_uint8 o.inputSource) <|
    RT.bind (rt_uint16 o.variableTransmitterParameters.length) <|
    RT.bind (WorldCoordinates.rt s.antennaLocation o.antennaLocation) <|
    RT.bind (Vector3Float.rt s.relativeAntennaLocation o.relativeAntennaLocation) <|
    RT.bind (rt_uint16 o.antennaPatternType) <|
    RT.bind (rt_uint16 o.antennaPatternLength) <|
    RT.bind (rt_uint64' o.frequency) <|
    RT.bind (rt_float32 o.transmitFrequencyBandwidth) <|
    RT.bind (rt_float32 o.power) <|
    RT.bind (ModulationType.rt s.modulationType o.modulationType) <|
    RT.bind (rt_uint16 o.cryptoSystem) <|
    RT.bind (rt_uint16 o.cryptoKeyId) <|
    RT.bind (rt_uint8 o.modulationParametersLength) <|
    RT.bind (rt_uint16 o.padding2) <|
    RT.bind (rt_uint8 o.padding3) <|
    RT.bind (rt_modulation o s.modulationType hm) <|
    RT.bind (tr_antenna o ha).rt <|
    RT.last (rt_no_records hv _)) ?_
  simp [TransmitterPdu.after]

/-- Cut short anywhere, such a PDU is rejected. -/
theorem TransmitterPdu.tr (s o : TransmitterPdu) (h : o.Decodable) (hu : o.NoUnknownRadio) :
    TR (TransmitterPdu.serialize o) (TransmitterPdu.parse s) (TransmitterPdu.after s o) := by
  obtain ⟨hm, ha, hv⟩ := h
  unfold TransmitterPdu.serialize TransmitterPdu.parse
  refine TR.of_eq (TR.bind (TR.of_local (RadioCommunicationsFamilyPdu.rt
      s.toRadioCommunicationsFamilyPdu o.toRadioCommunicationsFamilyPdu)
      (RadioCommunicationsFamilyPdu.loc _)) <|
    TR.bind (TR.of_local (EntityIdentifier.rt s.radioReferenceID o.radioReferenceID)
      (EntityIdentifier.loc _)) <|
    TR.bind (TR.of_local (rt_uint16 o.radioNumber) loc_uint16) <|
    TR.bind (TR.of_local (EntityType.rt s.radioEntityType o.radioEntityType) (EntityType.loc _)) <|
    TR.bind (TR.of_local (rt_uint8 o.transmitState) loc_uint8) <|
    TR.bind (TR.of_local (rt_uint8 o.inputSource) loc_uint8) <|
    TR.bind (TR.of_local (rt_uint16 o.variableTransmitterParameters.length) loc_uint16) <|
    TR.bind (TR.of_local (WorldCoordinates.rt s.antennaLocation o.antennaLocation)
      (WorldCoordinates.loc _)) <|
    TR.bind (TR.of_local (Vector3Float.rt s.relativeAntennaLocation o.relativeAntennaLocation)
      (Vector3Float.loc _)) <|
    TR.bind (TR.of_local (rt_uint16 o.antennaPatternType) loc_uint16) <|
    TR.bind (TR.of_local (rt_uint16 o.antennaPatternLength) loc_uint16) <|
    TR.bind (TR.of_local (rt_uint64' o.frequency) loc_uint64) <|
    TR.bind (TR.of_local (rt_float32 o.transmitFrequencyBandwidth) loc_float32) <|
    TR.bind (TR.of_local (rt_float32 o.power) loc_float32) <|
    TR.bind (TR.of_local (ModulationType.rt s.modulationType o.modulationType)
      (ModulationType.loc _)) <|
    TR.bind (TR.of_local (rt_uint16 o.cryptoSystem) loc_uint16) <|
    TR.bind (TR.of_local (rt_uint16 o.cryptoKeyId) loc_uint16) <|
    TR.bind (TR.of_local (rt_uint8 o.modulationParametersLength) loc_uint8) <|
    TR.bind (TR.of_local (rt_uint16 o.padding2) loc_uint16) <|
    TR.bind (TR.of_local (rt_uint8 o.padding3) loc_uint8) <|
    TR.bind (tr_modulation o s.modulationType hm hu) <|
    TR.bind (tr_antenna o ha) <|
    TR.last (TR.of_local (rt_no_records hv _)
      (Local.times (parseStandardVariableRecord.loc (by decide)) _))) ?_
  simp [TransmitterPdu.after]

theorem whenSome_sized {α} {o : Option α} {k : α → W Unit} {f : α → Nat}
    (h : ∀ x, Sized (k x) (f x)) : Sized (W.whenSome o k) ((o.map f).getD 0) := by
  cases o with
  | none => exact Sized.pure _
  | some x => exact h x

theorem whenSome_ok {α} {o : Option α} {k : α → W Unit} {P : α → Prop}
    (h : ∀ x, (k x).Ok ↔ P x) : (W.whenSome o k).Ok ↔ ∀ p, o = some p → P p := by
  cases o with
  | none => simp [W.whenSome]
  | some x => simp [W.whenSome, h]

theorem ModulationParametersRecord.sized (r : ModulationParametersRecord) :
    Sized r.serialize r.wireSize := by
  cases r with
  | unknown r => exact sized_bytes _
  | generic => exact Sized.pure _
  | simpleIntercom => exact Sized.pure _
  | haveQuick r => exact BasicHaveQuickMP.sized r
  | sincgars r => exact CCTTSincgarsMP.sized r

theorem ModulationParametersRecord.ok_iff (r : ModulationParametersRecord) :
    r.serialize.Ok ↔ r.WireOk := by
  cases r with
  | unknown r => exact ok_bytes
  | generic => exact iff_of_true (W.ok_pure _) trivial
  | simpleIntercom => exact iff_of_true (W.ok_pure _) trivial
  | haveQuick r => exact BasicHaveQuickMP.ok_iff r
  | sincgars r => exact CCTTSincgarsMP.ok_iff r

theorem AntennaPatternRecord.sized (r : AntennaPatternRecord) : Sized r.serialize r.wireSize := by
  cases r with
  | unknown r => exact sized_bytes _
  | beam r => exact BeamAntennaPattern.sized r

theorem AntennaPatternRecord.ok_iff (r : AntennaPatternRecord) : r.serialize.Ok ↔ r.WireOk := by
  cases r with
  | unknown r => exact ok_bytes
  | beam r => exact BeamAntennaPattern.ok_iff r

theorem ok_modulationLength (o : TransmitterPdu) :
    (write_uint8 o.modulationParametersLength).Ok ↔
      ∀ p, o.modulationParameters = some p → p.wireSize ≤ 255 := by
  rw [ok_uint8]
  unfold TransmitterPdu.modulationParametersLength U8
  rcases o.modulationParameters with _ | ⟨r⟩ | _ | _ | ⟨r⟩ | ⟨r⟩ <;>
    simp [ModulationParametersRecord.marshalledSize, ModulationParametersRecord.wireSize,
      UnknownRadio.marshalledSize, BasicHaveQuickMP.marshalledSize, CCTTSincgarsMP.marshalledSize]
  omega

theorem ok_antennaLength (o : TransmitterPdu) :
    (write_uint16 o.antennaPatternLength).Ok ↔
      ∀ p, o.antennaPattern = some p → p.wireSize ≤ 65535 := by
  rw [ok_uint16]
  unfold TransmitterPdu.antennaPatternLength U16
  rcases o.antennaPattern with _ | ⟨r⟩ | ⟨r⟩ <;>
    simp [AntennaPatternRecord.marshalledSize, AntennaPatternRecord.wireSize,
      UnknownAntennaPattern.marshalledSize, BeamAntennaPattern.marshalledSize]
  omega

theorem TransmitterPdu.ok_iff (o : TransmitterPdu) :
    (TransmitterPdu.serialize o).Ok ↔ TransmitterPdu.WireOk o := by
  unfold TransmitterPdu.serialize TransmitterPdu.WireOk
  exact ok_bind_iff (RadioCommunicationsFamilyPdu.ok_iff _) <|
    ok_bind_iff (EntityIdentifier.ok_iff _) <|
    ok_bind_iff ok_uint16 <|
    ok_bind_iff (EntityType.ok_iff _) <|
    ok_bind_iff ok_uint8 <|
    ok_bind_iff ok_uint8 <|
    ok_bind_iff ok_uint16 <|
    ok_bind_iff (WorldCoordinates.ok_iff _) <|
    ok_bind_iff (Vector3Float.ok_iff _) <|
    ok_bind_iff ok_uint16 <|
    ok_bind_iff (ok_antennaLength o) <|
    ok_bind_iff ok_uint64 <|
    ok_bind_iff ok_float32 <|
    ok_bind_iff ok_float32 <|
    ok_bind_iff (ModulationType.ok_iff _) <|
    ok_bind_iff ok_uint16 <|
    ok_bind_iff ok_uint16 <|
    ok_bind_iff (ok_modulationLength o) <|
    ok_bind_iff ok_uint16 <|
    ok_bind_iff ok_uint8 <|
    ok_bind_iff (whenSome_ok ModulationParametersRecord.ok_iff) <|
    ok_bind_iff (whenSome_ok AntennaPatternRecord.ok_iff) <|
    ok_list SVRecord.ok_iff

theorem TransmitterPdu.sized (o : TransmitterPdu) :
    Sized (TransmitterPdu.serialize o) (TransmitterPdu.wireSize o) := by
  unfold TransmitterPdu.serialize
  refine Sized.of_eq (Sized.bind (RadioCommunicationsFamilyPdu.sized _) <|
    Sized.bind (EntityIdentifier.sized _) <|
    Sized.bind (sized_uint16 _) <|
    Sized.bind (EntityType.sized _) <|
    Sized.bind (sized_uint8 _) <|
    Sized.bind (sized_uint8 _) <|
    Sized.bind (sized_uint16 _) <|
    Sized.bind (WorldCoordinates.sized _) <|
    Sized.bind (Vector3Float.sized _) <|
    Sized.bind (sized_uint16 _) <|
    Sized.bind (sized_uint16 _) <|
    Sized.bind (sized_uint64 _) <|
    Sized.bind (sized_float32 _) <|
    Sized.bind (sized_float32 _) <|
    Sized.bind (ModulationType.sized _) <|
    Sized.bind (sized_uint16 _) <|
    Sized.bind (sized_uint16 _) <|
    Sized.bind (sized_uint8 _) <|
    Sized.bind (sized_uint16 _) <|
    Sized.bind (sized_uint8 _) <|
    Sized.bind (whenSome_sized ModulationParametersRecord.sized) <|
    Sized.bind (whenSome_sized AntennaPatternRecord.sized) <|
    Sized.forEach SVRecord.sized) ?_
  simp only [TransmitterPdu.wireSize, RadioCommunicationsFamilyPdu.wireSize,
    EntityIdentifier.wireSize, EntityType.wireSize, WorldCoordinates.wireSize,
    Vector3Float.wireSize, ModulationType.wireSize]
  omega

theorem map_after_id {α} {o : Option α} {f : α → α} (h : ∀ p, o = some p → f p = p) : o.map f = o := by
  cases o with
  | none => rfl
  | some p => simp [h p rfl]

theorem ModulationParametersRecord.after_canon {r : ModulationParametersRecord} (h : r.Canon) :
    r.after = r := by
  cases r with
  | haveQuick r => exact congrArg _ (BasicHaveQuickMP.after_canon h)
  | sincgars r => exact congrArg _ (CCTTSincgarsMP.after_canon h)
  | _ => rfl

theorem AntennaPatternRecord.after_canon {r : AntennaPatternRecord} (h : r.Canon) :
    r.after = r := by
  cases r with
  | beam r => exact congrArg _ (BeamAntennaPattern.after_canon h)
  | _ => rfl

theorem TransmitterPdu.after_canon {o : TransmitterPdu} (h : TransmitterPdu.Canon o) :
    TransmitterPdu.after TransmitterPdu.init o = o := by
  obtain ⟨h1, h2, h3, h4, h5, h6, h7, h8, h9⟩ := h
  cases o
  exact (TransmitterPdu.mk.injEq ..).mpr ⟨RadioCommunicationsFamilyPdu.after_canon h1,
    EntityIdentifier.after_canon trivial, rfl, EntityType.after_canon trivial, rfl, rfl,
    WorldCoordinates.after_canon trivial, Vector3Float.after_canon h2, rfl, if_pos h3, h4, h5,
    ModulationType.after_canon h6, rfl, rfl, rfl, rfl,
    map_after_id fun p hp => ModulationParametersRecord.after_canon (h7 p hp),
    map_after_id fun p hp => AntennaPatternRecord.after_canon (h8 p hp), h9.symm⟩

/-! ## DirectedEnergyFirePdu -/

theorem rt_attr_float32 (o : Option F64) : RT (W.using (attr o) write_float32) read_float32
    (quant (o.getD 0x0000000000000000)) :=
  rt_using_attr (f := quant) o 0x0000000000000000 rt_float32

theorem DirectedEnergyFirePdu.rt (s o : DirectedEnergyFirePdu) (h : o.Decodable) :
    RT (DirectedEnergyFirePdu.serialize o) (DirectedEnergyFirePdu.parse s)
      (DirectedEnergyFirePdu.after s o) := by
  unfold DirectedEnergyFirePdu.serialize DirectedEnergyFirePdu.parse
  refine RT.of_eq (RT.bind (WarfareFamilyPdu.rt s.toWarfareFamilyPdu o.toWarfareFamilyPdu) <|
    RT.bind (EntityType.rt s.munitionType o.munitionType) <|
    RT.bind (ClockTime.rt s.shotStartTime o.shotStartTime) <|
    RT.bind (rt_attr_float32 o.commulativeShotTime) <|
    RT.bind (Vector3Float.rt s.apertureEmitterLocation o.apertureEmitterLocation) <|
    RT.bind (rt_float32 o.apertureDiameter) <|
    RT.bind (rt_float32 o.wavelength) <|
    RT.bind (rt_uint32 o.padding1) <|
    RT.bind (rt_float32 o.pulseRepetitionFrequency) <|
    RT.bind (rt_float32 o.pulseWidth) <|
    RT.bind (DEFireFlags.rt s.flags o.flags) <|
    RT.bind (rt_uint8 o.pulseShape) <|
    RT.bind (rt_uint8 o.padding2) <|
    RT.bind (rt_uint32 o.padding3) <|
    RT.bind (rt_uint16 o.padding4) <|
    RT.bind (rt_uint16 o.dERecords.length) <|
    RT.last (rt_no_records h _)) ?_
  simp [DirectedEnergyFirePdu.after]

theorem DirectedEnergyFirePdu.loc (s : DirectedEnergyFirePdu) :
    Local (DirectedEnergyFirePdu.parse s) := by
  unfold DirectedEnergyFirePdu.parse
  exact Local.bind (WarfareFamilyPdu.loc _) fun _ =>
    Local.bind (EntityType.loc _) fun _ =>
    Local.bind (ClockTime.loc _) fun _ =>
    Local.bind loc_float32 fun _ =>
    Local.bind (Vector3Float.loc _) fun _ =>
    Local.bind loc_float32 fun _ =>
    Local.bind loc_float32 fun _ =>
    Local.bind loc_uint32 fun _ =>
    Local.bind loc_float32 fun _ =>
    Local.bind loc_float32 fun _ =>
    Local.bind (DEFireFlags.loc _) fun _ =>
    Local.bind loc_uint8 fun _ =>
    Local.bind loc_uint8 fun _ =>
    Local.bind loc_uint32 fun _ =>
    Local.bind loc_uint16 fun _ =>
    Local.bind loc_uint16 fun _ =>
    Local.bind (Local.times (parseStandardVariableRecord.loc (by decide)) _) fun _ =>
    Local.pure _

theorem DirectedEnergyFirePdu.ok_iff (o : DirectedEnergyFirePdu) :
    (DirectedEnergyFirePdu.serialize o).Ok ↔ DirectedEnergyFirePdu.WireOk o := by
  unfold DirectedEnergyFirePdu.serialize DirectedEnergyFirePdu.WireOk
  exact ok_bind_iff (WarfareFamilyPdu.ok_iff _) <|
    ok_bind_iff (EntityType.ok_iff _) <|
    ok_bind_iff (ClockTime.ok_iff _) <|
    ok_bind_iff (ok_using_attr.trans (by simp [ok_float32])) <|
    ok_bind_iff (Vector3Float.ok_iff _) <|
    ok_bind_iff ok_float32 <|
    ok_bind_iff ok_float32 <|
    ok_bind_iff ok_uint32 <|
    ok_bind_iff ok_float32 <|
    ok_bind_iff ok_float32 <|
    ok_bind_iff (DEFireFlags.ok_iff _) <|
    ok_bind_iff ok_uint8 <|
    ok_bind_iff ok_uint8 <|
    ok_bind_iff ok_uint32 <|
    ok_bind_iff ok_uint16 <|
    ok_bind_iff ok_uint16 <|
    ok_list SVRecord.ok_iff

theorem DirectedEnergyFirePdu.sized (o : DirectedEnergyFirePdu) :
    Sized (DirectedEnergyFirePdu.serialize o) (DirectedEnergyFirePdu.wireSize o) := by
  unfold DirectedEnergyFirePdu.serialize
  refine Sized.of_eq (Sized.bind (WarfareFamilyPdu.sized _) <|
    Sized.bind (EntityType.sized _) <|
    Sized.bind (ClockTime.sized _) <|
    Sized.bind (sized_using sized_float32) <|
    Sized.bind (Vector3Float.sized _) <|
    Sized.bind (sized_float32 _) <|
    Sized.bind (sized_float32 _) <|
    Sized.bind (sized_uint32 _) <|
    Sized.bind (sized_float32 _) <|
    Sized.bind (sized_float32 _) <|
    Sized.bind (DEFireFlags.sized _) <|
    Sized.bind (sized_uint8 _) <|
    Sized.bind (sized_uint8 _) <|
    Sized.bind (sized_uint32 _) <|
    Sized.bind (sized_uint16 _) <|
    Sized.bind (sized_uint16 _) <|
    Sized.forEach SVRecord.sized) ?_
  simp only [DirectedEnergyFirePdu.wireSize, WarfareFamilyPdu.wireSize, EntityType.wireSize,
    ClockTime.wireSize, Vector3Float.wireSize, DEFireFlags.wireSize]
  omega

theorem DirectedEnergyFirePdu.after_canon {o : DirectedEnergyFirePdu}
    (h : DirectedEnergyFirePdu.Canon o) :
    DirectedEnergyFirePdu.after DirectedEnergyFirePdu.init o = o := by
  obtain ⟨h1, ⟨v, h2, h2'⟩, h3, h4, h5, h6, h7, h8, h9, h10⟩ := h
  cases o
  simp only at h2
  subst h2
  exact (DirectedEnergyFirePdu.mk.injEq ..).mpr ⟨WarfareFamilyPdu.after_canon h1,
    EntityType.after_canon trivial, ClockTime.after_canon trivial, h3.symm, congrArg some h2',
    Vector3Float.after_canon h4, h5, h6, rfl, h7, h8, DEFireFlags.after_canon h9, rfl, rfl, rfl, rfl,
    h10.symm⟩

theorem post_records (e : SVBase) (n : Nat) :
    Post (R.times n (parseStandardVariableRecord e)) (fun b l => l.length = n ∧ (n = 0 → b = [])) := by
  cases n with
  | zero => exact Post.pure _ ⟨rfl, fun _ => rfl⟩
  | succ n =>
    exact (Post.times' (parseStandardVariableRecord.post e) (n + 1)).mono fun b l h =>
      ⟨h.1, fun h => by omega⟩

theorem DirectedEnergyFirePdu.post : Post (DirectedEnergyFirePdu.parse DirectedEnergyFirePdu.init)
    (fun b o => DirectedEnergyFirePdu.Live o →
      (DirectedEnergyFirePdu.WireOk o ∧ DirectedEnergyFirePdu.Canon o) ∧
      (DirectedEnergyFirePdu.NoNaN o → (DirectedEnergyFirePdu.serialize o).Emits b)) := by
  unfold DirectedEnergyFirePdu.parse
  refine Post.bind (WarfareFamilyPdu.post _) fun a0 b0 h0 => ?_
  refine Post.bind EntityType.post fun a1 b1 h1 => ?_
  refine Post.bind ClockTime.post fun a2 b2 h2 => ?_
  refine Post.bind post_float32 fun a3 b3 h3 => ?_
  refine Post.bind Vector3Float.post fun a4 b4 h4 => ?_
  refine Post.bind post_float32 fun a5 b5 h5 => ?_
  refine Post.bind post_float32 fun a6 b6 h6 => ?_
  refine Post.bind post_uint32 fun a7 b7 h7 => ?_
  refine Post.bind post_float32 fun a8 b8 h8 => ?_
  refine Post.bind post_float32 fun a9 b9 h9 => ?_
  refine Post.bind DEFireFlags.post fun a10 b10 h10 => ?_
  refine Post.bind post_uint8 fun a11 b11 h11 => ?_
  refine Post.bind post_uint8 fun a12 b12 h12 => ?_
  refine Post.bind post_uint32 fun a13 b13 h13 => ?_
  refine Post.bind post_uint16 fun a14 b14 h14 => ?_
  refine Post.bind post_uint16 fun a15 b15 h15 => ?_
  refine Post.last (post_records _ _) fun a16 b16 h16 hl => ?_
  obtain ⟨hl1, hl2⟩ := hl
  simp only [DirectedEnergyFirePdu.init, List.nil_append] at hl1 hl2
  subst hl2
  obtain ⟨hn0, hb⟩ := h16
  have hb' := hb hn0.symm
  have e15 : a15 = 0 := by have := h15.1.1; simp at hn0; omega
  subst hb' e15
  have hf := h10 hl1
  refine ⟨⟨⟨h0.1.1, h1.1.1, h2.1.1, ⟨a3, rfl, h3.1.1⟩, h4.1.1, h5.1.1, h6.1.1, h7.1, h8.1.1, h9.1.1,
      hf.1.1, h11.1, h12.1, h13.1, h14.1, h15.1, by simp [DirectedEnergyFirePdu.init]⟩,
    ⟨h0.1.2, ⟨a3, rfl, h3.1.2⟩, rfl, h4.1.2, h5.1.2, h6.1.2, h8.1.2, h9.1.2, hf.1.2,
      by simp [DirectedEnergyFirePdu.init]⟩⟩, fun hn => ?_⟩
  obtain ⟨n3, n4, n5, n6, n8, n9⟩ := hn
  exact W.Emits.bind (h0.2 trivial) <|
    W.Emits.bind (h1.2 trivial) <|
    W.Emits.bind (h2.2 trivial) <|
    W.Emits.bind (h3.2 (n3 a3 rfl)) <|
    W.Emits.bind (h4.2 n4) <|
    W.Emits.bind (h5.2 n5) <|
    W.Emits.bind (h6.2 n6) <|
    W.Emits.bind h7.2 <|
    W.Emits.bind (h8.2 n8) <|
    W.Emits.bind (h9.2 n9) <|
    W.Emits.bind (hf.2 trivial) <|
    W.Emits.bind h11.2 <|
    W.Emits.bind h12.2 <|
    W.Emits.bind h13.2 <|
    W.Emits.bind h14.2 <|
    W.Emits.bind h15.2 <|
    W.emits_pure ()

/-! ## EntityDamageStatusPdu -/

theorem EntityDamageStatusPdu.rt (s o : EntityDamageStatusPdu) (h : o.Decodable) :
    RT (EntityDamageStatusPdu.serialize o) (EntityDamageStatusPdu.parse s)
      (EntityDamageStatusPdu.after s o) := by
  unfold EntityDamageStatusPdu.serialize EntityDamageStatusPdu.parse
  refine RT.of_eq (RT.bind (WarfareFamilyPdu.rt s.toWarfareFamilyPdu o.toWarfareFamilyPdu) <|
    RT.bind (EntityIdentifier.rt s.damagedEntityID o.damagedEntityID) <|
    RT.bind (rt_uint16 o.padding1) <|
    RT.bind (rt_uint16 o.padding2) <|
    RT.bind (rt_uint16 o.damageDescriptions.length) <|
    RT.last (rt_no_records h _)) ?_
  simp [EntityDamageStatusPdu.after]

theorem EntityDamageStatusPdu.loc (s : EntityDamageStatusPdu) :
    Local (EntityDamageStatusPdu.parse s) := by
  unfold EntityDamageStatusPdu.parse
  exact Local.bind (WarfareFamilyPdu.loc _) fun _ =>
    Local.bind (EntityIdentifier.loc _) fun _ =>
    Local.bind loc_uint16 fun _ =>
    Local.bind loc_uint16 fun _ =>
    Local.bind loc_uint16 fun _ =>
    Local.bind (Local.times (parseStandardVariableRecord.loc (by decide)) _) fun _ =>
    Local.pure _

theorem EntityDamageStatusPdu.ok_iff (o : EntityDamageStatusPdu) :
    (EntityDamageStatusPdu.serialize o).Ok ↔ EntityDamageStatusPdu.WireOk o := by
  unfold EntityDamageStatusPdu.serialize EntityDamageStatusPdu.WireOk
  exact ok_bind_iff (WarfareFamilyPdu.ok_iff _) <|
    ok_bind_iff (EntityIdentifier.ok_iff _) <|
    ok_bind_iff ok_uint16 <|
    ok_bind_iff ok_uint16 <|
    ok_bind_iff ok_uint16 <|
    ok_list SVRecord.ok_iff

theorem EntityDamageStatusPdu.sized (o : EntityDamageStatusPdu) :
    Sized (EntityDamageStatusPdu.serialize o) (EntityDamageStatusPdu.wireSize o) := by
  unfold EntityDamageStatusPdu.serialize
  refine Sized.of_eq (Sized.bind (WarfareFamilyPdu.sized _) <|
    Sized.bind (EntityIdentifier.sized _) <|
    Sized.bind (sized_uint16 _) <|
    Sized.bind (sized_uint16 _) <|
    Sized.bind (sized_uint16 _) <|
    Sized.forEach SVRecord.sized) ?_
  simp only [EntityDamageStatusPdu.wireSize, WarfareFamilyPdu.wireSize, EntityIdentifier.wireSize]
  omega

theorem EntityDamageStatusPdu.after_canon {o : EntityDamageStatusPdu}
    (h : EntityDamageStatusPdu.Canon o) :
    EntityDamageStatusPdu.after EntityDamageStatusPdu.init o = o := by
  obtain ⟨h1, h2⟩ := h
  cases o
  exact (EntityDamageStatusPdu.mk.injEq ..).mpr ⟨WarfareFamilyPdu.after_canon h1,
    EntityIdentifier.after_canon trivial, rfl, rfl, h2.symm⟩

theorem EntityDamageStatusPdu.post : Post (EntityDamageStatusPdu.parse EntityDamageStatusPdu.init)
    (fun b o => EntityDamageStatusPdu.Live o →
      (EntityDamageStatusPdu.WireOk o ∧ EntityDamageStatusPdu.Canon o) ∧
      (EntityDamageStatusPdu.NoNaN o → (EntityDamageStatusPdu.serialize o).Emits b)) := by
  unfold EntityDamageStatusPdu.parse
  refine Post.bind (WarfareFamilyPdu.post _) fun a0 b0 h0 => ?_
  refine Post.bind EntityIdentifier.post fun a1 b1 h1 => ?_
  refine Post.bind post_uint16 fun a2 b2 h2 => ?_
  refine Post.bind post_uint16 fun a3 b3 h3 => ?_
  refine Post.bind post_uint16 fun a4 b4 h4 => ?_
  refine Post.last (post_records _ _) fun a5 b5 h5 hl => ?_
  simp only [EntityDamageStatusPdu.Live, EntityDamageStatusPdu.init, List.nil_append] at hl
  subst hl
  obtain ⟨hn0, hb⟩ := h5
  have hb' := hb hn0.symm
  have e4 : a4 = 0 := by have := h4.1.1; simp at hn0; omega
  subst hb' e4
  refine ⟨⟨⟨h0.1.1, h1.1.1, h2.1, h3.1, h4.1, by simp [EntityDamageStatusPdu.init]⟩,
    ⟨h0.1.2, by simp [EntityDamageStatusPdu.init]⟩⟩, fun _ => ?_⟩
  exact W.Emits.bind (h0.2 trivial) <|
    W.Emits.bind (h1.2 trivial) <|
    W.Emits.bind h2.2 <|
    W.Emits.bind h3.2 <|
    W.Emits.bind h4.2 <|
    W.emits_pure ()

/-! ## IntercomControlPdu -/

theorem IntercomControlPdu.never (s : IntercomControlPdu) (st : InStream) :
    ∃ e, (IntercomControlPdu.parse s st).1 = .error e := by
  rcases h : IntercomControlPdu.parse s st with ⟨x, s'⟩
  cases x with
  | error e => exact ⟨e, rfl⟩
  | ok a =>
    exfalso
    unfold IntercomControlPdu.parse at h
    iterate 12 (obtain ⟨_, _, -, h⟩ := R.bind_inv h)
    obtain ⟨_, _, h1, -⟩ := R.bind_inv h
    cases h1

theorem IntercomControlPdu.loc (s : IntercomControlPdu) : Local (IntercomControlPdu.parse s) := by
  intro pre suf a s' h
  obtain ⟨e, he⟩ := IntercomControlPdu.never s ⟨pre ++ suf, pre.length⟩
  rw [h] at he; cases he

theorem IntercomControlPdu.ok_iff (o : IntercomControlPdu) :
    (IntercomControlPdu.serialize o).Ok ↔ IntercomControlPdu.WireOk o := by
  unfold IntercomControlPdu.serialize IntercomControlPdu.WireOk
  refine ok_bind_iff (RadioCommunicationsFamilyPdu.ok_iff _) <|
    ok_bind_iff ok_unsigned_byte <|
    ok_bind_iff ok_unsigned_byte <|
    ok_bind_iff (EntityIdentifier.ok_iff _) <|
    ok_bind_iff ok_unsigned_byte <|
    ok_bind_iff ok_unsigned_byte <|
    ok_bind_iff ok_unsigned_byte <|
    ok_bind_iff ok_unsigned_byte <|
    ok_bind_iff ok_unsigned_byte <|
    ok_bind_iff (EntityIdentifier.ok_iff _) <|
    ok_bind_iff ok_unsigned_short ?_
  rw [W.ok_bind, ok_using]
  cases hp : o.intercomParameters with
  | none => simp [IntercomParametersValue.len]
  | record r => simp [IntercomParametersValue.len]
  | records l =>
    simp only [IntercomParametersValue.len, IntercomParametersValue.serializeAll]
    rw [ok_list IntercomCommunicationsParameters.ok_iff]
    simp [ok_unsigned_int]

end Dis
