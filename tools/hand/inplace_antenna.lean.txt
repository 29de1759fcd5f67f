/-- The statements on the antenna pattern in `TransmitterPdu.parse`, /repo/opendis/dis7.py:5097-5109: the
new pattern is assigned before it is parsed. -/
def TransmitterPdu.parseAntennaPatternInto (antennaPatternType antennaPatternLength : Int) :
    P TransmitterPdu Unit :=
  if antennaPatternLength > 0 then
    if antennaPatternType = 1 then do
      P.set fun o => { o with antennaPattern := some (.beam BeamAntennaPattern.init) }
      P.call ⟨fun _ => BeamAntennaPattern.init, fun o v => { o with antennaPattern := some (.beam v) }⟩
        (BeamAntennaPattern.parseInto (some 40))
    else do
      P.set fun o => { o with antennaPattern := some (.unknown {}) }
      let p ← P.read (UnknownAntennaPattern.parse {} antennaPatternLength)
      P.set fun o => { o with antennaPattern := some (.unknown p) }
  else P.set fun o => { o with antennaPattern := none }
-----
theorem TransmitterPdu.run_antenna (t l : Int) (k : Unit → P TransmitterPdu Unit) (o : TransmitterPdu) :
    P.run (TransmitterPdu.parseAntennaPatternInto t l >>= k) o =
      TransmitterPdu.parseAntennaPattern t l >>= fun p => P.run (k ()) { o with antennaPattern := p } := by
  unfold TransmitterPdu.parseAntennaPatternInto TransmitterPdu.parseAntennaPattern
  split
  · split
    · rw [P.bind_assoc, P.run_set, P.run_call, BeamAntennaPattern.into, P.R_bind_assoc]
      rfl
    · rw [P.bind_assoc, P.run_set, P.bind_assoc, P.run_read, P.R_bind_assoc]
      rfl
  · rfl

theorem TransmitterPdu.keeps_antenna {I : TransmitterPdu → Prop} {t l : Int} {k : Unit → P TransmitterPdu Unit}
    (hf : ∀ x p, I x → I { x with antennaPattern := p }) (h : P.Keeps I (k ())) :
    P.Keeps I (TransmitterPdu.parseAntennaPatternInto t l >>= k) := by
  refine P.Keeps.bind ?_ fun _ => h
  unfold TransmitterPdu.parseAntennaPatternInto
  split
  · split
    · exact .set (fun x h => hf x _ h) fun o s hi => hf o _ hi
    · exact .set (fun x h => hf x _ h) (.read fun p o s hi => hf o _ hi)
  · exact fun o s hi => hf o _ hi

theorem ModulationType.alike (o x : ModulationType) :
    Alike (fun a b => a.radioSystem = b.radioSystem ∧ a.majorModulation = b.majorModulation)
      (ModulationType.parse o) (ModulationType.parse x) := by
  unfold ModulationType.parse
  refine .bind (SpreadSpectrum.blind _ _) fun _ _ _ => ?_
  refine .read fun _ => .read fun _ => .read fun _ => .pure ⟨rfl, rfl⟩

theorem TransmitterPdu.modulation_congr {a b : ModulationType} {n : Int}
    (h1 : a.radioSystem = b.radioSystem) (h2 : a.majorModulation = b.majorModulation) :
    TransmitterPdu.parseModulationParameters a n = TransmitterPdu.parseModulationParameters b n := by
  unfold TransmitterPdu.parseModulationParameters
  rw [h1, h2]
