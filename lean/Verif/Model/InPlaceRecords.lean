import Verif.Model.InPlaceSpecial

/-!
# Parse methods of the standard variable records as programs that change their object

Generated by `tools/genheap.py` from the Python source; each definition cites the lines it transliterates.
-/

set_option linter.unusedVariables false
set_option linter.unusedSimpArgs false

namespace Dis

/-- `assert isinstance(bytelength, int)`, /repo/opendis/record/radio/__init__.py:76. -/
def assertInt (bytelength : Option Int) : R Int :=
  match bytelength with
  | none => R.throw .assertionError
  | some n => pure n

/-- `HighFidelityHAVEQUICKRadio.parse`, /repo/opendis/record/radio/__init__.py:495-510, statement by statement. -/
def HighFidelityHAVEQUICKRadio.parseInto (bytelength : Int) : P HighFidelityHAVEQUICKRadio Unit := do
  P.read (StandardVariableRecord.parse bytelength)
  let padding1 ← P.read read_uint16
  P.set fun o => { o with padding1 := padding1 }
  P.call ⟨(·.netId), fun o v => { o with netId := v }⟩ NetId.parseInto
  let todTransmitIndicator ← P.read read_uint8
  P.set fun o => { o with todTransmitIndicator := todTransmitIndicator }
  let padding2 ← P.read read_uint8
  P.set fun o => { o with padding2 := padding2 }
  let todDelta ← P.read read_uint32
  P.set fun o => { o with todDelta := todDelta }
  let wod1 ← P.read read_uint32
  P.set fun o => { o with wod1 := wod1 }
  let wod2 ← P.read read_uint32
  P.set fun o => { o with wod2 := wod2 }
  let wod3 ← P.read read_uint32
  P.set fun o => { o with wod3 := wod3 }
  let wod4 ← P.read read_uint32
  P.set fun o => { o with wod4 := wod4 }
  let wod5 ← P.read read_uint32
  P.set fun o => { o with wod5 := wod5 }
  let wod6 ← P.read read_uint32
  P.set fun o => { o with wod6 := wod6 }
  return ()

/-- `DirectedEnergyDamage.parse`, /repo/opendis/record/warfare/__init__.py:90-104, statement by statement. -/
def DirectedEnergyDamage.parseInto (bytelength : Int) : P DirectedEnergyDamage Unit := do
  P.read (StandardVariableRecord.parse bytelength)
  let padding ← P.read read_unsigned_short
  P.set fun o => { o with padding := padding }
  P.call ⟨(·.damageLocation), fun o v => { o with damageLocation := v }⟩ Vector3Float.parseInto
  let damageDiameter ← P.read read_float32
  P.set fun o => { o with damageDiameter := damageDiameter }
  let temperature ← P.read read_float32
  P.set fun o => { o with temperature := temperature }
  let componentIdentification ← P.read read_uint8
  P.set fun o => { o with componentIdentification := componentIdentification }
  let componentDamageStatus ← P.read read_uint8
  P.set fun o => { o with componentDamageStatus := componentDamageStatus }
  let componentVisualDamageStatus ← P.read read_uint8
  P.set fun o => { o with componentVisualDamageStatus := componentVisualDamageStatus }
  let componentVisualSmokeColor ← P.read read_uint8
  P.set fun o => { o with componentVisualSmokeColor := componentVisualSmokeColor }
  P.call ⟨(·.fireEventID), fun o v => { o with fireEventID := v }⟩ EventIdentifier.parseInto
  let padding2 ← P.read read_uint16
  P.set fun o => { o with padding2 := padding2 }
  return ()

/-- `DirectedEnergyAreaAimpoint.parse`, /repo/opendis/record/warfare/__init__.py:154-169, statement by statement. -/
def DirectedEnergyAreaAimpoint.parseInto (bytelength : Int) : P DirectedEnergyAreaAimpoint Unit := do
  P.read (StandardVariableRecord.parse bytelength)
  let padding ← P.read read_uint16
  P.set fun o => { o with padding := padding }
  let beamAntennaPatternCount ← P.read read_uint16
  let directedEnergyTargetEnergyDepositionCount ← P.read read_uint16
  P.appendObjs beamAntennaPatternCount.toNat BeamAntennaPattern.init (BeamAntennaPattern.parseInto (some 40)) ⟨(·.beamAntennaPatterns), fun o v => { o with beamAntennaPatterns := v }⟩
  P.appendObjs directedEnergyTargetEnergyDepositionCount.toNat DirectedEnergyTargetEnergyDeposition.init DirectedEnergyTargetEnergyDeposition.parseInto ⟨(·.directedEnergyTargetEnergyDepositions), fun o v => { o with directedEnergyTargetEnergyDepositions := v }⟩
  return ()

/-- `DirectedEnergyPrecisionAimpoint.parse`, /repo/opendis/record/warfare/__init__.py:228-248, statement by statement. -/
def DirectedEnergyPrecisionAimpoint.parseInto (bytelength : Int) : P DirectedEnergyPrecisionAimpoint Unit := do
  P.read (StandardVariableRecord.parse bytelength)
  let padding ← P.read read_uint16
  P.set fun o => { o with padding := padding }
  P.call ⟨(·.targetSpotLocation), fun o v => { o with targetSpotLocation := v }⟩ WorldCoordinates.parseInto
  P.call ⟨(·.targetSpotEntityLocation), fun o v => { o with targetSpotEntityLocation := v }⟩ Vector3Float.parseInto
  P.call ⟨(·.targetSpotVelocity), fun o v => { o with targetSpotVelocity := v }⟩ Vector3Float.parseInto
  P.call ⟨(·.targetSpotAcceleration), fun o v => { o with targetSpotAcceleration := v }⟩ Vector3Float.parseInto
  P.call ⟨(·.targetEntityID), fun o v => { o with targetEntityID := v }⟩ EntityIdentifier.parseInto
  let targetComponentID ← P.read read_uint8
  P.set fun o => { o with targetComponentID := targetComponentID }
  let beamSpotType ← P.read read_uint8
  P.set fun o => { o with beamSpotType := beamSpotType }
  let beamSpotCrossSectionSemiMajorAxis ← P.read read_float32
  P.set fun o => { o with beamSpotCrossSectionSemiMajorAxis := beamSpotCrossSectionSemiMajorAxis }
  let beamSpotCrossSectionSemiMinorAxis ← P.read read_float32
  P.set fun o => { o with beamSpotCrossSectionSemiMinorAxis := beamSpotCrossSectionSemiMinorAxis }
  let beamSpotCrossSectionOrientationAngle ← P.read read_float32
  P.set fun o => { o with beamSpotCrossSectionOrientationAngle := beamSpotCrossSectionOrientationAngle }
  let peakIrradiance ← P.read read_float32
  P.set fun o => { o with peakIrradiance := peakIrradiance }
  let padding2 ← P.read read_uint32
  P.set fun o => { o with padding2 := padding2 }
  return ()

/-- `UnknownStandardVariableRecord.parse`, /repo/opendis/record/__init__.py:64-69, statement by statement. -/
def UnknownStandardVariableRecord.parseInto (bytelength : Int) : P UnknownStandardVariableRecord Unit := do
  P.read (StandardVariableRecord.parse bytelength)
  let data ← P.read (read_bytes (bytelength - 6))
  P.set fun o => { o with data := data }
  return ()

/-- `UnknownRadio.parse`, /repo/opendis/record/radio/__init__.py:71-77, statement by statement. -/
def UnknownRadio.parseInto (bytelength : Option Int) : P UnknownRadio Unit := do
  P.read (VariableRecord.parse bytelength)
  let bytelength ← P.read (assertInt bytelength)
  let data ← P.read (read_bytes (bytelength))
  P.set fun o => { o with data := data }
  return ()

/-- `UnknownAntennaPattern.parse`, /repo/opendis/record/radio/__init__.py:93-99, statement by statement. -/
def UnknownAntennaPattern.parseInto (bytelength : Int) : P UnknownAntennaPattern Unit := do
  P.read (VariableRecord.parse (some bytelength))
  let data ← P.read (read_bytes (bytelength - 6))
  P.set fun o => { o with data := data }
  return ()

end Dis
