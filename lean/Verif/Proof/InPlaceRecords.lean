import Verif.Proof.InPlaceSpecial
import Verif.Model.InPlaceRecords

/-!
# Parse methods of the standard variable records in place

Generated by `tools/genheap.py`.
-/

set_option linter.unusedVariables false
set_option linter.unusedSimpArgs false

namespace Dis

theorem HighFidelityHAVEQUICKRadio.into (bytelength : Int) (o : HighFidelityHAVEQUICKRadio) :
    P.run (HighFidelityHAVEQUICKRadio.parseInto bytelength) o = HighFidelityHAVEQUICKRadio.parse o bytelength := by
  unfold HighFidelityHAVEQUICKRadio.parseInto HighFidelityHAVEQUICKRadio.parse
  simp (maxSteps := 1000000) only [P.run_pure, P.run_read, P.run_set, P.run_call, NetId.into]

theorem DirectedEnergyDamage.into (bytelength : Int) (o : DirectedEnergyDamage) :
    P.run (DirectedEnergyDamage.parseInto bytelength) o = DirectedEnergyDamage.parse o bytelength := by
  unfold DirectedEnergyDamage.parseInto DirectedEnergyDamage.parse
  simp (maxSteps := 1000000) only [P.run_pure, P.run_read, P.run_set, P.run_call, Vector3Float.into, EventIdentifier.into]

theorem DirectedEnergyAreaAimpoint.into (bytelength : Int) (o : DirectedEnergyAreaAimpoint) :
    P.run (DirectedEnergyAreaAimpoint.parseInto bytelength) o = DirectedEnergyAreaAimpoint.parse o bytelength := by
  unfold DirectedEnergyAreaAimpoint.parseInto DirectedEnergyAreaAimpoint.parse
  simp (maxSteps := 1000000) only [P.run_pure, P.run_read, P.run_set, P.run_call, P.run_appendObjs (a := ⟨fun o : DirectedEnergyAreaAimpoint => o.beamAntennaPatterns, fun o v => { o with beamAntennaPatterns := v }⟩) ⟨fun _ _ => rfl, fun _ _ _ => rfl, fun _ => rfl⟩, BeamAntennaPattern.into, P.run_appendObjs (a := ⟨fun o : DirectedEnergyAreaAimpoint => o.directedEnergyTargetEnergyDepositions, fun o v => { o with directedEnergyTargetEnergyDepositions := v }⟩) ⟨fun _ _ => rfl, fun _ _ _ => rfl, fun _ => rfl⟩, DirectedEnergyTargetEnergyDeposition.into]

theorem DirectedEnergyPrecisionAimpoint.into (bytelength : Int) (o : DirectedEnergyPrecisionAimpoint) :
    P.run (DirectedEnergyPrecisionAimpoint.parseInto bytelength) o = DirectedEnergyPrecisionAimpoint.parse o bytelength := by
  unfold DirectedEnergyPrecisionAimpoint.parseInto DirectedEnergyPrecisionAimpoint.parse
  simp (maxSteps := 1000000) only [P.run_pure, P.run_read, P.run_set, P.run_call, WorldCoordinates.into, Vector3Float.into, EntityIdentifier.into]

theorem UnknownStandardVariableRecord.into (bytelength : Int) (o : UnknownStandardVariableRecord) :
    P.run (UnknownStandardVariableRecord.parseInto bytelength) o = UnknownStandardVariableRecord.parse o bytelength := by
  unfold UnknownStandardVariableRecord.parseInto UnknownStandardVariableRecord.parse
  simp (maxSteps := 1000000) only [P.run_pure, P.run_read, P.run_set, P.run_call]

theorem UnknownRadio.into (bytelength : Option Int) (o : UnknownRadio) :
    P.run (UnknownRadio.parseInto bytelength) o = UnknownRadio.parse o bytelength := by
  unfold UnknownRadio.parseInto UnknownRadio.parse
  simp (maxSteps := 1000000) only [P.run_pure, P.run_read, P.run_set, P.run_call, assertInt]
  cases bytelength <;> rfl

theorem UnknownAntennaPattern.into (bytelength : Int) (o : UnknownAntennaPattern) :
    P.run (UnknownAntennaPattern.parseInto bytelength) o = UnknownAntennaPattern.parse o bytelength := by
  unfold UnknownAntennaPattern.parseInto UnknownAntennaPattern.parse
  simp (maxSteps := 1000000) only [P.run_pure, P.run_read, P.run_set, P.run_call]

end Dis
