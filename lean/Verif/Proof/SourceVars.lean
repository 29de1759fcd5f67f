import Verif.Proof.Source5

/-!
# Names of properties and of variables

Written by `tools/gensourceproof.py`.
-/

set_option linter.unusedVariables false
set_option linter.unusedSimpArgs false

namespace Dis.Src

/-- All names of properties. -/
def propertyNames : List Ident :=
  [I.recordLength,
   I.beamAntennaPatternCount,
   I.directedEnergyTargetEnergyDepositionCount,
   I.fixedDatumIDs,
   I.variableDatumIDs,
   I.numberOfFixedDatumIDs,
   I.numberOfVariableDatumIDs,
   I.numberOfIFFDataRecords,
   I.numberOfRecords,
   I.fixedDatumRecords,
   I.variableDatumRecords,
   I.numberOfFixedDatumRecords,
   I.numberOfVariableDatumRecords,
   I.numberOfAppearanceRecords,
   I.numberOfStandardVariableRecords,
   I.numberOfRecordSets,
   I.numberOfVariableParameters,
   I.numberOfSupplyTypes,
   I.numberOfSegments,
   I.dataLength,
   I.variableTransmitterParameterCount,
   I.antennaPatternLength,
   I.modulationParametersLength,
   I.numberOfSystems,
   I.numberOfTargetsInTrackJam,
   I.numberOfBeams,
   I.numberOfPoints,
   I.numberOfPerimeterPoints,
   I.numberOfMineTypes,
   I.numberOfDERecords,
   I.damageDescriptionCount,
   I.numberOfShafts,
   I.numberOfAPAs,
   I.numberOfUAEmitterSystems,
   I.intercomParametersLength,
   I.numberOfPropulsionSystems,
   I.numberOfVectoringNozzleSystems,
   I.numberOfMissingPdus,
   I.numberOfAggregateIDs,
   I.numberOfEntityIDs,
   I.numberOfSilentAggregateSystems,
   I.numberOfSilentEntitySystems]

theorem plain {k f : Ident} (h : propertyNames.all (fun p => !Nat.beq p f) = true) :
    isProperty program k f = false := plain_of propertyNames (by decide +kernel) h

theorem no_null : look I.null program = none := by decide +kernel

theorem null_taken : isClass I.null = true := by decide +kernel

theorem var_aggregateID : isClass I.aggregateID = false := by decide +kernel

theorem var_anObj : isClass I.anObj = false := by decide +kernel

theorem var_b : isClass I.b = false := by decide +kernel

theorem var_dataLength : isClass I.dataLength = false := by decide +kernel

theorem var_datumID : isClass I.datumID = false := by decide +kernel

theorem var_element : isClass I.element = false := by decide +kernel

theorem var_entityID : isClass I.entityID = false := by decide +kernel

theorem var_idx : isClass I.idx = false := by decide +kernel

theorem var_numberOfAPAs : isClass I.numberOfAPAs = false := by decide +kernel

theorem var_numberOfAggregateIDs : isClass I.numberOfAggregateIDs = false := by decide +kernel

theorem var_numberOfAppearanceRecords : isClass I.numberOfAppearanceRecords = false := by decide +kernel

theorem var_numberOfBeams : isClass I.numberOfBeams = false := by decide +kernel

theorem var_numberOfEntityIDs : isClass I.numberOfEntityIDs = false := by decide +kernel

theorem var_numberOfFixedDatumIDs : isClass I.numberOfFixedDatumIDs = false := by decide +kernel

theorem var_numberOfFixedDatumRecords : isClass I.numberOfFixedDatumRecords = false := by decide +kernel

theorem var_numberOfIFFDataRecords : isClass I.numberOfIFFDataRecords = false := by decide +kernel

theorem var_numberOfMineTypes : isClass I.numberOfMineTypes = false := by decide +kernel

theorem var_numberOfMissingPdus : isClass I.numberOfMissingPdus = false := by decide +kernel

theorem var_numberOfPerimeterPoints : isClass I.numberOfPerimeterPoints = false := by decide +kernel

theorem var_numberOfPoints : isClass I.numberOfPoints = false := by decide +kernel

theorem var_numberOfPropulsionSystems : isClass I.numberOfPropulsionSystems = false := by decide +kernel

theorem var_numberOfRecordSets : isClass I.numberOfRecordSets = false := by decide +kernel

theorem var_numberOfRecords : isClass I.numberOfRecords = false := by decide +kernel

theorem var_numberOfSegments : isClass I.numberOfSegments = false := by decide +kernel

theorem var_numberOfShafts : isClass I.numberOfShafts = false := by decide +kernel

theorem var_numberOfSilentAggregateSystems : isClass I.numberOfSilentAggregateSystems = false := by decide +kernel

theorem var_numberOfSilentEntitySystems : isClass I.numberOfSilentEntitySystems = false := by decide +kernel

theorem var_numberOfStandardVariableRecords : isClass I.numberOfStandardVariableRecords = false := by decide +kernel

theorem var_numberOfSupplyTypes : isClass I.numberOfSupplyTypes = false := by decide +kernel

theorem var_numberOfSystems : isClass I.numberOfSystems = false := by decide +kernel

theorem var_numberOfTargetsInTrackJam : isClass I.numberOfTargetsInTrackJam = false := by decide +kernel

theorem var_numberOfUAEmitterSystems : isClass I.numberOfUAEmitterSystems = false := by decide +kernel

theorem var_numberOfVariableDatumIDs : isClass I.numberOfVariableDatumIDs = false := by decide +kernel

theorem var_numberOfVariableDatumRecords : isClass I.numberOfVariableDatumRecords = false := by decide +kernel

theorem var_numberOfVariableParameters : isClass I.numberOfVariableParameters = false := by decide +kernel

theorem var_numberOfVectoringNozzleSystems : isClass I.numberOfVectoringNozzleSystems = false := by decide +kernel

theorem var_silentAggregateSystem : isClass I.silentAggregateSystem = false := by decide +kernel

theorem var_silentEntitySystem : isClass I.silentEntitySystem = false := by decide +kernel

theorem var_val : isClass I.val = false := by decide +kernel

theorem var_value : isClass I.value = false := by decide +kernel

theorem var_variableDatumRecord : isClass I.variableDatumRecord = false := by decide +kernel

end Dis.Src
