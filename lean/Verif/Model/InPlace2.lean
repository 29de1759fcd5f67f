import Verif.Model.InPlace1

/-!
# Parse methods as programs that change their object, part 2

Generated by `tools/geninplace.py` from the Python source; each definition cites the lines it transliterates.
-/

set_option linter.unusedVariables false
set_option linter.unusedSimpArgs false

namespace Dis

/-- `EEFundamentalParameterData.parse`, /repo/opendis/dis7.py:1552-1563, statement by statement. -/
def EEFundamentalParameterData.parseInto : P EEFundamentalParameterData Unit := do
  let frequency ← P.read read_float
  P.set fun o => { o with frequency := frequency }
  let frequencyRange ← P.read read_float
  P.set fun o => { o with frequencyRange := frequencyRange }
  let effectiveRadiatedPower ← P.read read_float
  P.set fun o => { o with effectiveRadiatedPower := effectiveRadiatedPower }
  let pulseRepetitionFrequency ← P.read read_float
  P.set fun o => { o with pulseRepetitionFrequency := pulseRepetitionFrequency }
  let pulseWidth ← P.read read_float
  P.set fun o => { o with pulseWidth := pulseWidth }
  let beamAzimuthCenter ← P.read read_float
  P.set fun o => { o with beamAzimuthCenter := beamAzimuthCenter }
  let beamAzimuthSweep ← P.read read_float
  P.set fun o => { o with beamAzimuthSweep := beamAzimuthSweep }
  let beamElevationCenter ← P.read read_float
  P.set fun o => { o with beamElevationCenter := beamElevationCenter }
  let beamElevationSweep ← P.read read_float
  P.set fun o => { o with beamElevationSweep := beamElevationSweep }
  let beamSweepSync ← P.read read_float
  P.set fun o => { o with beamSweepSync := beamSweepSync }
  return ()

/-- `JammingTechnique.parse`, /repo/opendis/dis7.py:1585-1590, statement by statement. -/
def JammingTechnique.parseInto : P JammingTechnique Unit := do
  let kind ← P.read read_unsigned_byte
  P.set fun o => { o with kind := kind }
  let category ← P.read read_unsigned_byte
  P.set fun o => { o with category := category }
  let subcategory ← P.read read_unsigned_byte
  P.set fun o => { o with subcategory := subcategory }
  let specific ← P.read read_unsigned_byte
  P.set fun o => { o with specific := specific }
  return ()

/-- `VariableDatum.parse`, /repo/opendis/dis7.py:3329-3339, statement by statement. -/
def VariableDatum.parseInto : P VariableDatum Unit := do
  let variableDatumID ← P.read read_unsigned_int
  P.set fun o => { o with variableDatumID := variableDatumID }
  let variableDatumLength ← P.read read_unsigned_int
  P.set fun o => { o with variableDatumLength := variableDatumLength }
  P.appendReads (variableDatumLength / 8).toNat read_unsigned_byte ⟨(·.variableData), fun o v => { o with variableData := v }⟩
  let _ ← P.read (R.times
    (VariableDatum.datumPaddingSizeInBits { variableDatumLength } / 8).toNat read_unsigned_byte)
  return ()

/-- `DatumSpecification.parse`, /repo/opendis/dis7.py:1625-1637, statement by statement. -/
def DatumSpecification.parseInto : P DatumSpecification Unit := do
  let numberOfFixedDatumRecords ← P.read read_unsigned_int
  let numberOfVariableDatumRecords ← P.read read_unsigned_int
  P.appendObjs numberOfFixedDatumRecords.toNat FixedDatum.init FixedDatum.parseInto ⟨(·.fixedDatumRecords), fun o v => { o with fixedDatumRecords := v }⟩
  P.appendObjs numberOfVariableDatumRecords.toNat VariableDatum.init VariableDatum.parseInto ⟨(·.variableDatumRecords), fun o v => { o with variableDatumRecords := v }⟩
  return ()

/-- `Expendable.parse`, /repo/opendis/dis7.py:1666-1672, statement by statement. -/
def Expendable.parseInto : P Expendable Unit := do
  P.call ⟨(·.expendable), fun o v => { o with expendable := v }⟩ EntityType.parseInto
  let station ← P.read read_unsigned_int
  P.set fun o => { o with station := station }
  let quantity ← P.read read_unsigned_short
  P.set fun o => { o with quantity := quantity }
  let expendableStatus ← P.read read_unsigned_byte
  P.set fun o => { o with expendableStatus := expendableStatus }
  let padding ← P.read read_unsigned_byte
  P.set fun o => { o with padding := padding }
  return ()

/-- `CommunicationsNodeID.parse`, /repo/opendis/dis7.py:3498-3501, statement by statement. -/
def CommunicationsNodeID.parseInto : P CommunicationsNodeID Unit := do
  P.call ⟨(·.entityID), fun o v => { o with entityID := v }⟩ EntityIdentifier.parseInto
  let elementID ← P.read read_unsigned_short
  P.set fun o => { o with elementID := elementID }
  return ()

/-- `IOCommunicationsNode.parse`, /repo/opendis/dis7.py:1699-1705, statement by statement. -/
def IOCommunicationsNode.parseInto : P IOCommunicationsNode Unit := do
  let recordType ← P.read read_unsigned_int
  P.set fun o => { o with recordType := recordType }
  let recordLength ← P.read read_unsigned_short
  P.set fun o => { o with recordLength := recordLength }
  let communcationsNodeType ← P.read read_unsigned_byte
  P.set fun o => { o with communcationsNodeType := communcationsNodeType }
  let padding ← P.read read_unsigned_byte
  P.set fun o => { o with padding := padding }
  P.call ⟨(·.communicationsNodeID), fun o v => { o with communicationsNodeID := v }⟩ CommunicationsNodeID.parseInto
  return ()

/-- `LinearSegmentParameter.parse`, /repo/opendis/dis7.py:1762-1774, statement by statement. -/
def LinearSegmentParameter.parseInto : P LinearSegmentParameter Unit := do
  let segmentNumber ← P.read read_unsigned_byte
  P.set fun o => { o with segmentNumber := segmentNumber }
  let segmentModification ← P.read read_unsigned_byte
  P.set fun o => { o with segmentModification := segmentModification }
  let generalSegmentAppearance ← P.read read_unsigned_short
  P.set fun o => { o with generalSegmentAppearance := generalSegmentAppearance }
  let specificSegmentAppearance ← P.read read_unsigned_int
  P.set fun o => { o with specificSegmentAppearance := specificSegmentAppearance }
  P.call ⟨(·.segmentLocation), fun o v => { o with segmentLocation := v }⟩ WorldCoordinates.parseInto
  P.call ⟨(·.segmentOrientation), fun o v => { o with segmentOrientation := v }⟩ EulerAngles.parseInto
  let segmentLength ← P.read read_float
  P.set fun o => { o with segmentLength := segmentLength }
  let segmentWidth ← P.read read_float
  P.set fun o => { o with segmentWidth := segmentWidth }
  let segmentHeight ← P.read read_float
  P.set fun o => { o with segmentHeight := segmentHeight }
  let segmentDepth ← P.read read_float
  P.set fun o => { o with segmentDepth := segmentDepth }
  let padding ← P.read read_unsigned_int
  P.set fun o => { o with padding := padding }
  return ()

/-- `SystemIdentifier.parse`, /repo/opendis/dis7.py:1804-1809, statement by statement. -/
def SystemIdentifier.parseInto : P SystemIdentifier Unit := do
  let systemType ← P.read read_unsigned_short
  P.set fun o => { o with systemType := systemType }
  let systemName ← P.read read_unsigned_short
  P.set fun o => { o with systemName := systemName }
  let systemMode ← P.read read_unsigned_short
  P.set fun o => { o with systemMode := systemMode }
  P.call ⟨(·.changeOptions), fun o v => { o with changeOptions := v }⟩ ChangeOptions.parseInto
  return ()

/-- `TrackJamData.parse`, /repo/opendis/dis7.py:1835-1839, statement by statement. -/
def TrackJamData.parseInto : P TrackJamData Unit := do
  P.call ⟨(·.entityID), fun o v => { o with entityID := v }⟩ EntityIdentifier.parseInto
  let emitterNumber ← P.read read_unsigned_byte
  P.set fun o => { o with emitterNumber := emitterNumber }
  let beamNumber ← P.read read_unsigned_byte
  P.set fun o => { o with beamNumber := beamNumber }
  return ()

/-- `AggregateType.parse`, /repo/opendis/dis7.py:1880-1888, statement by statement. -/
def AggregateType.parseInto : P AggregateType Unit := do
  let aggregateKind ← P.read read_unsigned_byte
  P.set fun o => { o with aggregateKind := aggregateKind }
  let domain ← P.read read_unsigned_byte
  P.set fun o => { o with domain := domain }
  let country ← P.read read_unsigned_short
  P.set fun o => { o with country := country }
  let category ← P.read read_unsigned_byte
  P.set fun o => { o with category := category }
  let subcategory ← P.read read_unsigned_byte
  P.set fun o => { o with subcategory := subcategory }
  let specificInfo ← P.read read_unsigned_byte
  P.set fun o => { o with specificInfo := specificInfo }
  let extra ← P.read read_unsigned_byte
  P.set fun o => { o with extra := extra }
  return ()

/-- `SimulationIdentifier.parse`, /repo/opendis/dis7.py:2074-2077, statement by statement. -/
def SimulationIdentifier.parseInto : P SimulationIdentifier Unit := do
  P.call ⟨(·.simulationAddress), fun o v => { o with simulationAddress := v }⟩ SimulationAddress.parseInto
  let referenceNumber ← P.read read_unsigned_short
  P.set fun o => { o with referenceNumber := referenceNumber }
  return ()

/-- `PduHeader.parse`, /repo/opendis/dis7.py:3412-3421, statement by statement. -/
def PduHeader.parseInto : P PduHeader Unit := do
  let protocolVersion ← P.read read_unsigned_byte
  P.set fun o => { o with protocolVersion := protocolVersion }
  let exerciseID ← P.read read_unsigned_byte
  P.set fun o => { o with exerciseID := exerciseID }
  let pduType ← P.read read_unsigned_byte
  P.set fun o => { o with pduType := pduType }
  let protocolFamily ← P.read read_unsigned_byte
  P.set fun o => { o with protocolFamily := protocolFamily }
  let timestamp ← P.read read_unsigned_int
  P.set fun o => { o with timestamp := timestamp }
  let pduLength ← P.read read_unsigned_byte
  P.set fun o => { o with pduLength := pduLength }
  let pduStatus ← P.read read_unsigned_short
  P.set fun o => { o with pduStatus := pduStatus }
  let padding ← P.read read_unsigned_byte
  P.set fun o => { o with padding := padding }
  return ()

/-- `SimulationManagementPduHeader.parse`, /repo/opendis/dis7.py:1915-1919, statement by statement. -/
def SimulationManagementPduHeader.parseInto : P SimulationManagementPduHeader Unit := do
  P.call ⟨(·.pduHeader), fun o v => { o with pduHeader := v }⟩ PduHeader.parseInto
  P.call ⟨(·.originatingID), fun o v => { o with originatingID := v }⟩ SimulationIdentifier.parseInto
  P.call ⟨(·.receivingID), fun o v => { o with receivingID := v }⟩ SimulationIdentifier.parseInto
  return ()

/-- `BeamData.parse`, /repo/opendis/dis7.py:1954-1960, statement by statement. -/
def BeamData.parseInto : P BeamData Unit := do
  let beamAzimuthCenter ← P.read read_float
  P.set fun o => { o with beamAzimuthCenter := beamAzimuthCenter }
  let beamAzimuthSweep ← P.read read_float
  P.set fun o => { o with beamAzimuthSweep := beamAzimuthSweep }
  let beamElevationCenter ← P.read read_float
  P.set fun o => { o with beamElevationCenter := beamElevationCenter }
  let beamElevationSweep ← P.read read_float
  P.set fun o => { o with beamElevationSweep := beamElevationSweep }
  let beamSweepSync ← P.read read_float
  P.set fun o => { o with beamSweepSync := beamSweepSync }
  return ()

/-- `EngineFuel.parse`, /repo/opendis/dis7.py:1992-1998, statement by statement. -/
def EngineFuel.parseInto : P EngineFuel Unit := do
  let fuelQuantity ← P.read read_unsigned_int
  P.set fun o => { o with fuelQuantity := fuelQuantity }
  let fuelMeasurementUnits ← P.read read_unsigned_byte
  P.set fun o => { o with fuelMeasurementUnits := fuelMeasurementUnits }
  let fuelType ← P.read read_unsigned_byte
  P.set fun o => { o with fuelType := fuelType }
  let fuelLocation ← P.read read_unsigned_byte
  P.set fun o => { o with fuelLocation := fuelLocation }
  let padding ← P.read read_unsigned_byte
  P.set fun o => { o with padding := padding }
  return ()

/-- `IOEffect.parse`, /repo/opendis/dis7.py:2037-2047, statement by statement. -/
def IOEffect.parseInto : P IOEffect Unit := do
  let recordType ← P.read read_unsigned_int
  P.set fun o => { o with recordType := recordType }
  let recordLength ← P.read read_unsigned_short
  P.set fun o => { o with recordLength := recordLength }
  let ioStatus ← P.read read_unsigned_byte
  P.set fun o => { o with ioStatus := ioStatus }
  let ioLinkType ← P.read read_unsigned_byte
  P.set fun o => { o with ioLinkType := ioLinkType }
  let ioEffect ← P.read read_unsigned_byte
  P.set fun o => { o with ioEffect := ioEffect }
  let ioEffectDutyCycle ← P.read read_unsigned_byte
  P.set fun o => { o with ioEffectDutyCycle := ioEffectDutyCycle }
  let ioEffectDuration ← P.read read_unsigned_short
  P.set fun o => { o with ioEffectDuration := ioEffectDuration }
  let ioProcess ← P.read read_unsigned_short
  P.set fun o => { o with ioProcess := ioProcess }
  let padding ← P.read read_unsigned_short
  P.set fun o => { o with padding := padding }
  return ()

/-- `GridAxisDescriptorVariable.parse`, /repo/opendis/dis7.py:2139-2155, statement by statement. -/
def GridAxisDescriptorVariable.parseInto : P GridAxisDescriptorVariable Unit := do
  let domainInitialXi ← P.read read_double
  P.set fun o => { o with domainInitialXi := domainInitialXi }
  let domainFinalXi ← P.read read_double
  P.set fun o => { o with domainFinalXi := domainFinalXi }
  let domainPointsXi ← P.read read_unsigned_short
  P.set fun o => { o with domainPointsXi := domainPointsXi }
  let interleafFactor ← P.read read_unsigned_byte
  P.set fun o => { o with interleafFactor := interleafFactor }
  let axisType ← P.read read_unsigned_byte
  P.set fun o => { o with axisType := axisType }
  let numberOfPointsOnXiAxis ← P.read read_unsigned_short
  P.set fun o => { o with numberOfPointsOnXiAxis := numberOfPointsOnXiAxis }
  let initialIndex ← P.read read_unsigned_short
  P.set fun o => { o with initialIndex := initialIndex }
  let coordinateScaleXi ← P.read read_double
  P.set fun o => { o with coordinateScaleXi := coordinateScaleXi }
  let coordinateOffsetXi ← P.read read_double
  P.set fun o => { o with coordinateOffsetXi := coordinateOffsetXi }
  P.appendReads numberOfPointsOnXiAxis.toNat (R.throw .nameError : R Int) ⟨(·.xiValues), fun o v => { o with xiValues := v }⟩
  return ()

/-- `SupplyQuantity.parse`, /repo/opendis/dis7.py:2176-2179, statement by statement. -/
def SupplyQuantity.parseInto : P SupplyQuantity Unit := do
  P.call ⟨(·.supplyType), fun o v => { o with supplyType := v }⟩ EntityType.parseInto
  let quantity ← P.read read_float
  P.set fun o => { o with quantity := quantity }
  return ()

/-- `SilentEntitySystem.parse`, /repo/opendis/dis7.py:2210-2218, statement by statement. -/
def SilentEntitySystem.parseInto : P SilentEntitySystem Unit := do
  let numberOfEntities ← P.read read_unsigned_short
  P.set fun o => { o with numberOfEntities := numberOfEntities }
  let numberOfAppearanceRecords ← P.read read_unsigned_short
  P.call ⟨(·.entityType), fun o v => { o with entityType := v }⟩ EntityType.parseInto
  P.appendReads numberOfAppearanceRecords.toNat (R.throw .nameError : R Int) ⟨(·.appearanceRecordList), fun o v => { o with appearanceRecordList := v }⟩
  return ()

/-- `SilentAggregateSystem.parse`, /repo/opendis/dis7.py:2239-2242, statement by statement. -/
def SilentAggregateSystem.parseInto : P SilentAggregateSystem Unit := do
  let numberOfAggregates ← P.read read_unsigned_short
  P.set fun o => { o with numberOfAggregates := numberOfAggregates }
  P.call ⟨(·.aggregateType), fun o v => { o with aggregateType := v }⟩ AggregateType.parseInto
  return ()

/-- `BlankingSector.parse`, /repo/opendis/dis7.py:2294-2310, statement by statement. -/
def BlankingSector.parseInto : P BlankingSector Unit := do
  let recordType ← P.read read_int
  P.set fun o => { o with recordType := recordType }
  let recordLength ← P.read read_unsigned_short
  P.set fun o => { o with recordLength := recordLength }
  let padding ← P.read read_unsigned_short
  P.set fun o => { o with padding := padding }
  let emitterNumber ← P.read read_unsigned_byte
  P.set fun o => { o with emitterNumber := emitterNumber }
  let beamNumber ← P.read read_unsigned_byte
  P.set fun o => { o with beamNumber := beamNumber }
  let stateIndicator ← P.read read_unsigned_byte
  P.set fun o => { o with stateIndicator := stateIndicator }
  let padding2 ← P.read read_unsigned_byte
  P.set fun o => { o with padding2 := padding2 }
  let leftAzimuth ← P.read read_float
  P.set fun o => { o with leftAzimuth := leftAzimuth }
  let rightAzimuth ← P.read read_float
  P.set fun o => { o with rightAzimuth := rightAzimuth }
  let lowerElevation ← P.read read_float
  P.set fun o => { o with lowerElevation := lowerElevation }
  let upperElevation ← P.read read_float
  P.set fun o => { o with upperElevation := upperElevation }
  let residualPower ← P.read read_float
  P.set fun o => { o with residualPower := residualPower }
  let padding3 ← P.read read_int
  P.set fun o => { o with padding3 := padding3 }
  let padding4 ← P.read read_int
  P.set fun o => { o with padding4 := padding4 }
  return ()

/-- `LaunchedMunitionRecord.parse`, /repo/opendis/dis7.py:2342-2350, statement by statement. -/
def LaunchedMunitionRecord.parseInto : P LaunchedMunitionRecord Unit := do
  P.call ⟨(·.fireEventID), fun o v => { o with fireEventID := v }⟩ EventIdentifier.parseInto
  let padding ← P.read read_unsigned_short
  P.set fun o => { o with padding := padding }
  P.call ⟨(·.firingEntityID), fun o v => { o with firingEntityID := v }⟩ EventIdentifier.parseInto
  let padding2 ← P.read read_unsigned_short
  P.set fun o => { o with padding2 := padding2 }
  P.call ⟨(·.targetEntityID), fun o v => { o with targetEntityID := v }⟩ EventIdentifier.parseInto
  let padding3 ← P.read read_unsigned_short
  P.set fun o => { o with padding3 := padding3 }
  P.call ⟨(·.targetLocation), fun o v => { o with targetLocation := v }⟩ WorldCoordinates.parseInto
  return ()

/-- `IFFFundamentalParameterData.parse`, /repo/opendis/dis7.py:2386-2398, statement by statement. -/
def IFFFundamentalParameterData.parseInto : P IFFFundamentalParameterData Unit := do
  let erp ← P.read read_float
  P.set fun o => { o with erp := erp }
  let frequency ← P.read read_float
  P.set fun o => { o with frequency := frequency }
  let pgrf ← P.read read_float
  P.set fun o => { o with pgrf := pgrf }
  let pulseWidth ← P.read read_float
  P.set fun o => { o with pulseWidth := pulseWidth }
  let burstLength ← P.read read_unsigned_int
  P.set fun o => { o with burstLength := burstLength }
  let applicableModes ← P.read read_unsigned_byte
  P.set fun o => { o with applicableModes := applicableModes }
  P.fillReads 3 read_unsigned_byte ⟨(·.systemSpecificData), fun o v => { o with systemSpecificData := v }⟩
  return ()

/-- `FundamentalOperationalData.parse`, /repo/opendis/dis7.py:2452-2463, statement by statement. -/
def FundamentalOperationalData.parseInto : P FundamentalOperationalData Unit := do
  let systemStatus ← P.read read_unsigned_byte
  P.set fun o => { o with systemStatus := systemStatus }
  let dataField1 ← P.read read_unsigned_byte
  P.set fun o => { o with dataField1 := dataField1 }
  let informationLayers ← P.read read_unsigned_byte
  P.set fun o => { o with informationLayers := informationLayers }
  let dataField2 ← P.read read_unsigned_byte
  P.set fun o => { o with dataField2 := dataField2 }
  let parameter1 ← P.read read_unsigned_short
  P.set fun o => { o with parameter1 := parameter1 }
  let parameter2 ← P.read read_unsigned_short
  P.set fun o => { o with parameter2 := parameter2 }
  let parameter3 ← P.read read_unsigned_short
  P.set fun o => { o with parameter3 := parameter3 }
  let parameter4 ← P.read read_unsigned_short
  P.set fun o => { o with parameter4 := parameter4 }
  let parameter5 ← P.read read_unsigned_short
  P.set fun o => { o with parameter5 := parameter5 }
  let parameter6 ← P.read read_unsigned_short
  P.set fun o => { o with parameter6 := parameter6 }
  return ()

/-- `IntercomCommunicationsParameters.parse`, /repo/opendis/dis7.py:2490-2494, statement by statement. -/
def IntercomCommunicationsParameters.parseInto : P IntercomCommunicationsParameters Unit := do
  let recordType ← P.read read_unsigned_short
  P.set fun o => { o with recordType := recordType }
  let recordLength ← P.read read_unsigned_short
  P.set fun o => { o with recordLength := recordLength }
  let recordSpecificField ← P.read read_unsigned_int
  P.set fun o => { o with recordSpecificField := recordSpecificField }
  return ()

/-- `Munition.parse`, /repo/opendis/dis7.py:2576-2582, statement by statement. -/
def Munition.parseInto : P Munition Unit := do
  P.call ⟨(·.munitionType), fun o v => { o with munitionType := v }⟩ EntityType.parseInto
  let station ← P.read read_unsigned_int
  P.set fun o => { o with station := station }
  let quantity ← P.read read_unsigned_short
  P.set fun o => { o with quantity := quantity }
  let munitionStatus ← P.read read_unsigned_byte
  P.set fun o => { o with munitionStatus := munitionStatus }
  let padding ← P.read read_unsigned_byte
  P.set fun o => { o with padding := padding }
  return ()

/-- `StandardVariableSpecification.parse`, /repo/opendis/dis7.py:2608-2615, statement by statement. -/
def StandardVariableSpecification.parseInto : P StandardVariableSpecification Unit := do
  let numberOfStandardVariableRecords ← P.read read_unsigned_short
  P.appendReads numberOfStandardVariableRecords.toNat (R.throw .nameError : R Int) ⟨(·.standardVariables), fun o v => { o with standardVariables := v }⟩
  return ()

/-- `Vector2Float.parse`, /repo/opendis/dis7.py:2630-2633, statement by statement. -/
def Vector2Float.parseInto : P Vector2Float Unit := do
  let x ← P.read read_float
  P.set fun o => { o with x := x }
  let y ← P.read read_float
  P.set fun o => { o with y := y }
  return ()

/-- `Environment.parse`, /repo/opendis/dis7.py:2663-2668, statement by statement. -/
def Environment.parseInto : P Environment Unit := do
  let environmentType ← P.read read_unsigned_int
  P.set fun o => { o with environmentType := environmentType }
  let length ← P.read read_unsigned_short
  P.set fun o => { o with length := length }
  let index ← P.read read_unsigned_byte
  P.set fun o => { o with index := index }
  let padding ← P.read read_unsigned_byte
  P.set fun o => { o with padding := some padding }
  return ()

/-- `AcousticEmitter.parse`, /repo/opendis/dis7.py:2694-2698, statement by statement. -/
def AcousticEmitter.parseInto : P AcousticEmitter Unit := do
  let acousticSystemName ← P.read read_unsigned_short
  P.set fun o => { o with acousticSystemName := acousticSystemName }
  let acousticFunction ← P.read read_unsigned_byte
  P.set fun o => { o with acousticFunction := acousticFunction }
  let acousticIDNumber ← P.read read_unsigned_byte
  P.set fun o => { o with acousticIDNumber := acousticIDNumber }
  return ()

/-- `AngularVelocityVector.parse`, /repo/opendis/dis7.py:2724-2728, statement by statement. -/
def AngularVelocityVector.parseInto : P AngularVelocityVector Unit := do
  let x ← P.read read_float
  P.set fun o => { o with x := x }
  let y ← P.read read_float
  P.set fun o => { o with y := y }
  let z ← P.read read_float
  P.set fun o => { o with z := z }
  return ()

/-- `AggregateMarking.parse`, /repo/opendis/dis7.py:2752-2759, statement by statement. -/
def AggregateMarking.parseInto : P AggregateMarking Unit := do
  let characterSet ← P.read read_unsigned_byte
  P.set fun o => { o with characterSet := characterSet }
  P.fillReads 31 read_unsigned_byte ⟨(·.characters), fun o v => { o with characters := v }⟩
  return ()

/-- `DataFilterRecord.parse`, /repo/opendis/dis7.py:2779-2781, statement by statement. -/
def DataFilterRecord.parseInto : P DataFilterRecord Unit := do
  let bitFlags ← P.read read_unsigned_int
  P.set fun o => { o with bitFlags := bitFlags }
  return ()

/-- `IntercomIdentifier.parse`, /repo/opendis/dis7.py:2807-2812, statement by statement. -/
def IntercomIdentifier.parseInto : P IntercomIdentifier Unit := do
  let siteNumber ← P.read read_unsigned_short
  P.set fun o => { o with siteNumber := siteNumber }
  let applicationNumber ← P.read read_unsigned_short
  P.set fun o => { o with applicationNumber := applicationNumber }
  let referenceNumber ← P.read read_unsigned_short
  P.set fun o => { o with referenceNumber := referenceNumber }
  let intercomNumber ← P.read read_unsigned_short
  P.set fun o => { o with intercomNumber := intercomNumber }
  return ()

/-- `StorageFuel.parse`, /repo/opendis/dis7.py:2844-2850, statement by statement. -/
def StorageFuel.parseInto : P StorageFuel Unit := do
  let fuelQuantity ← P.read read_unsigned_int
  P.set fun o => { o with fuelQuantity := fuelQuantity }
  let fuelMeasurementUnits ← P.read read_unsigned_byte
  P.set fun o => { o with fuelMeasurementUnits := fuelMeasurementUnits }
  let fuelType ← P.read read_unsigned_byte
  P.set fun o => { o with fuelType := fuelType }
  let fuelLocation ← P.read read_unsigned_byte
  P.set fun o => { o with fuelLocation := fuelLocation }
  let padding ← P.read read_unsigned_byte
  P.set fun o => { o with padding := padding }
  return ()

/-- `Sensor.parse`, /repo/opendis/dis7.py:2886-2893, statement by statement. -/
def Sensor.parseInto : P Sensor Unit := do
  let sensorTypeSource ← P.read read_unsigned_byte
  P.set fun o => { o with sensorTypeSource := sensorTypeSource }
  let sensorOnOffStatus ← P.read read_unsigned_byte
  P.set fun o => { o with sensorOnOffStatus := sensorOnOffStatus }
  let sensorType ← P.read read_unsigned_short
  P.set fun o => { o with sensorType := sensorType }
  let station ← P.read read_unsigned_int
  P.set fun o => { o with station := station }
  let quantity ← P.read read_unsigned_short
  P.set fun o => { o with quantity := quantity }
  let padding ← P.read read_unsigned_short
  P.set fun o => { o with padding := padding }
  return ()

/-- `MunitionReload.parse`, /repo/opendis/dis7.py:2933-2940, statement by statement. -/
def MunitionReload.parseInto : P MunitionReload Unit := do
  P.call ⟨(·.munitionType), fun o v => { o with munitionType := v }⟩ EntityType.parseInto
  let station ← P.read read_unsigned_int
  P.set fun o => { o with station := station }
  let standardQuantity ← P.read read_unsigned_short
  P.set fun o => { o with standardQuantity := standardQuantity }
  let maximumQuantity ← P.read read_unsigned_short
  P.set fun o => { o with maximumQuantity := maximumQuantity }
  let standardQuantityReloadTime ← P.read read_unsigned_int
  P.set fun o => { o with standardQuantityReloadTime := standardQuantityReloadTime }
  let maximumQuantityReloadTime ← P.read read_unsigned_int
  P.set fun o => { o with maximumQuantityReloadTime := maximumQuantityReloadTime }
  return ()

/-- `StorageFuelReload.parse`, /repo/opendis/dis7.py:2987-2996, statement by statement. -/
def StorageFuelReload.parseInto : P StorageFuelReload Unit := do
  let standardQuantity ← P.read read_unsigned_int
  P.set fun o => { o with standardQuantity := standardQuantity }
  let maximumQuantity ← P.read read_unsigned_int
  P.set fun o => { o with maximumQuantity := maximumQuantity }
  let standardQuantityReloadTime ← P.read read_unsigned_byte
  P.set fun o => { o with standardQuantityReloadTime := standardQuantityReloadTime }
  let maximumQuantityReloadTime ← P.read read_unsigned_byte
  P.set fun o => { o with maximumQuantityReloadTime := maximumQuantityReloadTime }
  let fuelMeasurementUnits ← P.read read_unsigned_byte
  P.set fun o => { o with fuelMeasurementUnits := fuelMeasurementUnits }
  let fuelType ← P.read read_unsigned_byte
  P.set fun o => { o with fuelType := fuelType }
  let fuelLocation ← P.read read_unsigned_byte
  P.set fun o => { o with fuelLocation := fuelLocation }
  let padding ← P.read read_unsigned_byte
  P.set fun o => { o with padding := padding }
  return ()

/-- `ExpendableReload.parse`, /repo/opendis/dis7.py:3030-3037, statement by statement. -/
def ExpendableReload.parseInto : P ExpendableReload Unit := do
  P.call ⟨(·.expendable), fun o v => { o with expendable := v }⟩ EntityType.parseInto
  let station ← P.read read_unsigned_int
  P.set fun o => { o with station := station }
  let standardQuantity ← P.read read_unsigned_short
  P.set fun o => { o with standardQuantity := standardQuantity }
  let maximumQuantity ← P.read read_unsigned_short
  P.set fun o => { o with maximumQuantity := maximumQuantity }
  let standardQuantityReloadTime ← P.read read_unsigned_int
  P.set fun o => { o with standardQuantityReloadTime := standardQuantityReloadTime }
  let maximumQuantityReloadTime ← P.read read_unsigned_int
  P.set fun o => { o with maximumQuantityReloadTime := maximumQuantityReloadTime }
  return ()

/-- `EngineFuelReload.parse`, /repo/opendis/dis7.py:3074-3083, statement by statement. -/
def EngineFuelReload.parseInto : P EngineFuelReload Unit := do
  let standardQuantity ← P.read read_unsigned_int
  P.set fun o => { o with standardQuantity := standardQuantity }
  let maximumQuantity ← P.read read_unsigned_int
  P.set fun o => { o with maximumQuantity := maximumQuantity }
  let standardQuantityReloadTime ← P.read read_unsigned_int
  P.set fun o => { o with standardQuantityReloadTime := standardQuantityReloadTime }
  let maximumQuantityReloadTime ← P.read read_unsigned_int
  P.set fun o => { o with maximumQuantityReloadTime := maximumQuantityReloadTime }
  let fuelMeasurmentUnits ← P.read read_unsigned_byte
  P.set fun o => { o with fuelMeasurmentUnits := fuelMeasurmentUnits }
  let fuelLocation ← P.read read_unsigned_byte
  P.set fun o => { o with fuelLocation := fuelLocation }
  let padding ← P.read read_unsigned_byte
  P.set fun o => { o with padding := padding }
  return ()

/-- `UnattachedIdentifier.parse`, /repo/opendis/dis7.py:3106-3109, statement by statement. -/
def UnattachedIdentifier.parseInto : P UnattachedIdentifier Unit := do
  P.call ⟨(·.simulationAddress), fun o v => { o with simulationAddress := v }⟩ SimulationAddress.parseInto
  let referenceNumber ← P.read read_unsigned_short
  P.set fun o => { o with referenceNumber := referenceNumber }
  return ()

/-- `EntityTypeVP.parse`, /repo/opendis/dis7.py:3137-3143, statement by statement. -/
def EntityTypeVP.parseInto : P EntityTypeVP Unit := do
  let recordType ← P.read read_unsigned_byte
  P.set fun o => { o with recordType := recordType }
  let changeIndicator ← P.read read_unsigned_byte
  P.set fun o => { o with changeIndicator := changeIndicator }
  P.call ⟨(·.entityType), fun o v => { o with entityType := v }⟩ EntityType.parseInto
  let padding ← P.read read_unsigned_short
  P.set fun o => { o with padding := padding }
  let padding1 ← P.read read_unsigned_int
  P.set fun o => { o with padding1 := padding1 }
  return ()

/-- `BeamStatus.parse`, /repo/opendis/dis7.py:3162-3165, statement by statement. -/
def BeamStatus.parseInto : P BeamStatus Unit := do
  let value ← P.read read_unsigned_byte
  P.set fun o => { o with beamState := value % 2 }
  return ()

/-- `EnvironmentGeneral.parse`, /repo/opendis/dis7.py:3202-3209, statement by statement. -/
def EnvironmentGeneral.parseInto : P EnvironmentGeneral Unit := do
  let environmentType ← P.read read_unsigned_int
  P.set fun o => { o with environmentType := environmentType }
  let length ← P.read read_unsigned_byte
  P.set fun o => { o with length := length }
  let index ← P.read read_unsigned_byte
  P.set fun o => { o with index := index }
  let padding1 ← P.read read_unsigned_byte
  P.set fun o => { o with padding1 := some padding1 }
  let geometry ← P.read read_unsigned_byte
  P.set fun o => { o with geometry := some geometry }
  let padding2 ← P.read read_unsigned_byte
  P.set fun o => { o with padding2 := padding2 }
  return ()

/-- `GridAxis.parse`, /repo/opendis/dis7.py:3251-3259, statement by statement. -/
def GridAxis.parseInto : P GridAxis Unit := do
  let domainInitialXi ← P.read read_double
  P.set fun o => { o with domainInitialXi := domainInitialXi }
  let domainFinalXi ← P.read read_double
  P.set fun o => { o with domainFinalXi := domainFinalXi }
  let domainPointsXi ← P.read read_unsigned_short
  P.set fun o => { o with domainPointsXi := domainPointsXi }
  let interleafFactor ← P.read read_unsigned_byte
  P.set fun o => { o with interleafFactor := interleafFactor }
  let axisType ← P.read read_unsigned_byte
  P.set fun o => { o with axisType := axisType }
  let numberOfPointsOnXiAxis ← P.read read_unsigned_short
  P.set fun o => { o with numberOfPointsOnXiAxis := numberOfPointsOnXiAxis }
  let initialIndex ← P.read read_unsigned_short
  P.set fun o => { o with initialIndex := initialIndex }
  return ()

/-- `RecordSpecification.parse`, /repo/opendis/dis7.py:3284-3290, statement by statement. -/
def RecordSpecification.parseInto : P RecordSpecification Unit := do
  let numberOfRecordSets ← P.read read_unsigned_int
  P.appendReads numberOfRecordSets.toNat (R.throw .nameError : R RecordSpecificationElement) ⟨(·.recordSets), fun o v => { o with recordSets := v }⟩
  return ()

/-- `EventIdentifierLiveEntity.parse`, /repo/opendis/dis7.py:3363-3367, statement by statement. -/
def EventIdentifierLiveEntity.parseInto : P EventIdentifierLiveEntity Unit := do
  let siteNumber ← P.read read_unsigned_byte
  P.set fun o => { o with siteNumber := siteNumber }
  let applicationNumber ← P.read read_unsigned_byte
  P.set fun o => { o with applicationNumber := applicationNumber }
  let eventNumber ← P.read read_unsigned_short
  P.set fun o => { o with eventNumber := eventNumber }
  return ()

/-- `ExpendableDescriptor.parse`, /repo/opendis/dis7.py:3520-3523, statement by statement. -/
def ExpendableDescriptor.parseInto : P ExpendableDescriptor Unit := do
  P.call ⟨(·.expendableType), fun o v => { o with expendableType := v }⟩ EntityType.parseInto
  let padding ← P.read read_long
  P.set fun o => { o with padding := padding }
  return ()

/-- `PropulsionSystemData.parse`, /repo/opendis/dis7.py:3547-3550, statement by statement. -/
def PropulsionSystemData.parseInto : P PropulsionSystemData Unit := do
  let powerSetting ← P.read read_float
  P.set fun o => { o with powerSetting := powerSetting }
  let engineRpm ← P.read read_float
  P.set fun o => { o with engineRpm := engineRpm }
  return ()

end Dis
