import Verif.Source.Encode1

/-!
# Objects of the model as values, part 2

Written by `tools/gensourceproof.py`.
-/

set_option linter.unusedVariables false
set_option linter.unusedSimpArgs false

namespace Dis.Src

/-- The attributes of a `EntityMarking` object (/repo/opendis/dis7.py:1208-1245). -/
abbrev EntityMarking.fields (x : Dis.EntityMarking) : List (Ident × Val) :=
   [(I.characterSet, .int x.characterSet),
    (I.characters, .list (x.characters.map .int))]

/-- A `EntityMarking` object (/repo/opendis/dis7.py:1208-1245). -/
abbrev EntityMarking.enc (x : Dis.EntityMarking) : Val := .obj I.EntityMarking (EntityMarking.fields x)

/-- The attributes of a `UAFundamentalParameter` object (/repo/opendis/dis7.py:1248-1291). -/
abbrev UAFundamentalParameter.fields (x : Dis.UAFundamentalParameter) : List (Ident × Val) :=
   [(I.activeEmissionParameterIndex, .int x.activeEmissionParameterIndex),
    (I.scanPattern, .int x.scanPattern),
    (I.beamCenterAzimuthHorizontal, .float x.beamCenterAzimuthHorizontal),
    (I.beamCenterDepressionElevation, .float x.beamCenterDepressionElevation),
    (I.beamwidthDownElevation, .float x.beamwidthDownElevation),
    (I.azimuthalBeamwidthHorizontal, .float x.azimuthalBeamwidthHorizontal)]

/-- A `UAFundamentalParameter` object (/repo/opendis/dis7.py:1248-1291). -/
abbrev UAFundamentalParameter.enc (x : Dis.UAFundamentalParameter) : Val := .obj I.UAFundamentalParameter (UAFundamentalParameter.fields x)

/-- The attributes of a `ExplosionDescriptor` object (/repo/opendis/dis7.py:1294-1324). -/
abbrev ExplosionDescriptor.fields (x : Dis.ExplosionDescriptor) : List (Ident × Val) :=
   [(I.padding, .int x.padding),
    (I.explodingObject, EntityType.enc x.explodingObject),
    (I.explosiveMaterial, .int x.explosiveMaterial),
    (I.explosiveForce, .float x.explosiveForce)]

/-- A `ExplosionDescriptor` object (/repo/opendis/dis7.py:1294-1324). -/
abbrev ExplosionDescriptor.enc (x : Dis.ExplosionDescriptor) : Val := .obj I.ExplosionDescriptor (ExplosionDescriptor.fields x)

/-- The attributes of a `ClockTime` object (/repo/opendis/dis7.py:1327-1352). -/
abbrev ClockTime.fields (x : Dis.ClockTime) : List (Ident × Val) :=
   [(I.hour, .int x.hour),
    (I.timePastHour, .int x.timePastHour)]

/-- A `ClockTime` object (/repo/opendis/dis7.py:1327-1352). -/
abbrev ClockTime.enc (x : Dis.ClockTime) : Val := .obj I.ClockTime (ClockTime.fields x)

/-- The attributes of a `SecondaryOperationalData` object (/repo/opendis/dis7.py:1355-1386). -/
abbrev SecondaryOperationalData.fields (x : Dis.SecondaryOperationalData) : List (Ident × Val) :=
   [(I.operationalData1, .int x.operationalData1),
    (I.operationalData2, .int x.operationalData2),
    (I.numberOfIFFFundamentalParameterRecords, .int x.numberOfIFFFundamentalParameterRecords)]

/-- A `SecondaryOperationalData` object (/repo/opendis/dis7.py:1355-1386). -/
abbrev SecondaryOperationalData.enc (x : Dis.SecondaryOperationalData) : Val := .obj I.SecondaryOperationalData (SecondaryOperationalData.fields x)

/-- The attributes of a `EnvironmentType` object (/repo/opendis/dis7.py:1389-1433). -/
abbrev EnvironmentType.fields (x : Dis.EnvironmentType) : List (Ident × Val) :=
   [(I.domain, .int x.domain),
    (I.category, .int x.category),
    (I.subcategory, .int x.subcategory),
    (I.specific, .int x.specific),
    (I.extra, .int x.extra),
    (I.entityKind, .int x.entityKind),
    (I.entityClass, .int x.entityClass)]

/-- A `EnvironmentType` object (/repo/opendis/dis7.py:1389-1433). -/
abbrev EnvironmentType.enc (x : Dis.EnvironmentType) : Val := .obj I.EnvironmentType (EnvironmentType.fields x)

/-- The attributes of a `TotalRecordSets` object (/repo/opendis/dis7.py:1436-1453). -/
abbrev TotalRecordSets.fields (x : Dis.TotalRecordSets) : List (Ident × Val) :=
   [(I.padding, .int x.padding),
    (I.totalRecordSets, .int x.totalRecordSets)]

/-- A `TotalRecordSets` object (/repo/opendis/dis7.py:1436-1453). -/
abbrev TotalRecordSets.enc (x : Dis.TotalRecordSets) : Val := .obj I.TotalRecordSets (TotalRecordSets.fields x)

/-- The attributes of a `MineEntityIdentifier` object (/repo/opendis/dis7.py:1456-1477). -/
abbrev MineEntityIdentifier.fields (x : Dis.MineEntityIdentifier) : List (Ident × Val) :=
   [(I.simulationAddress, SimulationAddress.enc x.simulationAddress),
    (I.mineEntityNumber, .int x.mineEntityNumber)]

/-- A `MineEntityIdentifier` object (/repo/opendis/dis7.py:1456-1477). -/
abbrev MineEntityIdentifier.enc (x : Dis.MineEntityIdentifier) : Val := .obj I.MineEntityIdentifier (MineEntityIdentifier.fields x)

/-- The attributes of a `Relationship` object (/repo/opendis/dis7.py:1480-1502). -/
abbrev Relationship.fields (x : Dis.Relationship) : List (Ident × Val) :=
   [(I.nature, .int x.nature),
    (I.position, .int x.position)]

/-- A `Relationship` object (/repo/opendis/dis7.py:1480-1502). -/
abbrev Relationship.enc (x : Dis.Relationship) : Val := .obj I.Relationship (Relationship.fields x)

/-- The attributes of a `EEFundamentalParameterData` object (/repo/opendis/dis7.py:1505-1563). -/
abbrev EEFundamentalParameterData.fields (x : Dis.EEFundamentalParameterData) : List (Ident × Val) :=
   [(I.frequency, .float x.frequency),
    (I.frequencyRange, .float x.frequencyRange),
    (I.effectiveRadiatedPower, .float x.effectiveRadiatedPower),
    (I.pulseRepetitionFrequency, .float x.pulseRepetitionFrequency),
    (I.pulseWidth, .float x.pulseWidth),
    (I.beamAzimuthCenter, .float x.beamAzimuthCenter),
    (I.beamAzimuthSweep, .float x.beamAzimuthSweep),
    (I.beamElevationCenter, .float x.beamElevationCenter),
    (I.beamElevationSweep, .float x.beamElevationSweep),
    (I.beamSweepSync, .float x.beamSweepSync)]

/-- A `EEFundamentalParameterData` object (/repo/opendis/dis7.py:1505-1563). -/
abbrev EEFundamentalParameterData.enc (x : Dis.EEFundamentalParameterData) : Val := .obj I.EEFundamentalParameterData (EEFundamentalParameterData.fields x)

/-- A `EEFundamentalParameterData` object of the model, and what the attributes hold that the constructor gives an integer (/repo/opendis/dis7.py:1505-1563). -/
structure EEFundamentalParameterData.Raw where
  obj : Dis.EEFundamentalParameterData
  frequencyRange : Val
  effectiveRadiatedPower : Val

/-- The object of the model (/repo/opendis/dis7.py:1505-1563). -/
abbrev EEFundamentalParameterData.Raw.out (r : EEFundamentalParameterData.Raw) : Dis.EEFundamentalParameterData := r.obj

/-- Its attributes (/repo/opendis/dis7.py:1505-1563). -/
abbrev EEFundamentalParameterData.rawFields (r : EEFundamentalParameterData.Raw) : List (Ident × Val) :=
   [(I.frequency, .float r.obj.frequency),
    (I.frequencyRange, r.frequencyRange),
    (I.effectiveRadiatedPower, r.effectiveRadiatedPower),
    (I.pulseRepetitionFrequency, .float r.obj.pulseRepetitionFrequency),
    (I.pulseWidth, .float r.obj.pulseWidth),
    (I.beamAzimuthCenter, .float r.obj.beamAzimuthCenter),
    (I.beamAzimuthSweep, .float r.obj.beamAzimuthSweep),
    (I.beamElevationCenter, .float r.obj.beamElevationCenter),
    (I.beamElevationSweep, .float r.obj.beamElevationSweep),
    (I.beamSweepSync, .float r.obj.beamSweepSync)]

/-- What the constructor makes (/repo/opendis/dis7.py:1505-1563). -/
abbrev EEFundamentalParameterData.made : EEFundamentalParameterData.Raw := ⟨Dis.EEFundamentalParameterData.init, .int 0, .int 0⟩

/-- `EEFundamentalParameterData.parse` (/repo/opendis/dis7.py:1552-1563). -/
def EEFundamentalParameterData.parseRaw : P EEFundamentalParameterData.Raw Unit := do
  let frequency ← P.read read_float
  P.set fun o => { o with obj := { o.obj with frequency := frequency } }
  let frequencyRange ← P.read read_float
  P.set fun o => { o with obj := { o.obj with frequencyRange := frequencyRange }, frequencyRange := .float frequencyRange }
  let effectiveRadiatedPower ← P.read read_float
  P.set fun o => { o with obj := { o.obj with effectiveRadiatedPower := effectiveRadiatedPower }, effectiveRadiatedPower := .float effectiveRadiatedPower }
  let pulseRepetitionFrequency ← P.read read_float
  P.set fun o => { o with obj := { o.obj with pulseRepetitionFrequency := pulseRepetitionFrequency } }
  let pulseWidth ← P.read read_float
  P.set fun o => { o with obj := { o.obj with pulseWidth := pulseWidth } }
  let beamAzimuthCenter ← P.read read_float
  P.set fun o => { o with obj := { o.obj with beamAzimuthCenter := beamAzimuthCenter } }
  let beamAzimuthSweep ← P.read read_float
  P.set fun o => { o with obj := { o.obj with beamAzimuthSweep := beamAzimuthSweep } }
  let beamElevationCenter ← P.read read_float
  P.set fun o => { o with obj := { o.obj with beamElevationCenter := beamElevationCenter } }
  let beamElevationSweep ← P.read read_float
  P.set fun o => { o with obj := { o.obj with beamElevationSweep := beamElevationSweep } }
  let beamSweepSync ← P.read read_float
  P.set fun o => { o with obj := { o.obj with beamSweepSync := beamSweepSync } }
  return ()
/-- The attributes of a `JammingTechnique` object (/repo/opendis/dis7.py:1566-1590). -/
abbrev JammingTechnique.fields (x : Dis.JammingTechnique) : List (Ident × Val) :=
   [(I.category, .int x.category),
    (I.subcategory, .int x.subcategory),
    (I.specific, .int x.specific),
    (I.kind, .int x.kind)]

/-- A `JammingTechnique` object (/repo/opendis/dis7.py:1566-1590). -/
abbrev JammingTechnique.enc (x : Dis.JammingTechnique) : Val := .obj I.JammingTechnique (JammingTechnique.fields x)

/-- The attributes of a `Expendable` object (/repo/opendis/dis7.py:1640-1672). -/
abbrev Expendable.fields (x : Dis.Expendable) : List (Ident × Val) :=
   [(I.padding, .int x.padding),
    (I.quantity, .int x.quantity),
    (I.expendable, EntityType.enc x.expendable),
    (I.station, .int x.station),
    (I.expendableStatus, .int x.expendableStatus)]

/-- A `Expendable` object (/repo/opendis/dis7.py:1640-1672). -/
abbrev Expendable.enc (x : Dis.Expendable) : Val := .obj I.Expendable (Expendable.fields x)

/-- The attributes of a `CommunicationsNodeID` object (/repo/opendis/dis7.py:3481-3501). -/
abbrev CommunicationsNodeID.fields (x : Dis.CommunicationsNodeID) : List (Ident × Val) :=
   [(I.entityID, EntityIdentifier.enc x.entityID),
    (I.elementID, .int x.elementID)]

/-- A `CommunicationsNodeID` object (/repo/opendis/dis7.py:3481-3501). -/
abbrev CommunicationsNodeID.enc (x : Dis.CommunicationsNodeID) : Val := .obj I.CommunicationsNodeID (CommunicationsNodeID.fields x)

/-- The attributes of a `IOCommunicationsNode` object (/repo/opendis/dis7.py:1675-1705). -/
abbrev IOCommunicationsNode.fields (x : Dis.IOCommunicationsNode) : List (Ident × Val) :=
   [(I.padding, .int x.padding),
    (I.recordType, .int x.recordType),
    (I.recordLength, .int x.recordLength),
    (I.communicationsNodeID, CommunicationsNodeID.enc x.communicationsNodeID),
    (I.communcationsNodeType, .int x.communcationsNodeType)]

/-- A `IOCommunicationsNode` object (/repo/opendis/dis7.py:1675-1705). -/
abbrev IOCommunicationsNode.enc (x : Dis.IOCommunicationsNode) : Val := .obj I.IOCommunicationsNode (IOCommunicationsNode.fields x)

/-- The attributes of a `LinearSegmentParameter` object (/repo/opendis/dis7.py:1708-1774). -/
abbrev LinearSegmentParameter.fields (x : Dis.LinearSegmentParameter) : List (Ident × Val) :=
   [(I.padding, .int x.padding),
    (I.segmentNumber, .int x.segmentNumber),
    (I.segmentModification, .int x.segmentModification),
    (I.generalSegmentAppearance, .int x.generalSegmentAppearance),
    (I.specificSegmentAppearance, .int x.specificSegmentAppearance),
    (I.segmentLocation, WorldCoordinates.enc x.segmentLocation),
    (I.segmentOrientation, EulerAngles.enc x.segmentOrientation),
    (I.segmentLength, .float x.segmentLength),
    (I.segmentWidth, .float x.segmentWidth),
    (I.segmentHeight, .float x.segmentHeight),
    (I.segmentDepth, .float x.segmentDepth)]

/-- A `LinearSegmentParameter` object (/repo/opendis/dis7.py:1708-1774). -/
abbrev LinearSegmentParameter.enc (x : Dis.LinearSegmentParameter) : Val := .obj I.LinearSegmentParameter (LinearSegmentParameter.fields x)

/-- The attributes of a `SystemIdentifier` object (/repo/opendis/dis7.py:1777-1809). -/
abbrev SystemIdentifier.fields (x : Dis.SystemIdentifier) : List (Ident × Val) :=
   [(I.systemType, .int x.systemType),
    (I.systemName, .int x.systemName),
    (I.systemMode, .int x.systemMode),
    (I.changeOptions, ChangeOptions.enc x.changeOptions)]

/-- A `SystemIdentifier` object (/repo/opendis/dis7.py:1777-1809). -/
abbrev SystemIdentifier.enc (x : Dis.SystemIdentifier) : Val := .obj I.SystemIdentifier (SystemIdentifier.fields x)

/-- The attributes of a `TrackJamData` object (/repo/opendis/dis7.py:1812-1839). -/
abbrev TrackJamData.fields (x : Dis.TrackJamData) : List (Ident × Val) :=
   [(I.emitterNumber, .int x.emitterNumber),
    (I.beamNumber, .int x.beamNumber),
    (I.entityID, EntityIdentifier.enc x.entityID)]

/-- A `TrackJamData` object (/repo/opendis/dis7.py:1812-1839). -/
abbrev TrackJamData.enc (x : Dis.TrackJamData) : Val := .obj I.TrackJamData (TrackJamData.fields x)

/-- The attributes of a `AggregateType` object (/repo/opendis/dis7.py:1842-1888). -/
abbrev AggregateType.fields (x : Dis.AggregateType) : List (Ident × Val) :=
   [(I.domain, .int x.domain),
    (I.country, .int x.country),
    (I.category, .int x.category),
    (I.subcategory, .int x.subcategory),
    (I.extra, .int x.extra),
    (I.aggregateKind, .int x.aggregateKind),
    (I.specificInfo, .int x.specificInfo)]

/-- A `AggregateType` object (/repo/opendis/dis7.py:1842-1888). -/
abbrev AggregateType.enc (x : Dis.AggregateType) : Val := .obj I.AggregateType (AggregateType.fields x)

/-- The attributes of a `SimulationIdentifier` object (/repo/opendis/dis7.py:2050-2077). -/
abbrev SimulationIdentifier.fields (x : Dis.SimulationIdentifier) : List (Ident × Val) :=
   [(I.simulationAddress, SimulationAddress.enc x.simulationAddress),
    (I.referenceNumber, .int x.referenceNumber)]

/-- A `SimulationIdentifier` object (/repo/opendis/dis7.py:2050-2077). -/
abbrev SimulationIdentifier.enc (x : Dis.SimulationIdentifier) : Val := .obj I.SimulationIdentifier (SimulationIdentifier.fields x)

/-- The attributes of a `PduHeader` object (/repo/opendis/dis7.py:3370-3421). -/
abbrev PduHeader.fields (x : Dis.PduHeader) : List (Ident × Val) :=
   [(I.protocolVersion, .int x.protocolVersion),
    (I.exerciseID, .int x.exerciseID),
    (I.timestamp, .int x.timestamp),
    (I.pduType, .int x.pduType),
    (I.protocolFamily, .int x.protocolFamily),
    (I.pduStatus, .int x.pduStatus),
    (I.padding, .int x.padding),
    (I.pduLength, .int x.pduLength)]

/-- A `PduHeader` object (/repo/opendis/dis7.py:3370-3421). -/
abbrev PduHeader.enc (x : Dis.PduHeader) : Val := .obj I.PduHeader (PduHeader.fields x)

/-- The attributes of a `SimulationManagementPduHeader` object (/repo/opendis/dis7.py:1891-1919). -/
abbrev SimulationManagementPduHeader.fields (x : Dis.SimulationManagementPduHeader) : List (Ident × Val) :=
   [(I.pduHeader, PduHeader.enc x.pduHeader),
    (I.originatingID, SimulationIdentifier.enc x.originatingID),
    (I.receivingID, SimulationIdentifier.enc x.receivingID)]

/-- A `SimulationManagementPduHeader` object (/repo/opendis/dis7.py:1891-1919). -/
abbrev SimulationManagementPduHeader.enc (x : Dis.SimulationManagementPduHeader) : Val := .obj I.SimulationManagementPduHeader (SimulationManagementPduHeader.fields x)

/-- The attributes of a `BeamData` object (/repo/opendis/dis7.py:1922-1960). -/
abbrev BeamData.fields (x : Dis.BeamData) : List (Ident × Val) :=
   [(I.beamAzimuthCenter, .float x.beamAzimuthCenter),
    (I.beamAzimuthSweep, .float x.beamAzimuthSweep),
    (I.beamElevationCenter, .float x.beamElevationCenter),
    (I.beamElevationSweep, .float x.beamElevationSweep),
    (I.beamSweepSync, .float x.beamSweepSync)]

/-- A `BeamData` object (/repo/opendis/dis7.py:1922-1960). -/
abbrev BeamData.enc (x : Dis.BeamData) : Val := .obj I.BeamData (BeamData.fields x)

/-- The attributes of a `EngineFuel` object (/repo/opendis/dis7.py:1963-1998). -/
abbrev EngineFuel.fields (x : Dis.EngineFuel) : List (Ident × Val) :=
   [(I.padding, .int x.padding),
    (I.fuelQuantity, .int x.fuelQuantity),
    (I.fuelMeasurementUnits, .int x.fuelMeasurementUnits),
    (I.fuelType, .int x.fuelType),
    (I.fuelLocation, .int x.fuelLocation)]

/-- A `EngineFuel` object (/repo/opendis/dis7.py:1963-1998). -/
abbrev EngineFuel.enc (x : Dis.EngineFuel) : Val := .obj I.EngineFuel (EngineFuel.fields x)

/-- The attributes of a `IOEffect` object (/repo/opendis/dis7.py:2001-2047). -/
abbrev IOEffect.fields (x : Dis.IOEffect) : List (Ident × Val) :=
   [(I.padding, .int x.padding),
    (I.recordType, .int x.recordType),
    (I.recordLength, .int x.recordLength),
    (I.ioStatus, .int x.ioStatus),
    (I.ioLinkType, .int x.ioLinkType),
    (I.ioEffect, .int x.ioEffect),
    (I.ioEffectDutyCycle, .int x.ioEffectDutyCycle),
    (I.ioEffectDuration, .int x.ioEffectDuration),
    (I.ioProcess, .int x.ioProcess)]

/-- A `IOEffect` object (/repo/opendis/dis7.py:2001-2047). -/
abbrev IOEffect.enc (x : Dis.IOEffect) : Val := .obj I.IOEffect (IOEffect.fields x)

/-- The attributes of a `GridAxisDescriptorVariable` object (/repo/opendis/dis7.py:2080-2155). -/
abbrev GridAxisDescriptorVariable.fields (x : Dis.GridAxisDescriptorVariable) : List (Ident × Val) :=
   [(I.domainInitialXi, .float x.domainInitialXi),
    (I.domainFinalXi, .float x.domainFinalXi),
    (I.domainPointsXi, .int x.domainPointsXi),
    (I.interleafFactor, .int x.interleafFactor),
    (I.axisType, .int x.axisType),
    (I.numberOfPointsOnXiAxis, .int x.numberOfPointsOnXiAxis),
    (I.initialIndex, .int x.initialIndex),
    (I.coordinateScaleXi, .float x.coordinateScaleXi),
    (I.coordinateOffsetXi, .float x.coordinateOffsetXi),
    (I.xiValues, .list (x.xiValues.map .int))]

/-- A `GridAxisDescriptorVariable` object (/repo/opendis/dis7.py:2080-2155). -/
abbrev GridAxisDescriptorVariable.enc (x : Dis.GridAxisDescriptorVariable) : Val := .obj I.GridAxisDescriptorVariable (GridAxisDescriptorVariable.fields x)

/-- The attributes of a `SupplyQuantity` object (/repo/opendis/dis7.py:2158-2179). -/
abbrev SupplyQuantity.fields (x : Dis.SupplyQuantity) : List (Ident × Val) :=
   [(I.quantity, .float x.quantity),
    (I.supplyType, EntityType.enc x.supplyType)]

/-- A `SupplyQuantity` object (/repo/opendis/dis7.py:2158-2179). -/
abbrev SupplyQuantity.enc (x : Dis.SupplyQuantity) : Val := .obj I.SupplyQuantity (SupplyQuantity.fields x)

/-- The attributes of a `SilentEntitySystem` object (/repo/opendis/dis7.py:2182-2218). -/
abbrev SilentEntitySystem.fields (x : Dis.SilentEntitySystem) : List (Ident × Val) :=
   [(I.numberOfEntities, .int x.numberOfEntities),
    (I.entityType, EntityType.enc x.entityType),
    (I.appearanceRecordList, .list (x.appearanceRecordList.map .int))]

/-- A `SilentEntitySystem` object (/repo/opendis/dis7.py:2182-2218). -/
abbrev SilentEntitySystem.enc (x : Dis.SilentEntitySystem) : Val := .obj I.SilentEntitySystem (SilentEntitySystem.fields x)

/-- The attributes of a `BlankingSector` object (/repo/opendis/dis7.py:2245-2310). -/
abbrev BlankingSector.fields (x : Dis.BlankingSector) : List (Ident × Val) :=
   [(I.padding, .int x.padding),
    (I.recordType, .int x.recordType),
    (I.recordLength, .int x.recordLength),
    (I.padding2, .int x.padding2),
    (I.padding3, .int x.padding3),
    (I.emitterNumber, .int x.emitterNumber),
    (I.beamNumber, .int x.beamNumber),
    (I.stateIndicator, .int x.stateIndicator),
    (I.padding4, .int x.padding4),
    (I.leftAzimuth, .float x.leftAzimuth),
    (I.rightAzimuth, .float x.rightAzimuth),
    (I.lowerElevation, .float x.lowerElevation),
    (I.upperElevation, .float x.upperElevation),
    (I.residualPower, .float x.residualPower)]

/-- A `BlankingSector` object (/repo/opendis/dis7.py:2245-2310). -/
abbrev BlankingSector.enc (x : Dis.BlankingSector) : Val := .obj I.BlankingSector (BlankingSector.fields x)

/-- The attributes of a `LaunchedMunitionRecord` object (/repo/opendis/dis7.py:2313-2350). -/
abbrev LaunchedMunitionRecord.fields (x : Dis.LaunchedMunitionRecord) : List (Ident × Val) :=
   [(I.padding, .int x.padding),
    (I.firingEntityID, EventIdentifier.enc x.firingEntityID),
    (I.targetEntityID, EventIdentifier.enc x.targetEntityID),
    (I.padding2, .int x.padding2),
    (I.padding3, .int x.padding3),
    (I.fireEventID, EventIdentifier.enc x.fireEventID),
    (I.targetLocation, WorldCoordinates.enc x.targetLocation)]

/-- A `LaunchedMunitionRecord` object (/repo/opendis/dis7.py:2313-2350). -/
abbrev LaunchedMunitionRecord.enc (x : Dis.LaunchedMunitionRecord) : Val := .obj I.LaunchedMunitionRecord (LaunchedMunitionRecord.fields x)

/-- The attributes of a `IFFFundamentalParameterData` object (/repo/opendis/dis7.py:2353-2398). -/
abbrev IFFFundamentalParameterData.fields (x : Dis.IFFFundamentalParameterData) : List (Ident × Val) :=
   [(I.frequency, .float x.frequency),
    (I.pulseWidth, .float x.pulseWidth),
    (I.erp, .float x.erp),
    (I.pgrf, .float x.pgrf),
    (I.burstLength, .int x.burstLength),
    (I.applicableModes, .int x.applicableModes),
    (I.systemSpecificData, .list (x.systemSpecificData.map .int))]

/-- A `IFFFundamentalParameterData` object (/repo/opendis/dis7.py:2353-2398). -/
abbrev IFFFundamentalParameterData.enc (x : Dis.IFFFundamentalParameterData) : Val := .obj I.IFFFundamentalParameterData (IFFFundamentalParameterData.fields x)

/-- The attributes of a `FundamentalOperationalData` object (/repo/opendis/dis7.py:2401-2463). -/
abbrev FundamentalOperationalData.fields (x : Dis.FundamentalOperationalData) : List (Ident × Val) :=
   [(I.systemStatus, .int x.systemStatus),
    (I.dataField1, .int x.dataField1),
    (I.informationLayers, .int x.informationLayers),
    (I.dataField2, .int x.dataField2),
    (I.parameter1, .int x.parameter1),
    (I.parameter2, .int x.parameter2),
    (I.parameter3, .int x.parameter3),
    (I.parameter4, .int x.parameter4),
    (I.parameter5, .int x.parameter5),
    (I.parameter6, .int x.parameter6)]

/-- A `FundamentalOperationalData` object (/repo/opendis/dis7.py:2401-2463). -/
abbrev FundamentalOperationalData.enc (x : Dis.FundamentalOperationalData) : Val := .obj I.FundamentalOperationalData (FundamentalOperationalData.fields x)

/-- The attributes of a `IntercomCommunicationsParameters` object (/repo/opendis/dis7.py:2466-2494). -/
abbrev IntercomCommunicationsParameters.fields (x : Dis.IntercomCommunicationsParameters) : List (Ident × Val) :=
   [(I.recordType, .int x.recordType),
    (I.recordLength, .int x.recordLength),
    (I.recordSpecificField, .int x.recordSpecificField)]

/-- A `IntercomCommunicationsParameters` object (/repo/opendis/dis7.py:2466-2494). -/
abbrev IntercomCommunicationsParameters.enc (x : Dis.IntercomCommunicationsParameters) : Val := .obj I.IntercomCommunicationsParameters (IntercomCommunicationsParameters.fields x)

/-- The attributes of a `Munition` object (/repo/opendis/dis7.py:2543-2582). -/
abbrev Munition.fields (x : Dis.Munition) : List (Ident × Val) :=
   [(I.padding, .int x.padding),
    (I.munitionType, EntityType.enc x.munitionType),
    (I.quantity, .int x.quantity),
    (I.station, .int x.station),
    (I.munitionStatus, .int x.munitionStatus)]

/-- A `Munition` object (/repo/opendis/dis7.py:2543-2582). -/
abbrev Munition.enc (x : Dis.Munition) : Val := .obj I.Munition (Munition.fields x)

/-- The attributes of a `StandardVariableSpecification` object (/repo/opendis/dis7.py:2585-2615). -/
abbrev StandardVariableSpecification.fields (x : Dis.StandardVariableSpecification) : List (Ident × Val) :=
   [(I.standardVariables, .list (x.standardVariables.map .int))]

/-- A `StandardVariableSpecification` object (/repo/opendis/dis7.py:2585-2615). -/
abbrev StandardVariableSpecification.enc (x : Dis.StandardVariableSpecification) : Val := .obj I.StandardVariableSpecification (StandardVariableSpecification.fields x)

/-- The attributes of a `Vector2Float` object (/repo/opendis/dis7.py:2618-2633). -/
abbrev Vector2Float.fields (x : Dis.Vector2Float) : List (Ident × Val) :=
   [(I.x, .float x.x),
    (I.y, .float x.y)]

/-- A `Vector2Float` object (/repo/opendis/dis7.py:2618-2633). -/
abbrev Vector2Float.enc (x : Dis.Vector2Float) : Val := .obj I.Vector2Float (Vector2Float.fields x)

/-- The attributes of a `AcousticEmitter` object (/repo/opendis/dis7.py:2671-2698). -/
abbrev AcousticEmitter.fields (x : Dis.AcousticEmitter) : List (Ident × Val) :=
   [(I.acousticSystemName, .int x.acousticSystemName),
    (I.acousticFunction, .int x.acousticFunction),
    (I.acousticIDNumber, .int x.acousticIDNumber)]

/-- A `AcousticEmitter` object (/repo/opendis/dis7.py:2671-2698). -/
abbrev AcousticEmitter.enc (x : Dis.AcousticEmitter) : Val := .obj I.AcousticEmitter (AcousticEmitter.fields x)

/-- The attributes of a `AngularVelocityVector` object (/repo/opendis/dis7.py:2701-2728). -/
abbrev AngularVelocityVector.fields (x : Dis.AngularVelocityVector) : List (Ident × Val) :=
   [(I.x, .float x.x),
    (I.y, .float x.y),
    (I.z, .float x.z)]

/-- A `AngularVelocityVector` object (/repo/opendis/dis7.py:2701-2728). -/
abbrev AngularVelocityVector.enc (x : Dis.AngularVelocityVector) : Val := .obj I.AngularVelocityVector (AngularVelocityVector.fields x)

/-- A `AngularVelocityVector` object of the model, and what the attributes hold that the constructor gives an integer (/repo/opendis/dis7.py:2701-2728). -/
structure AngularVelocityVector.Raw where
  obj : Dis.AngularVelocityVector
  x : Val
  y : Val
  z : Val

/-- The object of the model (/repo/opendis/dis7.py:2701-2728). -/
abbrev AngularVelocityVector.Raw.out (r : AngularVelocityVector.Raw) : Dis.AngularVelocityVector := r.obj

/-- Its attributes (/repo/opendis/dis7.py:2701-2728). -/
abbrev AngularVelocityVector.rawFields (r : AngularVelocityVector.Raw) : List (Ident × Val) :=
   [(I.x, r.x),
    (I.y, r.y),
    (I.z, r.z)]

/-- What the constructor makes (/repo/opendis/dis7.py:2701-2728). -/
abbrev AngularVelocityVector.made : AngularVelocityVector.Raw := ⟨Dis.AngularVelocityVector.init, .int 0, .int 0, .int 0⟩

/-- `AngularVelocityVector.parse` (/repo/opendis/dis7.py:2724-2728). -/
def AngularVelocityVector.parseRaw : P AngularVelocityVector.Raw Unit := do
  let x ← P.read read_float
  P.set fun o => { o with obj := { o.obj with x := x }, x := .float x }
  let y ← P.read read_float
  P.set fun o => { o with obj := { o.obj with y := y }, y := .float y }
  let z ← P.read read_float
  P.set fun o => { o with obj := { o.obj with z := z }, z := .float z }
  return ()
/-- The attributes of a `AggregateMarking` object (/repo/opendis/dis7.py:2731-2759). -/
abbrev AggregateMarking.fields (x : Dis.AggregateMarking) : List (Ident × Val) :=
   [(I.characterSet, .int x.characterSet),
    (I.characters, .list (x.characters.map .int))]

/-- A `AggregateMarking` object (/repo/opendis/dis7.py:2731-2759). -/
abbrev AggregateMarking.enc (x : Dis.AggregateMarking) : Val := .obj I.AggregateMarking (AggregateMarking.fields x)

/-- The attributes of a `DataFilterRecord` object (/repo/opendis/dis7.py:2762-2781). -/
abbrev DataFilterRecord.fields (x : Dis.DataFilterRecord) : List (Ident × Val) :=
   [(I.bitFlags, .int x.bitFlags)]

/-- A `DataFilterRecord` object (/repo/opendis/dis7.py:2762-2781). -/
abbrev DataFilterRecord.enc (x : Dis.DataFilterRecord) : Val := .obj I.DataFilterRecord (DataFilterRecord.fields x)

/-- The attributes of a `IntercomIdentifier` object (/repo/opendis/dis7.py:2784-2812). -/
abbrev IntercomIdentifier.fields (x : Dis.IntercomIdentifier) : List (Ident × Val) :=
   [(I.siteNumber, .int x.siteNumber),
    (I.applicationNumber, .int x.applicationNumber),
    (I.referenceNumber, .int x.referenceNumber),
    (I.intercomNumber, .int x.intercomNumber)]

/-- A `IntercomIdentifier` object (/repo/opendis/dis7.py:2784-2812). -/
abbrev IntercomIdentifier.enc (x : Dis.IntercomIdentifier) : Val := .obj I.IntercomIdentifier (IntercomIdentifier.fields x)

end Dis.Src
