import Verif.Spec.SourceCatalog
import Verif.Proof.SourceLaws
import Verif.Proof.SourceRun2
import Verif.Proof.SourceLaw1

/-!
# The classes with their laws, part 2

Written by `tools/gensourceproof.py`.
-/

set_option linter.unusedVariables false
set_option linter.unusedSimpArgs false

namespace Dis.Src

theorem EntityMarking.inj : ∀ {x y : Dis.EntityMarking}, EntityMarking.fields x = EntityMarking.fields y → x = y := by
  rintro ⟨a0, a1⟩ ⟨b0, b1⟩ h
  obtain rfl : a0 = b0 := int_inj (congrArg (look I.characterSet) h)
  obtain rfl : a1 = b1 := list_inj ints_inj (congrArg (look I.characters) h)
  rfl

theorem UAFundamentalParameter.inj : ∀ {x y : Dis.UAFundamentalParameter}, UAFundamentalParameter.fields x = UAFundamentalParameter.fields y → x = y := by
  rintro ⟨a0, a1, a2, a3, a4, a5⟩ ⟨b0, b1, b2, b3, b4, b5⟩ h
  obtain rfl : a0 = b0 := int_inj (congrArg (look I.activeEmissionParameterIndex) h)
  obtain rfl : a1 = b1 := int_inj (congrArg (look I.scanPattern) h)
  obtain rfl : a2 = b2 := float_inj (congrArg (look I.beamCenterAzimuthHorizontal) h)
  obtain rfl : a3 = b3 := float_inj (congrArg (look I.azimuthalBeamwidthHorizontal) h)
  obtain rfl : a4 = b4 := float_inj (congrArg (look I.beamCenterDepressionElevation) h)
  obtain rfl : a5 = b5 := float_inj (congrArg (look I.beamwidthDownElevation) h)
  rfl

theorem ExplosionDescriptor.inj : ∀ {x y : Dis.ExplosionDescriptor}, ExplosionDescriptor.fields x = ExplosionDescriptor.fields y → x = y := by
  rintro ⟨a0, a1, a2, a3⟩ ⟨b0, b1, b2, b3⟩ h
  obtain rfl : a0 = b0 := obj_inj EntityType.inj (congrArg (look I.explodingObject) h)
  obtain rfl : a1 = b1 := int_inj (congrArg (look I.explosiveMaterial) h)
  obtain rfl : a2 = b2 := int_inj (congrArg (look I.padding) h)
  obtain rfl : a3 = b3 := float_inj (congrArg (look I.explosiveForce) h)
  rfl

theorem ClockTime.inj : ∀ {x y : Dis.ClockTime}, ClockTime.fields x = ClockTime.fields y → x = y := by
  rintro ⟨a0, a1⟩ ⟨b0, b1⟩ h
  obtain rfl : a0 = b0 := int_inj (congrArg (look I.hour) h)
  obtain rfl : a1 = b1 := int_inj (congrArg (look I.timePastHour) h)
  rfl

theorem SecondaryOperationalData.inj : ∀ {x y : Dis.SecondaryOperationalData}, SecondaryOperationalData.fields x = SecondaryOperationalData.fields y → x = y := by
  rintro ⟨a0, a1, a2⟩ ⟨b0, b1, b2⟩ h
  obtain rfl : a0 = b0 := int_inj (congrArg (look I.operationalData1) h)
  obtain rfl : a1 = b1 := int_inj (congrArg (look I.operationalData2) h)
  obtain rfl : a2 = b2 := int_inj (congrArg (look I.numberOfIFFFundamentalParameterRecords) h)
  rfl

theorem EnvironmentType.inj : ∀ {x y : Dis.EnvironmentType}, EnvironmentType.fields x = EnvironmentType.fields y → x = y := by
  rintro ⟨a0, a1, a2, a3, a4, a5, a6⟩ ⟨b0, b1, b2, b3, b4, b5, b6⟩ h
  obtain rfl : a0 = b0 := int_inj (congrArg (look I.entityKind) h)
  obtain rfl : a1 = b1 := int_inj (congrArg (look I.domain) h)
  obtain rfl : a2 = b2 := int_inj (congrArg (look I.entityClass) h)
  obtain rfl : a3 = b3 := int_inj (congrArg (look I.category) h)
  obtain rfl : a4 = b4 := int_inj (congrArg (look I.subcategory) h)
  obtain rfl : a5 = b5 := int_inj (congrArg (look I.specific) h)
  obtain rfl : a6 = b6 := int_inj (congrArg (look I.extra) h)
  rfl

theorem TotalRecordSets.inj : ∀ {x y : Dis.TotalRecordSets}, TotalRecordSets.fields x = TotalRecordSets.fields y → x = y := by
  rintro ⟨a0, a1⟩ ⟨b0, b1⟩ h
  obtain rfl : a0 = b0 := int_inj (congrArg (look I.totalRecordSets) h)
  obtain rfl : a1 = b1 := int_inj (congrArg (look I.padding) h)
  rfl

theorem MineEntityIdentifier.inj : ∀ {x y : Dis.MineEntityIdentifier}, MineEntityIdentifier.fields x = MineEntityIdentifier.fields y → x = y := by
  rintro ⟨a0, a1⟩ ⟨b0, b1⟩ h
  obtain rfl : a0 = b0 := obj_inj SimulationAddress.inj (congrArg (look I.simulationAddress) h)
  obtain rfl : a1 = b1 := int_inj (congrArg (look I.mineEntityNumber) h)
  rfl

theorem Relationship.inj : ∀ {x y : Dis.Relationship}, Relationship.fields x = Relationship.fields y → x = y := by
  rintro ⟨a0, a1⟩ ⟨b0, b1⟩ h
  obtain rfl : a0 = b0 := int_inj (congrArg (look I.nature) h)
  obtain rfl : a1 = b1 := int_inj (congrArg (look I.position) h)
  rfl

theorem EEFundamentalParameterData.inj : ∀ {x y : Dis.EEFundamentalParameterData}, EEFundamentalParameterData.fields x = EEFundamentalParameterData.fields y → x = y := by
  rintro ⟨a0, a1, a2, a3, a4, a5, a6, a7, a8, a9⟩ ⟨b0, b1, b2, b3, b4, b5, b6, b7, b8, b9⟩ h
  obtain rfl : a0 = b0 := float_inj (congrArg (look I.frequency) h)
  obtain rfl : a1 = b1 := float_inj (congrArg (look I.frequencyRange) h)
  obtain rfl : a2 = b2 := float_inj (congrArg (look I.effectiveRadiatedPower) h)
  obtain rfl : a3 = b3 := float_inj (congrArg (look I.pulseRepetitionFrequency) h)
  obtain rfl : a4 = b4 := float_inj (congrArg (look I.pulseWidth) h)
  obtain rfl : a5 = b5 := float_inj (congrArg (look I.beamAzimuthCenter) h)
  obtain rfl : a6 = b6 := float_inj (congrArg (look I.beamAzimuthSweep) h)
  obtain rfl : a7 = b7 := float_inj (congrArg (look I.beamElevationCenter) h)
  obtain rfl : a8 = b8 := float_inj (congrArg (look I.beamElevationSweep) h)
  obtain rfl : a9 = b9 := float_inj (congrArg (look I.beamSweepSync) h)
  rfl

theorem JammingTechnique.inj : ∀ {x y : Dis.JammingTechnique}, JammingTechnique.fields x = JammingTechnique.fields y → x = y := by
  rintro ⟨a0, a1, a2, a3⟩ ⟨b0, b1, b2, b3⟩ h
  obtain rfl : a0 = b0 := int_inj (congrArg (look I.kind) h)
  obtain rfl : a1 = b1 := int_inj (congrArg (look I.category) h)
  obtain rfl : a2 = b2 := int_inj (congrArg (look I.subcategory) h)
  obtain rfl : a3 = b3 := int_inj (congrArg (look I.specific) h)
  rfl

theorem Expendable.inj : ∀ {x y : Dis.Expendable}, Expendable.fields x = Expendable.fields y → x = y := by
  rintro ⟨a0, a1, a2, a3, a4⟩ ⟨b0, b1, b2, b3, b4⟩ h
  obtain rfl : a0 = b0 := obj_inj EntityType.inj (congrArg (look I.expendable) h)
  obtain rfl : a1 = b1 := int_inj (congrArg (look I.station) h)
  obtain rfl : a2 = b2 := int_inj (congrArg (look I.quantity) h)
  obtain rfl : a3 = b3 := int_inj (congrArg (look I.expendableStatus) h)
  obtain rfl : a4 = b4 := int_inj (congrArg (look I.padding) h)
  rfl

theorem CommunicationsNodeID.inj : ∀ {x y : Dis.CommunicationsNodeID}, CommunicationsNodeID.fields x = CommunicationsNodeID.fields y → x = y := by
  rintro ⟨a0, a1⟩ ⟨b0, b1⟩ h
  obtain rfl : a0 = b0 := obj_inj EntityIdentifier.inj (congrArg (look I.entityID) h)
  obtain rfl : a1 = b1 := int_inj (congrArg (look I.elementID) h)
  rfl

theorem IOCommunicationsNode.inj : ∀ {x y : Dis.IOCommunicationsNode}, IOCommunicationsNode.fields x = IOCommunicationsNode.fields y → x = y := by
  rintro ⟨a0, a1, a2, a3, a4⟩ ⟨b0, b1, b2, b3, b4⟩ h
  obtain rfl : a0 = b0 := int_inj (congrArg (look I.recordType) h)
  obtain rfl : a1 = b1 := int_inj (congrArg (look I.recordLength) h)
  obtain rfl : a2 = b2 := int_inj (congrArg (look I.communcationsNodeType) h)
  obtain rfl : a3 = b3 := int_inj (congrArg (look I.padding) h)
  obtain rfl : a4 = b4 := obj_inj CommunicationsNodeID.inj (congrArg (look I.communicationsNodeID) h)
  rfl

theorem LinearSegmentParameter.inj : ∀ {x y : Dis.LinearSegmentParameter}, LinearSegmentParameter.fields x = LinearSegmentParameter.fields y → x = y := by
  rintro ⟨a0, a1, a2, a3, a4, a5, a6, a7, a8, a9, a10⟩ ⟨b0, b1, b2, b3, b4, b5, b6, b7, b8, b9, b10⟩ h
  obtain rfl : a0 = b0 := int_inj (congrArg (look I.segmentNumber) h)
  obtain rfl : a1 = b1 := int_inj (congrArg (look I.segmentModification) h)
  obtain rfl : a2 = b2 := int_inj (congrArg (look I.generalSegmentAppearance) h)
  obtain rfl : a3 = b3 := int_inj (congrArg (look I.specificSegmentAppearance) h)
  obtain rfl : a4 = b4 := obj_inj WorldCoordinates.inj (congrArg (look I.segmentLocation) h)
  obtain rfl : a5 = b5 := obj_inj EulerAngles.inj (congrArg (look I.segmentOrientation) h)
  obtain rfl : a6 = b6 := float_inj (congrArg (look I.segmentLength) h)
  obtain rfl : a7 = b7 := float_inj (congrArg (look I.segmentWidth) h)
  obtain rfl : a8 = b8 := float_inj (congrArg (look I.segmentHeight) h)
  obtain rfl : a9 = b9 := float_inj (congrArg (look I.segmentDepth) h)
  obtain rfl : a10 = b10 := int_inj (congrArg (look I.padding) h)
  rfl

theorem SystemIdentifier.inj : ∀ {x y : Dis.SystemIdentifier}, SystemIdentifier.fields x = SystemIdentifier.fields y → x = y := by
  rintro ⟨a0, a1, a2, a3⟩ ⟨b0, b1, b2, b3⟩ h
  obtain rfl : a0 = b0 := int_inj (congrArg (look I.systemType) h)
  obtain rfl : a1 = b1 := int_inj (congrArg (look I.systemName) h)
  obtain rfl : a2 = b2 := int_inj (congrArg (look I.systemMode) h)
  obtain rfl : a3 = b3 := obj_inj ChangeOptions.inj (congrArg (look I.changeOptions) h)
  rfl

theorem TrackJamData.inj : ∀ {x y : Dis.TrackJamData}, TrackJamData.fields x = TrackJamData.fields y → x = y := by
  rintro ⟨a0, a1, a2⟩ ⟨b0, b1, b2⟩ h
  obtain rfl : a0 = b0 := obj_inj EntityIdentifier.inj (congrArg (look I.entityID) h)
  obtain rfl : a1 = b1 := int_inj (congrArg (look I.emitterNumber) h)
  obtain rfl : a2 = b2 := int_inj (congrArg (look I.beamNumber) h)
  rfl

theorem AggregateType.inj : ∀ {x y : Dis.AggregateType}, AggregateType.fields x = AggregateType.fields y → x = y := by
  rintro ⟨a0, a1, a2, a3, a4, a5, a6⟩ ⟨b0, b1, b2, b3, b4, b5, b6⟩ h
  obtain rfl : a0 = b0 := int_inj (congrArg (look I.aggregateKind) h)
  obtain rfl : a1 = b1 := int_inj (congrArg (look I.domain) h)
  obtain rfl : a2 = b2 := int_inj (congrArg (look I.country) h)
  obtain rfl : a3 = b3 := int_inj (congrArg (look I.category) h)
  obtain rfl : a4 = b4 := int_inj (congrArg (look I.subcategory) h)
  obtain rfl : a5 = b5 := int_inj (congrArg (look I.specificInfo) h)
  obtain rfl : a6 = b6 := int_inj (congrArg (look I.extra) h)
  rfl

theorem SimulationIdentifier.inj : ∀ {x y : Dis.SimulationIdentifier}, SimulationIdentifier.fields x = SimulationIdentifier.fields y → x = y := by
  rintro ⟨a0, a1⟩ ⟨b0, b1⟩ h
  obtain rfl : a0 = b0 := obj_inj SimulationAddress.inj (congrArg (look I.simulationAddress) h)
  obtain rfl : a1 = b1 := int_inj (congrArg (look I.referenceNumber) h)
  rfl

theorem PduHeader.inj : ∀ {x y : Dis.PduHeader}, PduHeader.fields x = PduHeader.fields y → x = y := by
  rintro ⟨a0, a1, a2, a3, a4, a5, a6, a7⟩ ⟨b0, b1, b2, b3, b4, b5, b6, b7⟩ h
  obtain rfl : a0 = b0 := int_inj (congrArg (look I.protocolVersion) h)
  obtain rfl : a1 = b1 := int_inj (congrArg (look I.exerciseID) h)
  obtain rfl : a2 = b2 := int_inj (congrArg (look I.pduType) h)
  obtain rfl : a3 = b3 := int_inj (congrArg (look I.protocolFamily) h)
  obtain rfl : a4 = b4 := int_inj (congrArg (look I.timestamp) h)
  obtain rfl : a5 = b5 := int_inj (congrArg (look I.pduLength) h)
  obtain rfl : a6 = b6 := int_inj (congrArg (look I.pduStatus) h)
  obtain rfl : a7 = b7 := int_inj (congrArg (look I.padding) h)
  rfl

theorem SimulationManagementPduHeader.inj : ∀ {x y : Dis.SimulationManagementPduHeader}, SimulationManagementPduHeader.fields x = SimulationManagementPduHeader.fields y → x = y := by
  rintro ⟨a0, a1, a2⟩ ⟨b0, b1, b2⟩ h
  obtain rfl : a0 = b0 := obj_inj PduHeader.inj (congrArg (look I.pduHeader) h)
  obtain rfl : a1 = b1 := obj_inj SimulationIdentifier.inj (congrArg (look I.originatingID) h)
  obtain rfl : a2 = b2 := obj_inj SimulationIdentifier.inj (congrArg (look I.receivingID) h)
  rfl

theorem BeamData.inj : ∀ {x y : Dis.BeamData}, BeamData.fields x = BeamData.fields y → x = y := by
  rintro ⟨a0, a1, a2, a3, a4⟩ ⟨b0, b1, b2, b3, b4⟩ h
  obtain rfl : a0 = b0 := float_inj (congrArg (look I.beamAzimuthCenter) h)
  obtain rfl : a1 = b1 := float_inj (congrArg (look I.beamAzimuthSweep) h)
  obtain rfl : a2 = b2 := float_inj (congrArg (look I.beamElevationCenter) h)
  obtain rfl : a3 = b3 := float_inj (congrArg (look I.beamElevationSweep) h)
  obtain rfl : a4 = b4 := float_inj (congrArg (look I.beamSweepSync) h)
  rfl

theorem EngineFuel.inj : ∀ {x y : Dis.EngineFuel}, EngineFuel.fields x = EngineFuel.fields y → x = y := by
  rintro ⟨a0, a1, a2, a3, a4⟩ ⟨b0, b1, b2, b3, b4⟩ h
  obtain rfl : a0 = b0 := int_inj (congrArg (look I.fuelQuantity) h)
  obtain rfl : a1 = b1 := int_inj (congrArg (look I.fuelMeasurementUnits) h)
  obtain rfl : a2 = b2 := int_inj (congrArg (look I.fuelType) h)
  obtain rfl : a3 = b3 := int_inj (congrArg (look I.fuelLocation) h)
  obtain rfl : a4 = b4 := int_inj (congrArg (look I.padding) h)
  rfl

theorem IOEffect.inj : ∀ {x y : Dis.IOEffect}, IOEffect.fields x = IOEffect.fields y → x = y := by
  rintro ⟨a0, a1, a2, a3, a4, a5, a6, a7, a8⟩ ⟨b0, b1, b2, b3, b4, b5, b6, b7, b8⟩ h
  obtain rfl : a0 = b0 := int_inj (congrArg (look I.recordType) h)
  obtain rfl : a1 = b1 := int_inj (congrArg (look I.recordLength) h)
  obtain rfl : a2 = b2 := int_inj (congrArg (look I.ioStatus) h)
  obtain rfl : a3 = b3 := int_inj (congrArg (look I.ioLinkType) h)
  obtain rfl : a4 = b4 := int_inj (congrArg (look I.ioEffect) h)
  obtain rfl : a5 = b5 := int_inj (congrArg (look I.ioEffectDutyCycle) h)
  obtain rfl : a6 = b6 := int_inj (congrArg (look I.ioEffectDuration) h)
  obtain rfl : a7 = b7 := int_inj (congrArg (look I.ioProcess) h)
  obtain rfl : a8 = b8 := int_inj (congrArg (look I.padding) h)
  rfl

theorem GridAxisDescriptorVariable.inj : ∀ {x y : Dis.GridAxisDescriptorVariable}, GridAxisDescriptorVariable.fields x = GridAxisDescriptorVariable.fields y → x = y := by
  rintro ⟨a0, a1, a2, a3, a4, a5, a6, a7, a8, a9⟩ ⟨b0, b1, b2, b3, b4, b5, b6, b7, b8, b9⟩ h
  obtain rfl : a0 = b0 := float_inj (congrArg (look I.domainInitialXi) h)
  obtain rfl : a1 = b1 := float_inj (congrArg (look I.domainFinalXi) h)
  obtain rfl : a2 = b2 := int_inj (congrArg (look I.domainPointsXi) h)
  obtain rfl : a3 = b3 := int_inj (congrArg (look I.interleafFactor) h)
  obtain rfl : a4 = b4 := int_inj (congrArg (look I.axisType) h)
  obtain rfl : a5 = b5 := int_inj (congrArg (look I.numberOfPointsOnXiAxis) h)
  obtain rfl : a6 = b6 := int_inj (congrArg (look I.initialIndex) h)
  obtain rfl : a7 = b7 := float_inj (congrArg (look I.coordinateScaleXi) h)
  obtain rfl : a8 = b8 := float_inj (congrArg (look I.coordinateOffsetXi) h)
  obtain rfl : a9 = b9 := list_inj ints_inj (congrArg (look I.xiValues) h)
  rfl

theorem SupplyQuantity.inj : ∀ {x y : Dis.SupplyQuantity}, SupplyQuantity.fields x = SupplyQuantity.fields y → x = y := by
  rintro ⟨a0, a1⟩ ⟨b0, b1⟩ h
  obtain rfl : a0 = b0 := obj_inj EntityType.inj (congrArg (look I.supplyType) h)
  obtain rfl : a1 = b1 := float_inj (congrArg (look I.quantity) h)
  rfl

theorem SilentEntitySystem.inj : ∀ {x y : Dis.SilentEntitySystem}, SilentEntitySystem.fields x = SilentEntitySystem.fields y → x = y := by
  rintro ⟨a0, a1, a2⟩ ⟨b0, b1, b2⟩ h
  obtain rfl : a0 = b0 := int_inj (congrArg (look I.numberOfEntities) h)
  obtain rfl : a1 = b1 := obj_inj EntityType.inj (congrArg (look I.entityType) h)
  obtain rfl : a2 = b2 := list_inj ints_inj (congrArg (look I.appearanceRecordList) h)
  rfl

theorem BlankingSector.inj : ∀ {x y : Dis.BlankingSector}, BlankingSector.fields x = BlankingSector.fields y → x = y := by
  rintro ⟨a0, a1, a2, a3, a4, a5, a6, a7, a8, a9, a10, a11, a12, a13⟩ ⟨b0, b1, b2, b3, b4, b5, b6, b7, b8, b9, b10, b11, b12, b13⟩ h
  obtain rfl : a0 = b0 := int_inj (congrArg (look I.recordType) h)
  obtain rfl : a1 = b1 := int_inj (congrArg (look I.recordLength) h)
  obtain rfl : a2 = b2 := int_inj (congrArg (look I.padding) h)
  obtain rfl : a3 = b3 := int_inj (congrArg (look I.emitterNumber) h)
  obtain rfl : a4 = b4 := int_inj (congrArg (look I.beamNumber) h)
  obtain rfl : a5 = b5 := int_inj (congrArg (look I.stateIndicator) h)
  obtain rfl : a6 = b6 := int_inj (congrArg (look I.padding2) h)
  obtain rfl : a7 = b7 := float_inj (congrArg (look I.leftAzimuth) h)
  obtain rfl : a8 = b8 := float_inj (congrArg (look I.rightAzimuth) h)
  obtain rfl : a9 = b9 := float_inj (congrArg (look I.lowerElevation) h)
  obtain rfl : a10 = b10 := float_inj (congrArg (look I.upperElevation) h)
  obtain rfl : a11 = b11 := float_inj (congrArg (look I.residualPower) h)
  obtain rfl : a12 = b12 := int_inj (congrArg (look I.padding3) h)
  obtain rfl : a13 = b13 := int_inj (congrArg (look I.padding4) h)
  rfl

theorem LaunchedMunitionRecord.inj : ∀ {x y : Dis.LaunchedMunitionRecord}, LaunchedMunitionRecord.fields x = LaunchedMunitionRecord.fields y → x = y := by
  rintro ⟨a0, a1, a2, a3, a4, a5, a6⟩ ⟨b0, b1, b2, b3, b4, b5, b6⟩ h
  obtain rfl : a0 = b0 := obj_inj EventIdentifier.inj (congrArg (look I.fireEventID) h)
  obtain rfl : a1 = b1 := int_inj (congrArg (look I.padding) h)
  obtain rfl : a2 = b2 := obj_inj EventIdentifier.inj (congrArg (look I.firingEntityID) h)
  obtain rfl : a3 = b3 := int_inj (congrArg (look I.padding2) h)
  obtain rfl : a4 = b4 := obj_inj EventIdentifier.inj (congrArg (look I.targetEntityID) h)
  obtain rfl : a5 = b5 := int_inj (congrArg (look I.padding3) h)
  obtain rfl : a6 = b6 := obj_inj WorldCoordinates.inj (congrArg (look I.targetLocation) h)
  rfl

theorem IFFFundamentalParameterData.inj : ∀ {x y : Dis.IFFFundamentalParameterData}, IFFFundamentalParameterData.fields x = IFFFundamentalParameterData.fields y → x = y := by
  rintro ⟨a0, a1, a2, a3, a4, a5, a6⟩ ⟨b0, b1, b2, b3, b4, b5, b6⟩ h
  obtain rfl : a0 = b0 := float_inj (congrArg (look I.erp) h)
  obtain rfl : a1 = b1 := float_inj (congrArg (look I.frequency) h)
  obtain rfl : a2 = b2 := float_inj (congrArg (look I.pgrf) h)
  obtain rfl : a3 = b3 := float_inj (congrArg (look I.pulseWidth) h)
  obtain rfl : a4 = b4 := int_inj (congrArg (look I.burstLength) h)
  obtain rfl : a5 = b5 := int_inj (congrArg (look I.applicableModes) h)
  obtain rfl : a6 = b6 := list_inj ints_inj (congrArg (look I.systemSpecificData) h)
  rfl

theorem FundamentalOperationalData.inj : ∀ {x y : Dis.FundamentalOperationalData}, FundamentalOperationalData.fields x = FundamentalOperationalData.fields y → x = y := by
  rintro ⟨a0, a1, a2, a3, a4, a5, a6, a7, a8, a9⟩ ⟨b0, b1, b2, b3, b4, b5, b6, b7, b8, b9⟩ h
  obtain rfl : a0 = b0 := int_inj (congrArg (look I.systemStatus) h)
  obtain rfl : a1 = b1 := int_inj (congrArg (look I.dataField1) h)
  obtain rfl : a2 = b2 := int_inj (congrArg (look I.informationLayers) h)
  obtain rfl : a3 = b3 := int_inj (congrArg (look I.dataField2) h)
  obtain rfl : a4 = b4 := int_inj (congrArg (look I.parameter1) h)
  obtain rfl : a5 = b5 := int_inj (congrArg (look I.parameter2) h)
  obtain rfl : a6 = b6 := int_inj (congrArg (look I.parameter3) h)
  obtain rfl : a7 = b7 := int_inj (congrArg (look I.parameter4) h)
  obtain rfl : a8 = b8 := int_inj (congrArg (look I.parameter5) h)
  obtain rfl : a9 = b9 := int_inj (congrArg (look I.parameter6) h)
  rfl

theorem IntercomCommunicationsParameters.inj : ∀ {x y : Dis.IntercomCommunicationsParameters}, IntercomCommunicationsParameters.fields x = IntercomCommunicationsParameters.fields y → x = y := by
  rintro ⟨a0, a1, a2⟩ ⟨b0, b1, b2⟩ h
  obtain rfl : a0 = b0 := int_inj (congrArg (look I.recordType) h)
  obtain rfl : a1 = b1 := int_inj (congrArg (look I.recordLength) h)
  obtain rfl : a2 = b2 := int_inj (congrArg (look I.recordSpecificField) h)
  rfl

theorem Munition.inj : ∀ {x y : Dis.Munition}, Munition.fields x = Munition.fields y → x = y := by
  rintro ⟨a0, a1, a2, a3, a4⟩ ⟨b0, b1, b2, b3, b4⟩ h
  obtain rfl : a0 = b0 := obj_inj EntityType.inj (congrArg (look I.munitionType) h)
  obtain rfl : a1 = b1 := int_inj (congrArg (look I.station) h)
  obtain rfl : a2 = b2 := int_inj (congrArg (look I.quantity) h)
  obtain rfl : a3 = b3 := int_inj (congrArg (look I.munitionStatus) h)
  obtain rfl : a4 = b4 := int_inj (congrArg (look I.padding) h)
  rfl

theorem StandardVariableSpecification.inj : ∀ {x y : Dis.StandardVariableSpecification}, StandardVariableSpecification.fields x = StandardVariableSpecification.fields y → x = y := by
  rintro ⟨a0⟩ ⟨b0⟩ h
  obtain rfl : a0 = b0 := list_inj ints_inj (congrArg (look I.standardVariables) h)
  rfl

theorem Vector2Float.inj : ∀ {x y : Dis.Vector2Float}, Vector2Float.fields x = Vector2Float.fields y → x = y := by
  rintro ⟨a0, a1⟩ ⟨b0, b1⟩ h
  obtain rfl : a0 = b0 := float_inj (congrArg (look I.x) h)
  obtain rfl : a1 = b1 := float_inj (congrArg (look I.y) h)
  rfl

theorem AcousticEmitter.inj : ∀ {x y : Dis.AcousticEmitter}, AcousticEmitter.fields x = AcousticEmitter.fields y → x = y := by
  rintro ⟨a0, a1, a2⟩ ⟨b0, b1, b2⟩ h
  obtain rfl : a0 = b0 := int_inj (congrArg (look I.acousticSystemName) h)
  obtain rfl : a1 = b1 := int_inj (congrArg (look I.acousticFunction) h)
  obtain rfl : a2 = b2 := int_inj (congrArg (look I.acousticIDNumber) h)
  rfl

theorem AngularVelocityVector.inj : ∀ {x y : Dis.AngularVelocityVector}, AngularVelocityVector.fields x = AngularVelocityVector.fields y → x = y := by
  rintro ⟨a0, a1, a2⟩ ⟨b0, b1, b2⟩ h
  obtain rfl : a0 = b0 := float_inj (congrArg (look I.x) h)
  obtain rfl : a1 = b1 := float_inj (congrArg (look I.y) h)
  obtain rfl : a2 = b2 := float_inj (congrArg (look I.z) h)
  rfl

theorem AggregateMarking.inj : ∀ {x y : Dis.AggregateMarking}, AggregateMarking.fields x = AggregateMarking.fields y → x = y := by
  rintro ⟨a0, a1⟩ ⟨b0, b1⟩ h
  obtain rfl : a0 = b0 := int_inj (congrArg (look I.characterSet) h)
  obtain rfl : a1 = b1 := list_inj ints_inj (congrArg (look I.characters) h)
  rfl

theorem DataFilterRecord.inj : ∀ {x y : Dis.DataFilterRecord}, DataFilterRecord.fields x = DataFilterRecord.fields y → x = y := by
  rintro ⟨a0⟩ ⟨b0⟩ h
  obtain rfl : a0 = b0 := int_inj (congrArg (look I.bitFlags) h)
  rfl

theorem IntercomIdentifier.inj : ∀ {x y : Dis.IntercomIdentifier}, IntercomIdentifier.fields x = IntercomIdentifier.fields y → x = y := by
  rintro ⟨a0, a1, a2, a3⟩ ⟨b0, b1, b2, b3⟩ h
  obtain rfl : a0 = b0 := int_inj (congrArg (look I.siteNumber) h)
  obtain rfl : a1 = b1 := int_inj (congrArg (look I.applicationNumber) h)
  obtain rfl : a2 = b2 := int_inj (congrArg (look I.referenceNumber) h)
  obtain rfl : a3 = b3 := int_inj (congrArg (look I.intercomNumber) h)
  rfl

theorem EntityMarking.lawful : Sourced.EntityMarking.Lawful where
  serialize n x := EntityMarking.serializes (n + 7) x
  parse n := EntityMarking.parses (n + 7)
  inj _ _ := EntityMarking.inj
  makes _ := ⟨_, .rfl' _, fun n => ⟨EntityMarking.makes (n + 7), EntityMarking.serializes (n + 7) Dis.EntityMarking.init,
    fun io => ⟨_, EntityMarking.parses (n + 7) Dis.EntityMarking.init io, fun _ _ => rfl⟩⟩⟩

theorem UAFundamentalParameter.lawful : Sourced.UAFundamentalParameter.Lawful where
  serialize n x := UAFundamentalParameter.serializes (n + 7) x
  parse n := UAFundamentalParameter.parses (n + 7)
  inj _ _ := UAFundamentalParameter.inj
  makes _ := ⟨_, .rfl' _, fun n => ⟨UAFundamentalParameter.makes (n + 7), UAFundamentalParameter.serializes (n + 7) Dis.UAFundamentalParameter.init,
    fun io => ⟨_, UAFundamentalParameter.parses (n + 7) Dis.UAFundamentalParameter.init io, fun _ _ => rfl⟩⟩⟩

theorem ExplosionDescriptor.lawful : Sourced.ExplosionDescriptor.Lawful where
  serialize n x := ExplosionDescriptor.serializes (n + 6) x
  parse n := ExplosionDescriptor.parses (n + 6)
  inj _ _ := ExplosionDescriptor.inj
  makes _ := ⟨_, .rfl' _, fun n => ⟨ExplosionDescriptor.makes (n + 6), ExplosionDescriptor.serializes (n + 6) Dis.ExplosionDescriptor.init,
    fun io => ⟨_, ExplosionDescriptor.parses (n + 6) Dis.ExplosionDescriptor.init io, fun _ _ => rfl⟩⟩⟩

theorem ClockTime.lawful : Sourced.ClockTime.Lawful where
  serialize n x := ClockTime.serializes (n + 7) x
  parse n := ClockTime.parses (n + 7)
  inj _ _ := ClockTime.inj
  makes _ := ⟨_, .rfl' _, fun n => ⟨ClockTime.makes (n + 7), ClockTime.serializes (n + 7) Dis.ClockTime.init,
    fun io => ⟨_, ClockTime.parses (n + 7) Dis.ClockTime.init io, fun _ _ => rfl⟩⟩⟩

theorem SecondaryOperationalData.lawful : Sourced.SecondaryOperationalData.Lawful where
  serialize n x := SecondaryOperationalData.serializes (n + 7) x
  parse n := SecondaryOperationalData.parses (n + 7)
  inj _ _ := SecondaryOperationalData.inj
  makes _ := ⟨_, .rfl' _, fun n => ⟨SecondaryOperationalData.makes (n + 7), SecondaryOperationalData.serializes (n + 7) Dis.SecondaryOperationalData.init,
    fun io => ⟨_, SecondaryOperationalData.parses (n + 7) Dis.SecondaryOperationalData.init io, fun _ _ => rfl⟩⟩⟩

theorem EnvironmentType.lawful : Sourced.EnvironmentType.Lawful where
  serialize n x := EnvironmentType.serializes (n + 7) x
  parse n := EnvironmentType.parses (n + 7)
  inj _ _ := EnvironmentType.inj
  makes _ := ⟨_, .rfl' _, fun n => ⟨EnvironmentType.makes (n + 7), EnvironmentType.serializes (n + 7) Dis.EnvironmentType.init,
    fun io => ⟨_, EnvironmentType.parses (n + 7) Dis.EnvironmentType.init io, fun _ _ => rfl⟩⟩⟩

theorem TotalRecordSets.lawful : Sourced.TotalRecordSets.Lawful where
  serialize n x := TotalRecordSets.serializes (n + 7) x
  parse n := TotalRecordSets.parses (n + 7)
  inj _ _ := TotalRecordSets.inj
  makes _ := ⟨_, .rfl' _, fun n => ⟨TotalRecordSets.makes (n + 7), TotalRecordSets.serializes (n + 7) Dis.TotalRecordSets.init,
    fun io => ⟨_, TotalRecordSets.parses (n + 7) Dis.TotalRecordSets.init io, fun _ _ => rfl⟩⟩⟩

theorem MineEntityIdentifier.lawful : Sourced.MineEntityIdentifier.Lawful where
  serialize n x := MineEntityIdentifier.serializes (n + 6) x
  parse n := MineEntityIdentifier.parses (n + 6)
  inj _ _ := MineEntityIdentifier.inj
  makes _ := ⟨_, .rfl' _, fun n => ⟨MineEntityIdentifier.makes (n + 6), MineEntityIdentifier.serializes (n + 6) Dis.MineEntityIdentifier.init,
    fun io => ⟨_, MineEntityIdentifier.parses (n + 6) Dis.MineEntityIdentifier.init io, fun _ _ => rfl⟩⟩⟩

theorem Relationship.lawful : Sourced.Relationship.Lawful where
  serialize n x := Relationship.serializes (n + 7) x
  parse n := Relationship.parses (n + 7)
  inj _ _ := Relationship.inj
  makes _ := ⟨_, .rfl' _, fun n => ⟨Relationship.makes (n + 7), Relationship.serializes (n + 7) Dis.Relationship.init,
    fun io => ⟨_, Relationship.parses (n + 7) Dis.Relationship.init io, fun _ _ => rfl⟩⟩⟩

theorem EEFundamentalParameterData.same : SameFields (EEFundamentalParameterData.rawFields EEFundamentalParameterData.made) (EEFundamentalParameterData.fields Dis.EEFundamentalParameterData.init) :=
  .cons (.refl _) <|
  .cons (.int ofInt_zero) <|
  .cons (.int ofInt_zero) <|
  .cons (.refl _) <|
  .cons (.refl _) <|
  .cons (.refl _) <|
  .cons (.refl _) <|
  .cons (.refl _) <|
  .cons (.refl _) <|
  .cons (.refl _) <|
  .nil

theorem EEFundamentalParameterData.firstRaw (n : Nat) : Serializes (run (n + 1)) I.EEFundamentalParameterData (.obj I.EEFundamentalParameterData (EEFundamentalParameterData.rawFields EEFundamentalParameterData.made)) Dis.EEFundamentalParameterData.init.serialize :=
  serializes_of (n := n + 0) (d := I.EEFundamentalParameterData) (f := EEFundamentalParameterData.serialize) rfl rfl <|
    ser_cons (ser_write (gives_attr (gives_name rfl) (plain rfl) rfl) rfl rfl rfl) <|
    ser_cons (ser_write (gives_attr (gives_name rfl) (plain rfl) rfl) rfl rfl (packFloat_zero _)) <|
    ser_cons (ser_write (gives_attr (gives_name rfl) (plain rfl) rfl) rfl rfl (packFloat_zero _)) <|
    ser_cons (ser_write (gives_attr (gives_name rfl) (plain rfl) rfl) rfl rfl rfl) <|
    ser_cons (ser_write (gives_attr (gives_name rfl) (plain rfl) rfl) rfl rfl rfl) <|
    ser_cons (ser_write (gives_attr (gives_name rfl) (plain rfl) rfl) rfl rfl rfl) <|
    ser_cons (ser_write (gives_attr (gives_name rfl) (plain rfl) rfl) rfl rfl rfl) <|
    ser_cons (ser_write (gives_attr (gives_name rfl) (plain rfl) rfl) rfl rfl rfl) <|
    ser_cons (ser_write (gives_attr (gives_name rfl) (plain rfl) rfl) rfl rfl rfl) <|
    ser_last <| ser_write (gives_attr (gives_name rfl) (plain rfl) rfl) rfl rfl rfl

theorem EEFundamentalParameterData.lawful : Sourced.EEFundamentalParameterData.Lawful where
  serialize n x := EEFundamentalParameterData.serializes (n + 7) x
  parse n := EEFundamentalParameterData.parses (n + 7)
  inj _ _ := EEFundamentalParameterData.inj
  makes _ := ⟨EEFundamentalParameterData.rawFields EEFundamentalParameterData.made, EEFundamentalParameterData.same, fun n => ⟨EEFundamentalParameterData.makesRaw (n + 7), EEFundamentalParameterData.firstRaw (n + 7),
    fills_over (π := EEFundamentalParameterData.Raw.out) (EEFundamentalParameterData.parsesRaw (n + 7)) EEFundamentalParameterData.over EEFundamentalParameterData.ends rfl fun r h => EEFundamentalParameterData.done r h⟩⟩

theorem JammingTechnique.lawful : Sourced.JammingTechnique.Lawful where
  serialize n x := JammingTechnique.serializes (n + 7) x
  parse n := JammingTechnique.parses (n + 7)
  inj _ _ := JammingTechnique.inj
  makes _ := ⟨_, .rfl' _, fun n => ⟨JammingTechnique.makes (n + 7), JammingTechnique.serializes (n + 7) Dis.JammingTechnique.init,
    fun io => ⟨_, JammingTechnique.parses (n + 7) Dis.JammingTechnique.init io, fun _ _ => rfl⟩⟩⟩

theorem Expendable.lawful : Sourced.Expendable.Lawful where
  serialize n x := Expendable.serializes (n + 6) x
  parse n := Expendable.parses (n + 6)
  inj _ _ := Expendable.inj
  makes _ := ⟨_, .rfl' _, fun n => ⟨Expendable.makes (n + 6), Expendable.serializes (n + 6) Dis.Expendable.init,
    fun io => ⟨_, Expendable.parses (n + 6) Dis.Expendable.init io, fun _ _ => rfl⟩⟩⟩

theorem CommunicationsNodeID.lawful : Sourced.CommunicationsNodeID.Lawful where
  serialize n x := CommunicationsNodeID.serializes (n + 5) x
  parse n := CommunicationsNodeID.parses (n + 5)
  inj _ _ := CommunicationsNodeID.inj
  makes _ := ⟨_, .rfl' _, fun n => ⟨CommunicationsNodeID.makes (n + 5), CommunicationsNodeID.serializes (n + 5) Dis.CommunicationsNodeID.init,
    fun io => ⟨_, CommunicationsNodeID.parses (n + 5) Dis.CommunicationsNodeID.init io, fun _ _ => rfl⟩⟩⟩

theorem IOCommunicationsNode.lawful : Sourced.IOCommunicationsNode.Lawful where
  serialize n x := IOCommunicationsNode.serializes (n + 4) x
  parse n := IOCommunicationsNode.parses (n + 4)
  inj _ _ := IOCommunicationsNode.inj
  makes _ := ⟨_, .rfl' _, fun n => ⟨IOCommunicationsNode.makes (n + 4), IOCommunicationsNode.serializes (n + 4) Dis.IOCommunicationsNode.init,
    fun io => ⟨_, IOCommunicationsNode.parses (n + 4) Dis.IOCommunicationsNode.init io, fun _ _ => rfl⟩⟩⟩

theorem LinearSegmentParameter.lawful : Sourced.LinearSegmentParameter.Lawful where
  serialize n x := LinearSegmentParameter.serializes (n + 6) x
  parse n := LinearSegmentParameter.parses (n + 6)
  inj _ _ := LinearSegmentParameter.inj
  makes _ := ⟨_, .rfl' _, fun n => ⟨LinearSegmentParameter.makes (n + 6), LinearSegmentParameter.serializes (n + 6) Dis.LinearSegmentParameter.init,
    fun io => ⟨_, LinearSegmentParameter.parses (n + 6) Dis.LinearSegmentParameter.init io, fun _ _ => rfl⟩⟩⟩

theorem SystemIdentifier.lawful : Sourced.SystemIdentifier.Lawful where
  serialize n x := SystemIdentifier.serializes (n + 6) x
  parse n := SystemIdentifier.parses (n + 6)
  inj _ _ := SystemIdentifier.inj
  makes _ := ⟨_, .rfl' _, fun n => ⟨SystemIdentifier.makes (n + 6), SystemIdentifier.serializes (n + 6) Dis.SystemIdentifier.init,
    fun io => ⟨_, SystemIdentifier.parses (n + 6) Dis.SystemIdentifier.init io, fun _ _ => rfl⟩⟩⟩

theorem TrackJamData.lawful : Sourced.TrackJamData.Lawful where
  serialize n x := TrackJamData.serializes (n + 5) x
  parse n := TrackJamData.parses (n + 5)
  inj _ _ := TrackJamData.inj
  makes _ := ⟨_, .rfl' _, fun n => ⟨TrackJamData.makes (n + 5), TrackJamData.serializes (n + 5) Dis.TrackJamData.init,
    fun io => ⟨_, TrackJamData.parses (n + 5) Dis.TrackJamData.init io, fun _ _ => rfl⟩⟩⟩

theorem AggregateType.lawful : Sourced.AggregateType.Lawful where
  serialize n x := AggregateType.serializes (n + 7) x
  parse n := AggregateType.parses (n + 7)
  inj _ _ := AggregateType.inj
  makes _ := ⟨_, .rfl' _, fun n => ⟨AggregateType.makes (n + 7), AggregateType.serializes (n + 7) Dis.AggregateType.init,
    fun io => ⟨_, AggregateType.parses (n + 7) Dis.AggregateType.init io, fun _ _ => rfl⟩⟩⟩

theorem SimulationIdentifier.lawful : Sourced.SimulationIdentifier.Lawful where
  serialize n x := SimulationIdentifier.serializes (n + 6) x
  parse n := SimulationIdentifier.parses (n + 6)
  inj _ _ := SimulationIdentifier.inj
  makes _ := ⟨_, .rfl' _, fun n => ⟨SimulationIdentifier.makes (n + 6), SimulationIdentifier.serializes (n + 6) Dis.SimulationIdentifier.init,
    fun io => ⟨_, SimulationIdentifier.parses (n + 6) Dis.SimulationIdentifier.init io, fun _ _ => rfl⟩⟩⟩

theorem PduHeader.lawful : Sourced.PduHeader.Lawful where
  serialize n x := PduHeader.serializes (n + 7) x
  parse n := PduHeader.parses (n + 7)
  inj _ _ := PduHeader.inj
  makes _ := ⟨_, .rfl' _, fun n => ⟨PduHeader.makes (n + 7), PduHeader.serializes (n + 7) Dis.PduHeader.init,
    fun io => ⟨_, PduHeader.parses (n + 7) Dis.PduHeader.init io, fun _ _ => rfl⟩⟩⟩

theorem SimulationManagementPduHeader.lawful : Sourced.SimulationManagementPduHeader.Lawful where
  serialize n x := SimulationManagementPduHeader.serializes (n + 5) x
  parse n := SimulationManagementPduHeader.parses (n + 5)
  inj _ _ := SimulationManagementPduHeader.inj
  makes _ := ⟨_, .rfl' _, fun n => ⟨SimulationManagementPduHeader.makes (n + 5), SimulationManagementPduHeader.serializes (n + 5) Dis.SimulationManagementPduHeader.init,
    fun io => ⟨_, SimulationManagementPduHeader.parses (n + 5) Dis.SimulationManagementPduHeader.init io, fun _ _ => rfl⟩⟩⟩

theorem BeamData.lawful : Sourced.BeamData.Lawful where
  serialize n x := BeamData.serializes (n + 7) x
  parse n := BeamData.parses (n + 7)
  inj _ _ := BeamData.inj
  makes _ := ⟨_, .rfl' _, fun n => ⟨BeamData.makes (n + 7), BeamData.serializes (n + 7) Dis.BeamData.init,
    fun io => ⟨_, BeamData.parses (n + 7) Dis.BeamData.init io, fun _ _ => rfl⟩⟩⟩

theorem EngineFuel.lawful : Sourced.EngineFuel.Lawful where
  serialize n x := EngineFuel.serializes (n + 7) x
  parse n := EngineFuel.parses (n + 7)
  inj _ _ := EngineFuel.inj
  makes _ := ⟨_, .rfl' _, fun n => ⟨EngineFuel.makes (n + 7), EngineFuel.serializes (n + 7) Dis.EngineFuel.init,
    fun io => ⟨_, EngineFuel.parses (n + 7) Dis.EngineFuel.init io, fun _ _ => rfl⟩⟩⟩

theorem IOEffect.lawful : Sourced.IOEffect.Lawful where
  serialize n x := IOEffect.serializes (n + 7) x
  parse n := IOEffect.parses (n + 7)
  inj _ _ := IOEffect.inj
  makes _ := ⟨_, .rfl' _, fun n => ⟨IOEffect.makes (n + 7), IOEffect.serializes (n + 7) Dis.IOEffect.init,
    fun io => ⟨_, IOEffect.parses (n + 7) Dis.IOEffect.init io, fun _ _ => rfl⟩⟩⟩

theorem GridAxisDescriptorVariable.lawful : Sourced.GridAxisDescriptorVariable.Lawful where
  serialize n x := GridAxisDescriptorVariable.serializes (n + 7) x
  parse n := GridAxisDescriptorVariable.parses (n + 7)
  inj _ _ := GridAxisDescriptorVariable.inj
  makes _ := ⟨_, .rfl' _, fun n => ⟨GridAxisDescriptorVariable.makes (n + 7), GridAxisDescriptorVariable.serializes (n + 7) Dis.GridAxisDescriptorVariable.init,
    fun io => ⟨_, GridAxisDescriptorVariable.parses (n + 7) Dis.GridAxisDescriptorVariable.init io, fun _ _ => rfl⟩⟩⟩

theorem SupplyQuantity.lawful : Sourced.SupplyQuantity.Lawful where
  serialize n x := SupplyQuantity.serializes (n + 6) x
  parse n := SupplyQuantity.parses (n + 6)
  inj _ _ := SupplyQuantity.inj
  makes _ := ⟨_, .rfl' _, fun n => ⟨SupplyQuantity.makes (n + 6), SupplyQuantity.serializes (n + 6) Dis.SupplyQuantity.init,
    fun io => ⟨_, SupplyQuantity.parses (n + 6) Dis.SupplyQuantity.init io, fun _ _ => rfl⟩⟩⟩

theorem SilentEntitySystem.lawful : Sourced.SilentEntitySystem.Lawful where
  serialize n x := SilentEntitySystem.serializes (n + 6) x
  parse n := SilentEntitySystem.parses (n + 6)
  inj _ _ := SilentEntitySystem.inj
  makes _ := ⟨_, .rfl' _, fun n => ⟨SilentEntitySystem.makes (n + 6), SilentEntitySystem.serializes (n + 6) Dis.SilentEntitySystem.init,
    fun io => ⟨_, SilentEntitySystem.parses (n + 6) Dis.SilentEntitySystem.init io, fun _ _ => rfl⟩⟩⟩

theorem BlankingSector.lawful : Sourced.BlankingSector.Lawful where
  serialize n x := BlankingSector.serializes (n + 7) x
  parse n := BlankingSector.parses (n + 7)
  inj _ _ := BlankingSector.inj
  makes _ := ⟨_, .rfl' _, fun n => ⟨BlankingSector.makes (n + 7), BlankingSector.serializes (n + 7) Dis.BlankingSector.init,
    fun io => ⟨_, BlankingSector.parses (n + 7) Dis.BlankingSector.init io, fun _ _ => rfl⟩⟩⟩

theorem LaunchedMunitionRecord.lawful : Sourced.LaunchedMunitionRecord.Lawful where
  serialize n x := LaunchedMunitionRecord.serializes (n + 5) x
  parse n := LaunchedMunitionRecord.parses (n + 5)
  inj _ _ := LaunchedMunitionRecord.inj
  makes _ := ⟨_, .rfl' _, fun n => ⟨LaunchedMunitionRecord.makes (n + 5), LaunchedMunitionRecord.serializes (n + 5) Dis.LaunchedMunitionRecord.init,
    fun io => ⟨_, LaunchedMunitionRecord.parses (n + 5) Dis.LaunchedMunitionRecord.init io, fun _ _ => rfl⟩⟩⟩

theorem IFFFundamentalParameterData.lawful : Sourced.IFFFundamentalParameterData.Lawful where
  serialize n x := IFFFundamentalParameterData.serializes (n + 7) x
  parse n := IFFFundamentalParameterData.parses (n + 7)
  inj _ _ := IFFFundamentalParameterData.inj
  makes _ := ⟨_, .rfl' _, fun n => ⟨IFFFundamentalParameterData.makes (n + 7), IFFFundamentalParameterData.serializes (n + 7) Dis.IFFFundamentalParameterData.init,
    fun io => ⟨_, IFFFundamentalParameterData.parses (n + 7) Dis.IFFFundamentalParameterData.init io, fun _ _ => rfl⟩⟩⟩

theorem FundamentalOperationalData.lawful : Sourced.FundamentalOperationalData.Lawful where
  serialize n x := FundamentalOperationalData.serializes (n + 7) x
  parse n := FundamentalOperationalData.parses (n + 7)
  inj _ _ := FundamentalOperationalData.inj
  makes _ := ⟨_, .rfl' _, fun n => ⟨FundamentalOperationalData.makes (n + 7), FundamentalOperationalData.serializes (n + 7) Dis.FundamentalOperationalData.init,
    fun io => ⟨_, FundamentalOperationalData.parses (n + 7) Dis.FundamentalOperationalData.init io, fun _ _ => rfl⟩⟩⟩

theorem IntercomCommunicationsParameters.lawful : Sourced.IntercomCommunicationsParameters.Lawful where
  serialize n x := IntercomCommunicationsParameters.serializes (n + 7) x
  parse n := IntercomCommunicationsParameters.parses (n + 7)
  inj _ _ := IntercomCommunicationsParameters.inj
  makes _ := ⟨_, .rfl' _, fun n => ⟨IntercomCommunicationsParameters.makes (n + 7), IntercomCommunicationsParameters.serializes (n + 7) Dis.IntercomCommunicationsParameters.init,
    fun io => ⟨_, IntercomCommunicationsParameters.parses (n + 7) Dis.IntercomCommunicationsParameters.init io, fun _ _ => rfl⟩⟩⟩

theorem Munition.lawful : Sourced.Munition.Lawful where
  serialize n x := Munition.serializes (n + 6) x
  parse n := Munition.parses (n + 6)
  inj _ _ := Munition.inj
  makes _ := ⟨_, .rfl' _, fun n => ⟨Munition.makes (n + 6), Munition.serializes (n + 6) Dis.Munition.init,
    fun io => ⟨_, Munition.parses (n + 6) Dis.Munition.init io, fun _ _ => rfl⟩⟩⟩

theorem StandardVariableSpecification.lawful : Sourced.StandardVariableSpecification.Lawful where
  serialize n x := StandardVariableSpecification.serializes (n + 6) x
  parse n := StandardVariableSpecification.parses (n + 7)
  inj _ _ := StandardVariableSpecification.inj
  makes _ := ⟨_, .rfl' _, fun n => ⟨StandardVariableSpecification.makes (n + 7), StandardVariableSpecification.serializes (n + 6) Dis.StandardVariableSpecification.init,
    fun io => ⟨_, StandardVariableSpecification.parses (n + 7) Dis.StandardVariableSpecification.init io, fun _ _ => rfl⟩⟩⟩

theorem Vector2Float.lawful : Sourced.Vector2Float.Lawful where
  serialize n x := Vector2Float.serializes (n + 7) x
  parse n := Vector2Float.parses (n + 7)
  inj _ _ := Vector2Float.inj
  makes _ := ⟨_, .rfl' _, fun n => ⟨Vector2Float.makes (n + 7), Vector2Float.serializes (n + 7) Dis.Vector2Float.init,
    fun io => ⟨_, Vector2Float.parses (n + 7) Dis.Vector2Float.init io, fun _ _ => rfl⟩⟩⟩

theorem AcousticEmitter.lawful : Sourced.AcousticEmitter.Lawful where
  serialize n x := AcousticEmitter.serializes (n + 7) x
  parse n := AcousticEmitter.parses (n + 7)
  inj _ _ := AcousticEmitter.inj
  makes _ := ⟨_, .rfl' _, fun n => ⟨AcousticEmitter.makes (n + 7), AcousticEmitter.serializes (n + 7) Dis.AcousticEmitter.init,
    fun io => ⟨_, AcousticEmitter.parses (n + 7) Dis.AcousticEmitter.init io, fun _ _ => rfl⟩⟩⟩

theorem AngularVelocityVector.same : SameFields (AngularVelocityVector.rawFields AngularVelocityVector.made) (AngularVelocityVector.fields Dis.AngularVelocityVector.init) :=
  .cons (.int ofInt_zero) <|
  .cons (.int ofInt_zero) <|
  .cons (.int ofInt_zero) <|
  .nil

theorem AngularVelocityVector.firstRaw (n : Nat) : Serializes (run (n + 1)) I.AngularVelocityVector (.obj I.AngularVelocityVector (AngularVelocityVector.rawFields AngularVelocityVector.made)) Dis.AngularVelocityVector.init.serialize :=
  serializes_of (n := n + 0) (d := I.AngularVelocityVector) (f := AngularVelocityVector.serialize) rfl rfl <|
    ser_cons (ser_write (gives_attr (gives_name rfl) (plain rfl) rfl) rfl rfl (packFloat_zero _)) <|
    ser_cons (ser_write (gives_attr (gives_name rfl) (plain rfl) rfl) rfl rfl (packFloat_zero _)) <|
    ser_last <| ser_write (gives_attr (gives_name rfl) (plain rfl) rfl) rfl rfl (packFloat_zero _)

theorem AngularVelocityVector.lawful : Sourced.AngularVelocityVector.Lawful where
  serialize n x := AngularVelocityVector.serializes (n + 7) x
  parse n := AngularVelocityVector.parses (n + 7)
  inj _ _ := AngularVelocityVector.inj
  makes _ := ⟨AngularVelocityVector.rawFields AngularVelocityVector.made, AngularVelocityVector.same, fun n => ⟨AngularVelocityVector.makesRaw (n + 7), AngularVelocityVector.firstRaw (n + 7),
    fills_over (π := AngularVelocityVector.Raw.out) (AngularVelocityVector.parsesRaw (n + 7)) AngularVelocityVector.over AngularVelocityVector.ends rfl fun r h => AngularVelocityVector.done r h⟩⟩

theorem AggregateMarking.lawful : Sourced.AggregateMarking.Lawful where
  serialize n x := AggregateMarking.serializes (n + 7) x
  parse n := AggregateMarking.parses (n + 7)
  inj _ _ := AggregateMarking.inj
  makes _ := ⟨_, .rfl' _, fun n => ⟨AggregateMarking.makes (n + 7), AggregateMarking.serializes (n + 7) Dis.AggregateMarking.init,
    fun io => ⟨_, AggregateMarking.parses (n + 7) Dis.AggregateMarking.init io, fun _ _ => rfl⟩⟩⟩

theorem DataFilterRecord.lawful : Sourced.DataFilterRecord.Lawful where
  serialize n x := DataFilterRecord.serializes (n + 7) x
  parse n := DataFilterRecord.parses (n + 7)
  inj _ _ := DataFilterRecord.inj
  makes _ := ⟨_, .rfl' _, fun n => ⟨DataFilterRecord.makes (n + 7), DataFilterRecord.serializes (n + 7) Dis.DataFilterRecord.init,
    fun io => ⟨_, DataFilterRecord.parses (n + 7) Dis.DataFilterRecord.init io, fun _ _ => rfl⟩⟩⟩

theorem IntercomIdentifier.lawful : Sourced.IntercomIdentifier.Lawful where
  serialize n x := IntercomIdentifier.serializes (n + 7) x
  parse n := IntercomIdentifier.parses (n + 7)
  inj _ _ := IntercomIdentifier.inj
  makes _ := ⟨_, .rfl' _, fun n => ⟨IntercomIdentifier.makes (n + 7), IntercomIdentifier.serializes (n + 7) Dis.IntercomIdentifier.init,
    fun io => ⟨_, IntercomIdentifier.parses (n + 7) Dis.IntercomIdentifier.init io, fun _ _ => rfl⟩⟩⟩

theorem EntityMarking.known : Sourced.EntityMarking.entry ∈ inPlaceRecords2 := .tail _ (.tail _ (.tail _ (.tail _ (.tail _ (.tail _ (.tail _ (.tail _ (.tail _ (.tail _ (.tail _ (.tail _ (.tail _ (.head _)))))))))))))

theorem UAFundamentalParameter.known : Sourced.UAFundamentalParameter.entry ∈ inPlaceRecords2 := .tail _ (.tail _ (.tail _ (.tail _ (.tail _ (.tail _ (.tail _ (.tail _ (.tail _ (.tail _ (.tail _ (.tail _ (.tail _ (.tail _ (.head _))))))))))))))

theorem ExplosionDescriptor.known : Sourced.ExplosionDescriptor.entry ∈ inPlaceRecords2 := .tail _ (.tail _ (.tail _ (.tail _ (.tail _ (.tail _ (.tail _ (.tail _ (.tail _ (.tail _ (.tail _ (.tail _ (.tail _ (.tail _ (.tail _ (.head _)))))))))))))))

theorem ClockTime.known : Sourced.ClockTime.entry ∈ inPlaceRecords2 := .tail _ (.tail _ (.tail _ (.tail _ (.tail _ (.tail _ (.tail _ (.tail _ (.tail _ (.tail _ (.tail _ (.tail _ (.tail _ (.tail _ (.tail _ (.tail _ (.head _))))))))))))))))

theorem SecondaryOperationalData.known : Sourced.SecondaryOperationalData.entry ∈ inPlaceRecords2 := .tail _ (.tail _ (.tail _ (.tail _ (.tail _ (.tail _ (.tail _ (.tail _ (.tail _ (.tail _ (.tail _ (.tail _ (.tail _ (.tail _ (.tail _ (.tail _ (.tail _ (.head _)))))))))))))))))

theorem EnvironmentType.known : Sourced.EnvironmentType.entry ∈ inPlaceRecords2 := .tail _ (.tail _ (.tail _ (.tail _ (.tail _ (.tail _ (.tail _ (.tail _ (.tail _ (.tail _ (.tail _ (.tail _ (.tail _ (.tail _ (.tail _ (.tail _ (.tail _ (.tail _ (.head _))))))))))))))))))

theorem TotalRecordSets.known : Sourced.TotalRecordSets.entry ∈ inPlaceRecords2 := .tail _ (.tail _ (.tail _ (.tail _ (.tail _ (.tail _ (.tail _ (.tail _ (.tail _ (.tail _ (.tail _ (.tail _ (.tail _ (.tail _ (.tail _ (.tail _ (.tail _ (.tail _ (.tail _ (.head _)))))))))))))))))))

theorem MineEntityIdentifier.known : Sourced.MineEntityIdentifier.entry ∈ inPlaceRecords2 := .tail _ (.tail _ (.tail _ (.tail _ (.tail _ (.tail _ (.tail _ (.tail _ (.tail _ (.tail _ (.tail _ (.tail _ (.tail _ (.tail _ (.tail _ (.tail _ (.tail _ (.tail _ (.tail _ (.tail _ (.head _))))))))))))))))))))

theorem Relationship.known : Sourced.Relationship.entry ∈ inPlaceRecords2 := .tail _ (.tail _ (.tail _ (.tail _ (.tail _ (.tail _ (.tail _ (.tail _ (.tail _ (.tail _ (.tail _ (.tail _ (.tail _ (.tail _ (.tail _ (.tail _ (.tail _ (.tail _ (.tail _ (.tail _ (.tail _ (.head _)))))))))))))))))))))

theorem EEFundamentalParameterData.known : Sourced.EEFundamentalParameterData.entry ∈ inPlaceRecords3 := .head _

theorem JammingTechnique.known : Sourced.JammingTechnique.entry ∈ inPlaceRecords3 := .tail _ (.head _)

theorem Expendable.known : Sourced.Expendable.entry ∈ inPlaceRecords3 := .tail _ (.tail _ (.tail _ (.tail _ (.head _))))

theorem CommunicationsNodeID.known : Sourced.CommunicationsNodeID.entry ∈ inPlaceRecords3 := .tail _ (.tail _ (.tail _ (.tail _ (.tail _ (.head _)))))

theorem IOCommunicationsNode.known : Sourced.IOCommunicationsNode.entry ∈ inPlaceRecords3 := .tail _ (.tail _ (.tail _ (.tail _ (.tail _ (.tail _ (.head _))))))

theorem LinearSegmentParameter.known : Sourced.LinearSegmentParameter.entry ∈ inPlaceRecords3 := .tail _ (.tail _ (.tail _ (.tail _ (.tail _ (.tail _ (.tail _ (.head _)))))))

theorem SystemIdentifier.known : Sourced.SystemIdentifier.entry ∈ inPlaceRecords3 := .tail _ (.tail _ (.tail _ (.tail _ (.tail _ (.tail _ (.tail _ (.tail _ (.head _))))))))

theorem TrackJamData.known : Sourced.TrackJamData.entry ∈ inPlaceRecords3 := .tail _ (.tail _ (.tail _ (.tail _ (.tail _ (.tail _ (.tail _ (.tail _ (.tail _ (.head _)))))))))

theorem AggregateType.known : Sourced.AggregateType.entry ∈ inPlaceRecords3 := .tail _ (.tail _ (.tail _ (.tail _ (.tail _ (.tail _ (.tail _ (.tail _ (.tail _ (.tail _ (.head _))))))))))

theorem SimulationIdentifier.known : Sourced.SimulationIdentifier.entry ∈ inPlaceRecords3 := .tail _ (.tail _ (.tail _ (.tail _ (.tail _ (.tail _ (.tail _ (.tail _ (.tail _ (.tail _ (.tail _ (.head _)))))))))))

theorem PduHeader.known : Sourced.PduHeader.entry ∈ inPlaceRecords3 := .tail _ (.tail _ (.tail _ (.tail _ (.tail _ (.tail _ (.tail _ (.tail _ (.tail _ (.tail _ (.tail _ (.tail _ (.head _))))))))))))

theorem SimulationManagementPduHeader.known : Sourced.SimulationManagementPduHeader.entry ∈ inPlaceRecords3 := .tail _ (.tail _ (.tail _ (.tail _ (.tail _ (.tail _ (.tail _ (.tail _ (.tail _ (.tail _ (.tail _ (.tail _ (.tail _ (.head _)))))))))))))

theorem BeamData.known : Sourced.BeamData.entry ∈ inPlaceRecords3 := .tail _ (.tail _ (.tail _ (.tail _ (.tail _ (.tail _ (.tail _ (.tail _ (.tail _ (.tail _ (.tail _ (.tail _ (.tail _ (.tail _ (.head _))))))))))))))

theorem EngineFuel.known : Sourced.EngineFuel.entry ∈ inPlaceRecords3 := .tail _ (.tail _ (.tail _ (.tail _ (.tail _ (.tail _ (.tail _ (.tail _ (.tail _ (.tail _ (.tail _ (.tail _ (.tail _ (.tail _ (.tail _ (.head _)))))))))))))))

theorem IOEffect.known : Sourced.IOEffect.entry ∈ inPlaceRecords3 := .tail _ (.tail _ (.tail _ (.tail _ (.tail _ (.tail _ (.tail _ (.tail _ (.tail _ (.tail _ (.tail _ (.tail _ (.tail _ (.tail _ (.tail _ (.tail _ (.head _))))))))))))))))

theorem GridAxisDescriptorVariable.known : Sourced.GridAxisDescriptorVariable.entry ∈ inPlaceRecords3 := .tail _ (.tail _ (.tail _ (.tail _ (.tail _ (.tail _ (.tail _ (.tail _ (.tail _ (.tail _ (.tail _ (.tail _ (.tail _ (.tail _ (.tail _ (.tail _ (.tail _ (.head _)))))))))))))))))

theorem SupplyQuantity.known : Sourced.SupplyQuantity.entry ∈ inPlaceRecords3 := .tail _ (.tail _ (.tail _ (.tail _ (.tail _ (.tail _ (.tail _ (.tail _ (.tail _ (.tail _ (.tail _ (.tail _ (.tail _ (.tail _ (.tail _ (.tail _ (.tail _ (.tail _ (.head _))))))))))))))))))

theorem SilentEntitySystem.known : Sourced.SilentEntitySystem.entry ∈ inPlaceRecords3 := .tail _ (.tail _ (.tail _ (.tail _ (.tail _ (.tail _ (.tail _ (.tail _ (.tail _ (.tail _ (.tail _ (.tail _ (.tail _ (.tail _ (.tail _ (.tail _ (.tail _ (.tail _ (.tail _ (.head _)))))))))))))))))))

theorem BlankingSector.known : Sourced.BlankingSector.entry ∈ inPlaceRecords3 := .tail _ (.tail _ (.tail _ (.tail _ (.tail _ (.tail _ (.tail _ (.tail _ (.tail _ (.tail _ (.tail _ (.tail _ (.tail _ (.tail _ (.tail _ (.tail _ (.tail _ (.tail _ (.tail _ (.tail _ (.tail _ (.head _)))))))))))))))))))))

theorem LaunchedMunitionRecord.known : Sourced.LaunchedMunitionRecord.entry ∈ inPlaceRecords4 := .head _

theorem IFFFundamentalParameterData.known : Sourced.IFFFundamentalParameterData.entry ∈ inPlaceRecords4 := .tail _ (.head _)

theorem FundamentalOperationalData.known : Sourced.FundamentalOperationalData.entry ∈ inPlaceRecords4 := .tail _ (.tail _ (.head _))

theorem IntercomCommunicationsParameters.known : Sourced.IntercomCommunicationsParameters.entry ∈ inPlaceRecords4 := .tail _ (.tail _ (.tail _ (.head _)))

theorem Munition.known : Sourced.Munition.entry ∈ inPlaceRecords4 := .tail _ (.tail _ (.tail _ (.tail _ (.head _))))

theorem StandardVariableSpecification.known : Sourced.StandardVariableSpecification.entry ∈ inPlaceRecords4 := .tail _ (.tail _ (.tail _ (.tail _ (.tail _ (.head _)))))

theorem Vector2Float.known : Sourced.Vector2Float.entry ∈ inPlaceRecords4 := .tail _ (.tail _ (.tail _ (.tail _ (.tail _ (.tail _ (.head _))))))

theorem AcousticEmitter.known : Sourced.AcousticEmitter.entry ∈ inPlaceRecords4 := .tail _ (.tail _ (.tail _ (.tail _ (.tail _ (.tail _ (.tail _ (.tail _ (.head _))))))))

theorem AngularVelocityVector.known : Sourced.AngularVelocityVector.entry ∈ inPlaceRecords4 := .tail _ (.tail _ (.tail _ (.tail _ (.tail _ (.tail _ (.tail _ (.tail _ (.tail _ (.head _)))))))))

theorem AggregateMarking.known : Sourced.AggregateMarking.entry ∈ inPlaceRecords4 := .tail _ (.tail _ (.tail _ (.tail _ (.tail _ (.tail _ (.tail _ (.tail _ (.tail _ (.tail _ (.head _))))))))))

theorem DataFilterRecord.known : Sourced.DataFilterRecord.entry ∈ inPlaceRecords4 := .tail _ (.tail _ (.tail _ (.tail _ (.tail _ (.tail _ (.tail _ (.tail _ (.tail _ (.tail _ (.tail _ (.head _)))))))))))

theorem IntercomIdentifier.known : Sourced.IntercomIdentifier.entry ∈ inPlaceRecords4 := .tail _ (.tail _ (.tail _ (.tail _ (.tail _ (.tail _ (.tail _ (.tail _ (.tail _ (.tail _ (.tail _ (.tail _ (.head _))))))))))))

theorem sourced2_lawful : ∀ e ∈ sourced2, e.Lawful := by
  unfold sourced2
  refine List.forall_mem_cons.2 ⟨EntityMarking.lawful, ?_⟩
  refine List.forall_mem_cons.2 ⟨UAFundamentalParameter.lawful, ?_⟩
  refine List.forall_mem_cons.2 ⟨ExplosionDescriptor.lawful, ?_⟩
  refine List.forall_mem_cons.2 ⟨ClockTime.lawful, ?_⟩
  refine List.forall_mem_cons.2 ⟨SecondaryOperationalData.lawful, ?_⟩
  refine List.forall_mem_cons.2 ⟨EnvironmentType.lawful, ?_⟩
  refine List.forall_mem_cons.2 ⟨TotalRecordSets.lawful, ?_⟩
  refine List.forall_mem_cons.2 ⟨MineEntityIdentifier.lawful, ?_⟩
  refine List.forall_mem_cons.2 ⟨Relationship.lawful, ?_⟩
  refine List.forall_mem_cons.2 ⟨EEFundamentalParameterData.lawful, ?_⟩
  refine List.forall_mem_cons.2 ⟨JammingTechnique.lawful, ?_⟩
  refine List.forall_mem_cons.2 ⟨Expendable.lawful, ?_⟩
  refine List.forall_mem_cons.2 ⟨CommunicationsNodeID.lawful, ?_⟩
  refine List.forall_mem_cons.2 ⟨IOCommunicationsNode.lawful, ?_⟩
  refine List.forall_mem_cons.2 ⟨LinearSegmentParameter.lawful, ?_⟩
  refine List.forall_mem_cons.2 ⟨SystemIdentifier.lawful, ?_⟩
  refine List.forall_mem_cons.2 ⟨TrackJamData.lawful, ?_⟩
  refine List.forall_mem_cons.2 ⟨AggregateType.lawful, ?_⟩
  refine List.forall_mem_cons.2 ⟨SimulationIdentifier.lawful, ?_⟩
  refine List.forall_mem_cons.2 ⟨PduHeader.lawful, ?_⟩
  refine List.forall_mem_cons.2 ⟨SimulationManagementPduHeader.lawful, ?_⟩
  refine List.forall_mem_cons.2 ⟨BeamData.lawful, ?_⟩
  refine List.forall_mem_cons.2 ⟨EngineFuel.lawful, ?_⟩
  refine List.forall_mem_cons.2 ⟨IOEffect.lawful, ?_⟩
  refine List.forall_mem_cons.2 ⟨GridAxisDescriptorVariable.lawful, ?_⟩
  refine List.forall_mem_cons.2 ⟨SupplyQuantity.lawful, ?_⟩
  refine List.forall_mem_cons.2 ⟨SilentEntitySystem.lawful, ?_⟩
  refine List.forall_mem_cons.2 ⟨BlankingSector.lawful, ?_⟩
  refine List.forall_mem_cons.2 ⟨LaunchedMunitionRecord.lawful, ?_⟩
  refine List.forall_mem_cons.2 ⟨IFFFundamentalParameterData.lawful, ?_⟩
  refine List.forall_mem_cons.2 ⟨FundamentalOperationalData.lawful, ?_⟩
  refine List.forall_mem_cons.2 ⟨IntercomCommunicationsParameters.lawful, ?_⟩
  refine List.forall_mem_cons.2 ⟨Munition.lawful, ?_⟩
  refine List.forall_mem_cons.2 ⟨StandardVariableSpecification.lawful, ?_⟩
  refine List.forall_mem_cons.2 ⟨Vector2Float.lawful, ?_⟩
  refine List.forall_mem_cons.2 ⟨AcousticEmitter.lawful, ?_⟩
  refine List.forall_mem_cons.2 ⟨AngularVelocityVector.lawful, ?_⟩
  refine List.forall_mem_cons.2 ⟨AggregateMarking.lawful, ?_⟩
  refine List.forall_mem_cons.2 ⟨DataFilterRecord.lawful, ?_⟩
  refine List.forall_mem_cons.2 ⟨IntercomIdentifier.lawful, ?_⟩
  exact fun e h => nomatch h

theorem sourced2_known : ∀ e ∈ sourced2, e.entry ∈ inPlace := by
  unfold sourced2 inPlace
  refine List.forall_mem_cons.2 ⟨by simp only [List.mem_append, EntityMarking.known, true_or, or_true], ?_⟩
  refine List.forall_mem_cons.2 ⟨by simp only [List.mem_append, UAFundamentalParameter.known, true_or, or_true], ?_⟩
  refine List.forall_mem_cons.2 ⟨by simp only [List.mem_append, ExplosionDescriptor.known, true_or, or_true], ?_⟩
  refine List.forall_mem_cons.2 ⟨by simp only [List.mem_append, ClockTime.known, true_or, or_true], ?_⟩
  refine List.forall_mem_cons.2 ⟨by simp only [List.mem_append, SecondaryOperationalData.known, true_or, or_true], ?_⟩
  refine List.forall_mem_cons.2 ⟨by simp only [List.mem_append, EnvironmentType.known, true_or, or_true], ?_⟩
  refine List.forall_mem_cons.2 ⟨by simp only [List.mem_append, TotalRecordSets.known, true_or, or_true], ?_⟩
  refine List.forall_mem_cons.2 ⟨by simp only [List.mem_append, MineEntityIdentifier.known, true_or, or_true], ?_⟩
  refine List.forall_mem_cons.2 ⟨by simp only [List.mem_append, Relationship.known, true_or, or_true], ?_⟩
  refine List.forall_mem_cons.2 ⟨by simp only [List.mem_append, EEFundamentalParameterData.known, true_or, or_true], ?_⟩
  refine List.forall_mem_cons.2 ⟨by simp only [List.mem_append, JammingTechnique.known, true_or, or_true], ?_⟩
  refine List.forall_mem_cons.2 ⟨by simp only [List.mem_append, Expendable.known, true_or, or_true], ?_⟩
  refine List.forall_mem_cons.2 ⟨by simp only [List.mem_append, CommunicationsNodeID.known, true_or, or_true], ?_⟩
  refine List.forall_mem_cons.2 ⟨by simp only [List.mem_append, IOCommunicationsNode.known, true_or, or_true], ?_⟩
  refine List.forall_mem_cons.2 ⟨by simp only [List.mem_append, LinearSegmentParameter.known, true_or, or_true], ?_⟩
  refine List.forall_mem_cons.2 ⟨by simp only [List.mem_append, SystemIdentifier.known, true_or, or_true], ?_⟩
  refine List.forall_mem_cons.2 ⟨by simp only [List.mem_append, TrackJamData.known, true_or, or_true], ?_⟩
  refine List.forall_mem_cons.2 ⟨by simp only [List.mem_append, AggregateType.known, true_or, or_true], ?_⟩
  refine List.forall_mem_cons.2 ⟨by simp only [List.mem_append, SimulationIdentifier.known, true_or, or_true], ?_⟩
  refine List.forall_mem_cons.2 ⟨by simp only [List.mem_append, PduHeader.known, true_or, or_true], ?_⟩
  refine List.forall_mem_cons.2 ⟨by simp only [List.mem_append, SimulationManagementPduHeader.known, true_or, or_true], ?_⟩
  refine List.forall_mem_cons.2 ⟨by simp only [List.mem_append, BeamData.known, true_or, or_true], ?_⟩
  refine List.forall_mem_cons.2 ⟨by simp only [List.mem_append, EngineFuel.known, true_or, or_true], ?_⟩
  refine List.forall_mem_cons.2 ⟨by simp only [List.mem_append, IOEffect.known, true_or, or_true], ?_⟩
  refine List.forall_mem_cons.2 ⟨by simp only [List.mem_append, GridAxisDescriptorVariable.known, true_or, or_true], ?_⟩
  refine List.forall_mem_cons.2 ⟨by simp only [List.mem_append, SupplyQuantity.known, true_or, or_true], ?_⟩
  refine List.forall_mem_cons.2 ⟨by simp only [List.mem_append, SilentEntitySystem.known, true_or, or_true], ?_⟩
  refine List.forall_mem_cons.2 ⟨by simp only [List.mem_append, BlankingSector.known, true_or, or_true], ?_⟩
  refine List.forall_mem_cons.2 ⟨by simp only [List.mem_append, LaunchedMunitionRecord.known, true_or, or_true], ?_⟩
  refine List.forall_mem_cons.2 ⟨by simp only [List.mem_append, IFFFundamentalParameterData.known, true_or, or_true], ?_⟩
  refine List.forall_mem_cons.2 ⟨by simp only [List.mem_append, FundamentalOperationalData.known, true_or, or_true], ?_⟩
  refine List.forall_mem_cons.2 ⟨by simp only [List.mem_append, IntercomCommunicationsParameters.known, true_or, or_true], ?_⟩
  refine List.forall_mem_cons.2 ⟨by simp only [List.mem_append, Munition.known, true_or, or_true], ?_⟩
  refine List.forall_mem_cons.2 ⟨by simp only [List.mem_append, StandardVariableSpecification.known, true_or, or_true], ?_⟩
  refine List.forall_mem_cons.2 ⟨by simp only [List.mem_append, Vector2Float.known, true_or, or_true], ?_⟩
  refine List.forall_mem_cons.2 ⟨by simp only [List.mem_append, AcousticEmitter.known, true_or, or_true], ?_⟩
  refine List.forall_mem_cons.2 ⟨by simp only [List.mem_append, AngularVelocityVector.known, true_or, or_true], ?_⟩
  refine List.forall_mem_cons.2 ⟨by simp only [List.mem_append, AggregateMarking.known, true_or, or_true], ?_⟩
  refine List.forall_mem_cons.2 ⟨by simp only [List.mem_append, DataFilterRecord.known, true_or, or_true], ?_⟩
  refine List.forall_mem_cons.2 ⟨by simp only [List.mem_append, IntercomIdentifier.known, true_or, or_true], ?_⟩
  exact fun e h => nomatch h

end Dis.Src
