import Verif.Spec.SourceCatalog
import Verif.Proof.SourceLaws
import Verif.Proof.SourceRun3
import Verif.Proof.SourceLaw2

/-!
# The classes with their laws, part 3

Written by `tools/gensourceproof.py`.
-/

set_option linter.unusedVariables false
set_option linter.unusedSimpArgs false

namespace Dis.Src

theorem StorageFuel.inj : ∀ {x y : Dis.StorageFuel}, StorageFuel.fields x = StorageFuel.fields y → x = y := by
  rintro ⟨a0, a1, a2, a3, a4⟩ ⟨b0, b1, b2, b3, b4⟩ h
  obtain rfl : a0 = b0 := int_inj (congrArg (look I.fuelQuantity) h)
  obtain rfl : a1 = b1 := int_inj (congrArg (look I.fuelMeasurementUnits) h)
  obtain rfl : a2 = b2 := int_inj (congrArg (look I.fuelType) h)
  obtain rfl : a3 = b3 := int_inj (congrArg (look I.fuelLocation) h)
  obtain rfl : a4 = b4 := int_inj (congrArg (look I.padding) h)
  rfl

theorem Sensor.inj : ∀ {x y : Dis.Sensor}, Sensor.fields x = Sensor.fields y → x = y := by
  rintro ⟨a0, a1, a2, a3, a4, a5⟩ ⟨b0, b1, b2, b3, b4, b5⟩ h
  obtain rfl : a0 = b0 := int_inj (congrArg (look I.sensorTypeSource) h)
  obtain rfl : a1 = b1 := int_inj (congrArg (look I.sensorOnOffStatus) h)
  obtain rfl : a2 = b2 := int_inj (congrArg (look I.sensorType) h)
  obtain rfl : a3 = b3 := int_inj (congrArg (look I.station) h)
  obtain rfl : a4 = b4 := int_inj (congrArg (look I.quantity) h)
  obtain rfl : a5 = b5 := int_inj (congrArg (look I.padding) h)
  rfl

theorem MunitionReload.inj : ∀ {x y : Dis.MunitionReload}, MunitionReload.fields x = MunitionReload.fields y → x = y := by
  rintro ⟨a0, a1, a2, a3, a4, a5⟩ ⟨b0, b1, b2, b3, b4, b5⟩ h
  obtain rfl : a0 = b0 := obj_inj EntityType.inj (congrArg (look I.munitionType) h)
  obtain rfl : a1 = b1 := int_inj (congrArg (look I.station) h)
  obtain rfl : a2 = b2 := int_inj (congrArg (look I.standardQuantity) h)
  obtain rfl : a3 = b3 := int_inj (congrArg (look I.maximumQuantity) h)
  obtain rfl : a4 = b4 := int_inj (congrArg (look I.standardQuantityReloadTime) h)
  obtain rfl : a5 = b5 := int_inj (congrArg (look I.maximumQuantityReloadTime) h)
  rfl

theorem StorageFuelReload.inj : ∀ {x y : Dis.StorageFuelReload}, StorageFuelReload.fields x = StorageFuelReload.fields y → x = y := by
  rintro ⟨a0, a1, a2, a3, a4, a5, a6, a7⟩ ⟨b0, b1, b2, b3, b4, b5, b6, b7⟩ h
  obtain rfl : a0 = b0 := int_inj (congrArg (look I.standardQuantity) h)
  obtain rfl : a1 = b1 := int_inj (congrArg (look I.maximumQuantity) h)
  obtain rfl : a2 = b2 := int_inj (congrArg (look I.standardQuantityReloadTime) h)
  obtain rfl : a3 = b3 := int_inj (congrArg (look I.maximumQuantityReloadTime) h)
  obtain rfl : a4 = b4 := int_inj (congrArg (look I.fuelMeasurementUnits) h)
  obtain rfl : a5 = b5 := int_inj (congrArg (look I.fuelType) h)
  obtain rfl : a6 = b6 := int_inj (congrArg (look I.fuelLocation) h)
  obtain rfl : a7 = b7 := int_inj (congrArg (look I.padding) h)
  rfl

theorem ExpendableReload.inj : ∀ {x y : Dis.ExpendableReload}, ExpendableReload.fields x = ExpendableReload.fields y → x = y := by
  rintro ⟨a0, a1, a2, a3, a4, a5⟩ ⟨b0, b1, b2, b3, b4, b5⟩ h
  obtain rfl : a0 = b0 := obj_inj EntityType.inj (congrArg (look I.expendable) h)
  obtain rfl : a1 = b1 := int_inj (congrArg (look I.station) h)
  obtain rfl : a2 = b2 := int_inj (congrArg (look I.standardQuantity) h)
  obtain rfl : a3 = b3 := int_inj (congrArg (look I.maximumQuantity) h)
  obtain rfl : a4 = b4 := int_inj (congrArg (look I.standardQuantityReloadTime) h)
  obtain rfl : a5 = b5 := int_inj (congrArg (look I.maximumQuantityReloadTime) h)
  rfl

theorem EngineFuelReload.inj : ∀ {x y : Dis.EngineFuelReload}, EngineFuelReload.fields x = EngineFuelReload.fields y → x = y := by
  rintro ⟨a0, a1, a2, a3, a4, a5, a6⟩ ⟨b0, b1, b2, b3, b4, b5, b6⟩ h
  obtain rfl : a0 = b0 := int_inj (congrArg (look I.standardQuantity) h)
  obtain rfl : a1 = b1 := int_inj (congrArg (look I.maximumQuantity) h)
  obtain rfl : a2 = b2 := int_inj (congrArg (look I.standardQuantityReloadTime) h)
  obtain rfl : a3 = b3 := int_inj (congrArg (look I.maximumQuantityReloadTime) h)
  obtain rfl : a4 = b4 := int_inj (congrArg (look I.fuelMeasurmentUnits) h)
  obtain rfl : a5 = b5 := int_inj (congrArg (look I.fuelLocation) h)
  obtain rfl : a6 = b6 := int_inj (congrArg (look I.padding) h)
  rfl

theorem UnattachedIdentifier.inj : ∀ {x y : Dis.UnattachedIdentifier}, UnattachedIdentifier.fields x = UnattachedIdentifier.fields y → x = y := by
  rintro ⟨a0, a1⟩ ⟨b0, b1⟩ h
  obtain rfl : a0 = b0 := obj_inj SimulationAddress.inj (congrArg (look I.simulationAddress) h)
  obtain rfl : a1 = b1 := int_inj (congrArg (look I.referenceNumber) h)
  rfl

theorem EntityTypeVP.inj : ∀ {x y : Dis.EntityTypeVP}, EntityTypeVP.fields x = EntityTypeVP.fields y → x = y := by
  rintro ⟨a0, a1, a2, a3, a4⟩ ⟨b0, b1, b2, b3, b4⟩ h
  obtain rfl : a0 = b0 := int_inj (congrArg (look I.recordType) h)
  obtain rfl : a1 = b1 := int_inj (congrArg (look I.changeIndicator) h)
  obtain rfl : a2 = b2 := obj_inj EntityType.inj (congrArg (look I.entityType) h)
  obtain rfl : a3 = b3 := int_inj (congrArg (look I.padding) h)
  obtain rfl : a4 = b4 := int_inj (congrArg (look I.padding1) h)
  rfl

theorem BeamStatus.inj : ∀ {x y : Dis.BeamStatus}, BeamStatus.fields x = BeamStatus.fields y → x = y := by
  rintro ⟨a0⟩ ⟨b0⟩ h
  obtain rfl : a0 = b0 := int_inj (congrArg (look I.beamState) h)
  rfl

theorem GridAxis.inj : ∀ {x y : Dis.GridAxis}, GridAxis.fields x = GridAxis.fields y → x = y := by
  rintro ⟨a0, a1, a2, a3, a4, a5, a6⟩ ⟨b0, b1, b2, b3, b4, b5, b6⟩ h
  obtain rfl : a0 = b0 := float_inj (congrArg (look I.domainInitialXi) h)
  obtain rfl : a1 = b1 := float_inj (congrArg (look I.domainFinalXi) h)
  obtain rfl : a2 = b2 := int_inj (congrArg (look I.domainPointsXi) h)
  obtain rfl : a3 = b3 := int_inj (congrArg (look I.interleafFactor) h)
  obtain rfl : a4 = b4 := int_inj (congrArg (look I.axisType) h)
  obtain rfl : a5 = b5 := int_inj (congrArg (look I.numberOfPointsOnXiAxis) h)
  obtain rfl : a6 = b6 := int_inj (congrArg (look I.initialIndex) h)
  rfl

theorem RecordSpecification.inj : ∀ {x y : Dis.RecordSpecification}, RecordSpecification.fields x = RecordSpecification.fields y → x = y := by
  rintro ⟨a0⟩ ⟨b0⟩ h
  obtain rfl : a0 = b0 := list_inj (enc_inj RecordSpecificationElement.inj) (congrArg (look I.recordSets) h)
  rfl

theorem EventIdentifierLiveEntity.inj : ∀ {x y : Dis.EventIdentifierLiveEntity}, EventIdentifierLiveEntity.fields x = EventIdentifierLiveEntity.fields y → x = y := by
  rintro ⟨a0, a1, a2⟩ ⟨b0, b1, b2⟩ h
  obtain rfl : a0 = b0 := int_inj (congrArg (look I.siteNumber) h)
  obtain rfl : a1 = b1 := int_inj (congrArg (look I.applicationNumber) h)
  obtain rfl : a2 = b2 := int_inj (congrArg (look I.eventNumber) h)
  rfl

theorem ExpendableDescriptor.inj : ∀ {x y : Dis.ExpendableDescriptor}, ExpendableDescriptor.fields x = ExpendableDescriptor.fields y → x = y := by
  rintro ⟨a0, a1⟩ ⟨b0, b1⟩ h
  obtain rfl : a0 = b0 := obj_inj EntityType.inj (congrArg (look I.expendableType) h)
  obtain rfl : a1 = b1 := int_inj (congrArg (look I.padding) h)
  rfl

theorem PropulsionSystemData.inj : ∀ {x y : Dis.PropulsionSystemData}, PropulsionSystemData.fields x = PropulsionSystemData.fields y → x = y := by
  rintro ⟨a0, a1⟩ ⟨b0, b1⟩ h
  obtain rfl : a0 = b0 := float_inj (congrArg (look I.powerSetting) h)
  obtain rfl : a1 = b1 := float_inj (congrArg (look I.engineRpm) h)
  rfl

theorem LiveEntityIdentifier.inj : ∀ {x y : Dis.LiveEntityIdentifier}, LiveEntityIdentifier.fields x = LiveEntityIdentifier.fields y → x = y := by
  rintro ⟨a0, a1⟩ ⟨b0, b1⟩ h
  obtain rfl : a0 = b0 := obj_inj LiveSimulationAddress.inj (congrArg (look I.liveSimulationAddress) h)
  obtain rfl : a1 = b1 := int_inj (congrArg (look I.entityNumber) h)
  rfl

theorem EmitterSystem.inj : ∀ {x y : Dis.EmitterSystem}, EmitterSystem.fields x = EmitterSystem.fields y → x = y := by
  rintro ⟨a0, a1, a2⟩ ⟨b0, b1, b2⟩ h
  obtain rfl : a0 = b0 := int_inj (congrArg (look I.emitterName) h)
  obtain rfl : a1 = b1 := int_inj (congrArg (look I.emitterFunction) h)
  obtain rfl : a2 = b2 := int_inj (congrArg (look I.emitterIDNumber) h)
  rfl

theorem PduStatus.inj : ∀ {x y : Dis.PduStatus}, PduStatus.fields x = PduStatus.fields y → x = y := by
  rintro ⟨a0⟩ ⟨b0⟩ h
  obtain rfl : a0 = b0 := int_inj (congrArg (look I.pduStatus) h)
  rfl

theorem EmissionSystemBeamRecord.inj : ∀ {x y : Dis.EmissionSystemBeamRecord}, EmissionSystemBeamRecord.fields x = EmissionSystemBeamRecord.fields y → x = y := by
  rintro ⟨a0, a1, a2, a3, a4, a5, a6, a7, a8⟩ ⟨b0, b1, b2, b3, b4, b5, b6, b7, b8⟩ h
  obtain rfl : a0 = b0 := int_inj (congrArg (look I.beamDataLength) h)
  obtain rfl : a1 = b1 := int_inj (congrArg (look I.beamIDNumber) h)
  obtain rfl : a2 = b2 := int_inj (congrArg (look I.beamParameterIndex) h)
  obtain rfl : a3 = b3 := obj_inj EEFundamentalParameterData.inj (congrArg (look I.fundamentalParameterData) h)
  obtain rfl : a4 = b4 := int_inj (congrArg (look I.beamFunction) h)
  obtain rfl : a5 = b5 := int_inj (congrArg (look I.highDensityTrackJam) h)
  obtain rfl : a6 = b6 := obj_inj BeamStatus.inj (congrArg (look I.beamStatus) h)
  obtain rfl : a7 = b7 := int_inj (congrArg (look I.jammingModeSequence) h)
  obtain rfl : a8 = b8 := list_inj (enc_inj TrackJamData.inj) (congrArg (look I.trackJamRecords) h)
  rfl

theorem EmissionSystemRecord.inj : ∀ {x y : Dis.EmissionSystemRecord}, EmissionSystemRecord.fields x = EmissionSystemRecord.fields y → x = y := by
  rintro ⟨a0, a1, a2, a3, a4⟩ ⟨b0, b1, b2, b3, b4⟩ h
  obtain rfl : a0 = b0 := int_inj (congrArg (look I.systemDataLength) h)
  obtain rfl : a1 = b1 := int_inj (congrArg (look I.paddingForEmissionsPdu) h)
  obtain rfl : a2 = b2 := obj_inj EmitterSystem.inj (congrArg (look I.emitterSystem) h)
  obtain rfl : a3 = b3 := obj_inj Vector3Float.inj (congrArg (look I.location) h)
  obtain rfl : a4 = b4 := list_inj (enc_inj EmissionSystemBeamRecord.inj) (congrArg (look I.beamRecords) h)
  rfl

theorem PduSuperclass.inj : ∀ {x y : Dis.PduSuperclass}, PduSuperclass.fields x = PduSuperclass.fields y → x = y := by
  rintro ⟨a0, a1, a2, a3, a4, a5⟩ ⟨b0, b1, b2, b3, b4, b5⟩ h
  obtain rfl : a0 = b0 := int_inj (congrArg (look I.protocolVersion) h)
  obtain rfl : a1 = b1 := int_inj (congrArg (look I.exerciseID) h)
  obtain rfl : a2 = b2 := int_inj (congrArg (look I.pduType) h)
  obtain rfl : a3 = b3 := int_inj (congrArg (look I.protocolFamily) h)
  obtain rfl : a4 = b4 := int_inj (congrArg (look I.timestamp) h)
  obtain rfl : a5 = b5 := int_inj (congrArg (look I.length) h)
  rfl

theorem LiveEntityPdu.inj : ∀ {x y : Dis.LiveEntityPdu}, LiveEntityPdu.fields x = LiveEntityPdu.fields y → x = y := by
  rintro ⟨p, a0, a1⟩ ⟨q, b0, b1⟩ h
  obtain rfl : p = q := PduSuperclass.inj (List.append_inj_left h rfl)
  obtain rfl : a0 = b0 := int_inj (congrArg (look I.subprotocolNumber) h)
  obtain rfl : a1 = b1 := int_inj (congrArg (look I.padding) h)
  rfl

theorem Pdu.inj : ∀ {x y : Dis.Pdu}, Pdu.fields x = Pdu.fields y → x = y := by
  rintro ⟨p, a0, a1⟩ ⟨q, b0, b1⟩ h
  obtain rfl : p = q := PduSuperclass.inj (List.append_inj_left h rfl)
  obtain rfl : a0 = b0 := int_inj (congrArg (look I.pduStatus) h)
  obtain rfl : a1 = b1 := int_inj (congrArg (look I.padding) h)
  rfl

theorem EntityInformationFamilyPdu.inj : ∀ {x y : Dis.EntityInformationFamilyPdu}, EntityInformationFamilyPdu.fields x = EntityInformationFamilyPdu.fields y → x = y := by
  rintro ⟨p⟩ ⟨q⟩ h
  obtain rfl : p = q := Pdu.inj (List.append_inj_left h rfl)
  rfl

theorem LogisticsFamilyPdu.inj : ∀ {x y : Dis.LogisticsFamilyPdu}, LogisticsFamilyPdu.fields x = LogisticsFamilyPdu.fields y → x = y := by
  rintro ⟨p⟩ ⟨q⟩ h
  obtain rfl : p = q := Pdu.inj (List.append_inj_left h rfl)
  rfl

theorem EntityStateUpdatePdu.inj : ∀ {x y : Dis.EntityStateUpdatePdu}, EntityStateUpdatePdu.fields x = EntityStateUpdatePdu.fields y → x = y := by
  rintro ⟨p, a0, a1, a2, a3, a4, a5, a6⟩ ⟨q, b0, b1, b2, b3, b4, b5, b6⟩ h
  obtain rfl : p = q := EntityInformationFamilyPdu.inj (List.append_inj_left h rfl)
  obtain rfl : a0 = b0 := obj_inj EntityIdentifier.inj (congrArg (look I.entityID) h)
  obtain rfl : a1 = b1 := int_inj (congrArg (look I.padding1) h)
  obtain rfl : a2 = b2 := obj_inj Vector3Float.inj (congrArg (look I.entityLinearVelocity) h)
  obtain rfl : a3 = b3 := obj_inj WorldCoordinates.inj (congrArg (look I.entityLocation) h)
  obtain rfl : a4 = b4 := obj_inj EulerAngles.inj (congrArg (look I.entityOrientation) h)
  obtain rfl : a5 = b5 := int_inj (congrArg (look I.entityAppearance) h)
  obtain rfl : a6 = b6 := list_inj (enc_inj VariableParameter.inj) (congrArg (look I.variableParameters) h)
  rfl

theorem ServiceRequestPdu.inj : ∀ {x y : Dis.ServiceRequestPdu}, ServiceRequestPdu.fields x = ServiceRequestPdu.fields y → x = y := by
  rintro ⟨p, a0, a1, a2, a3, a4⟩ ⟨q, b0, b1, b2, b3, b4⟩ h
  obtain rfl : p = q := LogisticsFamilyPdu.inj (List.append_inj_left h rfl)
  obtain rfl : a0 = b0 := obj_inj EntityIdentifier.inj (congrArg (look I.requestingEntityID) h)
  obtain rfl : a1 = b1 := obj_inj EntityIdentifier.inj (congrArg (look I.servicingEntityID) h)
  obtain rfl : a2 = b2 := int_inj (congrArg (look I.serviceTypeRequested) h)
  obtain rfl : a3 = b3 := int_inj (congrArg (look I.serviceRequestPadding) h)
  obtain rfl : a4 = b4 := list_inj (enc_inj SupplyQuantity.inj) (congrArg (look I.supplies) h)
  rfl

theorem RepairCompletePdu.inj : ∀ {x y : Dis.RepairCompletePdu}, RepairCompletePdu.fields x = RepairCompletePdu.fields y → x = y := by
  rintro ⟨p, a0, a1, a2, a3⟩ ⟨q, b0, b1, b2, b3⟩ h
  obtain rfl : p = q := LogisticsFamilyPdu.inj (List.append_inj_left h rfl)
  obtain rfl : a0 = b0 := obj_inj EntityIdentifier.inj (congrArg (look I.receivingEntityID) h)
  obtain rfl : a1 = b1 := obj_inj EntityIdentifier.inj (congrArg (look I.repairingEntityID) h)
  obtain rfl : a2 = b2 := int_inj (congrArg (look I.repair) h)
  obtain rfl : a3 = b3 := int_inj (congrArg (look I.padding4) h)
  rfl

theorem SyntheticEnvironmentFamilyPdu.inj : ∀ {x y : Dis.SyntheticEnvironmentFamilyPdu}, SyntheticEnvironmentFamilyPdu.fields x = SyntheticEnvironmentFamilyPdu.fields y → x = y := by
  rintro ⟨p⟩ ⟨q⟩ h
  obtain rfl : p = q := Pdu.inj (List.append_inj_left h rfl)
  rfl

theorem CollisionPdu.inj : ∀ {x y : Dis.CollisionPdu}, CollisionPdu.fields x = CollisionPdu.fields y → x = y := by
  rintro ⟨p, a0, a1, a2, a3, a4, a5, a6, a7⟩ ⟨q, b0, b1, b2, b3, b4, b5, b6, b7⟩ h
  obtain rfl : p = q := EntityInformationFamilyPdu.inj (List.append_inj_left h rfl)
  obtain rfl : a0 = b0 := obj_inj EntityIdentifier.inj (congrArg (look I.issuingEntityID) h)
  obtain rfl : a1 = b1 := obj_inj EntityIdentifier.inj (congrArg (look I.collidingEntityID) h)
  obtain rfl : a2 = b2 := obj_inj EventIdentifier.inj (congrArg (look I.eventID) h)
  obtain rfl : a3 = b3 := int_inj (congrArg (look I.collisionType) h)
  obtain rfl : a4 = b4 := int_inj (congrArg (look I.pad) h)
  obtain rfl : a5 = b5 := obj_inj Vector3Float.inj (congrArg (look I.velocity) h)
  obtain rfl : a6 = b6 := float_inj (congrArg (look I.mass) h)
  obtain rfl : a7 = b7 := obj_inj Vector3Float.inj (congrArg (look I.location) h)
  rfl

theorem RepairResponsePdu.inj : ∀ {x y : Dis.RepairResponsePdu}, RepairResponsePdu.fields x = RepairResponsePdu.fields y → x = y := by
  rintro ⟨p, a0, a1, a2, a3, a4⟩ ⟨q, b0, b1, b2, b3, b4⟩ h
  obtain rfl : p = q := LogisticsFamilyPdu.inj (List.append_inj_left h rfl)
  obtain rfl : a0 = b0 := obj_inj EntityIdentifier.inj (congrArg (look I.receivingEntityID) h)
  obtain rfl : a1 = b1 := obj_inj EntityIdentifier.inj (congrArg (look I.repairingEntityID) h)
  obtain rfl : a2 = b2 := int_inj (congrArg (look I.repairResult) h)
  obtain rfl : a3 = b3 := int_inj (congrArg (look I.padding1) h)
  obtain rfl : a4 = b4 := int_inj (congrArg (look I.padding2) h)
  rfl

theorem SimulationManagementFamilyPdu.inj : ∀ {x y : Dis.SimulationManagementFamilyPdu}, SimulationManagementFamilyPdu.fields x = SimulationManagementFamilyPdu.fields y → x = y := by
  rintro ⟨p, a0, a1⟩ ⟨q, b0, b1⟩ h
  obtain rfl : p = q := Pdu.inj (List.append_inj_left h rfl)
  obtain rfl : a0 = b0 := obj_inj EntityIdentifier.inj (congrArg (look I.originatingEntityID) h)
  obtain rfl : a1 = b1 := obj_inj EntityIdentifier.inj (congrArg (look I.receivingEntityID) h)
  rfl

theorem DataQueryPdu.inj : ∀ {x y : Dis.DataQueryPdu}, DataQueryPdu.fields x = DataQueryPdu.fields y → x = y := by
  rintro ⟨p, a0, a1, a2⟩ ⟨q, b0, b1, b2⟩ h
  obtain rfl : p = q := SimulationManagementFamilyPdu.inj (List.append_inj_left h rfl)
  obtain rfl : a0 = b0 := int_inj (congrArg (look I.requestID) h)
  obtain rfl : a1 = b1 := int_inj (congrArg (look I.timeInterval) h)
  obtain rfl : a2 = b2 := obj_inj DataQueryDatumSpecification.inj (congrArg (look I._dataQuery) h)
  rfl

theorem LinearObjectStatePdu.inj : ∀ {x y : Dis.LinearObjectStatePdu}, LinearObjectStatePdu.fields x = LinearObjectStatePdu.fields y → x = y := by
  rintro ⟨p, a0, a1, a2, a3, a4, a5, a6, a7⟩ ⟨q, b0, b1, b2, b3, b4, b5, b6, b7⟩ h
  obtain rfl : p = q := SyntheticEnvironmentFamilyPdu.inj (List.append_inj_left h rfl)
  obtain rfl : a0 = b0 := obj_inj EntityIdentifier.inj (congrArg (look I.objectID) h)
  obtain rfl : a1 = b1 := obj_inj EntityIdentifier.inj (congrArg (look I.referencedObjectID) h)
  obtain rfl : a2 = b2 := int_inj (congrArg (look I.updateNumber) h)
  obtain rfl : a3 = b3 := int_inj (congrArg (look I.forceID) h)
  obtain rfl : a4 = b4 := obj_inj SimulationAddress.inj (congrArg (look I.requesterID) h)
  obtain rfl : a5 = b5 := obj_inj SimulationAddress.inj (congrArg (look I.receivingID) h)
  obtain rfl : a6 = b6 := obj_inj ObjectType.inj (congrArg (look I.objectType) h)
  obtain rfl : a7 = b7 := list_inj (enc_inj LinearSegmentParameter.inj) (congrArg (look I.linearSegmentParameters) h)
  rfl

theorem CreateEntityPdu.inj : ∀ {x y : Dis.CreateEntityPdu}, CreateEntityPdu.fields x = CreateEntityPdu.fields y → x = y := by
  rintro ⟨p, a0⟩ ⟨q, b0⟩ h
  obtain rfl : p = q := SimulationManagementFamilyPdu.inj (List.append_inj_left h rfl)
  obtain rfl : a0 = b0 := int_inj (congrArg (look I.requestID) h)
  rfl

theorem RadioCommunicationsFamilyPdu.inj : ∀ {x y : Dis.RadioCommunicationsFamilyPdu}, RadioCommunicationsFamilyPdu.fields x = RadioCommunicationsFamilyPdu.fields y → x = y := by
  rintro ⟨p⟩ ⟨q⟩ h
  obtain rfl : p = q := Pdu.inj (List.append_inj_left h rfl)
  rfl

theorem IntercomSignalPdu.inj : ∀ {x y : Dis.IntercomSignalPdu}, IntercomSignalPdu.fields x = IntercomSignalPdu.fields y → x = y := by
  rintro ⟨p, a0, a1, a2, a3, a4, a5, a6⟩ ⟨q, b0, b1, b2, b3, b4, b5, b6⟩ h
  obtain rfl : p = q := RadioCommunicationsFamilyPdu.inj (List.append_inj_left h rfl)
  obtain rfl : a0 = b0 := obj_inj EntityIdentifier.inj (congrArg (look I.entityID) h)
  obtain rfl : a1 = b1 := int_inj (congrArg (look I.communicationsDeviceID) h)
  obtain rfl : a2 = b2 := int_inj (congrArg (look I.encodingScheme) h)
  obtain rfl : a3 = b3 := int_inj (congrArg (look I.tdlType) h)
  obtain rfl : a4 = b4 := int_inj (congrArg (look I.sampleRate) h)
  obtain rfl : a5 = b5 := int_inj (congrArg (look I.samples) h)
  obtain rfl : a6 = b6 := list_inj ints_inj (congrArg (look I.data) h)
  rfl

theorem RemoveEntityPdu.inj : ∀ {x y : Dis.RemoveEntityPdu}, RemoveEntityPdu.fields x = RemoveEntityPdu.fields y → x = y := by
  rintro ⟨p, a0⟩ ⟨q, b0⟩ h
  obtain rfl : p = q := SimulationManagementFamilyPdu.inj (List.append_inj_left h rfl)
  obtain rfl : a0 = b0 := int_inj (congrArg (look I.requestID) h)
  rfl

theorem ResupplyReceivedPdu.inj : ∀ {x y : Dis.ResupplyReceivedPdu}, ResupplyReceivedPdu.fields x = ResupplyReceivedPdu.fields y → x = y := by
  rintro ⟨p, a0, a1, a2, a3, a4⟩ ⟨q, b0, b1, b2, b3, b4⟩ h
  obtain rfl : p = q := LogisticsFamilyPdu.inj (List.append_inj_left h rfl)
  obtain rfl : a0 = b0 := obj_inj EntityIdentifier.inj (congrArg (look I.receivingEntityID) h)
  obtain rfl : a1 = b1 := obj_inj EntityIdentifier.inj (congrArg (look I.supplyingEntityID) h)
  obtain rfl : a2 = b2 := int_inj (congrArg (look I.padding1) h)
  obtain rfl : a3 = b3 := int_inj (congrArg (look I.padding2) h)
  obtain rfl : a4 = b4 := list_inj (enc_inj SupplyQuantity.inj) (congrArg (look I.supplies) h)
  rfl

theorem WarfareFamilyPdu.inj : ∀ {x y : Dis.WarfareFamilyPdu}, WarfareFamilyPdu.fields x = WarfareFamilyPdu.fields y → x = y := by
  rintro ⟨p, a0, a1⟩ ⟨q, b0, b1⟩ h
  obtain rfl : p = q := Pdu.inj (List.append_inj_left h rfl)
  obtain rfl : a0 = b0 := obj_inj EntityIdentifier.inj (congrArg (look I.firingEntityID) h)
  obtain rfl : a1 = b1 := obj_inj EntityIdentifier.inj (congrArg (look I.targetEntityID) h)
  rfl

theorem CollisionElasticPdu.inj : ∀ {x y : Dis.CollisionElasticPdu}, CollisionElasticPdu.fields x = CollisionElasticPdu.fields y → x = y := by
  rintro ⟨p, a0, a1, a2, a3, a4, a5, a6, a7, a8, a9, a10, a11, a12, a13, a14⟩ ⟨q, b0, b1, b2, b3, b4, b5, b6, b7, b8, b9, b10, b11, b12, b13, b14⟩ h
  obtain rfl : p = q := EntityInformationFamilyPdu.inj (List.append_inj_left h rfl)
  obtain rfl : a0 = b0 := obj_inj EntityIdentifier.inj (congrArg (look I.issuingEntityID) h)
  obtain rfl : a1 = b1 := obj_inj EntityIdentifier.inj (congrArg (look I.collidingEntityID) h)
  obtain rfl : a2 = b2 := obj_inj EventIdentifier.inj (congrArg (look I.collisionEventID) h)
  obtain rfl : a3 = b3 := int_inj (congrArg (look I.pad) h)
  obtain rfl : a4 = b4 := obj_inj Vector3Float.inj (congrArg (look I.contactVelocity) h)
  obtain rfl : a5 = b5 := float_inj (congrArg (look I.mass) h)
  obtain rfl : a6 = b6 := obj_inj Vector3Float.inj (congrArg (look I.locationOfImpact) h)
  obtain rfl : a7 = b7 := float_inj (congrArg (look I.collisionIntermediateResultXX) h)
  obtain rfl : a8 = b8 := float_inj (congrArg (look I.collisionIntermediateResultXY) h)
  obtain rfl : a9 = b9 := float_inj (congrArg (look I.collisionIntermediateResultXZ) h)
  obtain rfl : a10 = b10 := float_inj (congrArg (look I.collisionIntermediateResultYY) h)
  obtain rfl : a11 = b11 := float_inj (congrArg (look I.collisionIntermediateResultYZ) h)
  obtain rfl : a12 = b12 := float_inj (congrArg (look I.collisionIntermediateResultZZ) h)
  obtain rfl : a13 = b13 := obj_inj Vector3Float.inj (congrArg (look I.unitSurfaceNormal) h)
  obtain rfl : a14 = b14 := float_inj (congrArg (look I.coefficientOfRestitution) h)
  rfl

theorem StorageFuel.lawful : Sourced.StorageFuel.Lawful where
  serialize n x := StorageFuel.serializes (n + 7) x
  parse n := StorageFuel.parses (n + 7)
  inj _ _ := StorageFuel.inj
  makes _ := ⟨_, .rfl' _, fun n => ⟨StorageFuel.makes (n + 7), StorageFuel.serializes (n + 7) Dis.StorageFuel.init,
    fun io => ⟨_, StorageFuel.parses (n + 7) Dis.StorageFuel.init io, fun _ _ => rfl⟩⟩⟩

theorem Sensor.lawful : Sourced.Sensor.Lawful where
  serialize n x := Sensor.serializes (n + 7) x
  parse n := Sensor.parses (n + 7)
  inj _ _ := Sensor.inj
  makes _ := ⟨_, .rfl' _, fun n => ⟨Sensor.makes (n + 7), Sensor.serializes (n + 7) Dis.Sensor.init,
    fun io => ⟨_, Sensor.parses (n + 7) Dis.Sensor.init io, fun _ _ => rfl⟩⟩⟩

theorem MunitionReload.lawful : Sourced.MunitionReload.Lawful where
  serialize n x := MunitionReload.serializes (n + 6) x
  parse n := MunitionReload.parses (n + 6)
  inj _ _ := MunitionReload.inj
  makes _ := ⟨_, .rfl' _, fun n => ⟨MunitionReload.makes (n + 6), MunitionReload.serializes (n + 6) Dis.MunitionReload.init,
    fun io => ⟨_, MunitionReload.parses (n + 6) Dis.MunitionReload.init io, fun _ _ => rfl⟩⟩⟩

theorem StorageFuelReload.lawful : Sourced.StorageFuelReload.Lawful where
  serialize n x := StorageFuelReload.serializes (n + 7) x
  parse n := StorageFuelReload.parses (n + 7)
  inj _ _ := StorageFuelReload.inj
  makes _ := ⟨_, .rfl' _, fun n => ⟨StorageFuelReload.makes (n + 7), StorageFuelReload.serializes (n + 7) Dis.StorageFuelReload.init,
    fun io => ⟨_, StorageFuelReload.parses (n + 7) Dis.StorageFuelReload.init io, fun _ _ => rfl⟩⟩⟩

theorem ExpendableReload.lawful : Sourced.ExpendableReload.Lawful where
  serialize n x := ExpendableReload.serializes (n + 6) x
  parse n := ExpendableReload.parses (n + 6)
  inj _ _ := ExpendableReload.inj
  makes _ := ⟨_, .rfl' _, fun n => ⟨ExpendableReload.makes (n + 6), ExpendableReload.serializes (n + 6) Dis.ExpendableReload.init,
    fun io => ⟨_, ExpendableReload.parses (n + 6) Dis.ExpendableReload.init io, fun _ _ => rfl⟩⟩⟩

theorem EngineFuelReload.lawful : Sourced.EngineFuelReload.Lawful where
  serialize n x := EngineFuelReload.serializes (n + 7) x
  parse n := EngineFuelReload.parses (n + 7)
  inj _ _ := EngineFuelReload.inj
  makes _ := ⟨_, .rfl' _, fun n => ⟨EngineFuelReload.makes (n + 7), EngineFuelReload.serializes (n + 7) Dis.EngineFuelReload.init,
    fun io => ⟨_, EngineFuelReload.parses (n + 7) Dis.EngineFuelReload.init io, fun _ _ => rfl⟩⟩⟩

theorem UnattachedIdentifier.lawful : Sourced.UnattachedIdentifier.Lawful where
  serialize n x := UnattachedIdentifier.serializes (n + 6) x
  parse n := UnattachedIdentifier.parses (n + 6)
  inj _ _ := UnattachedIdentifier.inj
  makes _ := ⟨_, .rfl' _, fun n => ⟨UnattachedIdentifier.makes (n + 6), UnattachedIdentifier.serializes (n + 6) Dis.UnattachedIdentifier.init,
    fun io => ⟨_, UnattachedIdentifier.parses (n + 6) Dis.UnattachedIdentifier.init io, fun _ _ => rfl⟩⟩⟩

theorem EntityTypeVP.lawful : Sourced.EntityTypeVP.Lawful where
  serialize n x := EntityTypeVP.serializes (n + 6) x
  parse n := EntityTypeVP.parses (n + 6)
  inj _ _ := EntityTypeVP.inj
  makes _ := ⟨_, .rfl' _, fun n => ⟨EntityTypeVP.makes (n + 6), EntityTypeVP.serializes (n + 6) Dis.EntityTypeVP.init,
    fun io => ⟨_, EntityTypeVP.parses (n + 6) Dis.EntityTypeVP.init io, fun _ _ => rfl⟩⟩⟩

theorem BeamStatus.lawful : Sourced.BeamStatus.Lawful where
  serialize n x := BeamStatus.serializes (n + 7) x
  parse n := BeamStatus.parses (n + 7)
  inj _ _ := BeamStatus.inj
  makes _ := ⟨_, .rfl' _, fun n => ⟨BeamStatus.makes (n + 7), BeamStatus.serializes (n + 7) Dis.BeamStatus.init,
    fun io => ⟨_, BeamStatus.parses (n + 7) Dis.BeamStatus.init io, fun _ _ => rfl⟩⟩⟩

theorem GridAxis.lawful : Sourced.GridAxis.Lawful where
  serialize n x := GridAxis.serializes (n + 7) x
  parse n := GridAxis.parses (n + 7)
  inj _ _ := GridAxis.inj
  makes _ := ⟨_, .rfl' _, fun n => ⟨GridAxis.makes (n + 7), GridAxis.serializes (n + 7) Dis.GridAxis.init,
    fun io => ⟨_, GridAxis.parses (n + 7) Dis.GridAxis.init io, fun _ _ => rfl⟩⟩⟩

theorem RecordSpecification.lawful : Sourced.RecordSpecification.Lawful where
  serialize n x := RecordSpecification.serializes (n + 6) x
  parse n := RecordSpecification.parses (n + 7)
  inj _ _ := RecordSpecification.inj
  makes _ := ⟨_, .rfl' _, fun n => ⟨RecordSpecification.makes (n + 7), RecordSpecification.serializes (n + 6) Dis.RecordSpecification.init,
    fun io => ⟨_, RecordSpecification.parses (n + 7) Dis.RecordSpecification.init io, fun _ _ => rfl⟩⟩⟩

theorem EventIdentifierLiveEntity.lawful : Sourced.EventIdentifierLiveEntity.Lawful where
  serialize n x := EventIdentifierLiveEntity.serializes (n + 7) x
  parse n := EventIdentifierLiveEntity.parses (n + 7)
  inj _ _ := EventIdentifierLiveEntity.inj
  makes _ := ⟨_, .rfl' _, fun n => ⟨EventIdentifierLiveEntity.makes (n + 7), EventIdentifierLiveEntity.serializes (n + 7) Dis.EventIdentifierLiveEntity.init,
    fun io => ⟨_, EventIdentifierLiveEntity.parses (n + 7) Dis.EventIdentifierLiveEntity.init io, fun _ _ => rfl⟩⟩⟩

theorem ExpendableDescriptor.lawful : Sourced.ExpendableDescriptor.Lawful where
  serialize n x := ExpendableDescriptor.serializes (n + 6) x
  parse n := ExpendableDescriptor.parses (n + 6)
  inj _ _ := ExpendableDescriptor.inj
  makes _ := ⟨_, .rfl' _, fun n => ⟨ExpendableDescriptor.makes (n + 6), ExpendableDescriptor.serializes (n + 6) Dis.ExpendableDescriptor.init,
    fun io => ⟨_, ExpendableDescriptor.parses (n + 6) Dis.ExpendableDescriptor.init io, fun _ _ => rfl⟩⟩⟩

theorem PropulsionSystemData.lawful : Sourced.PropulsionSystemData.Lawful where
  serialize n x := PropulsionSystemData.serializes (n + 7) x
  parse n := PropulsionSystemData.parses (n + 7)
  inj _ _ := PropulsionSystemData.inj
  makes _ := ⟨_, .rfl' _, fun n => ⟨PropulsionSystemData.makes (n + 7), PropulsionSystemData.serializes (n + 7) Dis.PropulsionSystemData.init,
    fun io => ⟨_, PropulsionSystemData.parses (n + 7) Dis.PropulsionSystemData.init io, fun _ _ => rfl⟩⟩⟩

theorem LiveEntityIdentifier.lawful : Sourced.LiveEntityIdentifier.Lawful where
  serialize n x := LiveEntityIdentifier.serializes (n + 6) x
  parse n := LiveEntityIdentifier.parses (n + 6)
  inj _ _ := LiveEntityIdentifier.inj
  makes _ := ⟨_, .rfl' _, fun n => ⟨LiveEntityIdentifier.makes (n + 6), LiveEntityIdentifier.serializes (n + 6) Dis.LiveEntityIdentifier.init,
    fun io => ⟨_, LiveEntityIdentifier.parses (n + 6) Dis.LiveEntityIdentifier.init io, fun _ _ => rfl⟩⟩⟩

theorem EmitterSystem.lawful : Sourced.EmitterSystem.Lawful where
  serialize n x := EmitterSystem.serializes (n + 7) x
  parse n := EmitterSystem.parses (n + 7)
  inj _ _ := EmitterSystem.inj
  makes _ := ⟨_, .rfl' _, fun n => ⟨EmitterSystem.makes (n + 7), EmitterSystem.serializes (n + 7) Dis.EmitterSystem.init,
    fun io => ⟨_, EmitterSystem.parses (n + 7) Dis.EmitterSystem.init io, fun _ _ => rfl⟩⟩⟩

theorem PduStatus.lawful : Sourced.PduStatus.Lawful where
  serialize n x := PduStatus.serializes (n + 7) x
  parse n := PduStatus.parses (n + 7)
  inj _ _ := PduStatus.inj
  makes _ := ⟨_, .rfl' _, fun n => ⟨PduStatus.makes (n + 7), PduStatus.serializes (n + 7) Dis.PduStatus.init,
    fun io => ⟨_, PduStatus.parses (n + 7) Dis.PduStatus.init io, fun _ _ => rfl⟩⟩⟩

theorem EmissionSystemBeamRecord.same : SameFields (EmissionSystemBeamRecord.rawFields EmissionSystemBeamRecord.made) (EmissionSystemBeamRecord.fields Dis.EmissionSystemBeamRecord.init) :=
  .cons (.refl _) <|
  .cons (.refl _) <|
  .cons (.refl _) <|
  .cons (.obj EEFundamentalParameterData.same) <|
  .cons (.refl _) <|
  .cons (.refl _) <|
  .cons (.refl _) <|
  .cons (.refl _) <|
  .cons (.refl _) <|
  .nil

theorem EmissionSystemBeamRecord.firstRaw (n : Nat) : Serializes (run (n + 4)) I.EmissionSystemBeamRecord (.obj I.EmissionSystemBeamRecord (EmissionSystemBeamRecord.rawFields EmissionSystemBeamRecord.made)) Dis.EmissionSystemBeamRecord.init.serialize :=
  serializes_of (n := n + 3) (d := I.EmissionSystemBeamRecord) (f := EmissionSystemBeamRecord.serialize) rfl rfl <|
    ser_cons (ser_write (gives_attr (gives_name rfl) (plain rfl) rfl) rfl rfl rfl) <|
    ser_cons (ser_write (gives_attr (gives_name rfl) (plain rfl) rfl) rfl rfl rfl) <|
    ser_cons (ser_write (gives_attr (gives_name rfl) (plain rfl) rfl) rfl rfl rfl) <|
    ser_cons (ser_call rfl (plain rfl) rfl rfl rfl (EEFundamentalParameterData.firstRaw (n + 2))) <|
    ser_cons (ser_write (gives_attr (gives_name rfl) (plain rfl) rfl) rfl rfl rfl) <|
    ser_cons (ser_write (gives_property (gives_name rfl) (by decide +kernel)
        (fun io => property_of (n := n + 2) (d := I.EmissionSystemBeamRecord) (f := EmissionSystemBeamRecord.numberOfTargetsInTrackJam) rfl rfl rfl (gives_len_map (gives_attr (gives_name rfl) (plain rfl) rfl)) io)) rfl rfl (packInt_int _ _)) <|
    ser_cons (ser_write (gives_attr (gives_name rfl) (plain rfl) rfl) rfl rfl rfl) <|
    ser_cons (ser_call rfl (plain rfl) rfl rfl rfl (BeamStatus.serializes (n + 2) _)) <|
    ser_cons (ser_write (gives_attr (gives_name rfl) (plain rfl) rfl) rfl rfl rfl) <|
    ser_last <| ser_for (gives_attr (gives_name rfl) (plain rfl) rfl) var_anObj rfl fun a _ =>
      ser_last (ser_var rfl rfl (TrackJamData.serializes (n + 0) a))

theorem EmissionSystemBeamRecord.lawful : Sourced.EmissionSystemBeamRecord.Lawful where
  serialize n x := EmissionSystemBeamRecord.serializes (n + 4) x
  parse n := EmissionSystemBeamRecord.parses (n + 4)
  inj _ _ := EmissionSystemBeamRecord.inj
  makes _ := ⟨EmissionSystemBeamRecord.rawFields EmissionSystemBeamRecord.made, EmissionSystemBeamRecord.same, fun n => ⟨EmissionSystemBeamRecord.makesRaw (n + 6), EmissionSystemBeamRecord.firstRaw (n + 4),
    fills_over (π := EmissionSystemBeamRecord.Raw.out) (EmissionSystemBeamRecord.parsesRaw (n + 4)) EmissionSystemBeamRecord.over EmissionSystemBeamRecord.ends rfl fun r h => EmissionSystemBeamRecord.done r h⟩⟩

theorem EmissionSystemRecord.lawful : Sourced.EmissionSystemRecord.Lawful where
  serialize n x := EmissionSystemRecord.serializes (n + 3) x
  parse n := EmissionSystemRecord.parses (n + 3)
  inj _ _ := EmissionSystemRecord.inj
  makes _ := ⟨_, .rfl' _, fun n => ⟨EmissionSystemRecord.makes (n + 6), EmissionSystemRecord.serializes (n + 3) Dis.EmissionSystemRecord.init,
    fun io => ⟨_, EmissionSystemRecord.parses (n + 3) Dis.EmissionSystemRecord.init io, fun _ _ => rfl⟩⟩⟩

theorem EntityStateUpdatePdu.lawful : Sourced.EntityStateUpdatePdu.Lawful where
  serialize n x := EntityStateUpdatePdu.serializes (n + 4) x
  parse n := EntityStateUpdatePdu.parses (n + 4)
  inj _ _ := EntityStateUpdatePdu.inj
  makes _ := ⟨_, .rfl' _, fun n => ⟨EntityStateUpdatePdu.makes (n + 4), EntityStateUpdatePdu.serializes (n + 4) Dis.EntityStateUpdatePdu.init,
    fun io => ⟨_, EntityStateUpdatePdu.parses (n + 4) Dis.EntityStateUpdatePdu.init io, fun _ _ => rfl⟩⟩⟩

theorem ServiceRequestPdu.lawful : Sourced.ServiceRequestPdu.Lawful where
  serialize n x := ServiceRequestPdu.serializes (n + 4) x
  parse n := ServiceRequestPdu.parses (n + 4)
  inj _ _ := ServiceRequestPdu.inj
  makes _ := ⟨_, .rfl' _, fun n => ⟨ServiceRequestPdu.makes (n + 4), ServiceRequestPdu.serializes (n + 4) Dis.ServiceRequestPdu.init,
    fun io => ⟨_, ServiceRequestPdu.parses (n + 4) Dis.ServiceRequestPdu.init io, fun _ _ => rfl⟩⟩⟩

theorem RepairCompletePdu.lawful : Sourced.RepairCompletePdu.Lawful where
  serialize n x := RepairCompletePdu.serializes (n + 4) x
  parse n := RepairCompletePdu.parses (n + 4)
  inj _ _ := RepairCompletePdu.inj
  makes _ := ⟨_, .rfl' _, fun n => ⟨RepairCompletePdu.makes (n + 4), RepairCompletePdu.serializes (n + 4) Dis.RepairCompletePdu.init,
    fun io => ⟨_, RepairCompletePdu.parses (n + 4) Dis.RepairCompletePdu.init io, fun _ _ => rfl⟩⟩⟩

theorem CollisionPdu.lawful : Sourced.CollisionPdu.Lawful where
  serialize n x := CollisionPdu.serializes (n + 4) x
  parse n := CollisionPdu.parses (n + 4)
  inj _ _ := CollisionPdu.inj
  makes _ := ⟨_, .rfl' _, fun n => ⟨CollisionPdu.makes (n + 4), CollisionPdu.serializes (n + 4) Dis.CollisionPdu.init,
    fun io => ⟨_, CollisionPdu.parses (n + 4) Dis.CollisionPdu.init io, fun _ _ => rfl⟩⟩⟩

theorem RepairResponsePdu.lawful : Sourced.RepairResponsePdu.Lawful where
  serialize n x := RepairResponsePdu.serializes (n + 4) x
  parse n := RepairResponsePdu.parses (n + 4)
  inj _ _ := RepairResponsePdu.inj
  makes _ := ⟨_, .rfl' _, fun n => ⟨RepairResponsePdu.makes (n + 4), RepairResponsePdu.serializes (n + 4) Dis.RepairResponsePdu.init,
    fun io => ⟨_, RepairResponsePdu.parses (n + 4) Dis.RepairResponsePdu.init io, fun _ _ => rfl⟩⟩⟩

theorem DataQueryPdu.lawful : Sourced.DataQueryPdu.Lawful where
  serialize n x := DataQueryPdu.serializes (n + 4) x
  parse n := DataQueryPdu.parses (n + 4)
  inj _ _ := DataQueryPdu.inj
  makes _ := ⟨_, .rfl' _, fun n => ⟨DataQueryPdu.makes (n + 4), DataQueryPdu.serializes (n + 4) Dis.DataQueryPdu.init,
    fun io => ⟨_, DataQueryPdu.parses (n + 4) Dis.DataQueryPdu.init io, fun _ _ => rfl⟩⟩⟩

theorem CreateEntityPdu.lawful : Sourced.CreateEntityPdu.Lawful where
  serialize n x := CreateEntityPdu.serializes (n + 4) x
  parse n := CreateEntityPdu.parses (n + 4)
  inj _ _ := CreateEntityPdu.inj
  makes _ := ⟨_, .rfl' _, fun n => ⟨CreateEntityPdu.makes (n + 4), CreateEntityPdu.serializes (n + 4) Dis.CreateEntityPdu.init,
    fun io => ⟨_, CreateEntityPdu.parses (n + 4) Dis.CreateEntityPdu.init io, fun _ _ => rfl⟩⟩⟩

theorem IntercomSignalPdu.lawful : Sourced.IntercomSignalPdu.Lawful where
  serialize n x := IntercomSignalPdu.serializes (n + 4) x
  parse n := IntercomSignalPdu.parses (n + 4)
  inj _ _ := IntercomSignalPdu.inj
  makes _ := ⟨_, .rfl' _, fun n => ⟨IntercomSignalPdu.makes (n + 4), IntercomSignalPdu.serializes (n + 4) Dis.IntercomSignalPdu.init,
    fun io => ⟨_, IntercomSignalPdu.parses (n + 4) Dis.IntercomSignalPdu.init io, fun _ _ => rfl⟩⟩⟩

theorem RemoveEntityPdu.lawful : Sourced.RemoveEntityPdu.Lawful where
  serialize n x := RemoveEntityPdu.serializes (n + 4) x
  parse n := RemoveEntityPdu.parses (n + 4)
  inj _ _ := RemoveEntityPdu.inj
  makes _ := ⟨_, .rfl' _, fun n => ⟨RemoveEntityPdu.makes (n + 4), RemoveEntityPdu.serializes (n + 4) Dis.RemoveEntityPdu.init,
    fun io => ⟨_, RemoveEntityPdu.parses (n + 4) Dis.RemoveEntityPdu.init io, fun _ _ => rfl⟩⟩⟩

theorem ResupplyReceivedPdu.lawful : Sourced.ResupplyReceivedPdu.Lawful where
  serialize n x := ResupplyReceivedPdu.serializes (n + 4) x
  parse n := ResupplyReceivedPdu.parses (n + 4)
  inj _ _ := ResupplyReceivedPdu.inj
  makes _ := ⟨_, .rfl' _, fun n => ⟨ResupplyReceivedPdu.makes (n + 4), ResupplyReceivedPdu.serializes (n + 4) Dis.ResupplyReceivedPdu.init,
    fun io => ⟨_, ResupplyReceivedPdu.parses (n + 4) Dis.ResupplyReceivedPdu.init io, fun _ _ => rfl⟩⟩⟩

theorem CollisionElasticPdu.lawful : Sourced.CollisionElasticPdu.Lawful where
  serialize n x := CollisionElasticPdu.serializes (n + 4) x
  parse n := CollisionElasticPdu.parses (n + 4)
  inj _ _ := CollisionElasticPdu.inj
  makes _ := ⟨_, .rfl' _, fun n => ⟨CollisionElasticPdu.makes (n + 4), CollisionElasticPdu.serializes (n + 4) Dis.CollisionElasticPdu.init,
    fun io => ⟨_, CollisionElasticPdu.parses (n + 4) Dis.CollisionElasticPdu.init io, fun _ _ => rfl⟩⟩⟩

theorem StorageFuel.known : Sourced.StorageFuel.entry ∈ inPlaceRecords4 := .tail _ (.tail _ (.tail _ (.tail _ (.tail _ (.tail _ (.tail _ (.tail _ (.tail _ (.tail _ (.tail _ (.tail _ (.tail _ (.head _)))))))))))))

theorem Sensor.known : Sourced.Sensor.entry ∈ inPlaceRecords4 := .tail _ (.tail _ (.tail _ (.tail _ (.tail _ (.tail _ (.tail _ (.tail _ (.tail _ (.tail _ (.tail _ (.tail _ (.tail _ (.tail _ (.head _))))))))))))))

theorem MunitionReload.known : Sourced.MunitionReload.entry ∈ inPlaceRecords4 := .tail _ (.tail _ (.tail _ (.tail _ (.tail _ (.tail _ (.tail _ (.tail _ (.tail _ (.tail _ (.tail _ (.tail _ (.tail _ (.tail _ (.tail _ (.head _)))))))))))))))

theorem StorageFuelReload.known : Sourced.StorageFuelReload.entry ∈ inPlaceRecords4 := .tail _ (.tail _ (.tail _ (.tail _ (.tail _ (.tail _ (.tail _ (.tail _ (.tail _ (.tail _ (.tail _ (.tail _ (.tail _ (.tail _ (.tail _ (.tail _ (.head _))))))))))))))))

theorem ExpendableReload.known : Sourced.ExpendableReload.entry ∈ inPlaceRecords4 := .tail _ (.tail _ (.tail _ (.tail _ (.tail _ (.tail _ (.tail _ (.tail _ (.tail _ (.tail _ (.tail _ (.tail _ (.tail _ (.tail _ (.tail _ (.tail _ (.tail _ (.head _)))))))))))))))))

theorem EngineFuelReload.known : Sourced.EngineFuelReload.entry ∈ inPlaceRecords4 := .tail _ (.tail _ (.tail _ (.tail _ (.tail _ (.tail _ (.tail _ (.tail _ (.tail _ (.tail _ (.tail _ (.tail _ (.tail _ (.tail _ (.tail _ (.tail _ (.tail _ (.tail _ (.head _))))))))))))))))))

theorem UnattachedIdentifier.known : Sourced.UnattachedIdentifier.entry ∈ inPlaceRecords4 := .tail _ (.tail _ (.tail _ (.tail _ (.tail _ (.tail _ (.tail _ (.tail _ (.tail _ (.tail _ (.tail _ (.tail _ (.tail _ (.tail _ (.tail _ (.tail _ (.tail _ (.tail _ (.tail _ (.head _)))))))))))))))))))

theorem EntityTypeVP.known : Sourced.EntityTypeVP.entry ∈ inPlaceRecords4 := .tail _ (.tail _ (.tail _ (.tail _ (.tail _ (.tail _ (.tail _ (.tail _ (.tail _ (.tail _ (.tail _ (.tail _ (.tail _ (.tail _ (.tail _ (.tail _ (.tail _ (.tail _ (.tail _ (.tail _ (.head _))))))))))))))))))))

theorem BeamStatus.known : Sourced.BeamStatus.entry ∈ inPlaceRecords4 := .tail _ (.tail _ (.tail _ (.tail _ (.tail _ (.tail _ (.tail _ (.tail _ (.tail _ (.tail _ (.tail _ (.tail _ (.tail _ (.tail _ (.tail _ (.tail _ (.tail _ (.tail _ (.tail _ (.tail _ (.tail _ (.head _)))))))))))))))))))))

theorem GridAxis.known : Sourced.GridAxis.entry ∈ inPlaceRecords5 := .tail _ (.head _)

theorem RecordSpecification.known : Sourced.RecordSpecification.entry ∈ inPlaceRecords5 := .tail _ (.tail _ (.head _))

theorem EventIdentifierLiveEntity.known : Sourced.EventIdentifierLiveEntity.entry ∈ inPlaceRecords5 := .tail _ (.tail _ (.tail _ (.head _)))

theorem ExpendableDescriptor.known : Sourced.ExpendableDescriptor.entry ∈ inPlaceRecords5 := .tail _ (.tail _ (.tail _ (.tail _ (.head _))))

theorem PropulsionSystemData.known : Sourced.PropulsionSystemData.entry ∈ inPlaceRecords5 := .tail _ (.tail _ (.tail _ (.tail _ (.tail _ (.head _)))))

theorem LiveEntityIdentifier.known : Sourced.LiveEntityIdentifier.entry ∈ inPlaceRecords5 := .tail _ (.tail _ (.tail _ (.tail _ (.tail _ (.tail _ (.head _))))))

theorem EmitterSystem.known : Sourced.EmitterSystem.entry ∈ inPlaceRecords5 := .tail _ (.tail _ (.tail _ (.tail _ (.tail _ (.tail _ (.tail _ (.tail _ (.head _))))))))

theorem PduStatus.known : Sourced.PduStatus.entry ∈ inPlaceRecords5 := .tail _ (.tail _ (.tail _ (.tail _ (.tail _ (.tail _ (.tail _ (.tail _ (.tail _ (.head _)))))))))

theorem EmissionSystemBeamRecord.known : Sourced.EmissionSystemBeamRecord.entry ∈ inPlaceRecords5 := .tail _ (.tail _ (.tail _ (.tail _ (.tail _ (.tail _ (.tail _ (.tail _ (.tail _ (.tail _ (.head _))))))))))

theorem EmissionSystemRecord.known : Sourced.EmissionSystemRecord.entry ∈ inPlaceRecords5 := .tail _ (.tail _ (.tail _ (.tail _ (.tail _ (.tail _ (.tail _ (.tail _ (.tail _ (.tail _ (.tail _ (.head _)))))))))))

theorem EntityStateUpdatePdu.known : Sourced.EntityStateUpdatePdu.entry ∈ inPlacePdus1 := .head _

theorem ServiceRequestPdu.known : Sourced.ServiceRequestPdu.entry ∈ inPlacePdus1 := .tail _ (.head _)

theorem RepairCompletePdu.known : Sourced.RepairCompletePdu.entry ∈ inPlacePdus1 := .tail _ (.tail _ (.head _))

theorem CollisionPdu.known : Sourced.CollisionPdu.entry ∈ inPlacePdus1 := .tail _ (.tail _ (.tail _ (.head _)))

theorem RepairResponsePdu.known : Sourced.RepairResponsePdu.entry ∈ inPlacePdus1 := .tail _ (.tail _ (.tail _ (.tail _ (.head _))))

theorem DataQueryPdu.known : Sourced.DataQueryPdu.entry ∈ inPlacePdus1 := .tail _ (.tail _ (.tail _ (.tail _ (.tail _ (.head _)))))

theorem CreateEntityPdu.known : Sourced.CreateEntityPdu.entry ∈ inPlacePdus2 := .head _

theorem IntercomSignalPdu.known : Sourced.IntercomSignalPdu.entry ∈ inPlacePdus2 := .tail _ (.head _)

theorem RemoveEntityPdu.known : Sourced.RemoveEntityPdu.entry ∈ inPlacePdus2 := .tail _ (.tail _ (.head _))

theorem ResupplyReceivedPdu.known : Sourced.ResupplyReceivedPdu.entry ∈ inPlacePdus2 := .tail _ (.tail _ (.tail _ (.head _)))

theorem CollisionElasticPdu.known : Sourced.CollisionElasticPdu.entry ∈ inPlacePdus2 := .tail _ (.tail _ (.tail _ (.tail _ (.head _))))

theorem sourced3_lawful : ∀ e ∈ sourced3, e.Lawful := by
  unfold sourced3
  refine List.forall_mem_cons.2 ⟨StorageFuel.lawful, ?_⟩
  refine List.forall_mem_cons.2 ⟨Sensor.lawful, ?_⟩
  refine List.forall_mem_cons.2 ⟨MunitionReload.lawful, ?_⟩
  refine List.forall_mem_cons.2 ⟨StorageFuelReload.lawful, ?_⟩
  refine List.forall_mem_cons.2 ⟨ExpendableReload.lawful, ?_⟩
  refine List.forall_mem_cons.2 ⟨EngineFuelReload.lawful, ?_⟩
  refine List.forall_mem_cons.2 ⟨UnattachedIdentifier.lawful, ?_⟩
  refine List.forall_mem_cons.2 ⟨EntityTypeVP.lawful, ?_⟩
  refine List.forall_mem_cons.2 ⟨BeamStatus.lawful, ?_⟩
  refine List.forall_mem_cons.2 ⟨GridAxis.lawful, ?_⟩
  refine List.forall_mem_cons.2 ⟨RecordSpecification.lawful, ?_⟩
  refine List.forall_mem_cons.2 ⟨EventIdentifierLiveEntity.lawful, ?_⟩
  refine List.forall_mem_cons.2 ⟨ExpendableDescriptor.lawful, ?_⟩
  refine List.forall_mem_cons.2 ⟨PropulsionSystemData.lawful, ?_⟩
  refine List.forall_mem_cons.2 ⟨LiveEntityIdentifier.lawful, ?_⟩
  refine List.forall_mem_cons.2 ⟨EmitterSystem.lawful, ?_⟩
  refine List.forall_mem_cons.2 ⟨PduStatus.lawful, ?_⟩
  refine List.forall_mem_cons.2 ⟨EmissionSystemBeamRecord.lawful, ?_⟩
  refine List.forall_mem_cons.2 ⟨EmissionSystemRecord.lawful, ?_⟩
  refine List.forall_mem_cons.2 ⟨EntityStateUpdatePdu.lawful, ?_⟩
  refine List.forall_mem_cons.2 ⟨ServiceRequestPdu.lawful, ?_⟩
  refine List.forall_mem_cons.2 ⟨RepairCompletePdu.lawful, ?_⟩
  refine List.forall_mem_cons.2 ⟨CollisionPdu.lawful, ?_⟩
  refine List.forall_mem_cons.2 ⟨RepairResponsePdu.lawful, ?_⟩
  refine List.forall_mem_cons.2 ⟨DataQueryPdu.lawful, ?_⟩
  refine List.forall_mem_cons.2 ⟨CreateEntityPdu.lawful, ?_⟩
  refine List.forall_mem_cons.2 ⟨IntercomSignalPdu.lawful, ?_⟩
  refine List.forall_mem_cons.2 ⟨RemoveEntityPdu.lawful, ?_⟩
  refine List.forall_mem_cons.2 ⟨ResupplyReceivedPdu.lawful, ?_⟩
  refine List.forall_mem_cons.2 ⟨CollisionElasticPdu.lawful, ?_⟩
  exact fun e h => nomatch h

theorem sourced3_known : ∀ e ∈ sourced3, e.entry ∈ inPlace := by
  unfold sourced3 inPlace
  refine List.forall_mem_cons.2 ⟨by simp only [List.mem_append, StorageFuel.known, true_or, or_true], ?_⟩
  refine List.forall_mem_cons.2 ⟨by simp only [List.mem_append, Sensor.known, true_or, or_true], ?_⟩
  refine List.forall_mem_cons.2 ⟨by simp only [List.mem_append, MunitionReload.known, true_or, or_true], ?_⟩
  refine List.forall_mem_cons.2 ⟨by simp only [List.mem_append, StorageFuelReload.known, true_or, or_true], ?_⟩
  refine List.forall_mem_cons.2 ⟨by simp only [List.mem_append, ExpendableReload.known, true_or, or_true], ?_⟩
  refine List.forall_mem_cons.2 ⟨by simp only [List.mem_append, EngineFuelReload.known, true_or, or_true], ?_⟩
  refine List.forall_mem_cons.2 ⟨by simp only [List.mem_append, UnattachedIdentifier.known, true_or, or_true], ?_⟩
  refine List.forall_mem_cons.2 ⟨by simp only [List.mem_append, EntityTypeVP.known, true_or, or_true], ?_⟩
  refine List.forall_mem_cons.2 ⟨by simp only [List.mem_append, BeamStatus.known, true_or, or_true], ?_⟩
  refine List.forall_mem_cons.2 ⟨by simp only [List.mem_append, GridAxis.known, true_or, or_true], ?_⟩
  refine List.forall_mem_cons.2 ⟨by simp only [List.mem_append, RecordSpecification.known, true_or, or_true], ?_⟩
  refine List.forall_mem_cons.2 ⟨by simp only [List.mem_append, EventIdentifierLiveEntity.known, true_or, or_true], ?_⟩
  refine List.forall_mem_cons.2 ⟨by simp only [List.mem_append, ExpendableDescriptor.known, true_or, or_true], ?_⟩
  refine List.forall_mem_cons.2 ⟨by simp only [List.mem_append, PropulsionSystemData.known, true_or, or_true], ?_⟩
  refine List.forall_mem_cons.2 ⟨by simp only [List.mem_append, LiveEntityIdentifier.known, true_or, or_true], ?_⟩
  refine List.forall_mem_cons.2 ⟨by simp only [List.mem_append, EmitterSystem.known, true_or, or_true], ?_⟩
  refine List.forall_mem_cons.2 ⟨by simp only [List.mem_append, PduStatus.known, true_or, or_true], ?_⟩
  refine List.forall_mem_cons.2 ⟨by simp only [List.mem_append, EmissionSystemBeamRecord.known, true_or, or_true], ?_⟩
  refine List.forall_mem_cons.2 ⟨by simp only [List.mem_append, EmissionSystemRecord.known, true_or, or_true], ?_⟩
  refine List.forall_mem_cons.2 ⟨by simp only [List.mem_append, EntityStateUpdatePdu.known, true_or, or_true], ?_⟩
  refine List.forall_mem_cons.2 ⟨by simp only [List.mem_append, ServiceRequestPdu.known, true_or, or_true], ?_⟩
  refine List.forall_mem_cons.2 ⟨by simp only [List.mem_append, RepairCompletePdu.known, true_or, or_true], ?_⟩
  refine List.forall_mem_cons.2 ⟨by simp only [List.mem_append, CollisionPdu.known, true_or, or_true], ?_⟩
  refine List.forall_mem_cons.2 ⟨by simp only [List.mem_append, RepairResponsePdu.known, true_or, or_true], ?_⟩
  refine List.forall_mem_cons.2 ⟨by simp only [List.mem_append, DataQueryPdu.known, true_or, or_true], ?_⟩
  refine List.forall_mem_cons.2 ⟨by simp only [List.mem_append, CreateEntityPdu.known, true_or, or_true], ?_⟩
  refine List.forall_mem_cons.2 ⟨by simp only [List.mem_append, IntercomSignalPdu.known, true_or, or_true], ?_⟩
  refine List.forall_mem_cons.2 ⟨by simp only [List.mem_append, RemoveEntityPdu.known, true_or, or_true], ?_⟩
  refine List.forall_mem_cons.2 ⟨by simp only [List.mem_append, ResupplyReceivedPdu.known, true_or, or_true], ?_⟩
  refine List.forall_mem_cons.2 ⟨by simp only [List.mem_append, CollisionElasticPdu.known, true_or, or_true], ?_⟩
  exact fun e h => nomatch h

end Dis.Src
