import Verif.Spec.SourceCatalog
import Verif.Proof.SourceLaws
import Verif.Proof.SourceRun1

/-!
# The classes with their laws, part 1

Written by `tools/gensourceproof.py`.
-/

set_option linter.unusedVariables false
set_option linter.unusedSimpArgs false

namespace Dis.Src

theorem SimulationAddress.inj : ∀ {x y : Dis.SimulationAddress}, SimulationAddress.fields x = SimulationAddress.fields y → x = y := by
  rintro ⟨a0, a1⟩ ⟨b0, b1⟩ h
  obtain rfl : a0 = b0 := int_inj (congrArg (look I.site) h)
  obtain rfl : a1 = b1 := int_inj (congrArg (look I.application) h)
  rfl

theorem EntityIdentifier.inj : ∀ {x y : Dis.EntityIdentifier}, EntityIdentifier.fields x = EntityIdentifier.fields y → x = y := by
  rintro ⟨a0, a1⟩ ⟨b0, b1⟩ h
  obtain rfl : a0 = b0 := obj_inj SimulationAddress.inj (congrArg (look I.simulationAddress) h)
  obtain rfl : a1 = b1 := int_inj (congrArg (look I.entityNumber) h)
  rfl

theorem EulerAngles.inj : ∀ {x y : Dis.EulerAngles}, EulerAngles.fields x = EulerAngles.fields y → x = y := by
  rintro ⟨a0, a1, a2⟩ ⟨b0, b1, b2⟩ h
  obtain rfl : a0 = b0 := float_inj (congrArg (look I.psi) h)
  obtain rfl : a1 = b1 := float_inj (congrArg (look I.theta) h)
  obtain rfl : a2 = b2 := float_inj (congrArg (look I.phi) h)
  rfl

theorem EventIdentifier.inj : ∀ {x y : Dis.EventIdentifier}, EventIdentifier.fields x = EventIdentifier.fields y → x = y := by
  rintro ⟨a0, a1⟩ ⟨b0, b1⟩ h
  obtain rfl : a0 = b0 := obj_inj SimulationAddress.inj (congrArg (look I.simulationAddress) h)
  obtain rfl : a1 = b1 := int_inj (congrArg (look I.eventNumber) h)
  rfl

theorem Vector3Float.inj : ∀ {x y : Dis.Vector3Float}, Vector3Float.fields x = Vector3Float.fields y → x = y := by
  rintro ⟨a0, a1, a2⟩ ⟨b0, b1, b2⟩ h
  obtain rfl : a0 = b0 := float_inj (congrArg (look I.x) h)
  obtain rfl : a1 = b1 := float_inj (congrArg (look I.y) h)
  obtain rfl : a2 = b2 := float_inj (congrArg (look I.z) h)
  rfl

theorem WorldCoordinates.inj : ∀ {x y : Dis.WorldCoordinates}, WorldCoordinates.fields x = WorldCoordinates.fields y → x = y := by
  rintro ⟨a0, a1, a2⟩ ⟨b0, b1, b2⟩ h
  obtain rfl : a0 = b0 := float_inj (congrArg (look I.x) h)
  obtain rfl : a1 = b1 := float_inj (congrArg (look I.y) h)
  obtain rfl : a2 = b2 := float_inj (congrArg (look I.z) h)
  rfl

theorem DataQueryDatumSpecification.inj : ∀ {x y : Dis.DataQueryDatumSpecification}, DataQueryDatumSpecification.fields x = DataQueryDatumSpecification.fields y → x = y := by
  rintro ⟨a0, a1⟩ ⟨b0, b1⟩ h
  obtain rfl : a0 = b0 := list_inj ints_inj (congrArg (look I.fixedDatumIDs) h)
  obtain rfl : a1 = b1 := list_inj ints_inj (congrArg (look I.variableDatumIDs) h)
  rfl

theorem RadioIdentifier.inj : ∀ {x y : Dis.RadioIdentifier}, RadioIdentifier.fields x = RadioIdentifier.fields y → x = y := by
  rintro ⟨a0, a1, a2, a3⟩ ⟨b0, b1, b2, b3⟩ h
  obtain rfl : a0 = b0 := int_inj (congrArg (look I.siteNumber) h)
  obtain rfl : a1 = b1 := int_inj (congrArg (look I.applicationNumber) h)
  obtain rfl : a2 = b2 := int_inj (congrArg (look I.referenceNumber) h)
  obtain rfl : a3 = b3 := int_inj (congrArg (look I.radioNumber) h)
  rfl

theorem RequestID.inj : ∀ {x y : Dis.RequestID}, RequestID.fields x = RequestID.fields y → x = y := by
  rintro ⟨a0⟩ ⟨b0⟩ h
  obtain rfl : a0 = b0 := int_inj (congrArg (look I.requestID) h)
  rfl

theorem IFFData.inj : ∀ {x y : Dis.IFFData}, IFFData.fields x = IFFData.fields y → x = y := by
  rintro ⟨a0, a1, a2⟩ ⟨b0, b1, b2⟩ h
  obtain rfl : a0 = b0 := int_inj (congrArg (look I.recordType) h)
  obtain rfl : a1 = b1 := int_inj (congrArg (look I.recordLength) h)
  obtain rfl : a2 = b2 := list_inj ints_inj (congrArg (look I.iffData) h)
  rfl

theorem EntityType.inj : ∀ {x y : Dis.EntityType}, EntityType.fields x = EntityType.fields y → x = y := by
  rintro ⟨a0, a1, a2, a3, a4, a5, a6⟩ ⟨b0, b1, b2, b3, b4, b5, b6⟩ h
  obtain rfl : a0 = b0 := int_inj (congrArg (look I.entityKind) h)
  obtain rfl : a1 = b1 := int_inj (congrArg (look I.domain) h)
  obtain rfl : a2 = b2 := int_inj (congrArg (look I.country) h)
  obtain rfl : a3 = b3 := int_inj (congrArg (look I.category) h)
  obtain rfl : a4 = b4 := int_inj (congrArg (look I.subcategory) h)
  obtain rfl : a5 = b5 := int_inj (congrArg (look I.specific) h)
  obtain rfl : a6 = b6 := int_inj (congrArg (look I.extra) h)
  rfl

theorem MunitionDescriptor.inj : ∀ {x y : Dis.MunitionDescriptor}, MunitionDescriptor.fields x = MunitionDescriptor.fields y → x = y := by
  rintro ⟨a0, a1, a2, a3, a4⟩ ⟨b0, b1, b2, b3, b4⟩ h
  obtain rfl : a0 = b0 := obj_inj EntityType.inj (congrArg (look I.munitionType) h)
  obtain rfl : a1 = b1 := int_inj (congrArg (look I.warhead) h)
  obtain rfl : a2 = b2 := int_inj (congrArg (look I.fuse) h)
  obtain rfl : a3 = b3 := int_inj (congrArg (look I.quantity) h)
  obtain rfl : a4 = b4 := int_inj (congrArg (look I.rate) h)
  rfl

theorem MinefieldSensorType.inj : ∀ {x y : Dis.MinefieldSensorType}, MinefieldSensorType.fields x = MinefieldSensorType.fields y → x = y := by
  rintro ⟨a0⟩ ⟨b0⟩ h
  obtain rfl : a0 = b0 := int_inj (congrArg (look I.sensorType) h)
  rfl

theorem GroupID.inj : ∀ {x y : Dis.GroupID}, GroupID.fields x = GroupID.fields y → x = y := by
  rintro ⟨a0, a1⟩ ⟨b0, b1⟩ h
  obtain rfl : a0 = b0 := obj_inj SimulationAddress.inj (congrArg (look I.simulationAddress) h)
  obtain rfl : a1 = b1 := int_inj (congrArg (look I.groupNumber) h)
  rfl

theorem LayerHeader.inj : ∀ {x y : Dis.LayerHeader}, LayerHeader.fields x = LayerHeader.fields y → x = y := by
  rintro ⟨a0, a1, a2⟩ ⟨b0, b1, b2⟩ h
  obtain rfl : a0 = b0 := int_inj (congrArg (look I.layerNumber) h)
  obtain rfl : a1 = b1 := int_inj (congrArg (look I.layerSpecificInformation) h)
  obtain rfl : a2 = b2 := int_inj (congrArg (look I.length) h)
  rfl

theorem UnsignedDISInteger.inj : ∀ {x y : Dis.UnsignedDISInteger}, UnsignedDISInteger.fields x = UnsignedDISInteger.fields y → x = y := by
  rintro ⟨a0⟩ ⟨b0⟩ h
  obtain rfl : a0 = b0 := int_inj (congrArg (look I.val) h)
  rfl

theorem DeadReckoningParameters.inj : ∀ {x y : Dis.DeadReckoningParameters}, DeadReckoningParameters.fields x = DeadReckoningParameters.fields y → x = y := by
  rintro ⟨a0, a1, a2, a3⟩ ⟨b0, b1, b2, b3⟩ h
  obtain rfl : a0 = b0 := int_inj (congrArg (look I.deadReckoningAlgorithm) h)
  obtain rfl : a1 = b1 := list_inj ints_inj (congrArg (look I.parameters) h)
  obtain rfl : a2 = b2 := obj_inj Vector3Float.inj (congrArg (look I.entityLinearAcceleration) h)
  obtain rfl : a3 = b3 := obj_inj Vector3Float.inj (congrArg (look I.entityAngularVelocity) h)
  rfl

theorem ProtocolMode.inj : ∀ {x y : Dis.ProtocolMode}, ProtocolMode.fields x = ProtocolMode.fields y → x = y := by
  rintro ⟨a0⟩ ⟨b0⟩ h
  obtain rfl : a0 = b0 := int_inj (congrArg (look I.protocolMode) h)
  rfl

theorem AngleDeception.inj : ∀ {x y : Dis.AngleDeception}, AngleDeception.fields x = AngleDeception.fields y → x = y := by
  rintro ⟨a0, a1, a2, a3, a4, a5, a6, a7, a8, a9, a10, a11, a12, a13, a14, a15⟩ ⟨b0, b1, b2, b3, b4, b5, b6, b7, b8, b9, b10, b11, b12, b13, b14, b15⟩ h
  obtain rfl : a0 = b0 := int_inj (congrArg (look I.recordType) h)
  obtain rfl : a1 = b1 := int_inj (congrArg (look I.recordLength) h)
  obtain rfl : a2 = b2 := int_inj (congrArg (look I.padding) h)
  obtain rfl : a3 = b3 := int_inj (congrArg (look I.emitterNumber) h)
  obtain rfl : a4 = b4 := int_inj (congrArg (look I.beamNumber) h)
  obtain rfl : a5 = b5 := int_inj (congrArg (look I.stateIndicator) h)
  obtain rfl : a6 = b6 := int_inj (congrArg (look I.padding2) h)
  obtain rfl : a7 = b7 := float_inj (congrArg (look I.azimuthOffset) h)
  obtain rfl : a8 = b8 := float_inj (congrArg (look I.azimuthWidth) h)
  obtain rfl : a9 = b9 := float_inj (congrArg (look I.azimuthPullRate) h)
  obtain rfl : a10 = b10 := float_inj (congrArg (look I.azimuthPullAcceleration) h)
  obtain rfl : a11 = b11 := float_inj (congrArg (look I.elevationOffset) h)
  obtain rfl : a12 = b12 := float_inj (congrArg (look I.elevationWidth) h)
  obtain rfl : a13 = b13 := float_inj (congrArg (look I.elevationPullRate) h)
  obtain rfl : a14 = b14 := float_inj (congrArg (look I.elevationPullAcceleration) h)
  obtain rfl : a15 = b15 := int_inj (congrArg (look I.padding3) h)
  rfl

theorem EntityAssociation.inj : ∀ {x y : Dis.EntityAssociation}, EntityAssociation.fields x = EntityAssociation.fields y → x = y := by
  rintro ⟨a0, a1, a2, a3, a4, a5, a6, a7, a8⟩ ⟨b0, b1, b2, b3, b4, b5, b6, b7, b8⟩ h
  obtain rfl : a0 = b0 := int_inj (congrArg (look I.recordType) h)
  obtain rfl : a1 = b1 := int_inj (congrArg (look I.changeIndicator) h)
  obtain rfl : a2 = b2 := int_inj (congrArg (look I.associationStatus) h)
  obtain rfl : a3 = b3 := int_inj (congrArg (look I.associationType) h)
  obtain rfl : a4 = b4 := obj_inj EntityIdentifier.inj (congrArg (look I.entityID) h)
  obtain rfl : a5 = b5 := int_inj (congrArg (look I.ownStationLocation) h)
  obtain rfl : a6 = b6 := int_inj (congrArg (look I.physicalConnectionType) h)
  obtain rfl : a7 = b7 := int_inj (congrArg (look I.groupMemberType) h)
  obtain rfl : a8 = b8 := int_inj (congrArg (look I.groupNumber) h)
  rfl

theorem VectoringNozzleSystem.inj : ∀ {x y : Dis.VectoringNozzleSystem}, VectoringNozzleSystem.fields x = VectoringNozzleSystem.fields y → x = y := by
  rintro ⟨a0, a1⟩ ⟨b0, b1⟩ h
  obtain rfl : a0 = b0 := float_inj (congrArg (look I.horizontalDeflectionAngle) h)
  obtain rfl : a1 = b1 := float_inj (congrArg (look I.verticalDeflectionAngle) h)
  rfl

theorem FalseTargetsAttribute.inj : ∀ {x y : Dis.FalseTargetsAttribute}, FalseTargetsAttribute.fields x = FalseTargetsAttribute.fields y → x = y := by
  rintro ⟨a0, a1, a2, a3, a4, a5, a6, a7, a8, a9, a10, a11, a12⟩ ⟨b0, b1, b2, b3, b4, b5, b6, b7, b8, b9, b10, b11, b12⟩ h
  obtain rfl : a0 = b0 := int_inj (congrArg (look I.recordType) h)
  obtain rfl : a1 = b1 := int_inj (congrArg (look I.recordLength) h)
  obtain rfl : a2 = b2 := int_inj (congrArg (look I.padding) h)
  obtain rfl : a3 = b3 := int_inj (congrArg (look I.emitterNumber) h)
  obtain rfl : a4 = b4 := int_inj (congrArg (look I.beamNumber) h)
  obtain rfl : a5 = b5 := int_inj (congrArg (look I.stateIndicator) h)
  obtain rfl : a6 = b6 := int_inj (congrArg (look I.padding2) h)
  obtain rfl : a7 = b7 := int_inj (congrArg (look I.falseTargetCount) h)
  obtain rfl : a8 = b8 := float_inj (congrArg (look I.walkSpeed) h)
  obtain rfl : a9 = b9 := float_inj (congrArg (look I.walkAcceleration) h)
  obtain rfl : a10 = b10 := float_inj (congrArg (look I.maximumWalkDistance) h)
  obtain rfl : a11 = b11 := float_inj (congrArg (look I.keepTime) h)
  obtain rfl : a12 = b12 := float_inj (congrArg (look I.echoSpacing) h)
  rfl

theorem MinefieldIdentifier.inj : ∀ {x y : Dis.MinefieldIdentifier}, MinefieldIdentifier.fields x = MinefieldIdentifier.fields y → x = y := by
  rintro ⟨a0, a1⟩ ⟨b0, b1⟩ h
  obtain rfl : a0 = b0 := obj_inj SimulationAddress.inj (congrArg (look I.simulationAddress) h)
  obtain rfl : a1 = b1 := int_inj (congrArg (look I.minefieldNumber) h)
  rfl

theorem RadioType.inj : ∀ {x y : Dis.RadioType}, RadioType.fields x = RadioType.fields y → x = y := by
  rintro ⟨a0, a1, a2, a3, a4, a5, a6⟩ ⟨b0, b1, b2, b3, b4, b5, b6⟩ h
  obtain rfl : a0 = b0 := int_inj (congrArg (look I.entityKind) h)
  obtain rfl : a1 = b1 := int_inj (congrArg (look I.domain) h)
  obtain rfl : a2 = b2 := int_inj (congrArg (look I.country) h)
  obtain rfl : a3 = b3 := int_inj (congrArg (look I.category) h)
  obtain rfl : a4 = b4 := int_inj (congrArg (look I.subcategory) h)
  obtain rfl : a5 = b5 := int_inj (congrArg (look I.specific) h)
  obtain rfl : a6 = b6 := int_inj (congrArg (look I.extra) h)
  rfl

theorem NamedLocationIdentification.inj : ∀ {x y : Dis.NamedLocationIdentification}, NamedLocationIdentification.fields x = NamedLocationIdentification.fields y → x = y := by
  rintro ⟨a0, a1⟩ ⟨b0, b1⟩ h
  obtain rfl : a0 = b0 := int_inj (congrArg (look I.stationName) h)
  obtain rfl : a1 = b1 := int_inj (congrArg (look I.stationNumber) h)
  rfl

theorem IFFDataSpecification.inj : ∀ {x y : Dis.IFFDataSpecification}, IFFDataSpecification.fields x = IFFDataSpecification.fields y → x = y := by
  rintro ⟨a0⟩ ⟨b0⟩ h
  obtain rfl : a0 = b0 := list_inj (enc_inj IFFData.inj) (congrArg (look I.iffDataRecords) h)
  rfl

theorem OwnershipStatus.inj : ∀ {x y : Dis.OwnershipStatus}, OwnershipStatus.fields x = OwnershipStatus.fields y → x = y := by
  rintro ⟨a0, a1, a2⟩ ⟨b0, b1, b2⟩ h
  obtain rfl : a0 = b0 := obj_inj EntityIdentifier.inj (congrArg (look I.entityId) h)
  obtain rfl : a1 = b1 := int_inj (congrArg (look I.ownershipStatus) h)
  obtain rfl : a2 = b2 := int_inj (congrArg (look I.padding) h)
  rfl

theorem Attribute.inj : ∀ {x y : Dis.Attribute}, Attribute.fields x = Attribute.fields y → x = y := by
  rintro ⟨a0, a1, a2⟩ ⟨b0, b1, b2⟩ h
  obtain rfl : a0 = b0 := int_inj (congrArg (look I.recordType) h)
  obtain rfl : a1 = b1 := int_inj (congrArg (look I.recordLength) h)
  obtain rfl : a2 = b2 := int_inj (congrArg (look I.recordSpecificFields) h)
  rfl

theorem RecordQuerySpecification.inj : ∀ {x y : Dis.RecordQuerySpecification}, RecordQuerySpecification.fields x = RecordQuerySpecification.fields y → x = y := by
  rintro ⟨a0⟩ ⟨b0⟩ h
  obtain rfl : a0 = b0 := list_inj ints_inj (congrArg (look I.recordIDs) h)
  rfl

theorem ArticulatedParts.inj : ∀ {x y : Dis.ArticulatedParts}, ArticulatedParts.fields x = ArticulatedParts.fields y → x = y := by
  rintro ⟨a0, a1, a2, a3, a4⟩ ⟨b0, b1, b2, b3, b4⟩ h
  obtain rfl : a0 = b0 := int_inj (congrArg (look I.recordType) h)
  obtain rfl : a1 = b1 := int_inj (congrArg (look I.changeIndicator) h)
  obtain rfl : a2 = b2 := int_inj (congrArg (look I.partAttachedTo) h)
  obtain rfl : a3 = b3 := int_inj (congrArg (look I.parameterType) h)
  obtain rfl : a4 = b4 := int_inj (congrArg (look I.parameterValue) h)
  rfl

theorem ObjectType.inj : ∀ {x y : Dis.ObjectType}, ObjectType.fields x = ObjectType.fields y → x = y := by
  rintro ⟨a0, a1, a2, a3⟩ ⟨b0, b1, b2, b3⟩ h
  obtain rfl : a0 = b0 := int_inj (congrArg (look I.domain) h)
  obtain rfl : a1 = b1 := int_inj (congrArg (look I.objectKind) h)
  obtain rfl : a2 = b2 := int_inj (congrArg (look I.category) h)
  obtain rfl : a3 = b3 := int_inj (congrArg (look I.subcategory) h)
  rfl

theorem Association.inj : ∀ {x y : Dis.Association}, Association.fields x = Association.fields y → x = y := by
  rintro ⟨a0, a1, a2, a3⟩ ⟨b0, b1, b2, b3⟩ h
  obtain rfl : a0 = b0 := int_inj (congrArg (look I.associationType) h)
  obtain rfl : a1 = b1 := int_inj (congrArg (look I.padding4) h)
  obtain rfl : a2 = b2 := obj_inj EntityIdentifier.inj (congrArg (look I.associatedEntityID) h)
  obtain rfl : a3 = b3 := obj_inj WorldCoordinates.inj (congrArg (look I.associatedLocation) h)
  rfl

theorem RecordSpecificationElement.inj : ∀ {x y : Dis.RecordSpecificationElement}, RecordSpecificationElement.fields x = RecordSpecificationElement.fields y → x = y := by
  rintro ⟨a0, a1, a2, a3, a4, a5⟩ ⟨b0, b1, b2, b3, b4, b5⟩ h
  obtain rfl : a0 = b0 := int_inj (congrArg (look I.recordID) h)
  obtain rfl : a1 = b1 := int_inj (congrArg (look I.recordSetSerialNumber) h)
  obtain rfl : a2 = b2 := int_inj (congrArg (look I.recordLength) h)
  obtain rfl : a3 = b3 := int_inj (congrArg (look I.recordCount) h)
  obtain rfl : a4 = b4 := int_inj (congrArg (look I.recordValues) h)
  obtain rfl : a5 = b5 := int_inj (congrArg (look I.pad4) h)
  rfl

theorem AntennaLocation.inj : ∀ {x y : Dis.AntennaLocation}, AntennaLocation.fields x = AntennaLocation.fields y → x = y := by
  rintro ⟨a0, a1⟩ ⟨b0, b1⟩ h
  obtain rfl : a0 = b0 := obj_inj WorldCoordinates.inj (congrArg (look I.antennaLocation) h)
  obtain rfl : a1 = b1 := obj_inj Vector3Float.inj (congrArg (look I.relativeAntennaLocation) h)
  rfl

theorem ObjectIdentifier.inj : ∀ {x y : Dis.ObjectIdentifier}, ObjectIdentifier.fields x = ObjectIdentifier.fields y → x = y := by
  rintro ⟨a0, a1⟩ ⟨b0, b1⟩ h
  obtain rfl : a0 = b0 := obj_inj SimulationAddress.inj (congrArg (look I.simulationAddress) h)
  obtain rfl : a1 = b1 := int_inj (congrArg (look I.objectNumber) h)
  rfl

theorem AggregateIdentifier.inj : ∀ {x y : Dis.AggregateIdentifier}, AggregateIdentifier.fields x = AggregateIdentifier.fields y → x = y := by
  rintro ⟨a0, a1⟩ ⟨b0, b1⟩ h
  obtain rfl : a0 = b0 := obj_inj SimulationAddress.inj (congrArg (look I.simulationAddress) h)
  obtain rfl : a1 = b1 := int_inj (congrArg (look I.aggregateID) h)
  rfl

theorem FixedDatum.inj : ∀ {x y : Dis.FixedDatum}, FixedDatum.fields x = FixedDatum.fields y → x = y := by
  rintro ⟨a0, a1⟩ ⟨b0, b1⟩ h
  obtain rfl : a0 = b0 := int_inj (congrArg (look I.fixedDatumID) h)
  obtain rfl : a1 = b1 := int_inj (congrArg (look I.fixedDatumValue) h)
  rfl

theorem VariableParameter.inj : ∀ {x y : Dis.VariableParameter}, VariableParameter.fields x = VariableParameter.fields y → x = y := by
  rintro ⟨a0, a1, a2, a3, a4⟩ ⟨b0, b1, b2, b3, b4⟩ h
  obtain rfl : a0 = b0 := int_inj (congrArg (look I.recordType) h)
  obtain rfl : a1 = b1 := float_inj (congrArg (look I.variableParameterFields1) h)
  obtain rfl : a2 = b2 := int_inj (congrArg (look I.variableParameterFields2) h)
  obtain rfl : a3 = b3 := int_inj (congrArg (look I.variableParameterFields3) h)
  obtain rfl : a4 = b4 := int_inj (congrArg (look I.variableParameterFields4) h)
  rfl

theorem ChangeOptions.inj : ∀ {x y : Dis.ChangeOptions}, ChangeOptions.fields x = ChangeOptions.fields y → x = y := by
  rintro ⟨⟩ ⟨⟩ h
  rfl

theorem LiveSimulationAddress.inj : ∀ {x y : Dis.LiveSimulationAddress}, LiveSimulationAddress.fields x = LiveSimulationAddress.fields y → x = y := by
  rintro ⟨a0, a1⟩ ⟨b0, b1⟩ h
  obtain rfl : a0 = b0 := int_inj (congrArg (look I.liveSiteNumber) h)
  obtain rfl : a1 = b1 := int_inj (congrArg (look I.liveApplicationNumber) h)
  rfl

theorem SimulationAddress.lawful : Sourced.SimulationAddress.Lawful where
  serialize n x := SimulationAddress.serializes (n + 7) x
  parse n := SimulationAddress.parses (n + 7)
  inj _ _ := SimulationAddress.inj
  makes _ := ⟨_, .rfl' _, fun n => ⟨SimulationAddress.makes (n + 7), SimulationAddress.serializes (n + 7) Dis.SimulationAddress.init,
    fun io => ⟨_, SimulationAddress.parses (n + 7) Dis.SimulationAddress.init io, fun _ _ => rfl⟩⟩⟩

theorem EntityIdentifier.lawful : Sourced.EntityIdentifier.Lawful where
  serialize n x := EntityIdentifier.serializes (n + 6) x
  parse n := EntityIdentifier.parses (n + 6)
  inj _ _ := EntityIdentifier.inj
  makes _ := ⟨_, .rfl' _, fun n => ⟨EntityIdentifier.makes (n + 6), EntityIdentifier.serializes (n + 6) Dis.EntityIdentifier.init,
    fun io => ⟨_, EntityIdentifier.parses (n + 6) Dis.EntityIdentifier.init io, fun _ _ => rfl⟩⟩⟩

theorem EulerAngles.lawful : Sourced.EulerAngles.Lawful where
  serialize n x := EulerAngles.serializes (n + 7) x
  parse n := EulerAngles.parses (n + 7)
  inj _ _ := EulerAngles.inj
  makes _ := ⟨_, .rfl' _, fun n => ⟨EulerAngles.makes (n + 7), EulerAngles.serializes (n + 7) Dis.EulerAngles.init,
    fun io => ⟨_, EulerAngles.parses (n + 7) Dis.EulerAngles.init io, fun _ _ => rfl⟩⟩⟩

theorem EventIdentifier.lawful : Sourced.EventIdentifier.Lawful where
  serialize n x := EventIdentifier.serializes (n + 6) x
  parse n := EventIdentifier.parses (n + 6)
  inj _ _ := EventIdentifier.inj
  makes _ := ⟨_, .rfl' _, fun n => ⟨EventIdentifier.makes (n + 6), EventIdentifier.serializes (n + 6) Dis.EventIdentifier.init,
    fun io => ⟨_, EventIdentifier.parses (n + 6) Dis.EventIdentifier.init io, fun _ _ => rfl⟩⟩⟩

theorem Vector3Float.lawful : Sourced.Vector3Float.Lawful where
  serialize n x := Vector3Float.serializes (n + 7) x
  parse n := Vector3Float.parses (n + 7)
  inj _ _ := Vector3Float.inj
  makes _ := ⟨_, .rfl' _, fun n => ⟨Vector3Float.makes (n + 7), Vector3Float.serializes (n + 7) Dis.Vector3Float.init,
    fun io => ⟨_, Vector3Float.parses (n + 7) Dis.Vector3Float.init io, fun _ _ => rfl⟩⟩⟩

theorem WorldCoordinates.lawful : Sourced.WorldCoordinates.Lawful where
  serialize n x := WorldCoordinates.serializes (n + 7) x
  parse n := WorldCoordinates.parses (n + 7)
  inj _ _ := WorldCoordinates.inj
  makes _ := ⟨_, .rfl' _, fun n => ⟨WorldCoordinates.makes (n + 7), WorldCoordinates.serializes (n + 7) Dis.WorldCoordinates.init,
    fun io => ⟨_, WorldCoordinates.parses (n + 7) Dis.WorldCoordinates.init io, fun _ _ => rfl⟩⟩⟩

theorem DataQueryDatumSpecification.lawful : Sourced.DataQueryDatumSpecification.Lawful where
  serialize n x := DataQueryDatumSpecification.serializes (n + 6) x
  parse n := DataQueryDatumSpecification.parses (n + 7)
  inj _ _ := DataQueryDatumSpecification.inj
  makes _ := ⟨_, .rfl' _, fun n => ⟨DataQueryDatumSpecification.makes (n + 7), DataQueryDatumSpecification.serializes (n + 6) Dis.DataQueryDatumSpecification.init,
    fun io => ⟨_, DataQueryDatumSpecification.parses (n + 7) Dis.DataQueryDatumSpecification.init io, fun _ _ => rfl⟩⟩⟩

theorem RadioIdentifier.lawful : Sourced.RadioIdentifier.Lawful where
  serialize n x := RadioIdentifier.serializes (n + 7) x
  parse n := RadioIdentifier.parses (n + 7)
  inj _ _ := RadioIdentifier.inj
  makes _ := ⟨_, .rfl' _, fun n => ⟨RadioIdentifier.makes (n + 7), RadioIdentifier.serializes (n + 7) Dis.RadioIdentifier.init,
    fun io => ⟨_, RadioIdentifier.parses (n + 7) Dis.RadioIdentifier.init io, fun _ _ => rfl⟩⟩⟩

theorem RequestID.lawful : Sourced.RequestID.Lawful where
  serialize n x := RequestID.serializes (n + 7) x
  parse n := RequestID.parses (n + 7)
  inj _ _ := RequestID.inj
  makes _ := ⟨_, .rfl' _, fun n => ⟨RequestID.makes (n + 7), RequestID.serializes (n + 7) Dis.RequestID.init,
    fun io => ⟨_, RequestID.parses (n + 7) Dis.RequestID.init io, fun _ _ => rfl⟩⟩⟩

theorem IFFData.lawful : Sourced.IFFData.Lawful where
  serialize n x := IFFData.serializes (n + 7) x
  parse n := IFFData.parses (n + 7)
  inj _ _ := IFFData.inj
  makes _ := ⟨_, .rfl' _, fun n => ⟨IFFData.makes (n + 7), IFFData.serializes (n + 7) Dis.IFFData.init,
    fun io => ⟨_, IFFData.parses (n + 7) Dis.IFFData.init io, fun _ _ => rfl⟩⟩⟩

theorem EntityType.lawful : Sourced.EntityType.Lawful where
  serialize n x := EntityType.serializes (n + 7) x
  parse n := EntityType.parses (n + 7)
  inj _ _ := EntityType.inj
  makes _ := ⟨_, .rfl' _, fun n => ⟨EntityType.makes (n + 7), EntityType.serializes (n + 7) Dis.EntityType.init,
    fun io => ⟨_, EntityType.parses (n + 7) Dis.EntityType.init io, fun _ _ => rfl⟩⟩⟩

theorem MunitionDescriptor.lawful : Sourced.MunitionDescriptor.Lawful where
  serialize n x := MunitionDescriptor.serializes (n + 6) x
  parse n := MunitionDescriptor.parses (n + 6)
  inj _ _ := MunitionDescriptor.inj
  makes _ := ⟨_, .rfl' _, fun n => ⟨MunitionDescriptor.makes (n + 6), MunitionDescriptor.serializes (n + 6) Dis.MunitionDescriptor.init,
    fun io => ⟨_, MunitionDescriptor.parses (n + 6) Dis.MunitionDescriptor.init io, fun _ _ => rfl⟩⟩⟩

theorem MinefieldSensorType.lawful : Sourced.MinefieldSensorType.Lawful where
  serialize n x := MinefieldSensorType.serializes (n + 7) x
  parse n := MinefieldSensorType.parses (n + 7)
  inj _ _ := MinefieldSensorType.inj
  makes _ := ⟨_, .rfl' _, fun n => ⟨MinefieldSensorType.makes (n + 7), MinefieldSensorType.serializes (n + 7) Dis.MinefieldSensorType.init,
    fun io => ⟨_, MinefieldSensorType.parses (n + 7) Dis.MinefieldSensorType.init io, fun _ _ => rfl⟩⟩⟩

theorem GroupID.lawful : Sourced.GroupID.Lawful where
  serialize n x := GroupID.serializes (n + 6) x
  parse n := GroupID.parses (n + 6)
  inj _ _ := GroupID.inj
  makes _ := ⟨_, .rfl' _, fun n => ⟨GroupID.makes (n + 6), GroupID.serializes (n + 6) Dis.GroupID.init,
    fun io => ⟨_, GroupID.parses (n + 6) Dis.GroupID.init io, fun _ _ => rfl⟩⟩⟩

theorem LayerHeader.lawful : Sourced.LayerHeader.Lawful where
  serialize n x := LayerHeader.serializes (n + 7) x
  parse n := LayerHeader.parses (n + 7)
  inj _ _ := LayerHeader.inj
  makes _ := ⟨_, .rfl' _, fun n => ⟨LayerHeader.makes (n + 7), LayerHeader.serializes (n + 7) Dis.LayerHeader.init,
    fun io => ⟨_, LayerHeader.parses (n + 7) Dis.LayerHeader.init io, fun _ _ => rfl⟩⟩⟩

theorem UnsignedDISInteger.lawful : Sourced.UnsignedDISInteger.Lawful where
  serialize n x := UnsignedDISInteger.serializes (n + 7) x
  parse n := UnsignedDISInteger.parses (n + 7)
  inj _ _ := UnsignedDISInteger.inj
  makes _ := ⟨_, .rfl' _, fun n => ⟨UnsignedDISInteger.makes (n + 7), UnsignedDISInteger.serializes (n + 7) Dis.UnsignedDISInteger.init,
    fun io => ⟨_, UnsignedDISInteger.parses (n + 7) Dis.UnsignedDISInteger.init io, fun _ _ => rfl⟩⟩⟩

theorem DeadReckoningParameters.lawful : Sourced.DeadReckoningParameters.Lawful where
  serialize n x := DeadReckoningParameters.serializes (n + 6) x
  parse n := DeadReckoningParameters.parses (n + 6)
  inj _ _ := DeadReckoningParameters.inj
  makes _ := ⟨_, .rfl' _, fun n => ⟨DeadReckoningParameters.makes (n + 6), DeadReckoningParameters.serializes (n + 6) Dis.DeadReckoningParameters.init,
    fun io => ⟨_, DeadReckoningParameters.parses (n + 6) Dis.DeadReckoningParameters.init io, fun _ _ => rfl⟩⟩⟩

theorem ProtocolMode.lawful : Sourced.ProtocolMode.Lawful where
  serialize n x := ProtocolMode.serializes (n + 7) x
  parse n := ProtocolMode.parses (n + 7)
  inj _ _ := ProtocolMode.inj
  makes _ := ⟨_, .rfl' _, fun n => ⟨ProtocolMode.makes (n + 7), ProtocolMode.serializes (n + 7) Dis.ProtocolMode.init,
    fun io => ⟨_, ProtocolMode.parses (n + 7) Dis.ProtocolMode.init io, fun _ _ => rfl⟩⟩⟩

theorem AngleDeception.lawful : Sourced.AngleDeception.Lawful where
  serialize n x := AngleDeception.serializes (n + 7) x
  parse n := AngleDeception.parses (n + 7)
  inj _ _ := AngleDeception.inj
  makes _ := ⟨_, .rfl' _, fun n => ⟨AngleDeception.makes (n + 7), AngleDeception.serializes (n + 7) Dis.AngleDeception.init,
    fun io => ⟨_, AngleDeception.parses (n + 7) Dis.AngleDeception.init io, fun _ _ => rfl⟩⟩⟩

theorem EntityAssociation.lawful : Sourced.EntityAssociation.Lawful where
  serialize n x := EntityAssociation.serializes (n + 5) x
  parse n := EntityAssociation.parses (n + 5)
  inj _ _ := EntityAssociation.inj
  makes _ := ⟨_, .rfl' _, fun n => ⟨EntityAssociation.makes (n + 5), EntityAssociation.serializes (n + 5) Dis.EntityAssociation.init,
    fun io => ⟨_, EntityAssociation.parses (n + 5) Dis.EntityAssociation.init io, fun _ _ => rfl⟩⟩⟩

theorem VectoringNozzleSystem.lawful : Sourced.VectoringNozzleSystem.Lawful where
  serialize n x := VectoringNozzleSystem.serializes (n + 7) x
  parse n := VectoringNozzleSystem.parses (n + 7)
  inj _ _ := VectoringNozzleSystem.inj
  makes _ := ⟨_, .rfl' _, fun n => ⟨VectoringNozzleSystem.makes (n + 7), VectoringNozzleSystem.serializes (n + 7) Dis.VectoringNozzleSystem.init,
    fun io => ⟨_, VectoringNozzleSystem.parses (n + 7) Dis.VectoringNozzleSystem.init io, fun _ _ => rfl⟩⟩⟩

theorem FalseTargetsAttribute.lawful : Sourced.FalseTargetsAttribute.Lawful where
  serialize n x := FalseTargetsAttribute.serializes (n + 7) x
  parse n := FalseTargetsAttribute.parses (n + 7)
  inj _ _ := FalseTargetsAttribute.inj
  makes _ := ⟨_, .rfl' _, fun n => ⟨FalseTargetsAttribute.makes (n + 7), FalseTargetsAttribute.serializes (n + 7) Dis.FalseTargetsAttribute.init,
    fun io => ⟨_, FalseTargetsAttribute.parses (n + 7) Dis.FalseTargetsAttribute.init io, fun _ _ => rfl⟩⟩⟩

theorem MinefieldIdentifier.lawful : Sourced.MinefieldIdentifier.Lawful where
  serialize n x := MinefieldIdentifier.serializes (n + 6) x
  parse n := MinefieldIdentifier.parses (n + 6)
  inj _ _ := MinefieldIdentifier.inj
  makes _ := ⟨_, .rfl' _, fun n => ⟨MinefieldIdentifier.makes (n + 6), MinefieldIdentifier.serializes (n + 6) Dis.MinefieldIdentifier.init,
    fun io => ⟨_, MinefieldIdentifier.parses (n + 6) Dis.MinefieldIdentifier.init io, fun _ _ => rfl⟩⟩⟩

theorem RadioType.lawful : Sourced.RadioType.Lawful where
  serialize n x := RadioType.serializes (n + 7) x
  parse n := RadioType.parses (n + 7)
  inj _ _ := RadioType.inj
  makes _ := ⟨_, .rfl' _, fun n => ⟨RadioType.makes (n + 7), RadioType.serializes (n + 7) Dis.RadioType.init,
    fun io => ⟨_, RadioType.parses (n + 7) Dis.RadioType.init io, fun _ _ => rfl⟩⟩⟩

theorem NamedLocationIdentification.lawful : Sourced.NamedLocationIdentification.Lawful where
  serialize n x := NamedLocationIdentification.serializes (n + 7) x
  parse n := NamedLocationIdentification.parses (n + 7)
  inj _ _ := NamedLocationIdentification.inj
  makes _ := ⟨_, .rfl' _, fun n => ⟨NamedLocationIdentification.makes (n + 7), NamedLocationIdentification.serializes (n + 7) Dis.NamedLocationIdentification.init,
    fun io => ⟨_, NamedLocationIdentification.parses (n + 7) Dis.NamedLocationIdentification.init io, fun _ _ => rfl⟩⟩⟩

theorem IFFDataSpecification.lawful : Sourced.IFFDataSpecification.Lawful where
  serialize n x := IFFDataSpecification.serializes (n + 6) x
  parse n := IFFDataSpecification.parses (n + 6)
  inj _ _ := IFFDataSpecification.inj
  makes _ := ⟨_, .rfl' _, fun n => ⟨IFFDataSpecification.makes (n + 7), IFFDataSpecification.serializes (n + 6) Dis.IFFDataSpecification.init,
    fun io => ⟨_, IFFDataSpecification.parses (n + 6) Dis.IFFDataSpecification.init io, fun _ _ => rfl⟩⟩⟩

theorem OwnershipStatus.lawful : Sourced.OwnershipStatus.Lawful where
  serialize n x := OwnershipStatus.serializes (n + 5) x
  parse n := OwnershipStatus.parses (n + 5)
  inj _ _ := OwnershipStatus.inj
  makes _ := ⟨_, .rfl' _, fun n => ⟨OwnershipStatus.makes (n + 5), OwnershipStatus.serializes (n + 5) Dis.OwnershipStatus.init,
    fun io => ⟨_, OwnershipStatus.parses (n + 5) Dis.OwnershipStatus.init io, fun _ _ => rfl⟩⟩⟩

theorem Attribute.lawful : Sourced.Attribute.Lawful where
  serialize n x := Attribute.serializes (n + 7) x
  parse n := Attribute.parses (n + 7)
  inj _ _ := Attribute.inj
  makes _ := ⟨_, .rfl' _, fun n => ⟨Attribute.makes (n + 7), Attribute.serializes (n + 7) Dis.Attribute.init,
    fun io => ⟨_, Attribute.parses (n + 7) Dis.Attribute.init io, fun _ _ => rfl⟩⟩⟩

theorem RecordQuerySpecification.lawful : Sourced.RecordQuerySpecification.Lawful where
  serialize n x := RecordQuerySpecification.serializes (n + 6) x
  parse n := RecordQuerySpecification.parses (n + 7)
  inj _ _ := RecordQuerySpecification.inj
  makes _ := ⟨_, .rfl' _, fun n => ⟨RecordQuerySpecification.makes (n + 7), RecordQuerySpecification.serializes (n + 6) Dis.RecordQuerySpecification.init,
    fun io => ⟨_, RecordQuerySpecification.parses (n + 7) Dis.RecordQuerySpecification.init io, fun _ _ => rfl⟩⟩⟩

theorem ArticulatedParts.lawful : Sourced.ArticulatedParts.Lawful where
  serialize n x := ArticulatedParts.serializes (n + 7) x
  parse n := ArticulatedParts.parses (n + 7)
  inj _ _ := ArticulatedParts.inj
  makes _ := ⟨_, .rfl' _, fun n => ⟨ArticulatedParts.makes (n + 7), ArticulatedParts.serializes (n + 7) Dis.ArticulatedParts.init,
    fun io => ⟨_, ArticulatedParts.parses (n + 7) Dis.ArticulatedParts.init io, fun _ _ => rfl⟩⟩⟩

theorem ObjectType.lawful : Sourced.ObjectType.Lawful where
  serialize n x := ObjectType.serializes (n + 7) x
  parse n := ObjectType.parses (n + 7)
  inj _ _ := ObjectType.inj
  makes _ := ⟨_, .rfl' _, fun n => ⟨ObjectType.makes (n + 7), ObjectType.serializes (n + 7) Dis.ObjectType.init,
    fun io => ⟨_, ObjectType.parses (n + 7) Dis.ObjectType.init io, fun _ _ => rfl⟩⟩⟩

theorem Association.lawful : Sourced.Association.Lawful where
  serialize n x := Association.serializes (n + 5) x
  parse n := Association.parses (n + 5)
  inj _ _ := Association.inj
  makes _ := ⟨_, .rfl' _, fun n => ⟨Association.makes (n + 5), Association.serializes (n + 5) Dis.Association.init,
    fun io => ⟨_, Association.parses (n + 5) Dis.Association.init io, fun _ _ => rfl⟩⟩⟩

theorem RecordSpecificationElement.lawful : Sourced.RecordSpecificationElement.Lawful where
  serialize n x := RecordSpecificationElement.serializes (n + 7) x
  parse n := RecordSpecificationElement.parses (n + 7)
  inj _ _ := RecordSpecificationElement.inj
  makes _ := ⟨_, .rfl' _, fun n => ⟨RecordSpecificationElement.makes (n + 7), RecordSpecificationElement.serializes (n + 7) Dis.RecordSpecificationElement.init,
    fun io => ⟨_, RecordSpecificationElement.parses (n + 7) Dis.RecordSpecificationElement.init io, fun _ _ => rfl⟩⟩⟩

theorem AntennaLocation.lawful : Sourced.AntennaLocation.Lawful where
  serialize n x := AntennaLocation.serializes (n + 6) x
  parse n := AntennaLocation.parses (n + 6)
  inj _ _ := AntennaLocation.inj
  makes _ := ⟨_, .rfl' _, fun n => ⟨AntennaLocation.makes (n + 6), AntennaLocation.serializes (n + 6) Dis.AntennaLocation.init,
    fun io => ⟨_, AntennaLocation.parses (n + 6) Dis.AntennaLocation.init io, fun _ _ => rfl⟩⟩⟩

theorem ObjectIdentifier.lawful : Sourced.ObjectIdentifier.Lawful where
  serialize n x := ObjectIdentifier.serializes (n + 6) x
  parse n := ObjectIdentifier.parses (n + 6)
  inj _ _ := ObjectIdentifier.inj
  makes _ := ⟨_, .rfl' _, fun n => ⟨ObjectIdentifier.makes (n + 6), ObjectIdentifier.serializes (n + 6) Dis.ObjectIdentifier.init,
    fun io => ⟨_, ObjectIdentifier.parses (n + 6) Dis.ObjectIdentifier.init io, fun _ _ => rfl⟩⟩⟩

theorem AggregateIdentifier.lawful : Sourced.AggregateIdentifier.Lawful where
  serialize n x := AggregateIdentifier.serializes (n + 6) x
  parse n := AggregateIdentifier.parses (n + 6)
  inj _ _ := AggregateIdentifier.inj
  makes _ := ⟨_, .rfl' _, fun n => ⟨AggregateIdentifier.makes (n + 6), AggregateIdentifier.serializes (n + 6) Dis.AggregateIdentifier.init,
    fun io => ⟨_, AggregateIdentifier.parses (n + 6) Dis.AggregateIdentifier.init io, fun _ _ => rfl⟩⟩⟩

theorem FixedDatum.lawful : Sourced.FixedDatum.Lawful where
  serialize n x := FixedDatum.serializes (n + 7) x
  parse n := FixedDatum.parses (n + 7)
  inj _ _ := FixedDatum.inj
  makes _ := ⟨_, .rfl' _, fun n => ⟨FixedDatum.makes (n + 7), FixedDatum.serializes (n + 7) Dis.FixedDatum.init,
    fun io => ⟨_, FixedDatum.parses (n + 7) Dis.FixedDatum.init io, fun _ _ => rfl⟩⟩⟩

theorem VariableParameter.same : SameFields (VariableParameter.rawFields VariableParameter.made) (VariableParameter.fields Dis.VariableParameter.init) :=
  .cons (.refl _) <|
  .cons (.int ofInt_zero) <|
  .cons (.refl _) <|
  .cons (.refl _) <|
  .cons (.refl _) <|
  .nil

theorem VariableParameter.firstRaw (n : Nat) : Serializes (run (n + 1)) I.VariableParameter (.obj I.VariableParameter (VariableParameter.rawFields VariableParameter.made)) Dis.VariableParameter.init.serialize :=
  serializes_of (n := n + 0) (d := I.VariableParameter) (f := VariableParameter.serialize) rfl rfl <|
    ser_cons (ser_write (gives_attr (gives_name rfl) (plain rfl) rfl) rfl rfl rfl) <|
    ser_cons (ser_write (gives_attr (gives_name rfl) (plain rfl) rfl) rfl rfl (packFloat_zero _)) <|
    ser_cons (ser_write (gives_attr (gives_name rfl) (plain rfl) rfl) rfl rfl rfl) <|
    ser_cons (ser_write (gives_attr (gives_name rfl) (plain rfl) rfl) rfl rfl rfl) <|
    ser_last <| ser_write (gives_attr (gives_name rfl) (plain rfl) rfl) rfl rfl rfl

theorem VariableParameter.lawful : Sourced.VariableParameter.Lawful where
  serialize n x := VariableParameter.serializes (n + 7) x
  parse n := VariableParameter.parses (n + 7)
  inj _ _ := VariableParameter.inj
  makes _ := ⟨VariableParameter.rawFields VariableParameter.made, VariableParameter.same, fun n => ⟨VariableParameter.makesRaw (n + 7), VariableParameter.firstRaw (n + 7),
    fills_over (π := VariableParameter.Raw.out) (VariableParameter.parsesRaw (n + 7)) VariableParameter.over VariableParameter.ends rfl fun r h => VariableParameter.done r h⟩⟩

theorem ChangeOptions.lawful : Sourced.ChangeOptions.Lawful where
  serialize n x := ChangeOptions.serializes (n + 7) x
  parse n := ChangeOptions.parses (n + 7)
  inj _ _ := ChangeOptions.inj
  makes _ := ⟨_, .rfl' _, fun n => ⟨ChangeOptions.makes (n + 7), ChangeOptions.serializes (n + 7) Dis.ChangeOptions.init,
    fun io => ⟨_, ChangeOptions.parses (n + 7) Dis.ChangeOptions.init io, fun _ _ => rfl⟩⟩⟩

theorem LiveSimulationAddress.lawful : Sourced.LiveSimulationAddress.Lawful where
  serialize n x := LiveSimulationAddress.serializes (n + 7) x
  parse n := LiveSimulationAddress.parses (n + 7)
  inj _ _ := LiveSimulationAddress.inj
  makes _ := ⟨_, .rfl' _, fun n => ⟨LiveSimulationAddress.makes (n + 7), LiveSimulationAddress.serializes (n + 7) Dis.LiveSimulationAddress.init,
    fun io => ⟨_, LiveSimulationAddress.parses (n + 7) Dis.LiveSimulationAddress.init io, fun _ _ => rfl⟩⟩⟩

theorem SimulationAddress.known : Sourced.SimulationAddress.entry ∈ inPlaceCommon := .head _

theorem EntityIdentifier.known : Sourced.EntityIdentifier.entry ∈ inPlaceCommon := .tail _ (.head _)

theorem EulerAngles.known : Sourced.EulerAngles.entry ∈ inPlaceCommon := .tail _ (.tail _ (.head _))

theorem EventIdentifier.known : Sourced.EventIdentifier.entry ∈ inPlaceCommon := .tail _ (.tail _ (.tail _ (.head _)))

theorem Vector3Float.known : Sourced.Vector3Float.entry ∈ inPlaceCommon := .tail _ (.tail _ (.tail _ (.tail _ (.head _))))

theorem WorldCoordinates.known : Sourced.WorldCoordinates.entry ∈ inPlaceCommon := .tail _ (.tail _ (.tail _ (.tail _ (.tail _ (.head _)))))

theorem DataQueryDatumSpecification.known : Sourced.DataQueryDatumSpecification.entry ∈ inPlaceRecords1 := .head _

theorem RadioIdentifier.known : Sourced.RadioIdentifier.entry ∈ inPlaceRecords1 := .tail _ (.head _)

theorem RequestID.known : Sourced.RequestID.entry ∈ inPlaceRecords1 := .tail _ (.tail _ (.head _))

theorem IFFData.known : Sourced.IFFData.entry ∈ inPlaceRecords1 := .tail _ (.tail _ (.tail _ (.head _)))

theorem EntityType.known : Sourced.EntityType.entry ∈ inPlaceRecords1 := .tail _ (.tail _ (.tail _ (.tail _ (.head _))))

theorem MunitionDescriptor.known : Sourced.MunitionDescriptor.entry ∈ inPlaceRecords1 := .tail _ (.tail _ (.tail _ (.tail _ (.tail _ (.head _)))))

theorem MinefieldSensorType.known : Sourced.MinefieldSensorType.entry ∈ inPlaceRecords1 := .tail _ (.tail _ (.tail _ (.tail _ (.tail _ (.tail _ (.head _))))))

theorem GroupID.known : Sourced.GroupID.entry ∈ inPlaceRecords1 := .tail _ (.tail _ (.tail _ (.tail _ (.tail _ (.tail _ (.tail _ (.head _)))))))

theorem LayerHeader.known : Sourced.LayerHeader.entry ∈ inPlaceRecords1 := .tail _ (.tail _ (.tail _ (.tail _ (.tail _ (.tail _ (.tail _ (.tail _ (.head _))))))))

theorem UnsignedDISInteger.known : Sourced.UnsignedDISInteger.entry ∈ inPlaceRecords1 := .tail _ (.tail _ (.tail _ (.tail _ (.tail _ (.tail _ (.tail _ (.tail _ (.tail _ (.head _)))))))))

theorem DeadReckoningParameters.known : Sourced.DeadReckoningParameters.entry ∈ inPlaceRecords1 := .tail _ (.tail _ (.tail _ (.tail _ (.tail _ (.tail _ (.tail _ (.tail _ (.tail _ (.tail _ (.head _))))))))))

theorem ProtocolMode.known : Sourced.ProtocolMode.entry ∈ inPlaceRecords1 := .tail _ (.tail _ (.tail _ (.tail _ (.tail _ (.tail _ (.tail _ (.tail _ (.tail _ (.tail _ (.tail _ (.head _)))))))))))

theorem AngleDeception.known : Sourced.AngleDeception.entry ∈ inPlaceRecords1 := .tail _ (.tail _ (.tail _ (.tail _ (.tail _ (.tail _ (.tail _ (.tail _ (.tail _ (.tail _ (.tail _ (.tail _ (.head _))))))))))))

theorem EntityAssociation.known : Sourced.EntityAssociation.entry ∈ inPlaceRecords1 := .tail _ (.tail _ (.tail _ (.tail _ (.tail _ (.tail _ (.tail _ (.tail _ (.tail _ (.tail _ (.tail _ (.tail _ (.tail _ (.head _)))))))))))))

theorem VectoringNozzleSystem.known : Sourced.VectoringNozzleSystem.entry ∈ inPlaceRecords1 := .tail _ (.tail _ (.tail _ (.tail _ (.tail _ (.tail _ (.tail _ (.tail _ (.tail _ (.tail _ (.tail _ (.tail _ (.tail _ (.tail _ (.head _))))))))))))))

theorem FalseTargetsAttribute.known : Sourced.FalseTargetsAttribute.entry ∈ inPlaceRecords1 := .tail _ (.tail _ (.tail _ (.tail _ (.tail _ (.tail _ (.tail _ (.tail _ (.tail _ (.tail _ (.tail _ (.tail _ (.tail _ (.tail _ (.tail _ (.head _)))))))))))))))

theorem MinefieldIdentifier.known : Sourced.MinefieldIdentifier.entry ∈ inPlaceRecords1 := .tail _ (.tail _ (.tail _ (.tail _ (.tail _ (.tail _ (.tail _ (.tail _ (.tail _ (.tail _ (.tail _ (.tail _ (.tail _ (.tail _ (.tail _ (.tail _ (.head _))))))))))))))))

theorem RadioType.known : Sourced.RadioType.entry ∈ inPlaceRecords1 := .tail _ (.tail _ (.tail _ (.tail _ (.tail _ (.tail _ (.tail _ (.tail _ (.tail _ (.tail _ (.tail _ (.tail _ (.tail _ (.tail _ (.tail _ (.tail _ (.tail _ (.head _)))))))))))))))))

theorem NamedLocationIdentification.known : Sourced.NamedLocationIdentification.entry ∈ inPlaceRecords1 := .tail _ (.tail _ (.tail _ (.tail _ (.tail _ (.tail _ (.tail _ (.tail _ (.tail _ (.tail _ (.tail _ (.tail _ (.tail _ (.tail _ (.tail _ (.tail _ (.tail _ (.tail _ (.head _))))))))))))))))))

theorem IFFDataSpecification.known : Sourced.IFFDataSpecification.entry ∈ inPlaceRecords1 := .tail _ (.tail _ (.tail _ (.tail _ (.tail _ (.tail _ (.tail _ (.tail _ (.tail _ (.tail _ (.tail _ (.tail _ (.tail _ (.tail _ (.tail _ (.tail _ (.tail _ (.tail _ (.tail _ (.head _)))))))))))))))))))

theorem OwnershipStatus.known : Sourced.OwnershipStatus.entry ∈ inPlaceRecords1 := .tail _ (.tail _ (.tail _ (.tail _ (.tail _ (.tail _ (.tail _ (.tail _ (.tail _ (.tail _ (.tail _ (.tail _ (.tail _ (.tail _ (.tail _ (.tail _ (.tail _ (.tail _ (.tail _ (.tail _ (.head _))))))))))))))))))))

theorem Attribute.known : Sourced.Attribute.entry ∈ inPlaceRecords2 := .head _

theorem RecordQuerySpecification.known : Sourced.RecordQuerySpecification.entry ∈ inPlaceRecords2 := .tail _ (.head _)

theorem ArticulatedParts.known : Sourced.ArticulatedParts.entry ∈ inPlaceRecords2 := .tail _ (.tail _ (.head _))

theorem ObjectType.known : Sourced.ObjectType.entry ∈ inPlaceRecords2 := .tail _ (.tail _ (.tail _ (.head _)))

theorem Association.known : Sourced.Association.entry ∈ inPlaceRecords2 := .tail _ (.tail _ (.tail _ (.tail _ (.head _))))

theorem RecordSpecificationElement.known : Sourced.RecordSpecificationElement.entry ∈ inPlaceRecords2 := .tail _ (.tail _ (.tail _ (.tail _ (.tail _ (.head _)))))

theorem AntennaLocation.known : Sourced.AntennaLocation.entry ∈ inPlaceRecords2 := .tail _ (.tail _ (.tail _ (.tail _ (.tail _ (.tail _ (.head _))))))

theorem ObjectIdentifier.known : Sourced.ObjectIdentifier.entry ∈ inPlaceRecords2 := .tail _ (.tail _ (.tail _ (.tail _ (.tail _ (.tail _ (.tail _ (.head _)))))))

theorem AggregateIdentifier.known : Sourced.AggregateIdentifier.entry ∈ inPlaceRecords2 := .tail _ (.tail _ (.tail _ (.tail _ (.tail _ (.tail _ (.tail _ (.tail _ (.head _))))))))

theorem FixedDatum.known : Sourced.FixedDatum.entry ∈ inPlaceRecords2 := .tail _ (.tail _ (.tail _ (.tail _ (.tail _ (.tail _ (.tail _ (.tail _ (.tail _ (.head _)))))))))

theorem VariableParameter.known : Sourced.VariableParameter.entry ∈ inPlaceRecords2 := .tail _ (.tail _ (.tail _ (.tail _ (.tail _ (.tail _ (.tail _ (.tail _ (.tail _ (.tail _ (.head _))))))))))

theorem ChangeOptions.known : Sourced.ChangeOptions.entry ∈ inPlaceRecords2 := .tail _ (.tail _ (.tail _ (.tail _ (.tail _ (.tail _ (.tail _ (.tail _ (.tail _ (.tail _ (.tail _ (.head _)))))))))))

theorem LiveSimulationAddress.known : Sourced.LiveSimulationAddress.entry ∈ inPlaceRecords2 := .tail _ (.tail _ (.tail _ (.tail _ (.tail _ (.tail _ (.tail _ (.tail _ (.tail _ (.tail _ (.tail _ (.tail _ (.head _))))))))))))

theorem sourced1_lawful : ∀ e ∈ sourced1, e.Lawful := by
  unfold sourced1
  refine List.forall_mem_cons.2 ⟨SimulationAddress.lawful, ?_⟩
  refine List.forall_mem_cons.2 ⟨EntityIdentifier.lawful, ?_⟩
  refine List.forall_mem_cons.2 ⟨EulerAngles.lawful, ?_⟩
  refine List.forall_mem_cons.2 ⟨EventIdentifier.lawful, ?_⟩
  refine List.forall_mem_cons.2 ⟨Vector3Float.lawful, ?_⟩
  refine List.forall_mem_cons.2 ⟨WorldCoordinates.lawful, ?_⟩
  refine List.forall_mem_cons.2 ⟨DataQueryDatumSpecification.lawful, ?_⟩
  refine List.forall_mem_cons.2 ⟨RadioIdentifier.lawful, ?_⟩
  refine List.forall_mem_cons.2 ⟨RequestID.lawful, ?_⟩
  refine List.forall_mem_cons.2 ⟨IFFData.lawful, ?_⟩
  refine List.forall_mem_cons.2 ⟨EntityType.lawful, ?_⟩
  refine List.forall_mem_cons.2 ⟨MunitionDescriptor.lawful, ?_⟩
  refine List.forall_mem_cons.2 ⟨MinefieldSensorType.lawful, ?_⟩
  refine List.forall_mem_cons.2 ⟨GroupID.lawful, ?_⟩
  refine List.forall_mem_cons.2 ⟨LayerHeader.lawful, ?_⟩
  refine List.forall_mem_cons.2 ⟨UnsignedDISInteger.lawful, ?_⟩
  refine List.forall_mem_cons.2 ⟨DeadReckoningParameters.lawful, ?_⟩
  refine List.forall_mem_cons.2 ⟨ProtocolMode.lawful, ?_⟩
  refine List.forall_mem_cons.2 ⟨AngleDeception.lawful, ?_⟩
  refine List.forall_mem_cons.2 ⟨EntityAssociation.lawful, ?_⟩
  refine List.forall_mem_cons.2 ⟨VectoringNozzleSystem.lawful, ?_⟩
  refine List.forall_mem_cons.2 ⟨FalseTargetsAttribute.lawful, ?_⟩
  refine List.forall_mem_cons.2 ⟨MinefieldIdentifier.lawful, ?_⟩
  refine List.forall_mem_cons.2 ⟨RadioType.lawful, ?_⟩
  refine List.forall_mem_cons.2 ⟨NamedLocationIdentification.lawful, ?_⟩
  refine List.forall_mem_cons.2 ⟨IFFDataSpecification.lawful, ?_⟩
  refine List.forall_mem_cons.2 ⟨OwnershipStatus.lawful, ?_⟩
  refine List.forall_mem_cons.2 ⟨Attribute.lawful, ?_⟩
  refine List.forall_mem_cons.2 ⟨RecordQuerySpecification.lawful, ?_⟩
  refine List.forall_mem_cons.2 ⟨ArticulatedParts.lawful, ?_⟩
  refine List.forall_mem_cons.2 ⟨ObjectType.lawful, ?_⟩
  refine List.forall_mem_cons.2 ⟨Association.lawful, ?_⟩
  refine List.forall_mem_cons.2 ⟨RecordSpecificationElement.lawful, ?_⟩
  refine List.forall_mem_cons.2 ⟨AntennaLocation.lawful, ?_⟩
  refine List.forall_mem_cons.2 ⟨ObjectIdentifier.lawful, ?_⟩
  refine List.forall_mem_cons.2 ⟨AggregateIdentifier.lawful, ?_⟩
  refine List.forall_mem_cons.2 ⟨FixedDatum.lawful, ?_⟩
  refine List.forall_mem_cons.2 ⟨VariableParameter.lawful, ?_⟩
  refine List.forall_mem_cons.2 ⟨ChangeOptions.lawful, ?_⟩
  refine List.forall_mem_cons.2 ⟨LiveSimulationAddress.lawful, ?_⟩
  exact fun e h => nomatch h

theorem sourced1_known : ∀ e ∈ sourced1, e.entry ∈ inPlace := by
  unfold sourced1 inPlace
  refine List.forall_mem_cons.2 ⟨by simp only [List.mem_append, SimulationAddress.known, true_or, or_true], ?_⟩
  refine List.forall_mem_cons.2 ⟨by simp only [List.mem_append, EntityIdentifier.known, true_or, or_true], ?_⟩
  refine List.forall_mem_cons.2 ⟨by simp only [List.mem_append, EulerAngles.known, true_or, or_true], ?_⟩
  refine List.forall_mem_cons.2 ⟨by simp only [List.mem_append, EventIdentifier.known, true_or, or_true], ?_⟩
  refine List.forall_mem_cons.2 ⟨by simp only [List.mem_append, Vector3Float.known, true_or, or_true], ?_⟩
  refine List.forall_mem_cons.2 ⟨by simp only [List.mem_append, WorldCoordinates.known, true_or, or_true], ?_⟩
  refine List.forall_mem_cons.2 ⟨by simp only [List.mem_append, DataQueryDatumSpecification.known, true_or, or_true], ?_⟩
  refine List.forall_mem_cons.2 ⟨by simp only [List.mem_append, RadioIdentifier.known, true_or, or_true], ?_⟩
  refine List.forall_mem_cons.2 ⟨by simp only [List.mem_append, RequestID.known, true_or, or_true], ?_⟩
  refine List.forall_mem_cons.2 ⟨by simp only [List.mem_append, IFFData.known, true_or, or_true], ?_⟩
  refine List.forall_mem_cons.2 ⟨by simp only [List.mem_append, EntityType.known, true_or, or_true], ?_⟩
  refine List.forall_mem_cons.2 ⟨by simp only [List.mem_append, MunitionDescriptor.known, true_or, or_true], ?_⟩
  refine List.forall_mem_cons.2 ⟨by simp only [List.mem_append, MinefieldSensorType.known, true_or, or_true], ?_⟩
  refine List.forall_mem_cons.2 ⟨by simp only [List.mem_append, GroupID.known, true_or, or_true], ?_⟩
  refine List.forall_mem_cons.2 ⟨by simp only [List.mem_append, LayerHeader.known, true_or, or_true], ?_⟩
  refine List.forall_mem_cons.2 ⟨by simp only [List.mem_append, UnsignedDISInteger.known, true_or, or_true], ?_⟩
  refine List.forall_mem_cons.2 ⟨by simp only [List.mem_append, DeadReckoningParameters.known, true_or, or_true], ?_⟩
  refine List.forall_mem_cons.2 ⟨by simp only [List.mem_append, ProtocolMode.known, true_or, or_true], ?_⟩
  refine List.forall_mem_cons.2 ⟨by simp only [List.mem_append, AngleDeception.known, true_or, or_true], ?_⟩
  refine List.forall_mem_cons.2 ⟨by simp only [List.mem_append, EntityAssociation.known, true_or, or_true], ?_⟩
  refine List.forall_mem_cons.2 ⟨by simp only [List.mem_append, VectoringNozzleSystem.known, true_or, or_true], ?_⟩
  refine List.forall_mem_cons.2 ⟨by simp only [List.mem_append, FalseTargetsAttribute.known, true_or, or_true], ?_⟩
  refine List.forall_mem_cons.2 ⟨by simp only [List.mem_append, MinefieldIdentifier.known, true_or, or_true], ?_⟩
  refine List.forall_mem_cons.2 ⟨by simp only [List.mem_append, RadioType.known, true_or, or_true], ?_⟩
  refine List.forall_mem_cons.2 ⟨by simp only [List.mem_append, NamedLocationIdentification.known, true_or, or_true], ?_⟩
  refine List.forall_mem_cons.2 ⟨by simp only [List.mem_append, IFFDataSpecification.known, true_or, or_true], ?_⟩
  refine List.forall_mem_cons.2 ⟨by simp only [List.mem_append, OwnershipStatus.known, true_or, or_true], ?_⟩
  refine List.forall_mem_cons.2 ⟨by simp only [List.mem_append, Attribute.known, true_or, or_true], ?_⟩
  refine List.forall_mem_cons.2 ⟨by simp only [List.mem_append, RecordQuerySpecification.known, true_or, or_true], ?_⟩
  refine List.forall_mem_cons.2 ⟨by simp only [List.mem_append, ArticulatedParts.known, true_or, or_true], ?_⟩
  refine List.forall_mem_cons.2 ⟨by simp only [List.mem_append, ObjectType.known, true_or, or_true], ?_⟩
  refine List.forall_mem_cons.2 ⟨by simp only [List.mem_append, Association.known, true_or, or_true], ?_⟩
  refine List.forall_mem_cons.2 ⟨by simp only [List.mem_append, RecordSpecificationElement.known, true_or, or_true], ?_⟩
  refine List.forall_mem_cons.2 ⟨by simp only [List.mem_append, AntennaLocation.known, true_or, or_true], ?_⟩
  refine List.forall_mem_cons.2 ⟨by simp only [List.mem_append, ObjectIdentifier.known, true_or, or_true], ?_⟩
  refine List.forall_mem_cons.2 ⟨by simp only [List.mem_append, AggregateIdentifier.known, true_or, or_true], ?_⟩
  refine List.forall_mem_cons.2 ⟨by simp only [List.mem_append, FixedDatum.known, true_or, or_true], ?_⟩
  refine List.forall_mem_cons.2 ⟨by simp only [List.mem_append, VariableParameter.known, true_or, or_true], ?_⟩
  refine List.forall_mem_cons.2 ⟨by simp only [List.mem_append, ChangeOptions.known, true_or, or_true], ?_⟩
  refine List.forall_mem_cons.2 ⟨by simp only [List.mem_append, LiveSimulationAddress.known, true_or, or_true], ?_⟩
  exact fun e h => nomatch h

end Dis.Src
