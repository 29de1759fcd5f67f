import Verif.Spec.SourceCatalog
import Verif.Proof.SourceLaws
import Verif.Proof.SourceRun4
import Verif.Proof.SourceLaw3

/-!
# The classes with their laws, part 4

Written by `tools/gensourceproof.py`.
-/

set_option linter.unusedVariables false
set_option linter.unusedSimpArgs false

namespace Dis.Src

theorem AcknowledgePdu.inj : ∀ {x y : Dis.AcknowledgePdu}, AcknowledgePdu.fields x = AcknowledgePdu.fields y → x = y := by
  rintro ⟨p, a0, a1, a2⟩ ⟨q, b0, b1, b2⟩ h
  obtain rfl : p = q := SimulationManagementFamilyPdu.inj (List.append_inj_left h rfl)
  obtain rfl : a0 = b0 := int_inj (congrArg (look I.acknowledgeFlag) h)
  obtain rfl : a1 = b1 := int_inj (congrArg (look I.responseFlag) h)
  obtain rfl : a2 = b2 := int_inj (congrArg (look I.requestID) h)
  rfl

theorem DistributedEmissionsFamilyPdu.inj : ∀ {x y : Dis.DistributedEmissionsFamilyPdu}, DistributedEmissionsFamilyPdu.fields x = DistributedEmissionsFamilyPdu.fields y → x = y := by
  rintro ⟨p⟩ ⟨q⟩ h
  obtain rfl : p = q := Pdu.inj (List.append_inj_left h rfl)
  rfl

theorem SimulationManagementWithReliabilityFamilyPdu.inj : ∀ {x y : Dis.SimulationManagementWithReliabilityFamilyPdu}, SimulationManagementWithReliabilityFamilyPdu.fields x = SimulationManagementWithReliabilityFamilyPdu.fields y → x = y := by
  rintro ⟨p, a0, a1⟩ ⟨q, b0, b1⟩ h
  obtain rfl : p = q := Pdu.inj (List.append_inj_left h rfl)
  obtain rfl : a0 = b0 := obj_inj EntityIdentifier.inj (congrArg (look I.originatingEntityID) h)
  obtain rfl : a1 = b1 := obj_inj EntityIdentifier.inj (congrArg (look I.receivingEntityID) h)
  rfl

theorem DesignatorPdu.inj : ∀ {x y : Dis.DesignatorPdu}, DesignatorPdu.fields x = DesignatorPdu.fields y → x = y := by
  rintro ⟨p, a0, a1, a2, a3, a4, a5, a6, a7, a8, a9, a10, a11⟩ ⟨q, b0, b1, b2, b3, b4, b5, b6, b7, b8, b9, b10, b11⟩ h
  obtain rfl : p = q := DistributedEmissionsFamilyPdu.inj (List.append_inj_left h rfl)
  obtain rfl : a0 = b0 := obj_inj EntityIdentifier.inj (congrArg (look I.designatingEntityID) h)
  obtain rfl : a1 = b1 := int_inj (congrArg (look I.codeName) h)
  obtain rfl : a2 = b2 := obj_inj EntityIdentifier.inj (congrArg (look I.designatedEntityID) h)
  obtain rfl : a3 = b3 := int_inj (congrArg (look I.designatorCode) h)
  obtain rfl : a4 = b4 := float_inj (congrArg (look I.designatorPower) h)
  obtain rfl : a5 = b5 := float_inj (congrArg (look I.designatorWavelength) h)
  obtain rfl : a6 = b6 := obj_inj Vector3Float.inj (congrArg (look I.designatorSpotWrtDesignated) h)
  obtain rfl : a7 = b7 := obj_inj WorldCoordinates.inj (congrArg (look I.designatorSpotLocation) h)
  obtain rfl : a8 = b8 := int_inj (congrArg (look I.deadReckoningAlgorithm) h)
  obtain rfl : a9 = b9 := int_inj (congrArg (look I.padding1) h)
  obtain rfl : a10 = b10 := int_inj (congrArg (look I.padding2) h)
  obtain rfl : a11 = b11 := obj_inj Vector3Float.inj (congrArg (look I.entityLinearAcceleration) h)
  rfl

theorem StopFreezePdu.inj : ∀ {x y : Dis.StopFreezePdu}, StopFreezePdu.fields x = StopFreezePdu.fields y → x = y := by
  rintro ⟨p, a0, a1, a2, a3, a4⟩ ⟨q, b0, b1, b2, b3, b4⟩ h
  obtain rfl : p = q := SimulationManagementFamilyPdu.inj (List.append_inj_left h rfl)
  obtain rfl : a0 = b0 := obj_inj ClockTime.inj (congrArg (look I.realWorldTime) h)
  obtain rfl : a1 = b1 := int_inj (congrArg (look I.reason) h)
  obtain rfl : a2 = b2 := int_inj (congrArg (look I.frozenBehavior) h)
  obtain rfl : a3 = b3 := int_inj (congrArg (look I.padding1) h)
  obtain rfl : a4 = b4 := int_inj (congrArg (look I.requestID) h)
  rfl

theorem EntityStatePdu.inj : ∀ {x y : Dis.EntityStatePdu}, EntityStatePdu.fields x = EntityStatePdu.fields y → x = y := by
  rintro ⟨p, a0, a1, a2, a3, a4, a5, a6, a7, a8, a9, a10, a11⟩ ⟨q, b0, b1, b2, b3, b4, b5, b6, b7, b8, b9, b10, b11⟩ h
  obtain rfl : p = q := EntityInformationFamilyPdu.inj (List.append_inj_left h rfl)
  obtain rfl : a0 = b0 := obj_inj EntityIdentifier.inj (congrArg (look I.entityID) h)
  obtain rfl : a1 = b1 := int_inj (congrArg (look I.forceId) h)
  obtain rfl : a2 = b2 := obj_inj EntityType.inj (congrArg (look I.entityType) h)
  obtain rfl : a3 = b3 := obj_inj EntityType.inj (congrArg (look I.alternativeEntityType) h)
  obtain rfl : a4 = b4 := obj_inj Vector3Float.inj (congrArg (look I.entityLinearVelocity) h)
  obtain rfl : a5 = b5 := obj_inj WorldCoordinates.inj (congrArg (look I.entityLocation) h)
  obtain rfl : a6 = b6 := obj_inj EulerAngles.inj (congrArg (look I.entityOrientation) h)
  obtain rfl : a7 = b7 := int_inj (congrArg (look I.entityAppearance) h)
  obtain rfl : a8 = b8 := obj_inj DeadReckoningParameters.inj (congrArg (look I.deadReckoningParameters) h)
  obtain rfl : a9 = b9 := obj_inj EntityMarking.inj (congrArg (look I.marking) h)
  obtain rfl : a10 = b10 := int_inj (congrArg (look I.capabilities) h)
  obtain rfl : a11 = b11 := list_inj (enc_inj VariableParameter.inj) (congrArg (look I.variableParameters) h)
  rfl

theorem EntityManagementFamilyPdu.inj : ∀ {x y : Dis.EntityManagementFamilyPdu}, EntityManagementFamilyPdu.fields x = EntityManagementFamilyPdu.fields y → x = y := by
  rintro ⟨p⟩ ⟨q⟩ h
  obtain rfl : p = q := Pdu.inj (List.append_inj_left h rfl)
  rfl

theorem StartResumePdu.inj : ∀ {x y : Dis.StartResumePdu}, StartResumePdu.fields x = StartResumePdu.fields y → x = y := by
  rintro ⟨p, a0, a1, a2⟩ ⟨q, b0, b1, b2⟩ h
  obtain rfl : p = q := SimulationManagementFamilyPdu.inj (List.append_inj_left h rfl)
  obtain rfl : a0 = b0 := obj_inj ClockTime.inj (congrArg (look I.realWorldTime) h)
  obtain rfl : a1 = b1 := obj_inj ClockTime.inj (congrArg (look I.simulationTime) h)
  obtain rfl : a2 = b2 := int_inj (congrArg (look I.requestID) h)
  rfl

theorem ElectromagneticEmissionsPdu.inj : ∀ {x y : Dis.ElectromagneticEmissionsPdu}, ElectromagneticEmissionsPdu.fields x = ElectromagneticEmissionsPdu.fields y → x = y := by
  rintro ⟨p, a0, a1, a2, a3, a4⟩ ⟨q, b0, b1, b2, b3, b4⟩ h
  obtain rfl : p = q := DistributedEmissionsFamilyPdu.inj (List.append_inj_left h rfl)
  obtain rfl : a0 = b0 := obj_inj EntityIdentifier.inj (congrArg (look I.emittingEntityID) h)
  obtain rfl : a1 = b1 := obj_inj EventIdentifier.inj (congrArg (look I.eventID) h)
  obtain rfl : a2 = b2 := int_inj (congrArg (look I.stateUpdateIndicator) h)
  obtain rfl : a3 = b3 := list_inj (enc_inj EmissionSystemRecord.inj) (congrArg (look I.systems) h)
  obtain rfl : a4 = b4 := int_inj (congrArg (look I.paddingForEmissionsPdu) h)
  rfl

theorem ResupplyOfferPdu.inj : ∀ {x y : Dis.ResupplyOfferPdu}, ResupplyOfferPdu.fields x = ResupplyOfferPdu.fields y → x = y := by
  rintro ⟨p, a0, a1, a2, a3, a4⟩ ⟨q, b0, b1, b2, b3, b4⟩ h
  obtain rfl : p = q := LogisticsFamilyPdu.inj (List.append_inj_left h rfl)
  obtain rfl : a0 = b0 := obj_inj EntityIdentifier.inj (congrArg (look I.receivingEntityID) h)
  obtain rfl : a1 = b1 := obj_inj EntityIdentifier.inj (congrArg (look I.supplyingEntityID) h)
  obtain rfl : a2 = b2 := int_inj (congrArg (look I.padding1) h)
  obtain rfl : a3 = b3 := int_inj (congrArg (look I.padding2) h)
  obtain rfl : a4 = b4 := list_inj (enc_inj SupplyQuantity.inj) (congrArg (look I.supplies) h)
  rfl

theorem AttributePdu.inj : ∀ {x y : Dis.AttributePdu}, AttributePdu.fields x = AttributePdu.fields y → x = y := by
  rintro ⟨p, a0, a1, a2, a3, a4, a5, a6, a7, a8⟩ ⟨q, b0, b1, b2, b3, b4, b5, b6, b7, b8⟩ h
  obtain rfl : p = q := EntityInformationFamilyPdu.inj (List.append_inj_left h rfl)
  obtain rfl : a0 = b0 := obj_inj SimulationAddress.inj (congrArg (look I.originatingSimulationAddress) h)
  obtain rfl : a1 = b1 := int_inj (congrArg (look I.padding1) h)
  obtain rfl : a2 = b2 := int_inj (congrArg (look I.padding2) h)
  obtain rfl : a3 = b3 := int_inj (congrArg (look I.attributeRecordPduType) h)
  obtain rfl : a4 = b4 := int_inj (congrArg (look I.attributeRecordProtocolVersion) h)
  obtain rfl : a5 = b5 := int_inj (congrArg (look I.masterAttributeRecordType) h)
  obtain rfl : a6 = b6 := int_inj (congrArg (look I.actionCode) h)
  obtain rfl : a7 = b7 := int_inj (congrArg (look I.padding3) h)
  obtain rfl : a8 = b8 := int_inj (congrArg (look I.numberOfAttributeRecordSets) h)
  rfl

theorem MinefieldFamilyPdu.inj : ∀ {x y : Dis.MinefieldFamilyPdu}, MinefieldFamilyPdu.fields x = MinefieldFamilyPdu.fields y → x = y := by
  rintro ⟨p⟩ ⟨q⟩ h
  obtain rfl : p = q := Pdu.inj (List.append_inj_left h rfl)
  rfl

theorem PointObjectStatePdu.inj : ∀ {x y : Dis.PointObjectStatePdu}, PointObjectStatePdu.fields x = PointObjectStatePdu.fields y → x = y := by
  rintro ⟨p, a0, a1, a2, a3, a4, a5, a6, a7, a8, a9, a10, a11, a12⟩ ⟨q, b0, b1, b2, b3, b4, b5, b6, b7, b8, b9, b10, b11, b12⟩ h
  obtain rfl : p = q := SyntheticEnvironmentFamilyPdu.inj (List.append_inj_left h rfl)
  obtain rfl : a0 = b0 := obj_inj EntityIdentifier.inj (congrArg (look I.objectID) h)
  obtain rfl : a1 = b1 := obj_inj EntityIdentifier.inj (congrArg (look I.referencedObjectID) h)
  obtain rfl : a2 = b2 := int_inj (congrArg (look I.updateNumber) h)
  obtain rfl : a3 = b3 := int_inj (congrArg (look I.forceID) h)
  obtain rfl : a4 = b4 := int_inj (congrArg (look I.modifications) h)
  obtain rfl : a5 = b5 := obj_inj ObjectType.inj (congrArg (look I.objectType) h)
  obtain rfl : a6 = b6 := obj_inj WorldCoordinates.inj (congrArg (look I.objectLocation) h)
  obtain rfl : a7 = b7 := obj_inj EulerAngles.inj (congrArg (look I.objectOrientation) h)
  obtain rfl : a8 = b8 := float_inj (congrArg (look I.objectAppearance) h)
  obtain rfl : a9 = b9 := int_inj (congrArg (look I.pad1) h)
  obtain rfl : a10 = b10 := obj_inj SimulationAddress.inj (congrArg (look I.requesterID) h)
  obtain rfl : a11 = b11 := obj_inj SimulationAddress.inj (congrArg (look I.receivingID) h)
  obtain rfl : a12 = b12 := int_inj (congrArg (look I.pad2) h)
  rfl

theorem FastEntityStatePdu.inj : ∀ {x y : Dis.FastEntityStatePdu}, FastEntityStatePdu.fields x = FastEntityStatePdu.fields y → x = y := by
  rintro ⟨p, a0, a1, a2, a3, a4, a5, a6, a7, a8, a9, a10, a11, a12, a13, a14, a15, a16, a17, a18, a19, a20, a21, a22, a23, a24, a25, a26, a27, a28, a29, a30, a31, a32, a33, a34, a35, a36, a37, a38, a39⟩ ⟨q, b0, b1, b2, b3, b4, b5, b6, b7, b8, b9, b10, b11, b12, b13, b14, b15, b16, b17, b18, b19, b20, b21, b22, b23, b24, b25, b26, b27, b28, b29, b30, b31, b32, b33, b34, b35, b36, b37, b38, b39⟩ h
  obtain rfl : p = q := EntityInformationFamilyPdu.inj (List.append_inj_left h rfl)
  obtain rfl : a0 = b0 := int_inj (congrArg (look I.site) h)
  obtain rfl : a1 = b1 := int_inj (congrArg (look I.application) h)
  obtain rfl : a2 = b2 := int_inj (congrArg (look I.entity) h)
  obtain rfl : a3 = b3 := int_inj (congrArg (look I.forceId) h)
  obtain rfl : a4 = b4 := int_inj (congrArg (look I.numberOfVariableParameters) h)
  obtain rfl : a5 = b5 := int_inj (congrArg (look I.entityKind) h)
  obtain rfl : a6 = b6 := int_inj (congrArg (look I.domain) h)
  obtain rfl : a7 = b7 := int_inj (congrArg (look I.country) h)
  obtain rfl : a8 = b8 := int_inj (congrArg (look I.category) h)
  obtain rfl : a9 = b9 := int_inj (congrArg (look I.subcategory) h)
  obtain rfl : a10 = b10 := int_inj (congrArg (look I.specific) h)
  obtain rfl : a11 = b11 := int_inj (congrArg (look I.extra) h)
  obtain rfl : a12 = b12 := int_inj (congrArg (look I.altEntityKind) h)
  obtain rfl : a13 = b13 := int_inj (congrArg (look I.altDomain) h)
  obtain rfl : a14 = b14 := int_inj (congrArg (look I.altCountry) h)
  obtain rfl : a15 = b15 := int_inj (congrArg (look I.altCategory) h)
  obtain rfl : a16 = b16 := int_inj (congrArg (look I.altSubcategory) h)
  obtain rfl : a17 = b17 := int_inj (congrArg (look I.altSpecific) h)
  obtain rfl : a18 = b18 := int_inj (congrArg (look I.altExtra) h)
  obtain rfl : a19 = b19 := float_inj (congrArg (look I.xVelocity) h)
  obtain rfl : a20 = b20 := float_inj (congrArg (look I.yVelocity) h)
  obtain rfl : a21 = b21 := float_inj (congrArg (look I.zVelocity) h)
  obtain rfl : a22 = b22 := float_inj (congrArg (look I.xLocation) h)
  obtain rfl : a23 = b23 := float_inj (congrArg (look I.yLocation) h)
  obtain rfl : a24 = b24 := float_inj (congrArg (look I.zLocation) h)
  obtain rfl : a25 = b25 := float_inj (congrArg (look I.psi) h)
  obtain rfl : a26 = b26 := float_inj (congrArg (look I.theta) h)
  obtain rfl : a27 = b27 := float_inj (congrArg (look I.phi) h)
  obtain rfl : a28 = b28 := int_inj (congrArg (look I.entityAppearance) h)
  obtain rfl : a29 = b29 := int_inj (congrArg (look I.deadReckoningAlgorithm) h)
  obtain rfl : a30 = b30 := list_inj ints_inj (congrArg (look I.otherParameters) h)
  obtain rfl : a31 = b31 := float_inj (congrArg (look I.xAcceleration) h)
  obtain rfl : a32 = b32 := float_inj (congrArg (look I.yAcceleration) h)
  obtain rfl : a33 = b33 := float_inj (congrArg (look I.zAcceleration) h)
  obtain rfl : a34 = b34 := float_inj (congrArg (look I.xAngularVelocity) h)
  obtain rfl : a35 = b35 := float_inj (congrArg (look I.yAngularVelocity) h)
  obtain rfl : a36 = b36 := float_inj (congrArg (look I.zAngularVelocity) h)
  obtain rfl : a37 = b37 := list_inj ints_inj (congrArg (look I.marking) h)
  obtain rfl : a38 = b38 := int_inj (congrArg (look I.capabilities) h)
  obtain rfl : a39 = b39 := list_inj (enc_inj VariableParameter.inj) (congrArg (look I.variableParameters) h)
  rfl

theorem AcknowledgeReliablePdu.inj : ∀ {x y : Dis.AcknowledgeReliablePdu}, AcknowledgeReliablePdu.fields x = AcknowledgeReliablePdu.fields y → x = y := by
  rintro ⟨p, a0, a1, a2⟩ ⟨q, b0, b1, b2⟩ h
  obtain rfl : p = q := SimulationManagementWithReliabilityFamilyPdu.inj (List.append_inj_left h rfl)
  obtain rfl : a0 = b0 := int_inj (congrArg (look I.acknowledgeFlag) h)
  obtain rfl : a1 = b1 := int_inj (congrArg (look I.responseFlag) h)
  obtain rfl : a2 = b2 := int_inj (congrArg (look I.requestID) h)
  rfl

theorem StartResumeReliablePdu.inj : ∀ {x y : Dis.StartResumeReliablePdu}, StartResumeReliablePdu.fields x = StartResumeReliablePdu.fields y → x = y := by
  rintro ⟨p, a0, a1, a2, a3, a4, a5⟩ ⟨q, b0, b1, b2, b3, b4, b5⟩ h
  obtain rfl : p = q := SimulationManagementWithReliabilityFamilyPdu.inj (List.append_inj_left h rfl)
  obtain rfl : a0 = b0 := obj_inj ClockTime.inj (congrArg (look I.realWorldTime) h)
  obtain rfl : a1 = b1 := obj_inj ClockTime.inj (congrArg (look I.simulationTime) h)
  obtain rfl : a2 = b2 := int_inj (congrArg (look I.requiredReliabilityService) h)
  obtain rfl : a3 = b3 := int_inj (congrArg (look I.pad1) h)
  obtain rfl : a4 = b4 := int_inj (congrArg (look I.pad2) h)
  obtain rfl : a5 = b5 := int_inj (congrArg (look I.requestID) h)
  rfl

theorem ArealObjectStatePdu.inj : ∀ {x y : Dis.ArealObjectStatePdu}, ArealObjectStatePdu.fields x = ArealObjectStatePdu.fields y → x = y := by
  rintro ⟨p, a0, a1, a2, a3, a4, a5, a6, a7, a8, a9, a10⟩ ⟨q, b0, b1, b2, b3, b4, b5, b6, b7, b8, b9, b10⟩ h
  obtain rfl : p = q := SyntheticEnvironmentFamilyPdu.inj (List.append_inj_left h rfl)
  obtain rfl : a0 = b0 := obj_inj EntityIdentifier.inj (congrArg (look I.objectID) h)
  obtain rfl : a1 = b1 := obj_inj EntityIdentifier.inj (congrArg (look I.referencedObjectID) h)
  obtain rfl : a2 = b2 := int_inj (congrArg (look I.updateNumber) h)
  obtain rfl : a3 = b3 := int_inj (congrArg (look I.forceID) h)
  obtain rfl : a4 = b4 := int_inj (congrArg (look I.modifications) h)
  obtain rfl : a5 = b5 := obj_inj ObjectType.inj (congrArg (look I.objectType) h)
  obtain rfl : a6 = b6 := int_inj (congrArg (look I.specificObjectAppearance) h)
  obtain rfl : a7 = b7 := int_inj (congrArg (look I.generalObjectAppearance) h)
  obtain rfl : a8 = b8 := obj_inj SimulationAddress.inj (congrArg (look I.requesterID) h)
  obtain rfl : a9 = b9 := obj_inj SimulationAddress.inj (congrArg (look I.receivingID) h)
  obtain rfl : a10 = b10 := list_inj (enc_inj WorldCoordinates.inj) (congrArg (look I.objectLocation) h)
  rfl

theorem DataQueryReliablePdu.inj : ∀ {x y : Dis.DataQueryReliablePdu}, DataQueryReliablePdu.fields x = DataQueryReliablePdu.fields y → x = y := by
  rintro ⟨p, a0, a1, a2, a3, a4, a5⟩ ⟨q, b0, b1, b2, b3, b4, b5⟩ h
  obtain rfl : p = q := SimulationManagementWithReliabilityFamilyPdu.inj (List.append_inj_left h rfl)
  obtain rfl : a0 = b0 := int_inj (congrArg (look I.requiredReliabilityService) h)
  obtain rfl : a1 = b1 := int_inj (congrArg (look I.pad1) h)
  obtain rfl : a2 = b2 := int_inj (congrArg (look I.pad2) h)
  obtain rfl : a3 = b3 := int_inj (congrArg (look I.requestID) h)
  obtain rfl : a4 = b4 := int_inj (congrArg (look I.timeInterval) h)
  obtain rfl : a5 = b5 := obj_inj DataQueryDatumSpecification.inj (congrArg (look I._dataQuery) h)
  rfl

theorem MinefieldStatePdu.inj : ∀ {x y : Dis.MinefieldStatePdu}, MinefieldStatePdu.fields x = MinefieldStatePdu.fields y → x = y := by
  rintro ⟨p, a0, a1, a2, a3, a4, a5, a6, a7, a8, a9⟩ ⟨q, b0, b1, b2, b3, b4, b5, b6, b7, b8, b9⟩ h
  obtain rfl : p = q := MinefieldFamilyPdu.inj (List.append_inj_left h rfl)
  obtain rfl : a0 = b0 := obj_inj MinefieldIdentifier.inj (congrArg (look I.minefieldID) h)
  obtain rfl : a1 = b1 := int_inj (congrArg (look I.minefieldSequence) h)
  obtain rfl : a2 = b2 := int_inj (congrArg (look I.forceID) h)
  obtain rfl : a3 = b3 := obj_inj EntityType.inj (congrArg (look I.minefieldType) h)
  obtain rfl : a4 = b4 := obj_inj WorldCoordinates.inj (congrArg (look I.minefieldLocation) h)
  obtain rfl : a5 = b5 := obj_inj EulerAngles.inj (congrArg (look I.minefieldOrientation) h)
  obtain rfl : a6 = b6 := int_inj (congrArg (look I.appearance) h)
  obtain rfl : a7 = b7 := int_inj (congrArg (look I.protocolMode) h)
  obtain rfl : a8 = b8 := list_inj (enc_inj Vector2Float.inj) (congrArg (look I.perimeterPoints) h)
  obtain rfl : a9 = b9 := list_inj (enc_inj EntityType.inj) (congrArg (look I.mineTypes) h)
  rfl

theorem DetonationPdu.inj : ∀ {x y : Dis.DetonationPdu}, DetonationPdu.fields x = DetonationPdu.fields y → x = y := by
  rintro ⟨p, a0, a1, a2, a3, a4, a5, a6, a7, a8⟩ ⟨q, b0, b1, b2, b3, b4, b5, b6, b7, b8⟩ h
  obtain rfl : p = q := WarfareFamilyPdu.inj (List.append_inj_left h rfl)
  obtain rfl : a0 = b0 := obj_inj EntityIdentifier.inj (congrArg (look I.explodingEntityID) h)
  obtain rfl : a1 = b1 := obj_inj EventIdentifier.inj (congrArg (look I.eventID) h)
  obtain rfl : a2 = b2 := obj_inj Vector3Float.inj (congrArg (look I.velocity) h)
  obtain rfl : a3 = b3 := obj_inj WorldCoordinates.inj (congrArg (look I.location) h)
  obtain rfl : a4 = b4 := obj_inj MunitionDescriptor.inj (congrArg (look I.descriptor) h)
  obtain rfl : a5 = b5 := obj_inj Vector3Float.inj (congrArg (look I.locationInEntityCoordinates) h)
  obtain rfl : a6 = b6 := int_inj (congrArg (look I.detonationResult) h)
  obtain rfl : a7 = b7 := int_inj (congrArg (look I.pad) h)
  obtain rfl : a8 = b8 := list_inj (enc_inj VariableParameter.inj) (congrArg (look I.variableParameters) h)
  rfl

theorem RecordQueryReliablePdu.inj : ∀ {x y : Dis.RecordQueryReliablePdu}, RecordQueryReliablePdu.fields x = RecordQueryReliablePdu.fields y → x = y := by
  rintro ⟨p, a0, a1, a2, a3, a4, a5, a6⟩ ⟨q, b0, b1, b2, b3, b4, b5, b6⟩ h
  obtain rfl : p = q := SimulationManagementWithReliabilityFamilyPdu.inj (List.append_inj_left h rfl)
  obtain rfl : a0 = b0 := int_inj (congrArg (look I.requestID) h)
  obtain rfl : a1 = b1 := int_inj (congrArg (look I.requiredReliabilityService) h)
  obtain rfl : a2 = b2 := int_inj (congrArg (look I.pad1) h)
  obtain rfl : a3 = b3 := int_inj (congrArg (look I.pad2) h)
  obtain rfl : a4 = b4 := int_inj (congrArg (look I.eventType) h)
  obtain rfl : a5 = b5 := int_inj (congrArg (look I.time) h)
  obtain rfl : a6 = b6 := list_inj ints_inj (congrArg (look I.recordIDs) h)
  rfl

theorem FirePdu.inj : ∀ {x y : Dis.FirePdu}, FirePdu.fields x = FirePdu.fields y → x = y := by
  rintro ⟨p, a0, a1, a2, a3, a4, a5, a6⟩ ⟨q, b0, b1, b2, b3, b4, b5, b6⟩ h
  obtain rfl : p = q := WarfareFamilyPdu.inj (List.append_inj_left h rfl)
  obtain rfl : a0 = b0 := obj_inj EntityIdentifier.inj (congrArg (look I.munitionExpendableID) h)
  obtain rfl : a1 = b1 := obj_inj EventIdentifier.inj (congrArg (look I.eventID) h)
  obtain rfl : a2 = b2 := int_inj (congrArg (look I.fireMissionIndex) h)
  obtain rfl : a3 = b3 := obj_inj WorldCoordinates.inj (congrArg (look I.location) h)
  obtain rfl : a4 = b4 := obj_inj MunitionDescriptor.inj (congrArg (look I.descriptor) h)
  obtain rfl : a5 = b5 := obj_inj Vector3Float.inj (congrArg (look I.velocity) h)
  obtain rfl : a6 = b6 := float_inj (congrArg (look I.range) h)
  rfl

theorem ReceiverPdu.inj : ∀ {x y : Dis.ReceiverPdu}, ReceiverPdu.fields x = ReceiverPdu.fields y → x = y := by
  rintro ⟨p, a0, a1, a2, a3, a4⟩ ⟨q, b0, b1, b2, b3, b4⟩ h
  obtain rfl : p = q := RadioCommunicationsFamilyPdu.inj (List.append_inj_left h rfl)
  obtain rfl : a0 = b0 := int_inj (congrArg (look I.receiverState) h)
  obtain rfl : a1 = b1 := int_inj (congrArg (look I.padding1) h)
  obtain rfl : a2 = b2 := float_inj (congrArg (look I.receivedPower) h)
  obtain rfl : a3 = b3 := obj_inj EntityIdentifier.inj (congrArg (look I.transmitterEntityID) h)
  obtain rfl : a4 = b4 := int_inj (congrArg (look I.transmitterRadioId) h)
  rfl

theorem UaPdu.inj : ∀ {x y : Dis.UaPdu}, UaPdu.fields x = UaPdu.fields y → x = y := by
  rintro ⟨p, a0, a1, a2, a3, a4, a5, a6, a7, a8⟩ ⟨q, b0, b1, b2, b3, b4, b5, b6, b7, b8⟩ h
  obtain rfl : p = q := DistributedEmissionsFamilyPdu.inj (List.append_inj_left h rfl)
  obtain rfl : a0 = b0 := obj_inj EntityIdentifier.inj (congrArg (look I.emittingEntityID) h)
  obtain rfl : a1 = b1 := obj_inj EventIdentifier.inj (congrArg (look I.eventID) h)
  obtain rfl : a2 = b2 := int_inj (congrArg (look I.stateChangeIndicator) h)
  obtain rfl : a3 = b3 := int_inj (congrArg (look I.pad) h)
  obtain rfl : a4 = b4 := int_inj (congrArg (look I.passiveParameterIndex) h)
  obtain rfl : a5 = b5 := int_inj (congrArg (look I.propulsionPlantConfiguration) h)
  obtain rfl : a6 = b6 := list_inj ints_inj (congrArg (look I.shaftRPMs) h)
  obtain rfl : a7 = b7 := list_inj ints_inj (congrArg (look I.apaData) h)
  obtain rfl : a8 = b8 := list_inj ints_inj (congrArg (look I.emitterSystems) h)
  rfl

theorem SignalPdu.inj : ∀ {x y : Dis.SignalPdu}, SignalPdu.fields x = SignalPdu.fields y → x = y := by
  rintro ⟨p, a0, a1, a2, a3, a4, a5, a6⟩ ⟨q, b0, b1, b2, b3, b4, b5, b6⟩ h
  obtain rfl : p = q := RadioCommunicationsFamilyPdu.inj (List.append_inj_left h rfl)
  obtain rfl : a0 = b0 := obj_inj EntityIdentifier.inj (congrArg (look I.entityID) h)
  obtain rfl : a1 = b1 := int_inj (congrArg (look I.radioID) h)
  obtain rfl : a2 = b2 := int_inj (congrArg (look I.encodingScheme) h)
  obtain rfl : a3 = b3 := int_inj (congrArg (look I.tdlType) h)
  obtain rfl : a4 = b4 := int_inj (congrArg (look I.sampleRate) h)
  obtain rfl : a5 = b5 := int_inj (congrArg (look I.samples) h)
  obtain rfl : a6 = b6 := list_inj ints_inj (congrArg (look I.data) h)
  rfl

theorem RemoveEntityReliablePdu.inj : ∀ {x y : Dis.RemoveEntityReliablePdu}, RemoveEntityReliablePdu.fields x = RemoveEntityReliablePdu.fields y → x = y := by
  rintro ⟨p, a0, a1, a2, a3⟩ ⟨q, b0, b1, b2, b3⟩ h
  obtain rfl : p = q := SimulationManagementWithReliabilityFamilyPdu.inj (List.append_inj_left h rfl)
  obtain rfl : a0 = b0 := int_inj (congrArg (look I.requiredReliabilityService) h)
  obtain rfl : a1 = b1 := int_inj (congrArg (look I.pad1) h)
  obtain rfl : a2 = b2 := int_inj (congrArg (look I.pad2) h)
  obtain rfl : a3 = b3 := int_inj (congrArg (look I.requestID) h)
  rfl

theorem SeesPdu.inj : ∀ {x y : Dis.SeesPdu}, SeesPdu.fields x = SeesPdu.fields y → x = y := by
  rintro ⟨p, a0, a1, a2, a3, a4, a5⟩ ⟨q, b0, b1, b2, b3, b4, b5⟩ h
  obtain rfl : p = q := DistributedEmissionsFamilyPdu.inj (List.append_inj_left h rfl)
  obtain rfl : a0 = b0 := obj_inj EntityIdentifier.inj (congrArg (look I.orginatingEntityID) h)
  obtain rfl : a1 = b1 := int_inj (congrArg (look I.infraredSignatureRepresentationIndex) h)
  obtain rfl : a2 = b2 := int_inj (congrArg (look I.acousticSignatureRepresentationIndex) h)
  obtain rfl : a3 = b3 := int_inj (congrArg (look I.radarCrossSectionSignatureRepresentationIndex) h)
  obtain rfl : a4 = b4 := list_inj (enc_inj PropulsionSystemData.inj) (congrArg (look I.propulsionSystemData) h)
  obtain rfl : a5 = b5 := list_inj (enc_inj VectoringNozzleSystem.inj) (congrArg (look I.vectoringSystemData) h)
  rfl

theorem CreateEntityReliablePdu.inj : ∀ {x y : Dis.CreateEntityReliablePdu}, CreateEntityReliablePdu.fields x = CreateEntityReliablePdu.fields y → x = y := by
  rintro ⟨p, a0, a1, a2, a3⟩ ⟨q, b0, b1, b2, b3⟩ h
  obtain rfl : p = q := SimulationManagementWithReliabilityFamilyPdu.inj (List.append_inj_left h rfl)
  obtain rfl : a0 = b0 := int_inj (congrArg (look I.requiredReliabilityService) h)
  obtain rfl : a1 = b1 := int_inj (congrArg (look I.pad1) h)
  obtain rfl : a2 = b2 := int_inj (congrArg (look I.pad2) h)
  obtain rfl : a3 = b3 := int_inj (congrArg (look I.requestID) h)
  rfl

theorem StopFreezeReliablePdu.inj : ∀ {x y : Dis.StopFreezeReliablePdu}, StopFreezeReliablePdu.fields x = StopFreezeReliablePdu.fields y → x = y := by
  rintro ⟨p, a0, a1, a2, a3, a4, a5⟩ ⟨q, b0, b1, b2, b3, b4, b5⟩ h
  obtain rfl : p = q := SimulationManagementWithReliabilityFamilyPdu.inj (List.append_inj_left h rfl)
  obtain rfl : a0 = b0 := obj_inj ClockTime.inj (congrArg (look I.realWorldTime) h)
  obtain rfl : a1 = b1 := int_inj (congrArg (look I.reason) h)
  obtain rfl : a2 = b2 := int_inj (congrArg (look I.frozenBehavior) h)
  obtain rfl : a3 = b3 := int_inj (congrArg (look I.requiredReliablityService) h)
  obtain rfl : a4 = b4 := int_inj (congrArg (look I.pad1) h)
  obtain rfl : a5 = b5 := int_inj (congrArg (look I.requestID) h)
  rfl

theorem MinefieldResponseNackPdu.inj : ∀ {x y : Dis.MinefieldResponseNackPdu}, MinefieldResponseNackPdu.fields x = MinefieldResponseNackPdu.fields y → x = y := by
  rintro ⟨p, a0, a1, a2, a3⟩ ⟨q, b0, b1, b2, b3⟩ h
  obtain rfl : p = q := MinefieldFamilyPdu.inj (List.append_inj_left h rfl)
  obtain rfl : a0 = b0 := obj_inj EntityIdentifier.inj (congrArg (look I.minefieldID) h)
  obtain rfl : a1 = b1 := obj_inj EntityIdentifier.inj (congrArg (look I.requestingEntityID) h)
  obtain rfl : a2 = b2 := int_inj (congrArg (look I.requestID) h)
  obtain rfl : a3 = b3 := list_inj ints_inj (congrArg (look I.missingPduSequenceNumbers) h)
  rfl

theorem IsPartOfPdu.inj : ∀ {x y : Dis.IsPartOfPdu}, IsPartOfPdu.fields x = IsPartOfPdu.fields y → x = y := by
  rintro ⟨p, a0, a1, a2, a3, a4, a5⟩ ⟨q, b0, b1, b2, b3, b4, b5⟩ h
  obtain rfl : p = q := EntityManagementFamilyPdu.inj (List.append_inj_left h rfl)
  obtain rfl : a0 = b0 := obj_inj EntityIdentifier.inj (congrArg (look I.orginatingEntityID) h)
  obtain rfl : a1 = b1 := obj_inj EntityIdentifier.inj (congrArg (look I.receivingEntityID) h)
  obtain rfl : a2 = b2 := obj_inj Relationship.inj (congrArg (look I.relationship) h)
  obtain rfl : a3 = b3 := obj_inj Vector3Float.inj (congrArg (look I.partLocation) h)
  obtain rfl : a4 = b4 := obj_inj NamedLocationIdentification.inj (congrArg (look I.namedLocationID) h)
  obtain rfl : a5 = b5 := obj_inj EntityType.inj (congrArg (look I.partEntityType) h)
  rfl

theorem AcknowledgePdu.lawful : Sourced.AcknowledgePdu.Lawful where
  serialize n x := AcknowledgePdu.serializes (n + 4) x
  parse n := AcknowledgePdu.parses (n + 4)
  inj _ _ := AcknowledgePdu.inj
  makes _ := ⟨_, .rfl' _, fun n => ⟨AcknowledgePdu.makes (n + 4), AcknowledgePdu.serializes (n + 4) Dis.AcknowledgePdu.init,
    fun io => ⟨_, AcknowledgePdu.parses (n + 4) Dis.AcknowledgePdu.init io, fun _ _ => rfl⟩⟩⟩

theorem DesignatorPdu.lawful : Sourced.DesignatorPdu.Lawful where
  serialize n x := DesignatorPdu.serializes (n + 4) x
  parse n := DesignatorPdu.parses (n + 4)
  inj _ _ := DesignatorPdu.inj
  makes _ := ⟨_, .rfl' _, fun n => ⟨DesignatorPdu.makes (n + 4), DesignatorPdu.serializes (n + 4) Dis.DesignatorPdu.init,
    fun io => ⟨_, DesignatorPdu.parses (n + 4) Dis.DesignatorPdu.init io, fun _ _ => rfl⟩⟩⟩

theorem StopFreezePdu.lawful : Sourced.StopFreezePdu.Lawful where
  serialize n x := StopFreezePdu.serializes (n + 4) x
  parse n := StopFreezePdu.parses (n + 4)
  inj _ _ := StopFreezePdu.inj
  makes _ := ⟨_, .rfl' _, fun n => ⟨StopFreezePdu.makes (n + 4), StopFreezePdu.serializes (n + 4) Dis.StopFreezePdu.init,
    fun io => ⟨_, StopFreezePdu.parses (n + 4) Dis.StopFreezePdu.init io, fun _ _ => rfl⟩⟩⟩

theorem EntityStatePdu.lawful : Sourced.EntityStatePdu.Lawful where
  serialize n x := EntityStatePdu.serializes (n + 4) x
  parse n := EntityStatePdu.parses (n + 4)
  inj _ _ := EntityStatePdu.inj
  makes _ := ⟨_, .rfl' _, fun n => ⟨EntityStatePdu.makes (n + 4), EntityStatePdu.serializes (n + 4) Dis.EntityStatePdu.init,
    fun io => ⟨_, EntityStatePdu.parses (n + 4) Dis.EntityStatePdu.init io, fun _ _ => rfl⟩⟩⟩

theorem StartResumePdu.lawful : Sourced.StartResumePdu.Lawful where
  serialize n x := StartResumePdu.serializes (n + 4) x
  parse n := StartResumePdu.parses (n + 4)
  inj _ _ := StartResumePdu.inj
  makes _ := ⟨_, .rfl' _, fun n => ⟨StartResumePdu.makes (n + 4), StartResumePdu.serializes (n + 4) Dis.StartResumePdu.init,
    fun io => ⟨_, StartResumePdu.parses (n + 4) Dis.StartResumePdu.init io, fun _ _ => rfl⟩⟩⟩

theorem ElectromagneticEmissionsPdu.lawful : Sourced.ElectromagneticEmissionsPdu.Lawful where
  serialize n x := ElectromagneticEmissionsPdu.serializes (n + 2) x
  parse n := ElectromagneticEmissionsPdu.parses (n + 2)
  inj _ _ := ElectromagneticEmissionsPdu.inj
  makes _ := ⟨_, .rfl' _, fun n => ⟨ElectromagneticEmissionsPdu.makes (n + 4), ElectromagneticEmissionsPdu.serializes (n + 2) Dis.ElectromagneticEmissionsPdu.init,
    fun io => ⟨_, ElectromagneticEmissionsPdu.parses (n + 2) Dis.ElectromagneticEmissionsPdu.init io, fun _ _ => rfl⟩⟩⟩

theorem ResupplyOfferPdu.lawful : Sourced.ResupplyOfferPdu.Lawful where
  serialize n x := ResupplyOfferPdu.serializes (n + 4) x
  parse n := ResupplyOfferPdu.parses (n + 4)
  inj _ _ := ResupplyOfferPdu.inj
  makes _ := ⟨_, .rfl' _, fun n => ⟨ResupplyOfferPdu.makes (n + 4), ResupplyOfferPdu.serializes (n + 4) Dis.ResupplyOfferPdu.init,
    fun io => ⟨_, ResupplyOfferPdu.parses (n + 4) Dis.ResupplyOfferPdu.init io, fun _ _ => rfl⟩⟩⟩

theorem PointObjectStatePdu.same : SameFields (PointObjectStatePdu.rawFields PointObjectStatePdu.made) (PointObjectStatePdu.fields Dis.PointObjectStatePdu.init) :=
  .cons (.refl _) <|
  .cons (.refl _) <|
  .cons (.refl _) <|
  .cons (.refl _) <|
  .cons (.refl _) <|
  .cons (.refl _) <|
  .cons (.refl _) <|
  .cons (.refl _) <|
  .cons (.refl _) <|
  .cons (.refl _) <|
  .cons (.refl _) <|
  .cons (.refl _) <|
  .cons (.refl _) <|
  .cons (.refl _) <|
  .cons (.refl _) <|
  .cons (.refl _) <|
  .cons (.refl _) <|
  .cons (.refl _) <|
  .cons (.refl _) <|
  .cons (.refl _) <|
  .cons (.int ofInt_zero) <|
  .nil

theorem PointObjectStatePdu.firstRaw (n : Nat) : Serializes (run (n + 4)) I.PointObjectStatePdu (.obj I.PointObjectStatePdu (PointObjectStatePdu.rawFields PointObjectStatePdu.made)) Dis.PointObjectStatePdu.init.serialize :=
  serializes_of (n := n + 3) (d := I.PointObjectStatePdu) (f := PointObjectStatePdu.serialize) rfl rfl <|
    ser_cons (ser_super (c := I.PointObjectStatePdu) rfl (Or.inl rfl) PointObjectStatePdu.found rfl rfl (SyntheticEnvironmentFamilyPdu.serializes (n + 0) _ _ _)) <|
    ser_cons (ser_call rfl (plain rfl) rfl rfl rfl (EntityIdentifier.serializes (n + 1) _)) <|
    ser_cons (ser_call rfl (plain rfl) rfl rfl rfl (EntityIdentifier.serializes (n + 1) _)) <|
    ser_cons (ser_write (gives_attr (gives_name rfl) (plain rfl) rfl) rfl rfl rfl) <|
    ser_cons (ser_write (gives_attr (gives_name rfl) (plain rfl) rfl) rfl rfl rfl) <|
    ser_cons (ser_write (gives_attr (gives_name rfl) (plain rfl) rfl) rfl rfl rfl) <|
    ser_cons (ser_call rfl (plain rfl) rfl rfl rfl (ObjectType.serializes (n + 2) _)) <|
    ser_cons (ser_call rfl (plain rfl) rfl rfl rfl (WorldCoordinates.serializes (n + 2) _)) <|
    ser_cons (ser_call rfl (plain rfl) rfl rfl rfl (EulerAngles.serializes (n + 2) _)) <|
    ser_cons (ser_write (gives_attr (gives_name rfl) (plain rfl) rfl) rfl rfl (packFloat_zero _)) <|
    ser_cons (ser_call rfl (plain rfl) rfl rfl rfl (SimulationAddress.serializes (n + 2) _)) <|
    ser_cons (ser_call rfl (plain rfl) rfl rfl rfl (SimulationAddress.serializes (n + 2) _)) <|
    ser_last <| ser_write (gives_attr (gives_name rfl) (plain rfl) rfl) rfl rfl rfl

theorem PointObjectStatePdu.lawful : Sourced.PointObjectStatePdu.Lawful where
  serialize n x := PointObjectStatePdu.serializes (n + 4) x
  parse n := PointObjectStatePdu.parses (n + 4)
  inj _ _ := PointObjectStatePdu.inj
  makes _ := ⟨PointObjectStatePdu.rawFields PointObjectStatePdu.made, PointObjectStatePdu.same, fun n => ⟨PointObjectStatePdu.makesRaw (n + 4), PointObjectStatePdu.firstRaw (n + 4),
    fills_over (π := PointObjectStatePdu.Raw.out) (PointObjectStatePdu.parsesRaw (n + 4)) PointObjectStatePdu.over PointObjectStatePdu.ends rfl fun r h => PointObjectStatePdu.done r h⟩⟩

theorem FastEntityStatePdu.same : SameFields (FastEntityStatePdu.rawFields FastEntityStatePdu.made) (FastEntityStatePdu.fields Dis.FastEntityStatePdu.init) :=
  .cons (.refl _) <|
  .cons (.refl _) <|
  .cons (.refl _) <|
  .cons (.refl _) <|
  .cons (.refl _) <|
  .cons (.refl _) <|
  .cons (.refl _) <|
  .cons (.refl _) <|
  .cons (.int ofInt_zero) <|
  .cons (.int ofInt_zero) <|
  .cons (.int ofInt_zero) <|
  .cons (.refl _) <|
  .cons (.refl _) <|
  .cons (.refl _) <|
  .cons (.refl _) <|
  .cons (.refl _) <|
  .cons (.refl _) <|
  .cons (.refl _) <|
  .cons (.refl _) <|
  .cons (.refl _) <|
  .cons (.refl _) <|
  .cons (.refl _) <|
  .cons (.refl _) <|
  .cons (.refl _) <|
  .cons (.refl _) <|
  .cons (.refl _) <|
  .cons (.refl _) <|
  .cons (.refl _) <|
  .cons (.refl _) <|
  .cons (.refl _) <|
  .cons (.refl _) <|
  .cons (.refl _) <|
  .cons (.refl _) <|
  .cons (.refl _) <|
  .cons (.refl _) <|
  .cons (.int ofInt_zero) <|
  .cons (.int ofInt_zero) <|
  .cons (.int ofInt_zero) <|
  .cons (.int ofInt_zero) <|
  .cons (.int ofInt_zero) <|
  .cons (.int ofInt_zero) <|
  .cons (.refl _) <|
  .cons (.int ofInt_zero) <|
  .cons (.int ofInt_zero) <|
  .cons (.int ofInt_zero) <|
  .cons (.int ofInt_zero) <|
  .cons (.int ofInt_zero) <|
  .cons (.int ofInt_zero) <|
  .nil

theorem FastEntityStatePdu.firstRaw (n : Nat) : Serializes (run (n + 4)) I.FastEntityStatePdu (.obj I.FastEntityStatePdu (FastEntityStatePdu.rawFields FastEntityStatePdu.made)) Dis.FastEntityStatePdu.init.serialize :=
  serializes_of (n := n + 3) (d := I.FastEntityStatePdu) (f := FastEntityStatePdu.serialize) rfl rfl <|
    ser_cons (ser_super (c := I.FastEntityStatePdu) rfl (Or.inl rfl) FastEntityStatePdu.found rfl rfl (EntityInformationFamilyPdu.serializes (n + 0) _ _ _)) <|
    ser_cons (ser_write (gives_attr (gives_name rfl) (plain rfl) rfl) rfl rfl rfl) <|
    ser_cons (ser_write (gives_attr (gives_name rfl) (plain rfl) rfl) rfl rfl rfl) <|
    ser_cons (ser_write (gives_attr (gives_name rfl) (plain rfl) rfl) rfl rfl rfl) <|
    ser_cons (ser_write (gives_attr (gives_name rfl) (plain rfl) rfl) rfl rfl rfl) <|
    ser_cons (ser_write (gives_len_map (gives_attr (gives_name rfl) (plain rfl) rfl)) rfl rfl (packInt_int _ _)) <|
    ser_cons (ser_write (gives_attr (gives_name rfl) (plain rfl) rfl) rfl rfl rfl) <|
    ser_cons (ser_write (gives_attr (gives_name rfl) (plain rfl) rfl) rfl rfl rfl) <|
    ser_cons (ser_write (gives_attr (gives_name rfl) (plain rfl) rfl) rfl rfl rfl) <|
    ser_cons (ser_write (gives_attr (gives_name rfl) (plain rfl) rfl) rfl rfl rfl) <|
    ser_cons (ser_write (gives_attr (gives_name rfl) (plain rfl) rfl) rfl rfl rfl) <|
    ser_cons (ser_write (gives_attr (gives_name rfl) (plain rfl) rfl) rfl rfl rfl) <|
    ser_cons (ser_write (gives_attr (gives_name rfl) (plain rfl) rfl) rfl rfl rfl) <|
    ser_cons (ser_write (gives_attr (gives_name rfl) (plain rfl) rfl) rfl rfl rfl) <|
    ser_cons (ser_write (gives_attr (gives_name rfl) (plain rfl) rfl) rfl rfl rfl) <|
    ser_cons (ser_write (gives_attr (gives_name rfl) (plain rfl) rfl) rfl rfl rfl) <|
    ser_cons (ser_write (gives_attr (gives_name rfl) (plain rfl) rfl) rfl rfl rfl) <|
    ser_cons (ser_write (gives_attr (gives_name rfl) (plain rfl) rfl) rfl rfl rfl) <|
    ser_cons (ser_write (gives_attr (gives_name rfl) (plain rfl) rfl) rfl rfl rfl) <|
    ser_cons (ser_write (gives_attr (gives_name rfl) (plain rfl) rfl) rfl rfl rfl) <|
    ser_cons (ser_write (gives_attr (gives_name rfl) (plain rfl) rfl) rfl rfl (packFloat_zero _)) <|
    ser_cons (ser_write (gives_attr (gives_name rfl) (plain rfl) rfl) rfl rfl (packFloat_zero _)) <|
    ser_cons (ser_write (gives_attr (gives_name rfl) (plain rfl) rfl) rfl rfl (packFloat_zero _)) <|
    ser_cons (ser_write (gives_attr (gives_name rfl) (plain rfl) rfl) rfl rfl (packFloat_zero _)) <|
    ser_cons (ser_write (gives_attr (gives_name rfl) (plain rfl) rfl) rfl rfl (packFloat_zero _)) <|
    ser_cons (ser_write (gives_attr (gives_name rfl) (plain rfl) rfl) rfl rfl (packFloat_zero _)) <|
    ser_cons (ser_write (gives_attr (gives_name rfl) (plain rfl) rfl) rfl rfl (packFloat_zero _)) <|
    ser_cons (ser_write (gives_attr (gives_name rfl) (plain rfl) rfl) rfl rfl (packFloat_zero _)) <|
    ser_cons (ser_write (gives_attr (gives_name rfl) (plain rfl) rfl) rfl rfl (packFloat_zero _)) <|
    ser_cons (ser_write (gives_attr (gives_name rfl) (plain rfl) rfl) rfl rfl rfl) <|
    ser_cons (ser_write (gives_attr (gives_name rfl) (plain rfl) rfl) rfl rfl rfl) <|
    ser_cons (ser_range (gives_range0 gives_int) var_idx rfl fun i =>
      ser_last (ser_index (gives_attr (gives_name rfl) (plain rfl) rfl) (gives_name rfl) rfl rfl fun _ => rfl)) <|
    ser_cons (ser_write (gives_attr (gives_name rfl) (plain rfl) rfl) rfl rfl (packFloat_zero _)) <|
    ser_cons (ser_write (gives_attr (gives_name rfl) (plain rfl) rfl) rfl rfl (packFloat_zero _)) <|
    ser_cons (ser_write (gives_attr (gives_name rfl) (plain rfl) rfl) rfl rfl (packFloat_zero _)) <|
    ser_cons (ser_write (gives_attr (gives_name rfl) (plain rfl) rfl) rfl rfl (packFloat_zero _)) <|
    ser_cons (ser_write (gives_attr (gives_name rfl) (plain rfl) rfl) rfl rfl (packFloat_zero _)) <|
    ser_cons (ser_write (gives_attr (gives_name rfl) (plain rfl) rfl) rfl rfl (packFloat_zero _)) <|
    ser_cons (ser_range (gives_range0 gives_int) var_idx rfl fun i =>
      ser_last (ser_index (gives_attr (gives_name rfl) (plain rfl) rfl) (gives_name rfl) rfl rfl fun _ => rfl)) <|
    ser_cons (ser_write (gives_attr (gives_name rfl) (plain rfl) rfl) rfl rfl rfl) <|
    ser_last <| ser_for (gives_attr (gives_name rfl) (plain rfl) rfl) var_anObj rfl fun a _ =>
      ser_last (ser_var rfl rfl (VariableParameter.serializes (n + 2) a))

theorem FastEntityStatePdu.lawful : Sourced.FastEntityStatePdu.Lawful where
  serialize n x := FastEntityStatePdu.serializes (n + 4) x
  parse n := FastEntityStatePdu.parses (n + 4)
  inj _ _ := FastEntityStatePdu.inj
  makes _ := ⟨FastEntityStatePdu.rawFields FastEntityStatePdu.made, FastEntityStatePdu.same, fun n => ⟨FastEntityStatePdu.makesRaw (n + 4), FastEntityStatePdu.firstRaw (n + 4),
    fills_over (π := FastEntityStatePdu.Raw.out) (FastEntityStatePdu.parsesRaw (n + 4)) FastEntityStatePdu.over FastEntityStatePdu.ends rfl fun r h => FastEntityStatePdu.done r h⟩⟩

theorem AcknowledgeReliablePdu.lawful : Sourced.AcknowledgeReliablePdu.Lawful where
  serialize n x := AcknowledgeReliablePdu.serializes (n + 4) x
  parse n := AcknowledgeReliablePdu.parses (n + 4)
  inj _ _ := AcknowledgeReliablePdu.inj
  makes _ := ⟨_, .rfl' _, fun n => ⟨AcknowledgeReliablePdu.makes (n + 4), AcknowledgeReliablePdu.serializes (n + 4) Dis.AcknowledgeReliablePdu.init,
    fun io => ⟨_, AcknowledgeReliablePdu.parses (n + 4) Dis.AcknowledgeReliablePdu.init io, fun _ _ => rfl⟩⟩⟩

theorem StartResumeReliablePdu.lawful : Sourced.StartResumeReliablePdu.Lawful where
  serialize n x := StartResumeReliablePdu.serializes (n + 4) x
  parse n := StartResumeReliablePdu.parses (n + 4)
  inj _ _ := StartResumeReliablePdu.inj
  makes _ := ⟨_, .rfl' _, fun n => ⟨StartResumeReliablePdu.makes (n + 4), StartResumeReliablePdu.serializes (n + 4) Dis.StartResumeReliablePdu.init,
    fun io => ⟨_, StartResumeReliablePdu.parses (n + 4) Dis.StartResumeReliablePdu.init io, fun _ _ => rfl⟩⟩⟩

theorem ArealObjectStatePdu.lawful : Sourced.ArealObjectStatePdu.Lawful where
  serialize n x := ArealObjectStatePdu.serializes (n + 4) x
  parse n := ArealObjectStatePdu.parses (n + 4)
  inj _ _ := ArealObjectStatePdu.inj
  makes _ := ⟨_, .rfl' _, fun n => ⟨ArealObjectStatePdu.makes (n + 4), ArealObjectStatePdu.serializes (n + 4) Dis.ArealObjectStatePdu.init,
    fun io => ⟨_, ArealObjectStatePdu.parses (n + 4) Dis.ArealObjectStatePdu.init io, fun _ _ => rfl⟩⟩⟩

theorem DataQueryReliablePdu.lawful : Sourced.DataQueryReliablePdu.Lawful where
  serialize n x := DataQueryReliablePdu.serializes (n + 4) x
  parse n := DataQueryReliablePdu.parses (n + 4)
  inj _ _ := DataQueryReliablePdu.inj
  makes _ := ⟨_, .rfl' _, fun n => ⟨DataQueryReliablePdu.makes (n + 4), DataQueryReliablePdu.serializes (n + 4) Dis.DataQueryReliablePdu.init,
    fun io => ⟨_, DataQueryReliablePdu.parses (n + 4) Dis.DataQueryReliablePdu.init io, fun _ _ => rfl⟩⟩⟩

theorem MinefieldStatePdu.lawful : Sourced.MinefieldStatePdu.Lawful where
  serialize n x := MinefieldStatePdu.serializes (n + 4) x
  parse n := MinefieldStatePdu.parses (n + 4)
  inj _ _ := MinefieldStatePdu.inj
  makes _ := ⟨_, .rfl' _, fun n => ⟨MinefieldStatePdu.makes (n + 4), MinefieldStatePdu.serializes (n + 4) Dis.MinefieldStatePdu.init,
    fun io => ⟨_, MinefieldStatePdu.parses (n + 4) Dis.MinefieldStatePdu.init io, fun _ _ => rfl⟩⟩⟩

theorem DetonationPdu.lawful : Sourced.DetonationPdu.Lawful where
  serialize n x := DetonationPdu.serializes (n + 4) x
  parse n := DetonationPdu.parses (n + 4)
  inj _ _ := DetonationPdu.inj
  makes _ := ⟨_, .rfl' _, fun n => ⟨DetonationPdu.makes (n + 4), DetonationPdu.serializes (n + 4) Dis.DetonationPdu.init,
    fun io => ⟨_, DetonationPdu.parses (n + 4) Dis.DetonationPdu.init io, fun _ _ => rfl⟩⟩⟩

theorem RecordQueryReliablePdu.lawful : Sourced.RecordQueryReliablePdu.Lawful where
  serialize n x := RecordQueryReliablePdu.serializes (n + 4) x
  parse n := RecordQueryReliablePdu.parses (n + 4)
  inj _ _ := RecordQueryReliablePdu.inj
  makes _ := ⟨_, .rfl' _, fun n => ⟨RecordQueryReliablePdu.makes (n + 4), RecordQueryReliablePdu.serializes (n + 4) Dis.RecordQueryReliablePdu.init,
    fun io => ⟨_, RecordQueryReliablePdu.parses (n + 4) Dis.RecordQueryReliablePdu.init io, fun _ _ => rfl⟩⟩⟩

theorem FirePdu.lawful : Sourced.FirePdu.Lawful where
  serialize n x := FirePdu.serializes (n + 4) x
  parse n := FirePdu.parses (n + 4)
  inj _ _ := FirePdu.inj
  makes _ := ⟨_, .rfl' _, fun n => ⟨FirePdu.makes (n + 4), FirePdu.serializes (n + 4) Dis.FirePdu.init,
    fun io => ⟨_, FirePdu.parses (n + 4) Dis.FirePdu.init io, fun _ _ => rfl⟩⟩⟩

theorem ReceiverPdu.lawful : Sourced.ReceiverPdu.Lawful where
  serialize n x := ReceiverPdu.serializes (n + 4) x
  parse n := ReceiverPdu.parses (n + 4)
  inj _ _ := ReceiverPdu.inj
  makes _ := ⟨_, .rfl' _, fun n => ⟨ReceiverPdu.makes (n + 4), ReceiverPdu.serializes (n + 4) Dis.ReceiverPdu.init,
    fun io => ⟨_, ReceiverPdu.parses (n + 4) Dis.ReceiverPdu.init io, fun _ _ => rfl⟩⟩⟩

theorem UaPdu.lawful : Sourced.UaPdu.Lawful where
  serialize n x := UaPdu.serializes (n + 4) x
  parse n := UaPdu.parses (n + 4)
  inj _ _ := UaPdu.inj
  makes _ := ⟨_, .rfl' _, fun n => ⟨UaPdu.makes (n + 4), UaPdu.serializes (n + 4) Dis.UaPdu.init,
    fun io => ⟨_, UaPdu.parses (n + 4) Dis.UaPdu.init io, fun _ _ => rfl⟩⟩⟩

theorem SignalPdu.lawful : Sourced.SignalPdu.Lawful where
  serialize n x := SignalPdu.serializes (n + 4) x
  parse n := SignalPdu.parses (n + 4)
  inj _ _ := SignalPdu.inj
  makes _ := ⟨_, .rfl' _, fun n => ⟨SignalPdu.makes (n + 4), SignalPdu.serializes (n + 4) Dis.SignalPdu.init,
    fun io => ⟨_, SignalPdu.parses (n + 4) Dis.SignalPdu.init io, fun _ _ => rfl⟩⟩⟩

theorem RemoveEntityReliablePdu.lawful : Sourced.RemoveEntityReliablePdu.Lawful where
  serialize n x := RemoveEntityReliablePdu.serializes (n + 4) x
  parse n := RemoveEntityReliablePdu.parses (n + 4)
  inj _ _ := RemoveEntityReliablePdu.inj
  makes _ := ⟨_, .rfl' _, fun n => ⟨RemoveEntityReliablePdu.makes (n + 4), RemoveEntityReliablePdu.serializes (n + 4) Dis.RemoveEntityReliablePdu.init,
    fun io => ⟨_, RemoveEntityReliablePdu.parses (n + 4) Dis.RemoveEntityReliablePdu.init io, fun _ _ => rfl⟩⟩⟩

theorem SeesPdu.lawful : Sourced.SeesPdu.Lawful where
  serialize n x := SeesPdu.serializes (n + 4) x
  parse n := SeesPdu.parses (n + 4)
  inj _ _ := SeesPdu.inj
  makes _ := ⟨_, .rfl' _, fun n => ⟨SeesPdu.makes (n + 4), SeesPdu.serializes (n + 4) Dis.SeesPdu.init,
    fun io => ⟨_, SeesPdu.parses (n + 4) Dis.SeesPdu.init io, fun _ _ => rfl⟩⟩⟩

theorem CreateEntityReliablePdu.lawful : Sourced.CreateEntityReliablePdu.Lawful where
  serialize n x := CreateEntityReliablePdu.serializes (n + 4) x
  parse n := CreateEntityReliablePdu.parses (n + 4)
  inj _ _ := CreateEntityReliablePdu.inj
  makes _ := ⟨_, .rfl' _, fun n => ⟨CreateEntityReliablePdu.makes (n + 4), CreateEntityReliablePdu.serializes (n + 4) Dis.CreateEntityReliablePdu.init,
    fun io => ⟨_, CreateEntityReliablePdu.parses (n + 4) Dis.CreateEntityReliablePdu.init io, fun _ _ => rfl⟩⟩⟩

theorem StopFreezeReliablePdu.lawful : Sourced.StopFreezeReliablePdu.Lawful where
  serialize n x := StopFreezeReliablePdu.serializes (n + 4) x
  parse n := StopFreezeReliablePdu.parses (n + 4)
  inj _ _ := StopFreezeReliablePdu.inj
  makes _ := ⟨_, .rfl' _, fun n => ⟨StopFreezeReliablePdu.makes (n + 4), StopFreezeReliablePdu.serializes (n + 4) Dis.StopFreezeReliablePdu.init,
    fun io => ⟨_, StopFreezeReliablePdu.parses (n + 4) Dis.StopFreezeReliablePdu.init io, fun _ _ => rfl⟩⟩⟩

theorem MinefieldResponseNackPdu.lawful : Sourced.MinefieldResponseNackPdu.Lawful where
  serialize n x := MinefieldResponseNackPdu.serializes (n + 4) x
  parse n := MinefieldResponseNackPdu.parses (n + 4)
  inj _ _ := MinefieldResponseNackPdu.inj
  makes _ := ⟨_, .rfl' _, fun n => ⟨MinefieldResponseNackPdu.makes (n + 4), MinefieldResponseNackPdu.serializes (n + 4) Dis.MinefieldResponseNackPdu.init,
    fun io => ⟨_, MinefieldResponseNackPdu.parses (n + 4) Dis.MinefieldResponseNackPdu.init io, fun _ _ => rfl⟩⟩⟩

theorem IsPartOfPdu.lawful : Sourced.IsPartOfPdu.Lawful where
  serialize n x := IsPartOfPdu.serializes (n + 4) x
  parse n := IsPartOfPdu.parses (n + 4)
  inj _ _ := IsPartOfPdu.inj
  makes _ := ⟨_, .rfl' _, fun n => ⟨IsPartOfPdu.makes (n + 4), IsPartOfPdu.serializes (n + 4) Dis.IsPartOfPdu.init,
    fun io => ⟨_, IsPartOfPdu.parses (n + 4) Dis.IsPartOfPdu.init io, fun _ _ => rfl⟩⟩⟩

theorem AcknowledgePdu.known : Sourced.AcknowledgePdu.entry ∈ inPlacePdus2 := .tail _ (.tail _ (.tail _ (.tail _ (.tail _ (.tail _ (.head _))))))

theorem DesignatorPdu.known : Sourced.DesignatorPdu.entry ∈ inPlacePdus3 := .head _

theorem StopFreezePdu.known : Sourced.StopFreezePdu.entry ∈ inPlacePdus3 := .tail _ (.head _)

theorem EntityStatePdu.known : Sourced.EntityStatePdu.entry ∈ inPlacePdus3 := .tail _ (.tail _ (.head _))

theorem StartResumePdu.known : Sourced.StartResumePdu.entry ∈ inPlacePdus3 := .tail _ (.tail _ (.tail _ (.head _)))

theorem ElectromagneticEmissionsPdu.known : Sourced.ElectromagneticEmissionsPdu.entry ∈ inPlacePdus3 := .tail _ (.tail _ (.tail _ (.tail _ (.head _))))

theorem ResupplyOfferPdu.known : Sourced.ResupplyOfferPdu.entry ∈ inPlacePdus3 := .tail _ (.tail _ (.tail _ (.tail _ (.tail _ (.head _)))))

theorem PointObjectStatePdu.known : Sourced.PointObjectStatePdu.entry ∈ inPlacePdus3 := .tail _ (.tail _ (.tail _ (.tail _ (.tail _ (.tail _ (.tail _ (.tail _ (.head _))))))))

theorem FastEntityStatePdu.known : Sourced.FastEntityStatePdu.entry ∈ inPlacePdus4 := .head _

theorem AcknowledgeReliablePdu.known : Sourced.AcknowledgeReliablePdu.entry ∈ inPlacePdus4 := .tail _ (.head _)

theorem StartResumeReliablePdu.known : Sourced.StartResumeReliablePdu.entry ∈ inPlacePdus4 := .tail _ (.tail _ (.head _))

theorem ArealObjectStatePdu.known : Sourced.ArealObjectStatePdu.entry ∈ inPlacePdus4 := .tail _ (.tail _ (.tail _ (.head _)))

theorem DataQueryReliablePdu.known : Sourced.DataQueryReliablePdu.entry ∈ inPlacePdus4 := .tail _ (.tail _ (.tail _ (.tail _ (.head _))))

theorem MinefieldStatePdu.known : Sourced.MinefieldStatePdu.entry ∈ inPlacePdus4 := .tail _ (.tail _ (.tail _ (.tail _ (.tail _ (.head _)))))

theorem DetonationPdu.known : Sourced.DetonationPdu.entry ∈ inPlacePdus4 := .tail _ (.tail _ (.tail _ (.tail _ (.tail _ (.tail _ (.tail _ (.tail _ (.tail _ (.head _)))))))))

theorem RecordQueryReliablePdu.known : Sourced.RecordQueryReliablePdu.entry ∈ inPlacePdus4 := .tail _ (.tail _ (.tail _ (.tail _ (.tail _ (.tail _ (.tail _ (.tail _ (.tail _ (.tail _ (.tail _ (.head _)))))))))))

theorem FirePdu.known : Sourced.FirePdu.entry ∈ inPlacePdus5 := .head _

theorem ReceiverPdu.known : Sourced.ReceiverPdu.entry ∈ inPlacePdus5 := .tail _ (.head _)

theorem UaPdu.known : Sourced.UaPdu.entry ∈ inPlacePdus5 := .tail _ (.tail _ (.head _))

theorem SignalPdu.known : Sourced.SignalPdu.entry ∈ inPlacePdus5 := .tail _ (.tail _ (.tail _ (.head _)))

theorem RemoveEntityReliablePdu.known : Sourced.RemoveEntityReliablePdu.entry ∈ inPlacePdus5 := .tail _ (.tail _ (.tail _ (.tail _ (.head _))))

theorem SeesPdu.known : Sourced.SeesPdu.entry ∈ inPlacePdus5 := .tail _ (.tail _ (.tail _ (.tail _ (.tail _ (.head _)))))

theorem CreateEntityReliablePdu.known : Sourced.CreateEntityReliablePdu.entry ∈ inPlacePdus5 := .tail _ (.tail _ (.tail _ (.tail _ (.tail _ (.tail _ (.head _))))))

theorem StopFreezeReliablePdu.known : Sourced.StopFreezeReliablePdu.entry ∈ inPlacePdus5 := .tail _ (.tail _ (.tail _ (.tail _ (.tail _ (.tail _ (.tail _ (.head _)))))))

theorem MinefieldResponseNackPdu.known : Sourced.MinefieldResponseNackPdu.entry ∈ inPlacePdus5 := .tail _ (.tail _ (.tail _ (.tail _ (.tail _ (.tail _ (.tail _ (.tail _ (.tail _ (.head _)))))))))

theorem IsPartOfPdu.known : Sourced.IsPartOfPdu.entry ∈ inPlacePdus5 := .tail _ (.tail _ (.tail _ (.tail _ (.tail _ (.tail _ (.tail _ (.tail _ (.tail _ (.tail _ (.tail _ (.head _)))))))))))

theorem sourced4_lawful : ∀ e ∈ sourced4, e.Lawful := by
  unfold sourced4
  refine List.forall_mem_cons.2 ⟨AcknowledgePdu.lawful, ?_⟩
  refine List.forall_mem_cons.2 ⟨DesignatorPdu.lawful, ?_⟩
  refine List.forall_mem_cons.2 ⟨StopFreezePdu.lawful, ?_⟩
  refine List.forall_mem_cons.2 ⟨EntityStatePdu.lawful, ?_⟩
  refine List.forall_mem_cons.2 ⟨StartResumePdu.lawful, ?_⟩
  refine List.forall_mem_cons.2 ⟨ElectromagneticEmissionsPdu.lawful, ?_⟩
  refine List.forall_mem_cons.2 ⟨ResupplyOfferPdu.lawful, ?_⟩
  refine List.forall_mem_cons.2 ⟨PointObjectStatePdu.lawful, ?_⟩
  refine List.forall_mem_cons.2 ⟨FastEntityStatePdu.lawful, ?_⟩
  refine List.forall_mem_cons.2 ⟨AcknowledgeReliablePdu.lawful, ?_⟩
  refine List.forall_mem_cons.2 ⟨StartResumeReliablePdu.lawful, ?_⟩
  refine List.forall_mem_cons.2 ⟨ArealObjectStatePdu.lawful, ?_⟩
  refine List.forall_mem_cons.2 ⟨DataQueryReliablePdu.lawful, ?_⟩
  refine List.forall_mem_cons.2 ⟨MinefieldStatePdu.lawful, ?_⟩
  refine List.forall_mem_cons.2 ⟨DetonationPdu.lawful, ?_⟩
  refine List.forall_mem_cons.2 ⟨RecordQueryReliablePdu.lawful, ?_⟩
  refine List.forall_mem_cons.2 ⟨FirePdu.lawful, ?_⟩
  refine List.forall_mem_cons.2 ⟨ReceiverPdu.lawful, ?_⟩
  refine List.forall_mem_cons.2 ⟨UaPdu.lawful, ?_⟩
  refine List.forall_mem_cons.2 ⟨SignalPdu.lawful, ?_⟩
  refine List.forall_mem_cons.2 ⟨RemoveEntityReliablePdu.lawful, ?_⟩
  refine List.forall_mem_cons.2 ⟨SeesPdu.lawful, ?_⟩
  refine List.forall_mem_cons.2 ⟨CreateEntityReliablePdu.lawful, ?_⟩
  refine List.forall_mem_cons.2 ⟨StopFreezeReliablePdu.lawful, ?_⟩
  refine List.forall_mem_cons.2 ⟨MinefieldResponseNackPdu.lawful, ?_⟩
  refine List.forall_mem_cons.2 ⟨IsPartOfPdu.lawful, ?_⟩
  exact fun e h => nomatch h

theorem sourced4_known : ∀ e ∈ sourced4, e.entry ∈ inPlace := by
  unfold sourced4 inPlace
  refine List.forall_mem_cons.2 ⟨by simp only [List.mem_append, AcknowledgePdu.known, true_or, or_true], ?_⟩
  refine List.forall_mem_cons.2 ⟨by simp only [List.mem_append, DesignatorPdu.known, true_or, or_true], ?_⟩
  refine List.forall_mem_cons.2 ⟨by simp only [List.mem_append, StopFreezePdu.known, true_or, or_true], ?_⟩
  refine List.forall_mem_cons.2 ⟨by simp only [List.mem_append, EntityStatePdu.known, true_or, or_true], ?_⟩
  refine List.forall_mem_cons.2 ⟨by simp only [List.mem_append, StartResumePdu.known, true_or, or_true], ?_⟩
  refine List.forall_mem_cons.2 ⟨by simp only [List.mem_append, ElectromagneticEmissionsPdu.known, true_or, or_true], ?_⟩
  refine List.forall_mem_cons.2 ⟨by simp only [List.mem_append, ResupplyOfferPdu.known, true_or, or_true], ?_⟩
  refine List.forall_mem_cons.2 ⟨by simp only [List.mem_append, PointObjectStatePdu.known, true_or, or_true], ?_⟩
  refine List.forall_mem_cons.2 ⟨by simp only [List.mem_append, FastEntityStatePdu.known, true_or, or_true], ?_⟩
  refine List.forall_mem_cons.2 ⟨by simp only [List.mem_append, AcknowledgeReliablePdu.known, true_or, or_true], ?_⟩
  refine List.forall_mem_cons.2 ⟨by simp only [List.mem_append, StartResumeReliablePdu.known, true_or, or_true], ?_⟩
  refine List.forall_mem_cons.2 ⟨by simp only [List.mem_append, ArealObjectStatePdu.known, true_or, or_true], ?_⟩
  refine List.forall_mem_cons.2 ⟨by simp only [List.mem_append, DataQueryReliablePdu.known, true_or, or_true], ?_⟩
  refine List.forall_mem_cons.2 ⟨by simp only [List.mem_append, MinefieldStatePdu.known, true_or, or_true], ?_⟩
  refine List.forall_mem_cons.2 ⟨by simp only [List.mem_append, DetonationPdu.known, true_or, or_true], ?_⟩
  refine List.forall_mem_cons.2 ⟨by simp only [List.mem_append, RecordQueryReliablePdu.known, true_or, or_true], ?_⟩
  refine List.forall_mem_cons.2 ⟨by simp only [List.mem_append, FirePdu.known, true_or, or_true], ?_⟩
  refine List.forall_mem_cons.2 ⟨by simp only [List.mem_append, ReceiverPdu.known, true_or, or_true], ?_⟩
  refine List.forall_mem_cons.2 ⟨by simp only [List.mem_append, UaPdu.known, true_or, or_true], ?_⟩
  refine List.forall_mem_cons.2 ⟨by simp only [List.mem_append, SignalPdu.known, true_or, or_true], ?_⟩
  refine List.forall_mem_cons.2 ⟨by simp only [List.mem_append, RemoveEntityReliablePdu.known, true_or, or_true], ?_⟩
  refine List.forall_mem_cons.2 ⟨by simp only [List.mem_append, SeesPdu.known, true_or, or_true], ?_⟩
  refine List.forall_mem_cons.2 ⟨by simp only [List.mem_append, CreateEntityReliablePdu.known, true_or, or_true], ?_⟩
  refine List.forall_mem_cons.2 ⟨by simp only [List.mem_append, StopFreezeReliablePdu.known, true_or, or_true], ?_⟩
  refine List.forall_mem_cons.2 ⟨by simp only [List.mem_append, MinefieldResponseNackPdu.known, true_or, or_true], ?_⟩
  refine List.forall_mem_cons.2 ⟨by simp only [List.mem_append, IsPartOfPdu.known, true_or, or_true], ?_⟩
  exact fun e h => nomatch h

end Dis.Src
