import Verif.Props.Factory
import Verif.Proof.Sending

/-!
# C48: what is passed to a record constructor arrives at the receiver

Generated by `tools/genctor.py`.
-/

namespace Dis


/-- **C48.** What is passed to `SimulationAddress(...)`, /repo/opendis/record/common.py:122-128,
is what the receiver gets. -/
theorem C48_SimulationAddress (site application : Int)
    (hc : (SimulationAddress.init site application).Canon)
    (b post : Bytes)
    (hb : (SimulationAddress.init site application).serialize.Emits b) :
    ∃ q : SimulationAddress, (SimulationAddress.parse SimulationAddress.init).Returns (b ++ post) q ∧
     q.site = site ∧ q.application = application :=
  ⟨_, returns_of_rt (SimulationAddress.rt _ _) (SimulationAddress.after_canon hc) hb post,
    rfl, rfl⟩

example : let p := SimulationAddress.init 2 1;
    p.serialize.res = .ok () ∧ (SimulationAddress.parse SimulationAddress.init ⟨p.serialize.out ++ [9], 0⟩).1 = .ok p := by decide +kernel

/-- **C48.** What is passed to `EntityIdentifier(...)`, /repo/opendis/record/common.py:39-43,
is what the receiver gets. -/
theorem C48_EntityIdentifier (simulationAddress : Option SimulationAddress) (entityNumber : Int)
    (hc : (EntityIdentifier.init simulationAddress entityNumber).Canon)
    (b post : Bytes)
    (hb : (EntityIdentifier.init simulationAddress entityNumber).serialize.Emits b) :
    ∃ q : EntityIdentifier, (EntityIdentifier.parse EntityIdentifier.init).Returns (b ++ post) q ∧
     q.simulationAddress = simulationAddress.getD SimulationAddress.init ∧
      q.entityNumber = entityNumber :=
  ⟨_, returns_of_rt (EntityIdentifier.rt _ _) (EntityIdentifier.after_canon hc) hb post,
    rfl, rfl⟩

example : let p := EntityIdentifier.init (some (SimulationAddress.init 2 1)) 1;
    p.serialize.res = .ok () ∧ (EntityIdentifier.parse EntityIdentifier.init ⟨p.serialize.out ++ [9], 0⟩).1 = .ok p := by decide +kernel

/-- **C48.** What is passed to `EulerAngles(...)`, /repo/opendis/record/common.py:66-72,
is what the receiver gets. -/
theorem C48_EulerAngles (psi theta phi : F64)
    (hc : (EulerAngles.init psi theta phi).Canon)
    (b post : Bytes)
    (hb : (EulerAngles.init psi theta phi).serialize.Emits b) :
    ∃ q : EulerAngles, (EulerAngles.parse EulerAngles.init).Returns (b ++ post) q ∧
     q.psi = psi ∧ q.theta = theta ∧ q.phi = phi :=
  ⟨_, returns_of_rt (EulerAngles.rt _ _) (EulerAngles.after_canon hc) hb post,
    rfl, rfl, rfl⟩

example : let p := EulerAngles.init 0x3FF8000000000000 0x3FF8000000000000 0x3FF8000000000000;
    p.serialize.res = .ok () ∧ (EulerAngles.parse EulerAngles.init ⟨p.serialize.out ++ [9], 0⟩).1 = .ok p := by decide +kernel

/-- **C48.** What is passed to `EventIdentifier(...)`, /repo/opendis/record/common.py:96-101,
is what the receiver gets. -/
theorem C48_EventIdentifier (simulationAddress : Option SimulationAddress) (eventNumber : Int)
    (hc : (EventIdentifier.init simulationAddress eventNumber).Canon)
    (b post : Bytes)
    (hb : (EventIdentifier.init simulationAddress eventNumber).serialize.Emits b) :
    ∃ q : EventIdentifier, (EventIdentifier.parse EventIdentifier.init).Returns (b ++ post) q ∧
     q.simulationAddress = simulationAddress.getD SimulationAddress.init ∧
      q.eventNumber = eventNumber :=
  ⟨_, returns_of_rt (EventIdentifier.rt _ _) (EventIdentifier.after_canon hc) hb post,
    rfl, rfl⟩

example : let p := EventIdentifier.init (some (SimulationAddress.init 2 1)) 1;
    p.serialize.res = .ok () ∧ (EventIdentifier.parse EventIdentifier.init ⟨p.serialize.out ++ [9], 0⟩).1 = .ok p := by decide +kernel

/-- **C48.** What is passed to `Vector3Float(...)`, /repo/opendis/record/common.py:152-155,
is what the receiver gets. -/
theorem C48_Vector3Float (x y z : F64)
    (hc : (Vector3Float.init x y z).Canon)
    (b post : Bytes)
    (hb : (Vector3Float.init x y z).serialize.Emits b) :
    ∃ q : Vector3Float, (Vector3Float.parse Vector3Float.init).Returns (b ++ post) q ∧
     q.x = x ∧ q.y = y ∧ q.z = z :=
  ⟨_, returns_of_rt (Vector3Float.rt _ _) (Vector3Float.after_canon hc) hb post,
    rfl, rfl, rfl⟩

example : let p := Vector3Float.init 0x3FF8000000000000 0x3FF8000000000000 0x3FF8000000000000;
    p.serialize.res = .ok () ∧ (Vector3Float.parse Vector3Float.init ⟨p.serialize.out ++ [9], 0⟩).1 = .ok p := by decide +kernel

/-- **C48.** What is passed to `WorldCoordinates(...)`, /repo/opendis/record/common.py:180-183,
is what the receiver gets. -/
theorem C48_WorldCoordinates (x y z : F64)
    (hc : (WorldCoordinates.init x y z).Canon)
    (b post : Bytes)
    (hb : (WorldCoordinates.init x y z).serialize.Emits b) :
    ∃ q : WorldCoordinates, (WorldCoordinates.parse WorldCoordinates.init).Returns (b ++ post) q ∧
     q.x = x ∧ q.y = y ∧ q.z = z :=
  ⟨_, returns_of_rt (WorldCoordinates.rt _ _) (WorldCoordinates.after_canon hc) hb post,
    rfl, rfl, rfl⟩

example : let p := WorldCoordinates.init 0x3FF8000000000000 0x3FF8000000000000 0x3FF8000000000000;
    p.serialize.res = .ok () ∧ (WorldCoordinates.parse WorldCoordinates.init ⟨p.serialize.out ++ [9], 0⟩).1 = .ok p := by decide +kernel

/-- **C48.** What is passed to `DataQueryDatumSpecification(...)`, /repo/opendis/dis7.py:77-83,
is what the receiver gets. -/
theorem C48_DataQueryDatumSpecification (fixedDatumIDs variableDatumIDs : List Int)
    (hc : (DataQueryDatumSpecification.init fixedDatumIDs variableDatumIDs).Canon)
    (b post : Bytes)
    (hb : (DataQueryDatumSpecification.init fixedDatumIDs variableDatumIDs).serialize.Emits b) :
    ∃ q : DataQueryDatumSpecification, (DataQueryDatumSpecification.parse DataQueryDatumSpecification.init).Returns (b ++ post) q ∧
     q.fixedDatumIDs = fixedDatumIDs ∧ q.variableDatumIDs = variableDatumIDs :=
  ⟨_, returns_of_rt (DataQueryDatumSpecification.rt _ _) (DataQueryDatumSpecification.after_canon hc) hb post,
    rfl, rfl⟩

example : let p := DataQueryDatumSpecification.init [1, 2] [1, 2];
    p.serialize.res = .ok () ∧ (DataQueryDatumSpecification.parse DataQueryDatumSpecification.init ⟨p.serialize.out ++ [9], 0⟩).1 = .ok p := by decide +kernel

/-- **C48.** What is passed to `RadioIdentifier(...)`, /repo/opendis/dis7.py:122-130,
is what the receiver gets. -/
theorem C48_RadioIdentifier (siteNumber applicationNumber referenceNumber radioNumber : Int)
    (hc : (RadioIdentifier.init siteNumber applicationNumber referenceNumber radioNumber).Canon)
    (b post : Bytes)
    (hb : (RadioIdentifier.init siteNumber applicationNumber referenceNumber radioNumber).serialize.Emits b) :
    ∃ q : RadioIdentifier, (RadioIdentifier.parse RadioIdentifier.init).Returns (b ++ post) q ∧
     q.siteNumber = siteNumber ∧ q.applicationNumber = applicationNumber ∧
      q.referenceNumber = referenceNumber ∧ q.radioNumber = radioNumber :=
  ⟨_, returns_of_rt (RadioIdentifier.rt _ _) (RadioIdentifier.after_canon hc) hb post,
    rfl, rfl, rfl, rfl⟩

example : let p := RadioIdentifier.init 2 1 2 1;
    p.serialize.res = .ok () ∧ (RadioIdentifier.parse RadioIdentifier.init ⟨p.serialize.out ++ [9], 0⟩).1 = .ok p := by decide +kernel

/-- **C48.** What is passed to `RequestID(...)`, /repo/opendis/dis7.py:154-156,
is what the receiver gets. -/
theorem C48_RequestID (requestID : Int)
    (hc : (RequestID.init requestID).Canon)
    (b post : Bytes)
    (hb : (RequestID.init requestID).serialize.Emits b) :
    ∃ q : RequestID, (RequestID.parse RequestID.init).Returns (b ++ post) q ∧
     q.requestID = requestID :=
  ⟨_, returns_of_rt (RequestID.rt _ _) (RequestID.after_canon hc) hb post,
    rfl⟩

example : let p := RequestID.init 2;
    p.serialize.res = .ok () ∧ (RequestID.parse RequestID.init ⟨p.serialize.out ++ [9], 0⟩).1 = .ok p := by decide +kernel

/-- **C48.** What is passed to `IFFData(...)`, /repo/opendis/dis7.py:173-182,
is what the receiver gets. -/
theorem C48_IFFData (recordType recordLength : Int) (iffData : List Int)
    (hd : (IFFData.init recordType recordLength iffData).Decodable)
    (hc : (IFFData.init recordType recordLength iffData).Canon)
    (b post : Bytes)
    (hb : (IFFData.init recordType recordLength iffData).serialize.Emits b) :
    ∃ q : IFFData, (IFFData.parse IFFData.init).Returns (b ++ post) q ∧
     q.recordType = recordType ∧ q.recordLength = recordLength ∧ q.iffData = iffData :=
  ⟨_, returns_of_rt (IFFData.rt _ _ hd) (IFFData.after_canon hc) hb post,
    rfl, rfl, rfl⟩

example : let p := IFFData.init 2 0 [];
    p.serialize.res = .ok () ∧ (IFFData.parse IFFData.init ⟨p.serialize.out ++ [9], 0⟩).1 = .ok p := by decide +kernel

/-- **C48.** What is passed to `EntityType(...)`, /repo/opendis/dis7.py:2503-2520,
is what the receiver gets. -/
theorem C48_EntityType (entityKind domain country category subcategory specific extra : Int)
    (hc : (EntityType.init entityKind domain country category subcategory specific extra).Canon)
    (b post : Bytes)
    (hb : (EntityType.init entityKind domain country category subcategory specific extra).serialize.Emits b) :
    ∃ q : EntityType, (EntityType.parse EntityType.init).Returns (b ++ post) q ∧
     q.entityKind = entityKind ∧ q.domain = domain ∧ q.country = country ∧ q.category = category ∧
      q.subcategory = subcategory ∧ q.specific = specific ∧ q.extra = extra :=
  ⟨_, returns_of_rt (EntityType.rt _ _) (EntityType.after_canon hc) hb post,
    rfl, rfl, rfl, rfl, rfl, rfl, rfl⟩

example : let p := EntityType.init 2 1 2 1 2 1 2;
    p.serialize.res = .ok () ∧ (EntityType.parse EntityType.init ⟨p.serialize.out ++ [9], 0⟩).1 = .ok p := by decide +kernel

/-- **C48.** What is passed to `MunitionDescriptor(...)`, /repo/opendis/dis7.py:210-227,
is what the receiver gets. -/
theorem C48_MunitionDescriptor (munitionType : Option EntityType)
    (warhead fuse quantity rate : Int)
    (hc : (MunitionDescriptor.init munitionType warhead fuse quantity rate).Canon)
    (b post : Bytes)
    (hb : (MunitionDescriptor.init munitionType warhead fuse quantity rate).serialize.Emits b) :
    ∃ q : MunitionDescriptor, (MunitionDescriptor.parse MunitionDescriptor.init).Returns (b ++ post) q ∧
     q.munitionType = munitionType.getD EntityType.init ∧ q.warhead = warhead ∧ q.fuse = fuse ∧
      q.quantity = quantity ∧ q.rate = rate :=
  ⟨_, returns_of_rt (MunitionDescriptor.rt _ _) (MunitionDescriptor.after_canon hc) hb post,
    rfl, rfl, rfl, rfl, rfl⟩

example : let p := MunitionDescriptor.init (some (EntityType.init 2 1 2 1 2 1 2)) 1 2 1 2;
    p.serialize.res = .ok () ∧ (MunitionDescriptor.parse MunitionDescriptor.init ⟨p.serialize.out ++ [9], 0⟩).1 = .ok p := by decide +kernel

/-- **C48.** What is passed to `MinefieldSensorType(...)`, /repo/opendis/dis7.py:252-254,
is what the receiver gets. -/
theorem C48_MinefieldSensorType (sensorType : Int)
    (hc : (MinefieldSensorType.init sensorType).Canon)
    (b post : Bytes)
    (hb : (MinefieldSensorType.init sensorType).serialize.Emits b) :
    ∃ q : MinefieldSensorType, (MinefieldSensorType.parse MinefieldSensorType.init).Returns (b ++ post) q ∧
     q.sensorType = sensorType :=
  ⟨_, returns_of_rt (MinefieldSensorType.rt _ _) (MinefieldSensorType.after_canon hc) hb post,
    rfl⟩

example : let p := MinefieldSensorType.init 2;
    p.serialize.res = .ok () ∧ (MinefieldSensorType.parse MinefieldSensorType.init ⟨p.serialize.out ++ [9], 0⟩).1 = .ok p := by decide +kernel

/-- **C48.** What is passed to `GroupID(...)`, /repo/opendis/dis7.py:273-279,
is what the receiver gets. -/
theorem C48_GroupID (simulationAddress : Option SimulationAddress) (groupNumber : Int)
    (hc : (GroupID.init simulationAddress groupNumber).Canon)
    (b post : Bytes)
    (hb : (GroupID.init simulationAddress groupNumber).serialize.Emits b) :
    ∃ q : GroupID, (GroupID.parse GroupID.init).Returns (b ++ post) q ∧
     q.simulationAddress = simulationAddress.getD SimulationAddress.init ∧
      q.groupNumber = groupNumber :=
  ⟨_, returns_of_rt (GroupID.rt _ _) (GroupID.after_canon hc) hb post,
    rfl, rfl⟩

example : let p := GroupID.init (some (SimulationAddress.init 2 1)) 1;
    p.serialize.res = .ok () ∧ (GroupID.parse GroupID.init ⟨p.serialize.out ++ [9], 0⟩).1 = .ok p := by decide +kernel

/-- **C48.** What is passed to `LayerHeader(...)`, /repo/opendis/dis7.py:299-307,
is what the receiver gets. -/
theorem C48_LayerHeader (layerNumber layerSpecificInformation length : Int)
    (hc : (LayerHeader.init layerNumber layerSpecificInformation length).Canon)
    (b post : Bytes)
    (hb : (LayerHeader.init layerNumber layerSpecificInformation length).serialize.Emits b) :
    ∃ q : LayerHeader, (LayerHeader.parse LayerHeader.init).Returns (b ++ post) q ∧
     q.layerNumber = layerNumber ∧ q.layerSpecificInformation = layerSpecificInformation ∧
      q.length = length :=
  ⟨_, returns_of_rt (LayerHeader.rt _ _) (LayerHeader.after_canon hc) hb post,
    rfl, rfl, rfl⟩

example : let p := LayerHeader.init 2 1 2;
    p.serialize.res = .ok () ∧ (LayerHeader.parse LayerHeader.init ⟨p.serialize.out ++ [9], 0⟩).1 = .ok p := by decide +kernel

/-- **C48.** What is passed to `UnsignedDISInteger(...)`, /repo/opendis/dis7.py:325-327,
is what the receiver gets. -/
theorem C48_UnsignedDISInteger (val : Int)
    (hc : (UnsignedDISInteger.init val).Canon)
    (b post : Bytes)
    (hb : (UnsignedDISInteger.init val).serialize.Emits b) :
    ∃ q : UnsignedDISInteger, (UnsignedDISInteger.parse UnsignedDISInteger.init).Returns (b ++ post) q ∧
     q.val = val :=
  ⟨_, returns_of_rt (UnsignedDISInteger.rt _ _) (UnsignedDISInteger.after_canon hc) hb post,
    rfl⟩

example : let p := UnsignedDISInteger.init 2;
    p.serialize.res = .ok () ∧ (UnsignedDISInteger.parse UnsignedDISInteger.init ⟨p.serialize.out ++ [9], 0⟩).1 = .ok p := by decide +kernel

/-- **C48.** What is passed to `DeadReckoningParameters(...)`, /repo/opendis/dis7.py:341-354,
is what the receiver gets. -/
theorem C48_DeadReckoningParameters (deadReckoningAlgorithm : Int) (parameters : List Int)
    (entityLinearAcceleration entityAngularVelocity : Option Vector3Float)
    (hc : (DeadReckoningParameters.init deadReckoningAlgorithm parameters entityLinearAcceleration entityAngularVelocity).Canon)
    (b post : Bytes)
    (hb : (DeadReckoningParameters.init deadReckoningAlgorithm parameters entityLinearAcceleration entityAngularVelocity).serialize.Emits b) :
    ∃ q : DeadReckoningParameters, (DeadReckoningParameters.parse DeadReckoningParameters.init).Returns (b ++ post) q ∧
     q.deadReckoningAlgorithm = deadReckoningAlgorithm ∧
      q.parameters = (if parameters.isEmpty then List.replicate 15 0 else parameters) ∧
      q.entityLinearAcceleration = entityLinearAcceleration.getD Vector3Float.init ∧
      q.entityAngularVelocity = entityAngularVelocity.getD Vector3Float.init :=
  ⟨_, returns_of_rt (DeadReckoningParameters.rt _ _) (DeadReckoningParameters.after_canon hc) hb post,
    rfl, rfl, rfl, rfl⟩

example : let p := DeadReckoningParameters.init 2 [1, 2, 3, 4, 5, 6, 7, 8, 9, 10, 11, 12, 13, 14, 15] (some (Vector3Float.init 0x3FF8000000000000 0x3FF8000000000000 0x3FF8000000000000)) (some (Vector3Float.init 0x3FF8000000000000 0x3FF8000000000000 0x3FF8000000000000));
    p.serialize.res = .ok () ∧ (DeadReckoningParameters.parse DeadReckoningParameters.init ⟨p.serialize.out ++ [9], 0⟩).1 = .ok p := by decide +kernel

/-- **C48.** What is passed to `ProtocolMode(...)`, /repo/opendis/dis7.py:384-386,
is what the receiver gets. -/
theorem C48_ProtocolMode (protocolMode : Int)
    (hc : (ProtocolMode.init protocolMode).Canon)
    (b post : Bytes)
    (hb : (ProtocolMode.init protocolMode).serialize.Emits b) :
    ∃ q : ProtocolMode, (ProtocolMode.parse ProtocolMode.init).Returns (b ++ post) q ∧
     q.protocolMode = protocolMode :=
  ⟨_, returns_of_rt (ProtocolMode.rt _ _) (ProtocolMode.after_canon hc) hb post,
    rfl⟩

example : let p := ProtocolMode.init 2;
    p.serialize.res = .ok () ∧ (ProtocolMode.parse ProtocolMode.init ⟨p.serialize.out ++ [9], 0⟩).1 = .ok p := by decide +kernel

/-- **C48.** What is passed to `AngleDeception(...)`, /repo/opendis/dis7.py:409-434,
is what the receiver gets. -/
theorem C48_AngleDeception (emitterNumber beamNumber stateIndicator : Int)
    (azimuthOffset azimuthWidth azimuthPullRate azimuthPullAcceleration elevationOffset elevationWidth elevationPullRate elevationPullAcceleration : F64)
    (hc : (AngleDeception.init emitterNumber beamNumber stateIndicator azimuthOffset azimuthWidth azimuthPullRate azimuthPullAcceleration elevationOffset elevationWidth elevationPullRate elevationPullAcceleration).Canon)
    (b post : Bytes)
    (hb : (AngleDeception.init emitterNumber beamNumber stateIndicator azimuthOffset azimuthWidth azimuthPullRate azimuthPullAcceleration elevationOffset elevationWidth elevationPullRate elevationPullAcceleration).serialize.Emits b) :
    ∃ q : AngleDeception, (AngleDeception.parse AngleDeception.init).Returns (b ++ post) q ∧
     q.emitterNumber = emitterNumber ∧ q.beamNumber = beamNumber ∧
      q.stateIndicator = stateIndicator ∧ q.azimuthOffset = azimuthOffset ∧
      q.azimuthWidth = azimuthWidth ∧ q.azimuthPullRate = azimuthPullRate ∧
      q.azimuthPullAcceleration = azimuthPullAcceleration ∧ q.elevationOffset = elevationOffset ∧
      q.elevationWidth = elevationWidth ∧ q.elevationPullRate = elevationPullRate ∧
      q.elevationPullAcceleration = elevationPullAcceleration :=
  ⟨_, returns_of_rt (AngleDeception.rt _ _) (AngleDeception.after_canon hc) hb post,
    rfl, rfl, rfl, rfl, rfl, rfl, rfl, rfl, rfl, rfl, rfl⟩

example : let p := AngleDeception.init 2 1 2 0x3FF8000000000000 0x3FF8000000000000 0x3FF8000000000000 0x3FF8000000000000 0x3FF8000000000000 0x3FF8000000000000 0x3FF8000000000000 0x3FF8000000000000;
    p.serialize.res = .ok () ∧ (AngleDeception.parse AngleDeception.init ⟨p.serialize.out ++ [9], 0⟩).1 = .ok p := by decide +kernel

/-- **C48.** What is passed to `EntityAssociation(...)`, /repo/opendis/dis7.py:482-506,
is what the receiver gets. -/
theorem C48_EntityAssociation (changeIndicator associationStatus associationType : Int)
    (entityID : Option EntityIdentifier)
    (ownStationLocation physicalConnectionType groupMemberType groupNumber : Int)
    (hc : (EntityAssociation.init changeIndicator associationStatus associationType entityID ownStationLocation physicalConnectionType groupMemberType groupNumber).Canon)
    (b post : Bytes)
    (hb : (EntityAssociation.init changeIndicator associationStatus associationType entityID ownStationLocation physicalConnectionType groupMemberType groupNumber).serialize.Emits b) :
    ∃ q : EntityAssociation, (EntityAssociation.parse EntityAssociation.init).Returns (b ++ post) q ∧
     q.changeIndicator = changeIndicator ∧ q.associationStatus = associationStatus ∧
      q.associationType = associationType ∧ q.entityID = entityID.getD EntityIdentifier.init ∧
      q.ownStationLocation = ownStationLocation ∧
      q.physicalConnectionType = physicalConnectionType ∧ q.groupMemberType = groupMemberType ∧
      q.groupNumber = groupNumber :=
  ⟨_, returns_of_rt (EntityAssociation.rt _ _) (EntityAssociation.after_canon hc) hb post,
    rfl, rfl, rfl, rfl, rfl, rfl, rfl, rfl⟩

example : let p := EntityAssociation.init 2 1 2 (some (EntityIdentifier.init (some (SimulationAddress.init 2 1)) 1)) 2 1 2 1;
    p.serialize.res = .ok () ∧ (EntityAssociation.parse EntityAssociation.init ⟨p.serialize.out ++ [9], 0⟩).1 = .ok p := by decide +kernel

/-- **C48.** What is passed to `VectoringNozzleSystem(...)`, /repo/opendis/dis7.py:539-543,
is what the receiver gets. -/
theorem C48_VectoringNozzleSystem (horizontalDeflectionAngle verticalDeflectionAngle : F64)
    (hc : (VectoringNozzleSystem.init horizontalDeflectionAngle verticalDeflectionAngle).Canon)
    (b post : Bytes)
    (hb : (VectoringNozzleSystem.init horizontalDeflectionAngle verticalDeflectionAngle).serialize.Emits b) :
    ∃ q : VectoringNozzleSystem, (VectoringNozzleSystem.parse VectoringNozzleSystem.init).Returns (b ++ post) q ∧
     q.horizontalDeflectionAngle = horizontalDeflectionAngle ∧
      q.verticalDeflectionAngle = verticalDeflectionAngle :=
  ⟨_, returns_of_rt (VectoringNozzleSystem.rt _ _) (VectoringNozzleSystem.after_canon hc) hb post,
    rfl, rfl⟩

example : let p := VectoringNozzleSystem.init 0x3FF8000000000000 0x3FF8000000000000;
    p.serialize.res = .ok () ∧ (VectoringNozzleSystem.parse VectoringNozzleSystem.init ⟨p.serialize.out ++ [9], 0⟩).1 = .ok p := by decide +kernel

/-- **C48.** What is passed to `FalseTargetsAttribute(...)`, /repo/opendis/dis7.py:569-589,
is what the receiver gets. -/
theorem C48_FalseTargetsAttribute (emitterNumber beamNumber stateIndicator falseTargetCount : Int)
    (walkSpeed walkAcceleration maximumWalkDistance keepTime echoSpacing : F64)
    (hc : (FalseTargetsAttribute.init emitterNumber beamNumber stateIndicator falseTargetCount walkSpeed walkAcceleration maximumWalkDistance keepTime echoSpacing).Canon)
    (b post : Bytes)
    (hb : (FalseTargetsAttribute.init emitterNumber beamNumber stateIndicator falseTargetCount walkSpeed walkAcceleration maximumWalkDistance keepTime echoSpacing).serialize.Emits b) :
    ∃ q : FalseTargetsAttribute, (FalseTargetsAttribute.parse FalseTargetsAttribute.init).Returns (b ++ post) q ∧
     q.emitterNumber = emitterNumber ∧ q.beamNumber = beamNumber ∧
      q.stateIndicator = stateIndicator ∧ q.falseTargetCount = falseTargetCount ∧
      q.walkSpeed = walkSpeed ∧ q.walkAcceleration = walkAcceleration ∧
      q.maximumWalkDistance = maximumWalkDistance ∧ q.keepTime = keepTime ∧
      q.echoSpacing = echoSpacing :=
  ⟨_, returns_of_rt (FalseTargetsAttribute.rt _ _) (FalseTargetsAttribute.after_canon hc) hb post,
    rfl, rfl, rfl, rfl, rfl, rfl, rfl, rfl, rfl⟩

example : let p := FalseTargetsAttribute.init 2 1 2 1 0x3FF8000000000000 0x3FF8000000000000 0x3FF8000000000000 0x3FF8000000000000 0x3FF8000000000000;
    p.serialize.res = .ok () ∧ (FalseTargetsAttribute.parse FalseTargetsAttribute.init ⟨p.serialize.out ++ [9], 0⟩).1 = .ok p := by decide +kernel

/-- **C48.** What is passed to `MinefieldIdentifier(...)`, /repo/opendis/dis7.py:630-634,
is what the receiver gets. -/
theorem C48_MinefieldIdentifier (simulationAddress : Option SimulationAddress)
    (minefieldNumber : Int)
    (hc : (MinefieldIdentifier.init simulationAddress minefieldNumber).Canon)
    (b post : Bytes)
    (hb : (MinefieldIdentifier.init simulationAddress minefieldNumber).serialize.Emits b) :
    ∃ q : MinefieldIdentifier, (MinefieldIdentifier.parse MinefieldIdentifier.init).Returns (b ++ post) q ∧
     q.simulationAddress = simulationAddress.getD SimulationAddress.init ∧
      q.minefieldNumber = minefieldNumber :=
  ⟨_, returns_of_rt (MinefieldIdentifier.rt _ _) (MinefieldIdentifier.after_canon hc) hb post,
    rfl, rfl⟩

example : let p := MinefieldIdentifier.init (some (SimulationAddress.init 2 1)) 1;
    p.serialize.res = .ok () ∧ (MinefieldIdentifier.parse MinefieldIdentifier.init ⟨p.serialize.out ++ [9], 0⟩).1 = .ok p := by decide +kernel

/-- **C48.** What is passed to `RadioType(...)`, /repo/opendis/dis7.py:654-670,
is what the receiver gets. -/
theorem C48_RadioType (domain country category subcategory specific extra : Int)
    (hc : (RadioType.init domain country category subcategory specific extra).Canon)
    (b post : Bytes)
    (hb : (RadioType.init domain country category subcategory specific extra).serialize.Emits b) :
    ∃ q : RadioType, (RadioType.parse RadioType.init).Returns (b ++ post) q ∧
     q.domain = domain ∧ q.country = country ∧ q.category = category ∧
      q.subcategory = subcategory ∧ q.specific = specific ∧ q.extra = extra :=
  ⟨_, returns_of_rt (RadioType.rt _ _) (RadioType.after_canon hc) hb post,
    rfl, rfl, rfl, rfl, rfl, rfl⟩

example : let p := RadioType.init 2 1 2 1 2 1;
    p.serialize.res = .ok () ∧ (RadioType.parse RadioType.init ⟨p.serialize.out ++ [9], 0⟩).1 = .ok p := by decide +kernel

/-- **C48.** What is passed to `NamedLocationIdentification(...)`, /repo/opendis/dis7.py:700-707,
is what the receiver gets. -/
theorem C48_NamedLocationIdentification (stationName stationNumber : Int)
    (hc : (NamedLocationIdentification.init stationName stationNumber).Canon)
    (b post : Bytes)
    (hb : (NamedLocationIdentification.init stationName stationNumber).serialize.Emits b) :
    ∃ q : NamedLocationIdentification, (NamedLocationIdentification.parse NamedLocationIdentification.init).Returns (b ++ post) q ∧
     q.stationName = stationName ∧ q.stationNumber = stationNumber :=
  ⟨_, returns_of_rt (NamedLocationIdentification.rt _ _) (NamedLocationIdentification.after_canon hc) hb post,
    rfl, rfl⟩

example : let p := NamedLocationIdentification.init 2 1;
    p.serialize.res = .ok () ∧ (NamedLocationIdentification.parse NamedLocationIdentification.init ⟨p.serialize.out ++ [9], 0⟩).1 = .ok p := by decide +kernel

/-- **C48.** What is passed to `IFFDataSpecification(...)`, /repo/opendis/dis7.py:726-727,
is what the receiver gets. -/
theorem C48_IFFDataSpecification (iffDataRecords : List IFFData)
    (hd : (IFFDataSpecification.init iffDataRecords).Decodable)
    (hc : (IFFDataSpecification.init iffDataRecords).Canon)
    (b post : Bytes)
    (hb : (IFFDataSpecification.init iffDataRecords).serialize.Emits b) :
    ∃ q : IFFDataSpecification, (IFFDataSpecification.parse IFFDataSpecification.init).Returns (b ++ post) q ∧
     q.iffDataRecords = iffDataRecords :=
  ⟨_, returns_of_rt (IFFDataSpecification.rt _ _ hd) (IFFDataSpecification.after_canon hc) hb post,
    rfl⟩

example : let p := IFFDataSpecification.init [IFFData.init 2 0 []];
    p.serialize.res = .ok () ∧ (IFFDataSpecification.parse IFFDataSpecification.init ⟨p.serialize.out ++ [9], 0⟩).1 = .ok p := by decide +kernel

/-- **C48.** What is passed to `OwnershipStatus(...)`, /repo/opendis/dis7.py:754-761,
is what the receiver gets. -/
theorem C48_OwnershipStatus (entityId : Option EntityIdentifier) (ownershipStatus : Int)
    (hc : (OwnershipStatus.init entityId ownershipStatus).Canon)
    (b post : Bytes)
    (hb : (OwnershipStatus.init entityId ownershipStatus).serialize.Emits b) :
    ∃ q : OwnershipStatus, (OwnershipStatus.parse OwnershipStatus.init).Returns (b ++ post) q ∧
     q.entityId = entityId.getD EntityIdentifier.init ∧ q.ownershipStatus = ownershipStatus :=
  ⟨_, returns_of_rt (OwnershipStatus.rt _ _) (OwnershipStatus.after_canon hc) hb post,
    rfl, rfl⟩

example : let p := OwnershipStatus.init (some (EntityIdentifier.init (some (SimulationAddress.init 2 1)) 1)) 1;
    p.serialize.res = .ok () ∧ (OwnershipStatus.parse OwnershipStatus.init ⟨p.serialize.out ++ [9], 0⟩).1 = .ok p := by decide +kernel

/-- **C48.** What is passed to `Attribute(...)`, /repo/opendis/dis7.py:821-827,
is what the receiver gets. -/
theorem C48_Attribute (recordType recordLength recordSpecificFields : Int)
    (hc : (Attribute.init recordType recordLength recordSpecificFields).Canon)
    (b post : Bytes)
    (hb : (Attribute.init recordType recordLength recordSpecificFields).serialize.Emits b) :
    ∃ q : Attribute, (Attribute.parse Attribute.init).Returns (b ++ post) q ∧
     q.recordType = recordType ∧ q.recordLength = recordLength ∧
      q.recordSpecificFields = recordSpecificFields :=
  ⟨_, returns_of_rt (Attribute.rt _ _) (Attribute.after_canon hc) hb post,
    rfl, rfl, rfl⟩

example : let p := Attribute.init 2 1 2;
    p.serialize.res = .ok () ∧ (Attribute.parse Attribute.init ⟨p.serialize.out ++ [9], 0⟩).1 = .ok p := by decide +kernel

/-- **C48.** What is passed to `RecordQuerySpecification(...)`, /repo/opendis/dis7.py:848-851,
is what the receiver gets. -/
theorem C48_RecordQuerySpecification (recordIDs : List Int)
    (hc : (RecordQuerySpecification.init recordIDs).Canon)
    (b post : Bytes)
    (hb : (RecordQuerySpecification.init recordIDs).serialize.Emits b) :
    ∃ q : RecordQuerySpecification, (RecordQuerySpecification.parse RecordQuerySpecification.init).Returns (b ++ post) q ∧
     q.recordIDs = recordIDs :=
  ⟨_, returns_of_rt (RecordQuerySpecification.rt _ _) (RecordQuerySpecification.after_canon hc) hb post,
    rfl⟩

example : let p := RecordQuerySpecification.init [1, 2];
    p.serialize.res = .ok () ∧ (RecordQuerySpecification.parse RecordQuerySpecification.init ⟨p.serialize.out ++ [9], 0⟩).1 = .ok p := by decide +kernel

/-- **C48.** What is passed to `ArticulatedParts(...)`, /repo/opendis/dis7.py:879-891,
is what the receiver gets. -/
theorem C48_ArticulatedParts (changeIndicator partAttachedTo parameterType parameterValue : Int)
    (hc : (ArticulatedParts.init changeIndicator partAttachedTo parameterType parameterValue).Canon)
    (b post : Bytes)
    (hb : (ArticulatedParts.init changeIndicator partAttachedTo parameterType parameterValue).serialize.Emits b) :
    ∃ q : ArticulatedParts, (ArticulatedParts.parse ArticulatedParts.init).Returns (b ++ post) q ∧
     q.changeIndicator = changeIndicator ∧ q.partAttachedTo = partAttachedTo ∧
      q.parameterType = parameterType ∧ q.parameterValue = parameterValue :=
  ⟨_, returns_of_rt (ArticulatedParts.rt _ _) (ArticulatedParts.after_canon hc) hb post,
    rfl, rfl, rfl, rfl⟩

example : let p := ArticulatedParts.init 2 1 2 1;
    p.serialize.res = .ok () ∧ (ArticulatedParts.parse ArticulatedParts.init ⟨p.serialize.out ++ [9], 0⟩).1 = .ok p := by decide +kernel

/-- **C48.** What is passed to `ObjectType(...)`, /repo/opendis/dis7.py:916-928,
is what the receiver gets. -/
theorem C48_ObjectType (domain objectKind category subcategory : Int)
    (hc : (ObjectType.init domain objectKind category subcategory).Canon)
    (b post : Bytes)
    (hb : (ObjectType.init domain objectKind category subcategory).serialize.Emits b) :
    ∃ q : ObjectType, (ObjectType.parse ObjectType.init).Returns (b ++ post) q ∧
     q.domain = domain ∧ q.objectKind = objectKind ∧ q.category = category ∧
      q.subcategory = subcategory :=
  ⟨_, returns_of_rt (ObjectType.rt _ _) (ObjectType.after_canon hc) hb post,
    rfl, rfl, rfl, rfl⟩

example : let p := ObjectType.init 2 1 2 1;
    p.serialize.res = .ok () ∧ (ObjectType.parse ObjectType.init ⟨p.serialize.out ++ [9], 0⟩).1 = .ok p := by decide +kernel

/-- **C48.** What is passed to `Association(...)`, /repo/opendis/dis7.py:956-965,
is what the receiver gets. -/
theorem C48_Association (associationType : Int) (associatedEntityID : Option EntityIdentifier)
    (associatedLocation : Option WorldCoordinates)
    (hc : (Association.init associationType associatedEntityID associatedLocation).Canon)
    (b post : Bytes)
    (hb : (Association.init associationType associatedEntityID associatedLocation).serialize.Emits b) :
    ∃ q : Association, (Association.parse Association.init).Returns (b ++ post) q ∧
     q.associationType = associationType ∧
      q.associatedEntityID = associatedEntityID.getD EntityIdentifier.init ∧
      q.associatedLocation = associatedLocation.getD WorldCoordinates.init :=
  ⟨_, returns_of_rt (Association.rt _ _) (Association.after_canon hc) hb post,
    rfl, rfl, rfl⟩

example : let p := Association.init 2 (some (EntityIdentifier.init (some (SimulationAddress.init 2 1)) 1)) (some (WorldCoordinates.init 0x3FF8000000000000 0x3FF8000000000000 0x3FF8000000000000));
    p.serialize.res = .ok () ∧ (Association.parse Association.init ⟨p.serialize.out ++ [9], 0⟩).1 = .ok p := by decide +kernel

/-- **C48.** What is passed to `RecordSpecificationElement(...)`, /repo/opendis/dis7.py:987-1004,
is what the receiver gets. -/
theorem C48_RecordSpecificationElement
    (recordID recordSetSerialNumber recordLength recordCount recordValues : Int)
    (hc : (RecordSpecificationElement.init recordID recordSetSerialNumber recordLength recordCount recordValues).Canon)
    (b post : Bytes)
    (hb : (RecordSpecificationElement.init recordID recordSetSerialNumber recordLength recordCount recordValues).serialize.Emits b) :
    ∃ q : RecordSpecificationElement, (RecordSpecificationElement.parse RecordSpecificationElement.init).Returns (b ++ post) q ∧
     q.recordID = recordID ∧ q.recordSetSerialNumber = recordSetSerialNumber ∧
      q.recordLength = recordLength ∧ q.recordCount = recordCount ∧
      q.recordValues = recordValues :=
  ⟨_, returns_of_rt (RecordSpecificationElement.rt _ _) (RecordSpecificationElement.after_canon hc) hb post,
    rfl, rfl, rfl, rfl, rfl⟩

example : let p := RecordSpecificationElement.init 2 1 2 1 2;
    p.serialize.res = .ok () ∧ (RecordSpecificationElement.parse RecordSpecificationElement.init ⟨p.serialize.out ++ [9], 0⟩).1 = .ok p := by decide +kernel

/-- **C48.** What is passed to `AntennaLocation(...)`, /repo/opendis/dis7.py:1031-1038,
is what the receiver gets. -/
theorem C48_AntennaLocation (antennaLocation : Option WorldCoordinates)
    (relativeAntennaLocation : Option Vector3Float)
    (hc : (AntennaLocation.init antennaLocation relativeAntennaLocation).Canon)
    (b post : Bytes)
    (hb : (AntennaLocation.init antennaLocation relativeAntennaLocation).serialize.Emits b) :
    ∃ q : AntennaLocation, (AntennaLocation.parse AntennaLocation.init).Returns (b ++ post) q ∧
     q.antennaLocation = antennaLocation.getD WorldCoordinates.init ∧
      q.relativeAntennaLocation = relativeAntennaLocation.getD Vector3Float.init :=
  ⟨_, returns_of_rt (AntennaLocation.rt _ _) (AntennaLocation.after_canon hc) hb post,
    rfl, rfl⟩

example : let p := AntennaLocation.init (some (WorldCoordinates.init 0x3FF8000000000000 0x3FF8000000000000 0x3FF8000000000000)) (some (Vector3Float.init 0x3FF8000000000000 0x3FF8000000000000 0x3FF8000000000000));
    p.serialize.res = .ok () ∧ (AntennaLocation.parse AntennaLocation.init ⟨p.serialize.out ++ [9], 0⟩).1 = .ok p := by decide +kernel

/-- **C48.** What is passed to `ObjectIdentifier(...)`, /repo/opendis/dis7.py:1057-1063,
is what the receiver gets. -/
theorem C48_ObjectIdentifier (simulationAddress : Option SimulationAddress) (objectNumber : Int)
    (hc : (ObjectIdentifier.init simulationAddress objectNumber).Canon)
    (b post : Bytes)
    (hb : (ObjectIdentifier.init simulationAddress objectNumber).serialize.Emits b) :
    ∃ q : ObjectIdentifier, (ObjectIdentifier.parse ObjectIdentifier.init).Returns (b ++ post) q ∧
     q.simulationAddress = simulationAddress.getD SimulationAddress.init ∧
      q.objectNumber = objectNumber :=
  ⟨_, returns_of_rt (ObjectIdentifier.rt _ _) (ObjectIdentifier.after_canon hc) hb post,
    rfl, rfl⟩

example : let p := ObjectIdentifier.init (some (SimulationAddress.init 2 1)) 1;
    p.serialize.res = .ok () ∧ (ObjectIdentifier.parse ObjectIdentifier.init ⟨p.serialize.out ++ [9], 0⟩).1 = .ok p := by decide +kernel

/-- **C48.** What is passed to `AggregateIdentifier(...)`, /repo/opendis/dis7.py:1082-1087,
is what the receiver gets. -/
theorem C48_AggregateIdentifier (simulationAddress : Option SimulationAddress) (aggregateID : Int)
    (hc : (AggregateIdentifier.init simulationAddress aggregateID).Canon)
    (b post : Bytes)
    (hb : (AggregateIdentifier.init simulationAddress aggregateID).serialize.Emits b) :
    ∃ q : AggregateIdentifier, (AggregateIdentifier.parse AggregateIdentifier.init).Returns (b ++ post) q ∧
     q.simulationAddress = simulationAddress.getD SimulationAddress.init ∧
      q.aggregateID = aggregateID :=
  ⟨_, returns_of_rt (AggregateIdentifier.rt _ _) (AggregateIdentifier.after_canon hc) hb post,
    rfl, rfl⟩

example : let p := AggregateIdentifier.init (some (SimulationAddress.init 2 1)) 1;
    p.serialize.res = .ok () ∧ (AggregateIdentifier.parse AggregateIdentifier.init ⟨p.serialize.out ++ [9], 0⟩).1 = .ok p := by decide +kernel

/-- **C48.** What is passed to `FixedDatum(...)`, /repo/opendis/dis7.py:1106-1112,
is what the receiver gets. -/
theorem C48_FixedDatum (fixedDatumID fixedDatumValue : Int)
    (hc : (FixedDatum.init fixedDatumID fixedDatumValue).Canon)
    (b post : Bytes)
    (hb : (FixedDatum.init fixedDatumID fixedDatumValue).serialize.Emits b) :
    ∃ q : FixedDatum, (FixedDatum.parse FixedDatum.init).Returns (b ++ post) q ∧
     q.fixedDatumID = fixedDatumID ∧ q.fixedDatumValue = fixedDatumValue :=
  ⟨_, returns_of_rt (FixedDatum.rt _ _) (FixedDatum.after_canon hc) hb post,
    rfl, rfl⟩

example : let p := FixedDatum.init 2 1;
    p.serialize.res = .ok () ∧ (FixedDatum.parse FixedDatum.init ⟨p.serialize.out ++ [9], 0⟩).1 = .ok p := by decide +kernel

/-- **C48.** What is passed to `VariableParameter(...)`, /repo/opendis/dis7.py:1132-1147,
is what the receiver gets. -/
theorem C48_VariableParameter (recordType : Int) (variableParameterFields1 : F64)
    (variableParameterFields2 variableParameterFields3 variableParameterFields4 : Int)
    (hc : (VariableParameter.init recordType variableParameterFields1 variableParameterFields2 variableParameterFields3 variableParameterFields4).Canon)
    (b post : Bytes)
    (hb : (VariableParameter.init recordType variableParameterFields1 variableParameterFields2 variableParameterFields3 variableParameterFields4).serialize.Emits b) :
    ∃ q : VariableParameter, (VariableParameter.parse VariableParameter.init).Returns (b ++ post) q ∧
     q.recordType = recordType ∧ q.variableParameterFields1 = variableParameterFields1 ∧
      q.variableParameterFields2 = variableParameterFields2 ∧
      q.variableParameterFields3 = variableParameterFields3 ∧
      q.variableParameterFields4 = variableParameterFields4 :=
  ⟨_, returns_of_rt (VariableParameter.rt _ _) (VariableParameter.after_canon hc) hb post,
    rfl, rfl, rfl, rfl, rfl⟩

example : let p := VariableParameter.init 2 0x3FF8000000000000 2 1 2;
    p.serialize.res = .ok () ∧ (VariableParameter.parse VariableParameter.init ⟨p.serialize.out ++ [9], 0⟩).1 = .ok p := by decide +kernel

/-- **C48.** What is passed to `LiveSimulationAddress(...)`, /repo/opendis/dis7.py:1189-1195,
is what the receiver gets. -/
theorem C48_LiveSimulationAddress (liveSiteNumber liveApplicationNumber : Int)
    (hc : (LiveSimulationAddress.init liveSiteNumber liveApplicationNumber).Canon)
    (b post : Bytes)
    (hb : (LiveSimulationAddress.init liveSiteNumber liveApplicationNumber).serialize.Emits b) :
    ∃ q : LiveSimulationAddress, (LiveSimulationAddress.parse LiveSimulationAddress.init).Returns (b ++ post) q ∧
     q.liveSiteNumber = liveSiteNumber ∧ q.liveApplicationNumber = liveApplicationNumber :=
  ⟨_, returns_of_rt (LiveSimulationAddress.rt _ _) (LiveSimulationAddress.after_canon hc) hb post,
    rfl, rfl⟩

example : let p := LiveSimulationAddress.init 2 1;
    p.serialize.res = .ok () ∧ (LiveSimulationAddress.parse LiveSimulationAddress.init ⟨p.serialize.out ++ [9], 0⟩).1 = .ok p := by decide +kernel

/-- **C48.** What is passed to `EntityMarking(...)`, /repo/opendis/dis7.py:1214-1220,
is what the receiver gets. -/
theorem C48_EntityMarking (characterSet : Int) (characters : List Int)
    (hc : (EntityMarking.init characterSet characters).Canon)
    (b post : Bytes)
    (hb : (EntityMarking.init characterSet characters).serialize.Emits b) :
    ∃ q : EntityMarking, (EntityMarking.parse EntityMarking.init).Returns (b ++ post) q ∧
     q.characterSet = characterSet ∧
      q.characters = (if characters.isEmpty then List.replicate 11 0 else characters) :=
  ⟨_, returns_of_rt (EntityMarking.rt _ _) (EntityMarking.after_canon hc) hb post,
    rfl, rfl⟩

example : let p := EntityMarking.init 2 [77, 49, 65, 49, 0, 0, 0, 0, 0, 0, 0];
    p.serialize.res = .ok () ∧ (EntityMarking.parse EntityMarking.init ⟨p.serialize.out ++ [9], 0⟩).1 = .ok p := by decide +kernel

/-- **C48.** What is passed to `UAFundamentalParameter(...)`, /repo/opendis/dis7.py:1255-1273,
is what the receiver gets. -/
theorem C48_UAFundamentalParameter (activeEmissionParameterIndex scanPattern : Int)
    (beamCenterAzimuthHorizontal azimuthBeamwidthHorizontal beamCenterDepressionElevation beamwidthDownElevation : F64)
    (hc : (UAFundamentalParameter.init activeEmissionParameterIndex scanPattern beamCenterAzimuthHorizontal azimuthBeamwidthHorizontal beamCenterDepressionElevation beamwidthDownElevation).Canon)
    (b post : Bytes)
    (hb : (UAFundamentalParameter.init activeEmissionParameterIndex scanPattern beamCenterAzimuthHorizontal azimuthBeamwidthHorizontal beamCenterDepressionElevation beamwidthDownElevation).serialize.Emits b) :
    ∃ q : UAFundamentalParameter, (UAFundamentalParameter.parse UAFundamentalParameter.init).Returns (b ++ post) q ∧
     q.activeEmissionParameterIndex = activeEmissionParameterIndex ∧ q.scanPattern = scanPattern ∧
      q.beamCenterAzimuthHorizontal = beamCenterAzimuthHorizontal ∧
      q.azimuthalBeamwidthHorizontal = azimuthBeamwidthHorizontal ∧
      q.beamCenterDepressionElevation = beamCenterDepressionElevation ∧
      q.beamwidthDownElevation = beamwidthDownElevation :=
  ⟨_, returns_of_rt (UAFundamentalParameter.rt _ _) (UAFundamentalParameter.after_canon hc) hb post,
    rfl, rfl, rfl, rfl, rfl, rfl⟩

example : let p := UAFundamentalParameter.init 2 1 0x3FF8000000000000 0x3FF8000000000000 0x3FF8000000000000 0x3FF8000000000000;
    p.serialize.res = .ok () ∧ (UAFundamentalParameter.parse UAFundamentalParameter.init ⟨p.serialize.out ++ [9], 0⟩).1 = .ok p := by decide +kernel

/-- **C48.** What is passed to `ExplosionDescriptor(...)`, /repo/opendis/dis7.py:1300-1310,
is what the receiver gets. -/
theorem C48_ExplosionDescriptor (explodingObject : Option EntityType) (explosiveMaterial : Int)
    (explosiveForce : F64)
    (hc : (ExplosionDescriptor.init explodingObject explosiveMaterial explosiveForce).Canon)
    (b post : Bytes)
    (hb : (ExplosionDescriptor.init explodingObject explosiveMaterial explosiveForce).serialize.Emits b) :
    ∃ q : ExplosionDescriptor, (ExplosionDescriptor.parse ExplosionDescriptor.init).Returns (b ++ post) q ∧
     q.explodingObject = explodingObject.getD EntityType.init ∧
      q.explosiveMaterial = explosiveMaterial ∧ q.explosiveForce = explosiveForce :=
  ⟨_, returns_of_rt (ExplosionDescriptor.rt _ _) (ExplosionDescriptor.after_canon hc) hb post,
    rfl, rfl, rfl⟩

example : let p := ExplosionDescriptor.init (some (EntityType.init 2 1 2 1 2 1 2)) 1 0x3FF8000000000000;
    p.serialize.res = .ok () ∧ (ExplosionDescriptor.parse ExplosionDescriptor.init ⟨p.serialize.out ++ [9], 0⟩).1 = .ok p := by decide +kernel

/-- **C48.** What is passed to `ClockTime(...)`, /repo/opendis/dis7.py:1336-1342,
is what the receiver gets. -/
theorem C48_ClockTime (hour timePastHour : Int)
    (hc : (ClockTime.init hour timePastHour).Canon)
    (b post : Bytes)
    (hb : (ClockTime.init hour timePastHour).serialize.Emits b) :
    ∃ q : ClockTime, (ClockTime.parse ClockTime.init).Returns (b ++ post) q ∧
     q.hour = hour ∧ q.timePastHour = timePastHour :=
  ⟨_, returns_of_rt (ClockTime.rt _ _) (ClockTime.after_canon hc) hb post,
    rfl, rfl⟩

example : let p := ClockTime.init 2 1;
    p.serialize.res = .ok () ∧ (ClockTime.parse ClockTime.init ⟨p.serialize.out ++ [9], 0⟩).1 = .ok p := by decide +kernel

/-- **C48.** What is passed to `SecondaryOperationalData(...)`, /repo/opendis/dis7.py:1363-1372,
is what the receiver gets. -/
theorem C48_SecondaryOperationalData
    (operationalData1 operationalData2 numberOfIFFFundamentalParameterRecords : Int)
    (hc : (SecondaryOperationalData.init operationalData1 operationalData2 numberOfIFFFundamentalParameterRecords).Canon)
    (b post : Bytes)
    (hb : (SecondaryOperationalData.init operationalData1 operationalData2 numberOfIFFFundamentalParameterRecords).serialize.Emits b) :
    ∃ q : SecondaryOperationalData, (SecondaryOperationalData.parse SecondaryOperationalData.init).Returns (b ++ post) q ∧
     q.operationalData1 = operationalData1 ∧ q.operationalData2 = operationalData2 ∧
      q.numberOfIFFFundamentalParameterRecords = numberOfIFFFundamentalParameterRecords :=
  ⟨_, returns_of_rt (SecondaryOperationalData.rt _ _) (SecondaryOperationalData.after_canon hc) hb post,
    rfl, rfl, rfl⟩

example : let p := SecondaryOperationalData.init 2 1 2;
    p.serialize.res = .ok () ∧ (SecondaryOperationalData.parse SecondaryOperationalData.init ⟨p.serialize.out ++ [9], 0⟩).1 = .ok p := by decide +kernel

/-- **C48.** What is passed to `EnvironmentType(...)`, /repo/opendis/dis7.py:1392-1412,
is what the receiver gets. -/
theorem C48_EnvironmentType
    (entityKind domain entityClass category subcategory specific extra : Int)
    (hc : (EnvironmentType.init entityKind domain entityClass category subcategory specific extra).Canon)
    (b post : Bytes)
    (hb : (EnvironmentType.init entityKind domain entityClass category subcategory specific extra).serialize.Emits b) :
    ∃ q : EnvironmentType, (EnvironmentType.parse EnvironmentType.init).Returns (b ++ post) q ∧
     q.entityKind = entityKind ∧ q.domain = domain ∧ q.entityClass = entityClass ∧
      q.category = category ∧ q.subcategory = subcategory ∧ q.specific = specific ∧
      q.extra = extra :=
  ⟨_, returns_of_rt (EnvironmentType.rt _ _) (EnvironmentType.after_canon hc) hb post,
    rfl, rfl, rfl, rfl, rfl, rfl, rfl⟩

example : let p := EnvironmentType.init 2 1 2 1 2 1 2;
    p.serialize.res = .ok () ∧ (EnvironmentType.parse EnvironmentType.init ⟨p.serialize.out ++ [9], 0⟩).1 = .ok p := by decide +kernel

/-- **C48.** What is passed to `TotalRecordSets(...)`, /repo/opendis/dis7.py:1439-1442,
is what the receiver gets. -/
theorem C48_TotalRecordSets (totalRecordSets : Int)
    (hc : (TotalRecordSets.init totalRecordSets).Canon)
    (b post : Bytes)
    (hb : (TotalRecordSets.init totalRecordSets).serialize.Emits b) :
    ∃ q : TotalRecordSets, (TotalRecordSets.parse TotalRecordSets.init).Returns (b ++ post) q ∧
     q.totalRecordSets = totalRecordSets :=
  ⟨_, returns_of_rt (TotalRecordSets.rt _ _) (TotalRecordSets.after_canon hc) hb post,
    rfl⟩

example : let p := TotalRecordSets.init 2;
    p.serialize.res = .ok () ∧ (TotalRecordSets.parse TotalRecordSets.init ⟨p.serialize.out ++ [9], 0⟩).1 = .ok p := by decide +kernel

/-- **C48.** What is passed to `MineEntityIdentifier(...)`, /repo/opendis/dis7.py:1463-1467,
is what the receiver gets. -/
theorem C48_MineEntityIdentifier (simulationAddress : Option SimulationAddress)
    (mineEntityNumber : Int)
    (hc : (MineEntityIdentifier.init simulationAddress mineEntityNumber).Canon)
    (b post : Bytes)
    (hb : (MineEntityIdentifier.init simulationAddress mineEntityNumber).serialize.Emits b) :
    ∃ q : MineEntityIdentifier, (MineEntityIdentifier.parse MineEntityIdentifier.init).Returns (b ++ post) q ∧
     q.simulationAddress = simulationAddress.getD SimulationAddress.init ∧
      q.mineEntityNumber = mineEntityNumber :=
  ⟨_, returns_of_rt (MineEntityIdentifier.rt _ _) (MineEntityIdentifier.after_canon hc) hb post,
    rfl, rfl⟩

example : let p := MineEntityIdentifier.init (some (SimulationAddress.init 2 1)) 1;
    p.serialize.res = .ok () ∧ (MineEntityIdentifier.parse MineEntityIdentifier.init ⟨p.serialize.out ++ [9], 0⟩).1 = .ok p := by decide +kernel

/-- **C48.** What is passed to `Relationship(...)`, /repo/opendis/dis7.py:1486-1492,
is what the receiver gets. -/
theorem C48_Relationship (nature position : Int)
    (hc : (Relationship.init nature position).Canon)
    (b post : Bytes)
    (hb : (Relationship.init nature position).serialize.Emits b) :
    ∃ q : Relationship, (Relationship.parse Relationship.init).Returns (b ++ post) q ∧
     q.nature = nature ∧ q.position = position :=
  ⟨_, returns_of_rt (Relationship.rt _ _) (Relationship.after_canon hc) hb post,
    rfl, rfl⟩

example : let p := Relationship.init 2 1;
    p.serialize.res = .ok () ∧ (Relationship.parse Relationship.init ⟨p.serialize.out ++ [9], 0⟩).1 = .ok p := by decide +kernel

/-- **C48.** What is passed to `EEFundamentalParameterData(...)`, /repo/opendis/dis7.py:1512-1537,
is what the receiver gets. -/
theorem C48_EEFundamentalParameterData
    (frequency frequencyRange effectiveRadiatedPower pulseRepetitionFrequency pulseWidth beamAzimuthCenter beamAzimuthSweep beamElevationCenter beamElevationSweep beamSweepSync : F64)
    (hc : (EEFundamentalParameterData.init frequency frequencyRange effectiveRadiatedPower pulseRepetitionFrequency pulseWidth beamAzimuthCenter beamAzimuthSweep beamElevationCenter beamElevationSweep beamSweepSync).Canon)
    (b post : Bytes)
    (hb : (EEFundamentalParameterData.init frequency frequencyRange effectiveRadiatedPower pulseRepetitionFrequency pulseWidth beamAzimuthCenter beamAzimuthSweep beamElevationCenter beamElevationSweep beamSweepSync).serialize.Emits b) :
    ∃ q : EEFundamentalParameterData, (EEFundamentalParameterData.parse EEFundamentalParameterData.init).Returns (b ++ post) q ∧
     q.frequency = frequency ∧ q.frequencyRange = frequencyRange ∧
      q.effectiveRadiatedPower = effectiveRadiatedPower ∧
      q.pulseRepetitionFrequency = pulseRepetitionFrequency ∧ q.pulseWidth = pulseWidth ∧
      q.beamAzimuthCenter = beamAzimuthCenter ∧ q.beamAzimuthSweep = beamAzimuthSweep ∧
      q.beamElevationCenter = beamElevationCenter ∧ q.beamElevationSweep = beamElevationSweep ∧
      q.beamSweepSync = beamSweepSync :=
  ⟨_, returns_of_rt (EEFundamentalParameterData.rt _ _) (EEFundamentalParameterData.after_canon hc) hb post,
    rfl, rfl, rfl, rfl, rfl, rfl, rfl, rfl, rfl, rfl⟩

example : let p := EEFundamentalParameterData.init 0x3FF8000000000000 0x3FF8000000000000 0x3FF8000000000000 0x3FF8000000000000 0x3FF8000000000000 0x3FF8000000000000 0x3FF8000000000000 0x3FF8000000000000 0x3FF8000000000000 0x3FF8000000000000;
    p.serialize.res = .ok () ∧ (EEFundamentalParameterData.parse EEFundamentalParameterData.init ⟨p.serialize.out ++ [9], 0⟩).1 = .ok p := by decide +kernel

/-- **C48.** What is passed to `JammingTechnique(...)`, /repo/opendis/dis7.py:1572-1576,
is what the receiver gets. -/
theorem C48_JammingTechnique (kind category subcategory specific : Int)
    (hc : (JammingTechnique.init kind category subcategory specific).Canon)
    (b post : Bytes)
    (hb : (JammingTechnique.init kind category subcategory specific).serialize.Emits b) :
    ∃ q : JammingTechnique, (JammingTechnique.parse JammingTechnique.init).Returns (b ++ post) q ∧
     q.kind = kind ∧ q.category = category ∧ q.subcategory = subcategory ∧
      q.specific = specific :=
  ⟨_, returns_of_rt (JammingTechnique.rt _ _) (JammingTechnique.after_canon hc) hb post,
    rfl, rfl, rfl, rfl⟩

example : let p := JammingTechnique.init 2 1 2 1;
    p.serialize.res = .ok () ∧ (JammingTechnique.parse JammingTechnique.init ⟨p.serialize.out ++ [9], 0⟩).1 = .ok p := by decide +kernel

/-- **C48.** What is passed to `VariableDatum(...)`, /repo/opendis/dis7.py:3300-3309,
is what the receiver gets. -/
theorem C48_VariableDatum (variableDatumID variableDatumLength : Int) (variableData : List Int)
    (hc : (VariableDatum.init variableDatumID variableDatumLength variableData).Canon)
    (b post : Bytes)
    (hb : (VariableDatum.init variableDatumID variableDatumLength variableData).serialize.Emits b) :
    ∃ q : VariableDatum, (VariableDatum.parse VariableDatum.init).Returns (b ++ post) q ∧
     q.variableDatumID = variableDatumID ∧ q.variableDatumLength = variableDatumLength ∧
      q.variableData = variableData :=
  ⟨_, returns_of_rt (VariableDatum.rt _ _) (VariableDatum.after_canon hc) hb post,
    rfl, rfl, rfl⟩

example : let p := VariableDatum.init 2 72 [1, 2, 3, 4, 5, 6, 7, 8, 9];
    p.serialize.res = .ok () ∧ (VariableDatum.parse VariableDatum.init ⟨p.serialize.out ++ [9], 0⟩).1 = .ok p := by decide +kernel

/-- **C48.** What is passed to `DatumSpecification(...)`, /repo/opendis/dis7.py:1599-1605,
is what the receiver gets. -/
theorem C48_DatumSpecification (fixedDatumRecords : List FixedDatum)
    (variableDatumRecords : List VariableDatum)
    (hc : (DatumSpecification.init fixedDatumRecords variableDatumRecords).Canon)
    (b post : Bytes)
    (hb : (DatumSpecification.init fixedDatumRecords variableDatumRecords).serialize.Emits b) :
    ∃ q : DatumSpecification, (DatumSpecification.parse DatumSpecification.init).Returns (b ++ post) q ∧
     q.fixedDatumRecords = fixedDatumRecords ∧ q.variableDatumRecords = variableDatumRecords :=
  ⟨_, returns_of_rt (DatumSpecification.rt _ _) (DatumSpecification.after_canon hc) hb post,
    rfl, rfl⟩

example : let p := DatumSpecification.init [FixedDatum.init 2 1] [VariableDatum.init 2 72 [1, 2, 3, 4, 5, 6, 7, 8, 9]];
    p.serialize.res = .ok () ∧ (DatumSpecification.parse DatumSpecification.init ⟨p.serialize.out ++ [9], 0⟩).1 = .ok p := by decide +kernel

/-- **C48.** What is passed to `Expendable(...)`, /repo/opendis/dis7.py:1646-1656,
is what the receiver gets. -/
theorem C48_Expendable (expendable : Option EntityType) (station quantity expendableStatus : Int)
    (hc : (Expendable.init expendable station quantity expendableStatus).Canon)
    (b post : Bytes)
    (hb : (Expendable.init expendable station quantity expendableStatus).serialize.Emits b) :
    ∃ q : Expendable, (Expendable.parse Expendable.init).Returns (b ++ post) q ∧
     q.expendable = expendable.getD EntityType.init ∧ q.station = station ∧
      q.quantity = quantity ∧ q.expendableStatus = expendableStatus :=
  ⟨_, returns_of_rt (Expendable.rt _ _) (Expendable.after_canon hc) hb post,
    rfl, rfl, rfl, rfl⟩

example : let p := Expendable.init (some (EntityType.init 2 1 2 1 2 1 2)) 1 2 1;
    p.serialize.res = .ok () ∧ (Expendable.parse Expendable.init ⟨p.serialize.out ++ [9], 0⟩).1 = .ok p := by decide +kernel

/-- **C48.** What is passed to `CommunicationsNodeID(...)`, /repo/opendis/dis7.py:3487-3491,
is what the receiver gets. -/
theorem C48_CommunicationsNodeID (entityID : Option EntityIdentifier) (elementID : Int)
    (hc : (CommunicationsNodeID.init entityID elementID).Canon)
    (b post : Bytes)
    (hb : (CommunicationsNodeID.init entityID elementID).serialize.Emits b) :
    ∃ q : CommunicationsNodeID, (CommunicationsNodeID.parse CommunicationsNodeID.init).Returns (b ++ post) q ∧
     q.entityID = entityID.getD EntityIdentifier.init ∧ q.elementID = elementID :=
  ⟨_, returns_of_rt (CommunicationsNodeID.rt _ _) (CommunicationsNodeID.after_canon hc) hb post,
    rfl, rfl⟩

example : let p := CommunicationsNodeID.init (some (EntityIdentifier.init (some (SimulationAddress.init 2 1)) 1)) 1;
    p.serialize.res = .ok () ∧ (CommunicationsNodeID.parse CommunicationsNodeID.init ⟨p.serialize.out ++ [9], 0⟩).1 = .ok p := by decide +kernel

/-- **C48.** What is passed to `IOCommunicationsNode(...)`, /repo/opendis/dis7.py:1683-1689,
is what the receiver gets. -/
theorem C48_IOCommunicationsNode (communicationsNodeType : Int)
    (communicationsNodeID : Option CommunicationsNodeID)
    (hc : (IOCommunicationsNode.init communicationsNodeType communicationsNodeID).Canon)
    (b post : Bytes)
    (hb : (IOCommunicationsNode.init communicationsNodeType communicationsNodeID).serialize.Emits b) :
    ∃ q : IOCommunicationsNode, (IOCommunicationsNode.parse IOCommunicationsNode.init).Returns (b ++ post) q ∧
     q.communcationsNodeType = communicationsNodeType ∧
      q.communicationsNodeID = communicationsNodeID.getD CommunicationsNodeID.init :=
  ⟨_, returns_of_rt (IOCommunicationsNode.rt _ _) (IOCommunicationsNode.after_canon hc) hb post,
    rfl, rfl⟩

example : let p := IOCommunicationsNode.init 2 (some (CommunicationsNodeID.init (some (EntityIdentifier.init none 1)) 1));
    p.serialize.res = .ok () ∧ (IOCommunicationsNode.parse IOCommunicationsNode.init ⟨p.serialize.out ++ [9], 0⟩).1 = .ok p := by decide +kernel

/-- **C48.** What is passed to `LinearSegmentParameter(...)`, /repo/opendis/dis7.py:1715-1746,
is what the receiver gets. -/
theorem C48_LinearSegmentParameter
    (segmentNumber segmentModification generalSegmentAppearance specificSegmentAppearance : Int)
    (segmentLocation : Option WorldCoordinates) (segmentOrientation : Option EulerAngles)
    (segmentLength segmentWidth segmentHeight segmentDepth : F64)
    (hc : (LinearSegmentParameter.init segmentNumber segmentModification generalSegmentAppearance specificSegmentAppearance segmentLocation segmentOrientation segmentLength segmentWidth segmentHeight segmentDepth).Canon)
    (b post : Bytes)
    (hb : (LinearSegmentParameter.init segmentNumber segmentModification generalSegmentAppearance specificSegmentAppearance segmentLocation segmentOrientation segmentLength segmentWidth segmentHeight segmentDepth).serialize.Emits b) :
    ∃ q : LinearSegmentParameter, (LinearSegmentParameter.parse LinearSegmentParameter.init).Returns (b ++ post) q ∧
     q.segmentNumber = segmentNumber ∧ q.segmentModification = segmentModification ∧
      q.generalSegmentAppearance = generalSegmentAppearance ∧
      q.specificSegmentAppearance = specificSegmentAppearance ∧
      q.segmentLocation = segmentLocation.getD WorldCoordinates.init ∧
      q.segmentOrientation = segmentOrientation.getD EulerAngles.init ∧
      q.segmentLength = segmentLength ∧ q.segmentWidth = segmentWidth ∧
      q.segmentHeight = segmentHeight ∧ q.segmentDepth = segmentDepth :=
  ⟨_, returns_of_rt (LinearSegmentParameter.rt _ _) (LinearSegmentParameter.after_canon hc) hb post,
    rfl, rfl, rfl, rfl, rfl, rfl, rfl, rfl, rfl, rfl⟩

example : let p := LinearSegmentParameter.init 2 1 2 1 (some (WorldCoordinates.init 0x3FF8000000000000 0x3FF8000000000000 0x3FF8000000000000)) (some (EulerAngles.init 0x3FF8000000000000 0x3FF8000000000000 0x3FF8000000000000)) 0x3FF8000000000000 0x3FF8000000000000 0x3FF8000000000000 0x3FF8000000000000;
    p.serialize.res = .ok () ∧ (LinearSegmentParameter.parse LinearSegmentParameter.init ⟨p.serialize.out ++ [9], 0⟩).1 = .ok p := by decide +kernel

/-- **C48.** What is passed to `SystemIdentifier(...)`, /repo/opendis/dis7.py:1783-1795,
is what the receiver gets. -/
theorem C48_SystemIdentifier (systemType systemName systemMode : Int)
    (changeOptions : Option ChangeOptions)
    (hc : (SystemIdentifier.init systemType systemName systemMode changeOptions).Canon)
    (b post : Bytes)
    (hb : (SystemIdentifier.init systemType systemName systemMode changeOptions).serialize.Emits b) :
    ∃ q : SystemIdentifier, (SystemIdentifier.parse SystemIdentifier.init).Returns (b ++ post) q ∧
     q.systemType = systemType ∧ q.systemName = systemName ∧ q.systemMode = systemMode ∧
      q.changeOptions = changeOptions.getD ChangeOptions.init :=
  ⟨_, returns_of_rt (SystemIdentifier.rt _ _) (SystemIdentifier.after_canon hc) hb post,
    rfl, rfl, rfl, rfl⟩

example : let p := SystemIdentifier.init 2 1 2 (some (ChangeOptions.init));
    p.serialize.res = .ok () ∧ (SystemIdentifier.parse SystemIdentifier.init ⟨p.serialize.out ++ [9], 0⟩).1 = .ok p := by decide +kernel

/-- **C48.** What is passed to `TrackJamData(...)`, /repo/opendis/dis7.py:1818-1827,
is what the receiver gets. -/
theorem C48_TrackJamData (entityID : Option EntityIdentifier) (emitterNumber beamNumber : Int)
    (hc : (TrackJamData.init entityID emitterNumber beamNumber).Canon)
    (b post : Bytes)
    (hb : (TrackJamData.init entityID emitterNumber beamNumber).serialize.Emits b) :
    ∃ q : TrackJamData, (TrackJamData.parse TrackJamData.init).Returns (b ++ post) q ∧
     q.entityID = entityID.getD EntityIdentifier.init ∧ q.emitterNumber = emitterNumber ∧
      q.beamNumber = beamNumber :=
  ⟨_, returns_of_rt (TrackJamData.rt _ _) (TrackJamData.after_canon hc) hb post,
    rfl, rfl, rfl⟩

example : let p := TrackJamData.init (some (EntityIdentifier.init (some (SimulationAddress.init 2 1)) 1)) 1 2;
    p.serialize.res = .ok () ∧ (TrackJamData.parse TrackJamData.init ⟨p.serialize.out ++ [9], 0⟩).1 = .ok p := by decide +kernel

/-- **C48.** What is passed to `AggregateType(...)`, /repo/opendis/dis7.py:1848-1868,
is what the receiver gets. -/
theorem C48_AggregateType
    (aggregateKind domain country category subcategory specificInfo extra : Int)
    (hc : (AggregateType.init aggregateKind domain country category subcategory specificInfo extra).Canon)
    (b post : Bytes)
    (hb : (AggregateType.init aggregateKind domain country category subcategory specificInfo extra).serialize.Emits b) :
    ∃ q : AggregateType, (AggregateType.parse AggregateType.init).Returns (b ++ post) q ∧
     q.aggregateKind = aggregateKind ∧ q.domain = domain ∧ q.country = country ∧
      q.category = category ∧ q.subcategory = subcategory ∧ q.specificInfo = specificInfo ∧
      q.extra = extra :=
  ⟨_, returns_of_rt (AggregateType.rt _ _) (AggregateType.after_canon hc) hb post,
    rfl, rfl, rfl, rfl, rfl, rfl, rfl⟩

example : let p := AggregateType.init 2 1 2 1 2 1 2;
    p.serialize.res = .ok () ∧ (AggregateType.parse AggregateType.init ⟨p.serialize.out ++ [9], 0⟩).1 = .ok p := by decide +kernel

/-- **C48.** What is passed to `SimulationIdentifier(...)`, /repo/opendis/dis7.py:2061-2067,
is what the receiver gets. -/
theorem C48_SimulationIdentifier (simulationAddress : Option SimulationAddress)
    (referenceNumber : Int)
    (hc : (SimulationIdentifier.init simulationAddress referenceNumber).Canon)
    (b post : Bytes)
    (hb : (SimulationIdentifier.init simulationAddress referenceNumber).serialize.Emits b) :
    ∃ q : SimulationIdentifier, (SimulationIdentifier.parse SimulationIdentifier.init).Returns (b ++ post) q ∧
     q.simulationAddress = simulationAddress.getD SimulationAddress.init ∧
      q.referenceNumber = referenceNumber :=
  ⟨_, returns_of_rt (SimulationIdentifier.rt _ _) (SimulationIdentifier.after_canon hc) hb post,
    rfl, rfl⟩

example : let p := SimulationIdentifier.init (some (SimulationAddress.init 2 1)) 1;
    p.serialize.res = .ok () ∧ (SimulationIdentifier.parse SimulationIdentifier.init ⟨p.serialize.out ++ [9], 0⟩).1 = .ok p := by decide +kernel

/-- **C48.** What is passed to `PduHeader(...)`, /repo/opendis/dis7.py:3377-3399,
is what the receiver gets. -/
theorem C48_PduHeader
    (protocolVersion exerciseID pduType protocolFamily timestamp pduLength pduStatus : Int)
    (hc : (PduHeader.init protocolVersion exerciseID pduType protocolFamily timestamp pduLength pduStatus).Canon)
    (b post : Bytes)
    (hb : (PduHeader.init protocolVersion exerciseID pduType protocolFamily timestamp pduLength pduStatus).serialize.Emits b) :
    ∃ q : PduHeader, (PduHeader.parse PduHeader.init).Returns (b ++ post) q ∧
     q.protocolVersion = protocolVersion ∧ q.exerciseID = exerciseID ∧ q.pduType = pduType ∧
      q.protocolFamily = protocolFamily ∧ q.timestamp = timestamp ∧ q.pduLength = pduLength ∧
      q.pduStatus = pduStatus :=
  ⟨_, returns_of_rt (PduHeader.rt _ _) (PduHeader.after_canon hc) hb post,
    rfl, rfl, rfl, rfl, rfl, rfl, rfl⟩

example : let p := PduHeader.init 2 1 2 1 2 1 2;
    p.serialize.res = .ok () ∧ (PduHeader.parse PduHeader.init ⟨p.serialize.out ++ [9], 0⟩).1 = .ok p := by decide +kernel

/-- **C48.** What is passed to `SimulationManagementPduHeader(...)`, /repo/opendis/dis7.py:1898-1907,
is what the receiver gets. -/
theorem C48_SimulationManagementPduHeader (pduHeader : Option PduHeader)
    (originatingID receivingID : Option SimulationIdentifier)
    (hc : (SimulationManagementPduHeader.init pduHeader originatingID receivingID).Canon)
    (b post : Bytes)
    (hb : (SimulationManagementPduHeader.init pduHeader originatingID receivingID).serialize.Emits b) :
    ∃ q : SimulationManagementPduHeader, (SimulationManagementPduHeader.parse SimulationManagementPduHeader.init).Returns (b ++ post) q ∧
     q.pduHeader = pduHeader.getD PduHeader.init ∧
      q.originatingID = originatingID.getD SimulationIdentifier.init ∧
      q.receivingID = receivingID.getD SimulationIdentifier.init :=
  ⟨_, returns_of_rt (SimulationManagementPduHeader.rt _ _) (SimulationManagementPduHeader.after_canon hc) hb post,
    rfl, rfl, rfl⟩

example : let p := SimulationManagementPduHeader.init (some (PduHeader.init 2 1 2 1 2 1 2)) (some (SimulationIdentifier.init (some (SimulationAddress.init 2 1)) 1)) (some (SimulationIdentifier.init (some (SimulationAddress.init 2 1)) 1));
    p.serialize.res = .ok () ∧ (SimulationManagementPduHeader.parse SimulationManagementPduHeader.init ⟨p.serialize.out ++ [9], 0⟩).1 = .ok p := by decide +kernel

/-- **C48.** What is passed to `BeamData(...)`, /repo/opendis/dis7.py:1928-1944,
is what the receiver gets. -/
theorem C48_BeamData
    (beamAzimuthCenter beamAzimuthSweep beamElevationCenter beamElevationSweep beamSweepSync : F64)
    (hc : (BeamData.init beamAzimuthCenter beamAzimuthSweep beamElevationCenter beamElevationSweep beamSweepSync).Canon)
    (b post : Bytes)
    (hb : (BeamData.init beamAzimuthCenter beamAzimuthSweep beamElevationCenter beamElevationSweep beamSweepSync).serialize.Emits b) :
    ∃ q : BeamData, (BeamData.parse BeamData.init).Returns (b ++ post) q ∧
     q.beamAzimuthCenter = beamAzimuthCenter ∧ q.beamAzimuthSweep = beamAzimuthSweep ∧
      q.beamElevationCenter = beamElevationCenter ∧ q.beamElevationSweep = beamElevationSweep ∧
      q.beamSweepSync = beamSweepSync :=
  ⟨_, returns_of_rt (BeamData.rt _ _) (BeamData.after_canon hc) hb post,
    rfl, rfl, rfl, rfl, rfl⟩

example : let p := BeamData.init 0x3FF8000000000000 0x3FF8000000000000 0x3FF8000000000000 0x3FF8000000000000 0x3FF8000000000000;
    p.serialize.res = .ok () ∧ (BeamData.parse BeamData.init ⟨p.serialize.out ++ [9], 0⟩).1 = .ok p := by decide +kernel

/-- **C48.** What is passed to `IOEffect(...)`, /repo/opendis/dis7.py:2009-2023,
is what the receiver gets. -/
theorem C48_IOEffect
    (ioStatus ioLinkType ioEffect ioEffectDutyCycle ioEffectDuration ioProcess : Int)
    (hc : (IOEffect.init ioStatus ioLinkType ioEffect ioEffectDutyCycle ioEffectDuration ioProcess).Canon)
    (b post : Bytes)
    (hb : (IOEffect.init ioStatus ioLinkType ioEffect ioEffectDutyCycle ioEffectDuration ioProcess).serialize.Emits b) :
    ∃ q : IOEffect, (IOEffect.parse IOEffect.init).Returns (b ++ post) q ∧
     q.ioStatus = ioStatus ∧ q.ioLinkType = ioLinkType ∧ q.ioEffect = ioEffect ∧
      q.ioEffectDutyCycle = ioEffectDutyCycle ∧ q.ioEffectDuration = ioEffectDuration ∧
      q.ioProcess = ioProcess :=
  ⟨_, returns_of_rt (IOEffect.rt _ _) (IOEffect.after_canon hc) hb post,
    rfl, rfl, rfl, rfl, rfl, rfl⟩

example : let p := IOEffect.init 2 1 2 1 2 1;
    p.serialize.res = .ok () ∧ (IOEffect.parse IOEffect.init ⟨p.serialize.out ++ [9], 0⟩).1 = .ok p := by decide +kernel

/-- **C48.** What is passed to `GridAxisDescriptorVariable(...)`, /repo/opendis/dis7.py:2087-2120,
is what the receiver gets. -/
theorem C48_GridAxisDescriptorVariable (domainInitialXi domainFinalXi : F64)
    (domainPointsXi interleafFactor axisType numberOfPointsOnXiAxis initialIndex : Int)
    (coordinateScaleXi coordinateOffsetXi : F64) (xiValues : List Int)
    (hc : (GridAxisDescriptorVariable.init domainInitialXi domainFinalXi domainPointsXi interleafFactor axisType numberOfPointsOnXiAxis initialIndex coordinateScaleXi coordinateOffsetXi xiValues).Canon)
    (b post : Bytes)
    (hb : (GridAxisDescriptorVariable.init domainInitialXi domainFinalXi domainPointsXi interleafFactor axisType numberOfPointsOnXiAxis initialIndex coordinateScaleXi coordinateOffsetXi xiValues).serialize.Emits b) :
    ∃ q : GridAxisDescriptorVariable, (GridAxisDescriptorVariable.parse GridAxisDescriptorVariable.init).Returns (b ++ post) q ∧
     q.domainInitialXi = domainInitialXi ∧ q.domainFinalXi = domainFinalXi ∧
      q.domainPointsXi = domainPointsXi ∧ q.interleafFactor = interleafFactor ∧
      q.axisType = axisType ∧ q.numberOfPointsOnXiAxis = numberOfPointsOnXiAxis ∧
      q.initialIndex = initialIndex ∧ q.coordinateScaleXi = coordinateScaleXi ∧
      q.coordinateOffsetXi = coordinateOffsetXi ∧ q.xiValues = xiValues :=
  ⟨_, returns_of_rt (GridAxisDescriptorVariable.rt _ _) (GridAxisDescriptorVariable.after_canon hc) hb post,
    rfl, rfl, rfl, rfl, rfl, rfl, rfl, rfl, rfl, rfl⟩

example : let p := GridAxisDescriptorVariable.init 0x3FF8000000000000 0x4000000000000000 2 1 2 0 2 0x3FF8000000000000 0x4000000000000000 [];
    p.serialize.res = .ok () ∧ (GridAxisDescriptorVariable.parse GridAxisDescriptorVariable.init ⟨p.serialize.out ++ [9], 0⟩).1 = .ok p := by decide +kernel

/-- **C48.** What is passed to `SupplyQuantity(...)`, /repo/opendis/dis7.py:2164-2169,
is what the receiver gets. -/
theorem C48_SupplyQuantity (supplyType : Option EntityType) (quantity : F64)
    (hc : (SupplyQuantity.init supplyType quantity).Canon)
    (b post : Bytes)
    (hb : (SupplyQuantity.init supplyType quantity).serialize.Emits b) :
    ∃ q : SupplyQuantity, (SupplyQuantity.parse SupplyQuantity.init).Returns (b ++ post) q ∧
     q.supplyType = supplyType.getD EntityType.init ∧ q.quantity = quantity :=
  ⟨_, returns_of_rt (SupplyQuantity.rt _ _) (SupplyQuantity.after_canon hc) hb post,
    rfl, rfl⟩

example : let p := SupplyQuantity.init (some (EntityType.init 2 1 2 1 2 1 2)) 0x3FF8000000000000;
    p.serialize.res = .ok () ∧ (SupplyQuantity.parse SupplyQuantity.init ⟨p.serialize.out ++ [9], 0⟩).1 = .ok p := by decide +kernel

/-- **C48.** What is passed to `SilentEntitySystem(...)`, /repo/opendis/dis7.py:2188-2196,
is what the receiver gets. -/
theorem C48_SilentEntitySystem (numberOfEntities : Int) (entityType : Option EntityType)
    (appearanceRecordList : List Int)
    (hc : (SilentEntitySystem.init numberOfEntities entityType appearanceRecordList).Canon)
    (b post : Bytes)
    (hb : (SilentEntitySystem.init numberOfEntities entityType appearanceRecordList).serialize.Emits b) :
    ∃ q : SilentEntitySystem, (SilentEntitySystem.parse SilentEntitySystem.init).Returns (b ++ post) q ∧
     q.numberOfEntities = numberOfEntities ∧ q.entityType = entityType.getD EntityType.init ∧
      q.appearanceRecordList = appearanceRecordList :=
  ⟨_, returns_of_rt (SilentEntitySystem.rt _ _) (SilentEntitySystem.after_canon hc) hb post,
    rfl, rfl, rfl⟩

example : let p := SilentEntitySystem.init 2 (some (EntityType.init 2 1 2 1 2 1 2)) [];
    p.serialize.res = .ok () ∧ (SilentEntitySystem.parse SilentEntitySystem.init ⟨p.serialize.out ++ [9], 0⟩).1 = .ok p := by decide +kernel

/-- **C48.** What is passed to `BlankingSector(...)`, /repo/opendis/dis7.py:2254-2275,
is what the receiver gets. -/
theorem C48_BlankingSector (emitterNumber beamNumber stateIndicator : Int)
    (leftAzimuth rightAzimuth lowerElevation upperElevation residualPower : F64)
    (hc : (BlankingSector.init emitterNumber beamNumber stateIndicator leftAzimuth rightAzimuth lowerElevation upperElevation residualPower).Canon)
    (b post : Bytes)
    (hb : (BlankingSector.init emitterNumber beamNumber stateIndicator leftAzimuth rightAzimuth lowerElevation upperElevation residualPower).serialize.Emits b) :
    ∃ q : BlankingSector, (BlankingSector.parse BlankingSector.init).Returns (b ++ post) q ∧
     q.emitterNumber = emitterNumber ∧ q.beamNumber = beamNumber ∧
      q.stateIndicator = stateIndicator ∧ q.leftAzimuth = leftAzimuth ∧
      q.rightAzimuth = rightAzimuth ∧ q.lowerElevation = lowerElevation ∧
      q.upperElevation = upperElevation ∧ q.residualPower = residualPower :=
  ⟨_, returns_of_rt (BlankingSector.rt _ _) (BlankingSector.after_canon hc) hb post,
    rfl, rfl, rfl, rfl, rfl, rfl, rfl, rfl⟩

example : let p := BlankingSector.init 2 1 2 0x3FF8000000000000 0x3FF8000000000000 0x3FF8000000000000 0x3FF8000000000000 0x3FF8000000000000;
    p.serialize.res = .ok () ∧ (BlankingSector.parse BlankingSector.init ⟨p.serialize.out ++ [9], 0⟩).1 = .ok p := by decide +kernel

/-- **C48.** What is passed to `LaunchedMunitionRecord(...)`, /repo/opendis/dis7.py:2319-2330,
is what the receiver gets. -/
theorem C48_LaunchedMunitionRecord
    (fireEventID firingEntityID targetEntityID : Option EventIdentifier)
    (targetLocation : Option WorldCoordinates)
    (hc : (LaunchedMunitionRecord.init fireEventID firingEntityID targetEntityID targetLocation).Canon)
    (b post : Bytes)
    (hb : (LaunchedMunitionRecord.init fireEventID firingEntityID targetEntityID targetLocation).serialize.Emits b) :
    ∃ q : LaunchedMunitionRecord, (LaunchedMunitionRecord.parse LaunchedMunitionRecord.init).Returns (b ++ post) q ∧
     q.fireEventID = fireEventID.getD EventIdentifier.init ∧
      q.firingEntityID = firingEntityID.getD EventIdentifier.init ∧
      q.targetEntityID = targetEntityID.getD EventIdentifier.init ∧
      q.targetLocation = targetLocation.getD WorldCoordinates.init :=
  ⟨_, returns_of_rt (LaunchedMunitionRecord.rt _ _) (LaunchedMunitionRecord.after_canon hc) hb post,
    rfl, rfl, rfl, rfl⟩

example : let p := LaunchedMunitionRecord.init (some (EventIdentifier.init (some (SimulationAddress.init 2 1)) 1)) (some (EventIdentifier.init (some (SimulationAddress.init 2 1)) 1)) (some (EventIdentifier.init (some (SimulationAddress.init 2 1)) 1)) (some (WorldCoordinates.init 0x3FF8000000000000 0x3FF8000000000000 0x3FF8000000000000));
    p.serialize.res = .ok () ∧ (LaunchedMunitionRecord.parse LaunchedMunitionRecord.init ⟨p.serialize.out ++ [9], 0⟩).1 = .ok p := by decide +kernel

/-- **C48.** What is passed to `IFFFundamentalParameterData(...)`, /repo/opendis/dis7.py:2359-2373,
is what the receiver gets. -/
theorem C48_IFFFundamentalParameterData (erp frequency pgrf pulseWidth : F64)
    (burstLength applicableModes : Int) (systemSpecificData : List Int)
    (hc : (IFFFundamentalParameterData.init erp frequency pgrf pulseWidth burstLength applicableModes systemSpecificData).Canon)
    (b post : Bytes)
    (hb : (IFFFundamentalParameterData.init erp frequency pgrf pulseWidth burstLength applicableModes systemSpecificData).serialize.Emits b) :
    ∃ q : IFFFundamentalParameterData, (IFFFundamentalParameterData.parse IFFFundamentalParameterData.init).Returns (b ++ post) q ∧
     q.erp = erp ∧ q.frequency = frequency ∧ q.pgrf = pgrf ∧ q.pulseWidth = pulseWidth ∧
      q.burstLength = burstLength ∧ q.applicableModes = applicableModes ∧
      q.systemSpecificData = (if systemSpecificData.isEmpty then List.replicate 3 0 else systemSpecificData) :=
  ⟨_, returns_of_rt (IFFFundamentalParameterData.rt _ _) (IFFFundamentalParameterData.after_canon hc) hb post,
    rfl, rfl, rfl, rfl, rfl, rfl, rfl⟩

example : let p := IFFFundamentalParameterData.init 0x3FF8000000000000 0x3FF8000000000000 0x3FF8000000000000 0x3FF8000000000000 2 1 [1, 2, 3];
    p.serialize.res = .ok () ∧ (IFFFundamentalParameterData.parse IFFFundamentalParameterData.init ⟨p.serialize.out ++ [9], 0⟩).1 = .ok p := by decide +kernel

/-- **C48.** What is passed to `FundamentalOperationalData(...)`, /repo/opendis/dis7.py:2407-2437,
is what the receiver gets. -/
theorem C48_FundamentalOperationalData
    (systemStatus dataField1 informationLayers dataField2 parameter1 parameter2 parameter3 parameter4 parameter5 parameter6 : Int)
    (hc : (FundamentalOperationalData.init systemStatus dataField1 informationLayers dataField2 parameter1 parameter2 parameter3 parameter4 parameter5 parameter6).Canon)
    (b post : Bytes)
    (hb : (FundamentalOperationalData.init systemStatus dataField1 informationLayers dataField2 parameter1 parameter2 parameter3 parameter4 parameter5 parameter6).serialize.Emits b) :
    ∃ q : FundamentalOperationalData, (FundamentalOperationalData.parse FundamentalOperationalData.init).Returns (b ++ post) q ∧
     q.systemStatus = systemStatus ∧ q.dataField1 = dataField1 ∧
      q.informationLayers = informationLayers ∧ q.dataField2 = dataField2 ∧
      q.parameter1 = parameter1 ∧ q.parameter2 = parameter2 ∧ q.parameter3 = parameter3 ∧
      q.parameter4 = parameter4 ∧ q.parameter5 = parameter5 ∧ q.parameter6 = parameter6 :=
  ⟨_, returns_of_rt (FundamentalOperationalData.rt _ _) (FundamentalOperationalData.after_canon hc) hb post,
    rfl, rfl, rfl, rfl, rfl, rfl, rfl, rfl, rfl, rfl⟩

example : let p := FundamentalOperationalData.init 2 1 2 1 2 1 2 1 2 1;
    p.serialize.res = .ok () ∧ (FundamentalOperationalData.parse FundamentalOperationalData.init ⟨p.serialize.out ++ [9], 0⟩).1 = .ok p := by decide +kernel

/-- **C48.** What is passed to `IntercomCommunicationsParameters(...)`, /repo/opendis/dis7.py:2472-2481,
is what the receiver gets. -/
theorem C48_IntercomCommunicationsParameters (recordType recordLength recordSpecificField : Int)
    (hc : (IntercomCommunicationsParameters.init recordType recordLength recordSpecificField).Canon)
    (b post : Bytes)
    (hb : (IntercomCommunicationsParameters.init recordType recordLength recordSpecificField).serialize.Emits b) :
    ∃ q : IntercomCommunicationsParameters, (IntercomCommunicationsParameters.parse IntercomCommunicationsParameters.init).Returns (b ++ post) q ∧
     q.recordType = recordType ∧ q.recordLength = recordLength ∧
      q.recordSpecificField = recordSpecificField :=
  ⟨_, returns_of_rt (IntercomCommunicationsParameters.rt _ _) (IntercomCommunicationsParameters.after_canon hc) hb post,
    rfl, rfl, rfl⟩

example : let p := IntercomCommunicationsParameters.init 2 1 2;
    p.serialize.res = .ok () ∧ (IntercomCommunicationsParameters.parse IntercomCommunicationsParameters.init ⟨p.serialize.out ++ [9], 0⟩).1 = .ok p := by decide +kernel

/-- **C48.** What is passed to `Munition(...)`, /repo/opendis/dis7.py:2552-2566,
is what the receiver gets. -/
theorem C48_Munition (munitionType : Option EntityType) (station quantity munitionStatus : Int)
    (hc : (Munition.init munitionType station quantity munitionStatus).Canon)
    (b post : Bytes)
    (hb : (Munition.init munitionType station quantity munitionStatus).serialize.Emits b) :
    ∃ q : Munition, (Munition.parse Munition.init).Returns (b ++ post) q ∧
     q.munitionType = munitionType.getD EntityType.init ∧ q.station = station ∧
      q.quantity = quantity ∧ q.munitionStatus = munitionStatus :=
  ⟨_, returns_of_rt (Munition.rt _ _) (Munition.after_canon hc) hb post,
    rfl, rfl, rfl, rfl⟩

example : let p := Munition.init (some (EntityType.init 2 1 2 1 2 1 2)) 1 2 1;
    p.serialize.res = .ok () ∧ (Munition.parse Munition.init ⟨p.serialize.out ++ [9], 0⟩).1 = .ok p := by decide +kernel

/-- **C48.** What is passed to `Vector2Float(...)`, /repo/opendis/dis7.py:2621-2623,
is what the receiver gets. -/
theorem C48_Vector2Float (x y : F64)
    (hc : (Vector2Float.init x y).Canon)
    (b post : Bytes)
    (hb : (Vector2Float.init x y).serialize.Emits b) :
    ∃ q : Vector2Float, (Vector2Float.parse Vector2Float.init).Returns (b ++ post) q ∧
     q.x = x ∧ q.y = y :=
  ⟨_, returns_of_rt (Vector2Float.rt _ _) (Vector2Float.after_canon hc) hb post,
    rfl, rfl⟩

example : let p := Vector2Float.init 0x3FF8000000000000 0x3FF8000000000000;
    p.serialize.res = .ok () ∧ (Vector2Float.parse Vector2Float.init ⟨p.serialize.out ++ [9], 0⟩).1 = .ok p := by decide +kernel

/-- **C48.** What is passed to `AcousticEmitter(...)`, /repo/opendis/dis7.py:2677-2686,
is what the receiver gets. -/
theorem C48_AcousticEmitter (acousticSystemName acousticFunction acousticIDNumber : Int)
    (hc : (AcousticEmitter.init acousticSystemName acousticFunction acousticIDNumber).Canon)
    (b post : Bytes)
    (hb : (AcousticEmitter.init acousticSystemName acousticFunction acousticIDNumber).serialize.Emits b) :
    ∃ q : AcousticEmitter, (AcousticEmitter.parse AcousticEmitter.init).Returns (b ++ post) q ∧
     q.acousticSystemName = acousticSystemName ∧ q.acousticFunction = acousticFunction ∧
      q.acousticIDNumber = acousticIDNumber :=
  ⟨_, returns_of_rt (AcousticEmitter.rt _ _) (AcousticEmitter.after_canon hc) hb post,
    rfl, rfl, rfl⟩

example : let p := AcousticEmitter.init 2 1 2;
    p.serialize.res = .ok () ∧ (AcousticEmitter.parse AcousticEmitter.init ⟨p.serialize.out ++ [9], 0⟩).1 = .ok p := by decide +kernel

/-- **C48.** What is passed to `AggregateMarking(...)`, /repo/opendis/dis7.py:2738-2744,
is what the receiver gets. -/
theorem C48_AggregateMarking (characterSet : Int) (characters : List Int)
    (hc : (AggregateMarking.init characterSet characters).Canon)
    (b post : Bytes)
    (hb : (AggregateMarking.init characterSet characters).serialize.Emits b) :
    ∃ q : AggregateMarking, (AggregateMarking.parse AggregateMarking.init).Returns (b ++ post) q ∧
     q.characterSet = characterSet :=
  ⟨_, returns_of_rt (AggregateMarking.rt _ _) (AggregateMarking.after_canon hc) hb post,
    rfl⟩

example : let p := AggregateMarking.init 2 [];
    p.serialize.res = .ok () ∧ (AggregateMarking.parse AggregateMarking.init ⟨p.serialize.out ++ [9], 0⟩).1 = .ok p := by decide +kernel

/-- **C48.** What is passed to `DataFilterRecord(...)`, /repo/opendis/dis7.py:2771-2773,
is what the receiver gets. -/
theorem C48_DataFilterRecord (bitFlags : Int)
    (hc : (DataFilterRecord.init bitFlags).Canon)
    (b post : Bytes)
    (hb : (DataFilterRecord.init bitFlags).serialize.Emits b) :
    ∃ q : DataFilterRecord, (DataFilterRecord.parse DataFilterRecord.init).Returns (b ++ post) q ∧
     q.bitFlags = bitFlags :=
  ⟨_, returns_of_rt (DataFilterRecord.rt _ _) (DataFilterRecord.after_canon hc) hb post,
    rfl⟩

example : let p := DataFilterRecord.init 2;
    p.serialize.res = .ok () ∧ (DataFilterRecord.parse DataFilterRecord.init ⟨p.serialize.out ++ [9], 0⟩).1 = .ok p := by decide +kernel

/-- **C48.** What is passed to `IntercomIdentifier(...)`, /repo/opendis/dis7.py:2790-2798,
is what the receiver gets. -/
theorem C48_IntercomIdentifier (siteNumber applicationNumber referenceNumber intercomNumber : Int)
    (hc : (IntercomIdentifier.init siteNumber applicationNumber referenceNumber intercomNumber).Canon)
    (b post : Bytes)
    (hb : (IntercomIdentifier.init siteNumber applicationNumber referenceNumber intercomNumber).serialize.Emits b) :
    ∃ q : IntercomIdentifier, (IntercomIdentifier.parse IntercomIdentifier.init).Returns (b ++ post) q ∧
     q.siteNumber = siteNumber ∧ q.applicationNumber = applicationNumber ∧
      q.referenceNumber = referenceNumber ∧ q.intercomNumber = intercomNumber :=
  ⟨_, returns_of_rt (IntercomIdentifier.rt _ _) (IntercomIdentifier.after_canon hc) hb post,
    rfl, rfl, rfl, rfl⟩

example : let p := IntercomIdentifier.init 2 1 2 1;
    p.serialize.res = .ok () ∧ (IntercomIdentifier.parse IntercomIdentifier.init ⟨p.serialize.out ++ [9], 0⟩).1 = .ok p := by decide +kernel

/-- **C48.** What is passed to `StorageFuel(...)`, /repo/opendis/dis7.py:2821-2834,
is what the receiver gets. -/
theorem C48_StorageFuel (fuelQuantity fuelMeasurementUnits fuelType fuelLocation : Int)
    (hc : (StorageFuel.init fuelQuantity fuelMeasurementUnits fuelType fuelLocation).Canon)
    (b post : Bytes)
    (hb : (StorageFuel.init fuelQuantity fuelMeasurementUnits fuelType fuelLocation).serialize.Emits b) :
    ∃ q : StorageFuel, (StorageFuel.parse StorageFuel.init).Returns (b ++ post) q ∧
     q.fuelQuantity = fuelQuantity ∧ q.fuelMeasurementUnits = fuelMeasurementUnits ∧
      q.fuelType = fuelType ∧ q.fuelLocation = fuelLocation :=
  ⟨_, returns_of_rt (StorageFuel.rt _ _) (StorageFuel.after_canon hc) hb post,
    rfl, rfl, rfl, rfl⟩

example : let p := StorageFuel.init 2 1 2 1;
    p.serialize.res = .ok () ∧ (StorageFuel.parse StorageFuel.init ⟨p.serialize.out ++ [9], 0⟩).1 = .ok p := by decide +kernel

/-- **C48.** What is passed to `Sensor(...)`, /repo/opendis/dis7.py:2859-2875,
is what the receiver gets. -/
theorem C48_Sensor (sensorTypeSource sensorOnOffStatus sensorType station quantity : Int)
    (hc : (Sensor.init sensorTypeSource sensorOnOffStatus sensorType station quantity).Canon)
    (b post : Bytes)
    (hb : (Sensor.init sensorTypeSource sensorOnOffStatus sensorType station quantity).serialize.Emits b) :
    ∃ q : Sensor, (Sensor.parse Sensor.init).Returns (b ++ post) q ∧
     q.sensorTypeSource = sensorTypeSource ∧ q.sensorOnOffStatus = sensorOnOffStatus ∧
      q.sensorType = sensorType ∧ q.station = station ∧ q.quantity = quantity :=
  ⟨_, returns_of_rt (Sensor.rt _ _) (Sensor.after_canon hc) hb post,
    rfl, rfl, rfl, rfl, rfl⟩

example : let p := Sensor.init 2 1 2 1 2;
    p.serialize.res = .ok () ∧ (Sensor.parse Sensor.init ⟨p.serialize.out ++ [9], 0⟩).1 = .ok p := by decide +kernel

/-- **C48.** What is passed to `MunitionReload(...)`, /repo/opendis/dis7.py:2903-2922,
is what the receiver gets. -/
theorem C48_MunitionReload (munitionType : Option EntityType)
    (station standardQuantity maximumQuantity standardQuantityReloadTime maximumQuantityReloadTime : Int)
    (hc : (MunitionReload.init munitionType station standardQuantity maximumQuantity standardQuantityReloadTime maximumQuantityReloadTime).Canon)
    (b post : Bytes)
    (hb : (MunitionReload.init munitionType station standardQuantity maximumQuantity standardQuantityReloadTime maximumQuantityReloadTime).serialize.Emits b) :
    ∃ q : MunitionReload, (MunitionReload.parse MunitionReload.init).Returns (b ++ post) q ∧
     q.munitionType = munitionType.getD EntityType.init ∧ q.station = station ∧
      q.standardQuantity = standardQuantity ∧ q.maximumQuantity = maximumQuantity ∧
      q.standardQuantityReloadTime = standardQuantityReloadTime ∧
      q.maximumQuantityReloadTime = maximumQuantityReloadTime :=
  ⟨_, returns_of_rt (MunitionReload.rt _ _) (MunitionReload.after_canon hc) hb post,
    rfl, rfl, rfl, rfl, rfl, rfl⟩

example : let p := MunitionReload.init (some (EntityType.init 2 1 2 1 2 1 2)) 1 2 1 2 1;
    p.serialize.res = .ok () ∧ (MunitionReload.parse MunitionReload.init ⟨p.serialize.out ++ [9], 0⟩).1 = .ok p := by decide +kernel

/-- **C48.** What is passed to `StorageFuelReload(...)`, /repo/opendis/dis7.py:2952-2974,
is what the receiver gets. -/
theorem C48_StorageFuelReload
    (standardQuantity maximumQuantity standardQuantityReloadTime maximumQuantityReloadTime fuelMeasurementUnits fuelType fuelLocation : Int)
    (hc : (StorageFuelReload.init standardQuantity maximumQuantity standardQuantityReloadTime maximumQuantityReloadTime fuelMeasurementUnits fuelType fuelLocation).Canon)
    (b post : Bytes)
    (hb : (StorageFuelReload.init standardQuantity maximumQuantity standardQuantityReloadTime maximumQuantityReloadTime fuelMeasurementUnits fuelType fuelLocation).serialize.Emits b) :
    ∃ q : StorageFuelReload, (StorageFuelReload.parse StorageFuelReload.init).Returns (b ++ post) q ∧
     q.standardQuantity = standardQuantity ∧ q.maximumQuantity = maximumQuantity ∧
      q.standardQuantityReloadTime = standardQuantityReloadTime ∧
      q.maximumQuantityReloadTime = maximumQuantityReloadTime ∧
      q.fuelMeasurementUnits = fuelMeasurementUnits ∧ q.fuelType = fuelType ∧
      q.fuelLocation = fuelLocation :=
  ⟨_, returns_of_rt (StorageFuelReload.rt _ _) (StorageFuelReload.after_canon hc) hb post,
    rfl, rfl, rfl, rfl, rfl, rfl, rfl⟩

example : let p := StorageFuelReload.init 2 1 2 1 2 1 2;
    p.serialize.res = .ok () ∧ (StorageFuelReload.parse StorageFuelReload.init ⟨p.serialize.out ++ [9], 0⟩).1 = .ok p := by decide +kernel

/-- **C48.** What is passed to `ExpendableReload(...)`, /repo/opendis/dis7.py:3005-3019,
is what the receiver gets. -/
theorem C48_ExpendableReload (expendable : Option EntityType)
    (station standardQuantity maximumQuantity standardQuantityReloadTime maximumQuantityReloadTime : Int)
    (hc : (ExpendableReload.init expendable station standardQuantity maximumQuantity standardQuantityReloadTime maximumQuantityReloadTime).Canon)
    (b post : Bytes)
    (hb : (ExpendableReload.init expendable station standardQuantity maximumQuantity standardQuantityReloadTime maximumQuantityReloadTime).serialize.Emits b) :
    ∃ q : ExpendableReload, (ExpendableReload.parse ExpendableReload.init).Returns (b ++ post) q ∧
     q.expendable = expendable.getD EntityType.init ∧ q.station = station ∧
      q.standardQuantity = standardQuantity ∧ q.maximumQuantity = maximumQuantity ∧
      q.standardQuantityReloadTime = standardQuantityReloadTime ∧
      q.maximumQuantityReloadTime = maximumQuantityReloadTime :=
  ⟨_, returns_of_rt (ExpendableReload.rt _ _) (ExpendableReload.after_canon hc) hb post,
    rfl, rfl, rfl, rfl, rfl, rfl⟩

example : let p := ExpendableReload.init (some (EntityType.init 2 1 2 1 2 1 2)) 1 2 1 2 1;
    p.serialize.res = .ok () ∧ (ExpendableReload.parse ExpendableReload.init ⟨p.serialize.out ++ [9], 0⟩).1 = .ok p := by decide +kernel

/-- **C48.** What is passed to `EngineFuelReload(...)`, /repo/opendis/dis7.py:3043-3062,
is what the receiver gets. -/
theorem C48_EngineFuelReload
    (standardQuantity maximumQuantity standardQuantityReloadTime maximumQuantityReloadTime fuelMeasurementUnits fuelLocation : Int)
    (hc : (EngineFuelReload.init standardQuantity maximumQuantity standardQuantityReloadTime maximumQuantityReloadTime fuelMeasurementUnits fuelLocation).Canon)
    (b post : Bytes)
    (hb : (EngineFuelReload.init standardQuantity maximumQuantity standardQuantityReloadTime maximumQuantityReloadTime fuelMeasurementUnits fuelLocation).serialize.Emits b) :
    ∃ q : EngineFuelReload, (EngineFuelReload.parse EngineFuelReload.init).Returns (b ++ post) q ∧
     q.standardQuantity = standardQuantity ∧ q.maximumQuantity = maximumQuantity ∧
      q.standardQuantityReloadTime = standardQuantityReloadTime ∧
      q.maximumQuantityReloadTime = maximumQuantityReloadTime ∧
      q.fuelMeasurmentUnits = fuelMeasurementUnits ∧ q.fuelLocation = fuelLocation :=
  ⟨_, returns_of_rt (EngineFuelReload.rt _ _) (EngineFuelReload.after_canon hc) hb post,
    rfl, rfl, rfl, rfl, rfl, rfl⟩

example : let p := EngineFuelReload.init 2 1 2 1 2 1;
    p.serialize.res = .ok () ∧ (EngineFuelReload.parse EngineFuelReload.init ⟨p.serialize.out ++ [9], 0⟩).1 = .ok p := by decide +kernel

/-- **C48.** What is passed to `UnattachedIdentifier(...)`, /repo/opendis/dis7.py:3093-3099,
is what the receiver gets. -/
theorem C48_UnattachedIdentifier (simulationAddress : Option SimulationAddress)
    (referenceNumber : Int)
    (hc : (UnattachedIdentifier.init simulationAddress referenceNumber).Canon)
    (b post : Bytes)
    (hb : (UnattachedIdentifier.init simulationAddress referenceNumber).serialize.Emits b) :
    ∃ q : UnattachedIdentifier, (UnattachedIdentifier.parse UnattachedIdentifier.init).Returns (b ++ post) q ∧
     q.simulationAddress = simulationAddress.getD SimulationAddress.init ∧
      q.referenceNumber = referenceNumber :=
  ⟨_, returns_of_rt (UnattachedIdentifier.rt _ _) (UnattachedIdentifier.after_canon hc) hb post,
    rfl, rfl⟩

example : let p := UnattachedIdentifier.init (some (SimulationAddress.init 2 1)) 1;
    p.serialize.res = .ok () ∧ (UnattachedIdentifier.parse UnattachedIdentifier.init ⟨p.serialize.out ++ [9], 0⟩).1 = .ok p := by decide +kernel

/-- **C48.** What is passed to `EntityTypeVP(...)`, /repo/opendis/dis7.py:3119-3127,
is what the receiver gets. -/
theorem C48_EntityTypeVP (changeIndicator : Int) (entityType : Option EntityType)
    (hc : (EntityTypeVP.init changeIndicator entityType).Canon)
    (b post : Bytes)
    (hb : (EntityTypeVP.init changeIndicator entityType).serialize.Emits b) :
    ∃ q : EntityTypeVP, (EntityTypeVP.parse EntityTypeVP.init).Returns (b ++ post) q ∧
     q.changeIndicator = changeIndicator ∧ q.entityType = entityType.getD EntityType.init :=
  ⟨_, returns_of_rt (EntityTypeVP.rt _ _) (EntityTypeVP.after_canon hc) hb post,
    rfl, rfl⟩

example : let p := EntityTypeVP.init 2 (some (EntityType.init 2 1 2 1 2 1 2));
    p.serialize.res = .ok () ∧ (EntityTypeVP.parse EntityTypeVP.init ⟨p.serialize.out ++ [9], 0⟩).1 = .ok p := by decide +kernel

/-- **C48.** What is passed to `BeamStatus(...)`, /repo/opendis/dis7.py:3154-3156,
is what the receiver gets. -/
theorem C48_BeamStatus (beamState : Int)
    (hc : (BeamStatus.init beamState).Canon)
    (b post : Bytes)
    (hb : (BeamStatus.init beamState).serialize.Emits b) :
    ∃ q : BeamStatus, (BeamStatus.parse BeamStatus.init).Returns (b ++ post) q ∧
     q.beamState = beamState % 2 :=
  ⟨_, returns_of_rt (BeamStatus.rt _ _) (BeamStatus.after_canon hc) hb post,
    rfl⟩

example : let p := BeamStatus.init 3;
    p.serialize.res = .ok () ∧ (BeamStatus.parse BeamStatus.init ⟨p.serialize.out ++ [9], 0⟩).1 = .ok p := by decide +kernel

/-- **C48.** What is passed to `GridAxis(...)`, /repo/opendis/dis7.py:3218-3239,
is what the receiver gets. -/
theorem C48_GridAxis (domainInitialXi domainFinalXi : F64)
    (domainPointsXi interleafFactor axisType numberOfPointsOnXiAxis initialIndex : Int)
    (hc : (GridAxis.init domainInitialXi domainFinalXi domainPointsXi interleafFactor axisType numberOfPointsOnXiAxis initialIndex).Canon)
    (b post : Bytes)
    (hb : (GridAxis.init domainInitialXi domainFinalXi domainPointsXi interleafFactor axisType numberOfPointsOnXiAxis initialIndex).serialize.Emits b) :
    ∃ q : GridAxis, (GridAxis.parse GridAxis.init).Returns (b ++ post) q ∧
     q.domainInitialXi = domainInitialXi ∧ q.domainFinalXi = domainFinalXi ∧
      q.domainPointsXi = domainPointsXi ∧ q.interleafFactor = interleafFactor ∧
      q.axisType = axisType ∧ q.numberOfPointsOnXiAxis = numberOfPointsOnXiAxis ∧
      q.initialIndex = initialIndex :=
  ⟨_, returns_of_rt (GridAxis.rt _ _) (GridAxis.after_canon hc) hb post,
    rfl, rfl, rfl, rfl, rfl, rfl, rfl⟩

example : let p := GridAxis.init 0x3FF8000000000000 0x3FF8000000000000 2 1 2 1 2;
    p.serialize.res = .ok () ∧ (GridAxis.parse GridAxis.init ⟨p.serialize.out ++ [9], 0⟩).1 = .ok p := by decide +kernel

/-- **C48.** What is passed to `EventIdentifierLiveEntity(...)`, /repo/opendis/dis7.py:3349-3355,
is what the receiver gets. -/
theorem C48_EventIdentifierLiveEntity (siteNumber applicationNumber eventNumber : Int)
    (hc : (EventIdentifierLiveEntity.init siteNumber applicationNumber eventNumber).Canon)
    (b post : Bytes)
    (hb : (EventIdentifierLiveEntity.init siteNumber applicationNumber eventNumber).serialize.Emits b) :
    ∃ q : EventIdentifierLiveEntity, (EventIdentifierLiveEntity.parse EventIdentifierLiveEntity.init).Returns (b ++ post) q ∧
     q.siteNumber = siteNumber ∧ q.applicationNumber = applicationNumber ∧
      q.eventNumber = eventNumber :=
  ⟨_, returns_of_rt (EventIdentifierLiveEntity.rt _ _) (EventIdentifierLiveEntity.after_canon hc) hb post,
    rfl, rfl, rfl⟩

example : let p := EventIdentifierLiveEntity.init 2 1 2;
    p.serialize.res = .ok () ∧ (EventIdentifierLiveEntity.parse EventIdentifierLiveEntity.init ⟨p.serialize.out ++ [9], 0⟩).1 = .ok p := by decide +kernel

/-- **C48.** What is passed to `ExpendableDescriptor(...)`, /repo/opendis/dis7.py:3510-3513,
is what the receiver gets. -/
theorem C48_ExpendableDescriptor (expendableType : Option EntityType)
    (hc : (ExpendableDescriptor.init expendableType).Canon)
    (b post : Bytes)
    (hb : (ExpendableDescriptor.init expendableType).serialize.Emits b) :
    ∃ q : ExpendableDescriptor, (ExpendableDescriptor.parse ExpendableDescriptor.init).Returns (b ++ post) q ∧
     q.expendableType = expendableType.getD EntityType.init :=
  ⟨_, returns_of_rt (ExpendableDescriptor.rt _ _) (ExpendableDescriptor.after_canon hc) hb post,
    rfl⟩

example : let p := ExpendableDescriptor.init (some (EntityType.init 2 1 2 1 2 1 2));
    p.serialize.res = .ok () ∧ (ExpendableDescriptor.parse ExpendableDescriptor.init ⟨p.serialize.out ++ [9], 0⟩).1 = .ok p := by decide +kernel

/-- **C48.** What is passed to `PropulsionSystemData(...)`, /repo/opendis/dis7.py:3534-3540,
is what the receiver gets. -/
theorem C48_PropulsionSystemData (powerSetting engineRpm : F64)
    (hc : (PropulsionSystemData.init powerSetting engineRpm).Canon)
    (b post : Bytes)
    (hb : (PropulsionSystemData.init powerSetting engineRpm).serialize.Emits b) :
    ∃ q : PropulsionSystemData, (PropulsionSystemData.parse PropulsionSystemData.init).Returns (b ++ post) q ∧
     q.powerSetting = powerSetting ∧ q.engineRpm = engineRpm :=
  ⟨_, returns_of_rt (PropulsionSystemData.rt _ _) (PropulsionSystemData.after_canon hc) hb post,
    rfl, rfl⟩

example : let p := PropulsionSystemData.init 0x3FF8000000000000 0x3FF8000000000000;
    p.serialize.res = .ok () ∧ (PropulsionSystemData.parse PropulsionSystemData.init ⟨p.serialize.out ++ [9], 0⟩).1 = .ok p := by decide +kernel

/-- **C48.** What is passed to `LiveEntityIdentifier(...)`, /repo/opendis/dis7.py:3560-3567,
is what the receiver gets. -/
theorem C48_LiveEntityIdentifier (liveSimulationAddress : Option LiveSimulationAddress)
    (entityNumber : Int)
    (hc : (LiveEntityIdentifier.init liveSimulationAddress entityNumber).Canon)
    (b post : Bytes)
    (hb : (LiveEntityIdentifier.init liveSimulationAddress entityNumber).serialize.Emits b) :
    ∃ q : LiveEntityIdentifier, (LiveEntityIdentifier.parse LiveEntityIdentifier.init).Returns (b ++ post) q ∧
     q.liveSimulationAddress = liveSimulationAddress.getD LiveSimulationAddress.init ∧
      q.entityNumber = entityNumber :=
  ⟨_, returns_of_rt (LiveEntityIdentifier.rt _ _) (LiveEntityIdentifier.after_canon hc) hb post,
    rfl, rfl⟩

example : let p := LiveEntityIdentifier.init (some (LiveSimulationAddress.init 2 1)) 1;
    p.serialize.res = .ok () ∧ (LiveEntityIdentifier.parse LiveEntityIdentifier.init ⟨p.serialize.out ++ [9], 0⟩).1 = .ok p := by decide +kernel

/-- **C48.** What is passed to `EmitterSystem(...)`, /repo/opendis/dis7.py:3630-3636,
is what the receiver gets. -/
theorem C48_EmitterSystem (emitterName emitterFunction emitterIDNumber : Int)
    (hc : (EmitterSystem.init emitterName emitterFunction emitterIDNumber).Canon)
    (b post : Bytes)
    (hb : (EmitterSystem.init emitterName emitterFunction emitterIDNumber).serialize.Emits b) :
    ∃ q : EmitterSystem, (EmitterSystem.parse EmitterSystem.init).Returns (b ++ post) q ∧
     q.emitterName = emitterName ∧ q.emitterFunction = emitterFunction ∧
      q.emitterIDNumber = emitterIDNumber :=
  ⟨_, returns_of_rt (EmitterSystem.rt _ _) (EmitterSystem.after_canon hc) hb post,
    rfl, rfl, rfl⟩

example : let p := EmitterSystem.init 2 1 2;
    p.serialize.res = .ok () ∧ (EmitterSystem.parse EmitterSystem.init ⟨p.serialize.out ++ [9], 0⟩).1 = .ok p := by decide +kernel

/-- **C48.** What is passed to `PduStatus(...)`, /repo/opendis/dis7.py:3658-3660,
is what the receiver gets. -/
theorem C48_PduStatus (pduStatus : Int)
    (hc : (PduStatus.init pduStatus).Canon)
    (b post : Bytes)
    (hb : (PduStatus.init pduStatus).serialize.Emits b) :
    ∃ q : PduStatus, (PduStatus.parse PduStatus.init).Returns (b ++ post) q ∧
     q.pduStatus = pduStatus :=
  ⟨_, returns_of_rt (PduStatus.rt _ _) (PduStatus.after_canon hc) hb post,
    rfl⟩

example : let p := PduStatus.init 2;
    p.serialize.res = .ok () ∧ (PduStatus.parse PduStatus.init ⟨p.serialize.out ++ [9], 0⟩).1 = .ok p := by decide +kernel

/-- **C48.** What is passed to `EmissionSystemBeamRecord(...)`, /repo/opendis/dis7.py:5178-5197,
is what the receiver gets. -/
theorem C48_EmissionSystemBeamRecord (beamDataLength beamIDNumber beamParameterIndex : Int)
    (fundamentalParameterData : Option EEFundamentalParameterData)
    (beamFunction highDensityTrackJam : Int) (beamStatus : Option BeamStatus)
    (jammingModeSequence : Int) (trackJamRecords : List TrackJamData)
    (hc : (EmissionSystemBeamRecord.init beamDataLength beamIDNumber beamParameterIndex fundamentalParameterData beamFunction highDensityTrackJam beamStatus jammingModeSequence trackJamRecords).Canon)
    (b post : Bytes)
    (hb : (EmissionSystemBeamRecord.init beamDataLength beamIDNumber beamParameterIndex fundamentalParameterData beamFunction highDensityTrackJam beamStatus jammingModeSequence trackJamRecords).serialize.Emits b) :
    ∃ q : EmissionSystemBeamRecord, (EmissionSystemBeamRecord.parse EmissionSystemBeamRecord.init).Returns (b ++ post) q ∧
     q.beamDataLength = beamDataLength ∧ q.beamIDNumber = beamIDNumber ∧
      q.beamParameterIndex = beamParameterIndex ∧
      q.fundamentalParameterData = fundamentalParameterData.getD EEFundamentalParameterData.init ∧
      q.beamFunction = beamFunction ∧ q.highDensityTrackJam = highDensityTrackJam ∧
      q.beamStatus = beamStatus.getD BeamStatus.init ∧
      q.jammingModeSequence = jammingModeSequence ∧ q.trackJamRecords = trackJamRecords :=
  ⟨_, returns_of_rt (EmissionSystemBeamRecord.rt _ _) (EmissionSystemBeamRecord.after_canon hc) hb post,
    rfl, rfl, rfl, rfl, rfl, rfl, rfl, rfl, rfl⟩

example : let p := EmissionSystemBeamRecord.init 2 1 2 (some (EEFundamentalParameterData.init 0x3FF8000000000000 0x3FF8000000000000 0x3FF8000000000000 0x3FF8000000000000 0x3FF8000000000000 0x3FF8000000000000 0x3FF8000000000000 0x3FF8000000000000 0x3FF8000000000000 0x3FF8000000000000)) 2 1 (some (BeamStatus.init 3)) 1 [TrackJamData.init (some (EntityIdentifier.init none 1)) 1 2];
    p.serialize.res = .ok () ∧ (EmissionSystemBeamRecord.parse EmissionSystemBeamRecord.init ⟨p.serialize.out ++ [9], 0⟩).1 = .ok p := by decide +kernel

/-- **C48.** What is passed to `EmissionSystemRecord(...)`, /repo/opendis/dis7.py:5240-5252,
is what the receiver gets. -/
theorem C48_EmissionSystemRecord (systemDataLength : Int) (emitterSystem : Option EmitterSystem)
    (location : Option Vector3Float) (beamRecords : List EmissionSystemBeamRecord)
    (hc : (EmissionSystemRecord.init systemDataLength emitterSystem location beamRecords).Canon)
    (b post : Bytes)
    (hb : (EmissionSystemRecord.init systemDataLength emitterSystem location beamRecords).serialize.Emits b) :
    ∃ q : EmissionSystemRecord, (EmissionSystemRecord.parse EmissionSystemRecord.init).Returns (b ++ post) q ∧
     q.systemDataLength = systemDataLength ∧
      q.emitterSystem = emitterSystem.getD EmitterSystem.init ∧
      q.location = location.getD Vector3Float.init ∧ q.beamRecords = beamRecords :=
  ⟨_, returns_of_rt (EmissionSystemRecord.rt _ _) (EmissionSystemRecord.after_canon hc) hb post,
    rfl, rfl, rfl, rfl⟩

example : let p := EmissionSystemRecord.init 2 (some (EmitterSystem.init 2 1 2)) (some (Vector3Float.init 0x3FF8000000000000 0x3FF8000000000000 0x3FF8000000000000)) [EmissionSystemBeamRecord.init 2 1 2 (some (EEFundamentalParameterData.init 0x3FF8000000000000 0x3FF8000000000000 0x3FF8000000000000 0x3FF8000000000000 0x3FF8000000000000 0x3FF8000000000000 0x3FF8000000000000 0x3FF8000000000000 0x3FF8000000000000 0x3FF8000000000000)) 2 1 (some (BeamStatus.init 3)) 1 [TrackJamData.init none 1 2]];
    p.serialize.res = .ok () ∧ (EmissionSystemRecord.parse EmissionSystemRecord.init ⟨p.serialize.out ++ [9], 0⟩).1 = .ok p := by decide +kernel

/-- **C48.** What is passed to `BeamAntennaPattern(...)`, /repo/opendis/record/radio/__init__.py:111-132,
is what the receiver gets. -/
theorem C48_BeamAntennaPattern (beamDirection : Option EulerAngles)
    (azimuthBeamwidth elevationBeamwidth : F64) (referenceSystem : Int) (ez ex phase : F64)
    (hc : (BeamAntennaPattern.init beamDirection azimuthBeamwidth elevationBeamwidth referenceSystem ez ex phase).Canon)
    (b post : Bytes) (n : Option Int) (hn : ∀ k, n = some k → 0 ≤ k)
    (hb : (BeamAntennaPattern.init beamDirection azimuthBeamwidth elevationBeamwidth referenceSystem ez ex phase).serialize.Emits b) :
    ∃ q : BeamAntennaPattern, (BeamAntennaPattern.parse BeamAntennaPattern.init n).Returns (b ++ post) q ∧
     q.beamDirection = beamDirection.getD EulerAngles.init ∧
      q.azimuthBeamwidth = azimuthBeamwidth ∧ q.elevationBeamwidth = elevationBeamwidth ∧
      q.referenceSystem = referenceSystem ∧ q.ez = ez ∧ q.ex = ex ∧ q.phase = phase :=
  ⟨_, returns_of_rt (BeamAntennaPattern.rt n hn _ _) (BeamAntennaPattern.after_canon hc) hb post,
    rfl, rfl, rfl, rfl, rfl, rfl, rfl⟩

example : let p := BeamAntennaPattern.init (some (EulerAngles.init 0x3FF8000000000000 0x3FF8000000000000 0x3FF8000000000000)) 0x3FF8000000000000 0x3FF8000000000000 1 0x3FF8000000000000 0x3FF8000000000000 0x3FF8000000000000;
    p.serialize.res = .ok () ∧ (BeamAntennaPattern.parse BeamAntennaPattern.init none ⟨p.serialize.out ++ [9], 0⟩).1 = .ok p := by decide +kernel

/-- **C48.** What is passed to `SpreadSpectrum(...)`, /repo/opendis/record/radio/__init__.py:189-197,
is what the receiver gets. -/
theorem C48_SpreadSpectrum (frequencyHopping pseudoNoise timeHopping : Bool) (padding : Int)
    (hc : (SpreadSpectrum.init frequencyHopping pseudoNoise timeHopping padding).Canon)
    (b post : Bytes)
    (hb : (SpreadSpectrum.init frequencyHopping pseudoNoise timeHopping padding).serialize.Emits b) :
    ∃ q : SpreadSpectrum, (SpreadSpectrum.parse SpreadSpectrum.init).Returns (b ++ post) q ∧
     q.frequencyHopping = frequencyHopping ∧ q.pseudoNoise = pseudoNoise ∧
      q.timeHopping = timeHopping ∧ q.padding = padding :=
  ⟨_, returns_of_rt (SpreadSpectrum.rt _ _) (SpreadSpectrum.after_canon hc) hb post,
    rfl, rfl, rfl, rfl⟩

example : let p := SpreadSpectrum.init true false true 0;
    p.serialize.res = .ok () ∧ (SpreadSpectrum.parse SpreadSpectrum.init ⟨p.serialize.out ++ [9], 0⟩).1 = .ok p := by decide +kernel

/-- **C48.** What is passed to `ModulationType(...)`, /repo/opendis/record/radio/__init__.py:224-233,
is what the receiver gets. -/
theorem C48_ModulationType (spreadSpectrum : Option SpreadSpectrum)
    (majorModulation detail radioSystem : Int)
    (hc : (ModulationType.init spreadSpectrum majorModulation detail radioSystem).Canon)
    (b post : Bytes)
    (hb : (ModulationType.init spreadSpectrum majorModulation detail radioSystem).serialize.Emits b) :
    ∃ q : ModulationType, (ModulationType.parse ModulationType.init).Returns (b ++ post) q ∧
     q.spreadSpectrum = spreadSpectrum.getD SpreadSpectrum.init ∧
      q.majorModulation = majorModulation ∧ q.detail = detail ∧ q.radioSystem = radioSystem :=
  ⟨_, returns_of_rt (ModulationType.rt _ _) (ModulationType.after_canon hc) hb post,
    rfl, rfl, rfl, rfl⟩

example : let p := ModulationType.init (some (SpreadSpectrum.init true false true 0)) 1 2 1;
    p.serialize.res = .ok () ∧ (ModulationType.parse ModulationType.init ⟨p.serialize.out ++ [9], 0⟩).1 = .ok p := by decide +kernel

/-- **C48.** What is passed to `NetId(...)`, /repo/opendis/record/radio/__init__.py:283-292,
is what the receiver gets. -/
theorem C48_NetId (netNumber frequencyTable mode padding : Int)
    (hc : (NetId.init netNumber frequencyTable mode padding).Canon)
    (b post : Bytes)
    (hb : (NetId.init netNumber frequencyTable mode padding).serialize.Emits b) :
    ∃ q : NetId, (NetId.parse NetId.init).Returns (b ++ post) q ∧
     q.netNumber = netNumber ∧ q.frequencyTable = frequencyTable ∧ q.mode = mode ∧
      q.padding = padding :=
  ⟨_, returns_of_rt (NetId.rt _ _) (NetId.after_canon hc) hb post,
    rfl, rfl, rfl, rfl⟩

example : let p := NetId.init 2 1 2 1;
    p.serialize.res = .ok () ∧ (NetId.parse NetId.init ⟨p.serialize.out ++ [9], 0⟩).1 = .ok p := by decide +kernel

/-- **C48.** What is passed to `BasicHaveQuickMP(...)`, /repo/opendis/record/radio/__init__.py:360-374,
is what the receiver gets. -/
theorem C48_BasicHaveQuickMP (net_id : Option NetId)
    (mwod_index reserved16 reserved8_1 reserved8_2 time_of_day padding : Int)
    (hc : (BasicHaveQuickMP.init net_id mwod_index reserved16 reserved8_1 reserved8_2 time_of_day padding).Canon)
    (b post : Bytes) (n : Option Int) (hn : ∀ k, n = some k → 0 ≤ k)
    (hb : (BasicHaveQuickMP.init net_id mwod_index reserved16 reserved8_1 reserved8_2 time_of_day padding).serialize.Emits b) :
    ∃ q : BasicHaveQuickMP, (BasicHaveQuickMP.parse BasicHaveQuickMP.init n).Returns (b ++ post) q ∧
     q.net_id = net_id.getD NetId.init ∧ q.mwod_index = mwod_index ∧ q.reserved16 = reserved16 ∧
      q.reserved8_1 = reserved8_1 ∧ q.reserved8_2 = reserved8_2 ∧ q.time_of_day = time_of_day ∧
      q.padding = padding :=
  ⟨_, returns_of_rt (BasicHaveQuickMP.rt n hn _ _) (BasicHaveQuickMP.after_canon hc) hb post,
    rfl, rfl, rfl, rfl, rfl, rfl, rfl⟩

example : let p := BasicHaveQuickMP.init (some (NetId.init 2 1 2 1)) 1 2 1 2 1 2;
    p.serialize.res = .ok () ∧ (BasicHaveQuickMP.parse BasicHaveQuickMP.init none ⟨p.serialize.out ++ [9], 0⟩).1 = .ok p := by decide +kernel

/-- **C48.** What is passed to `CCTTSincgarsMP(...)`, /repo/opendis/record/radio/__init__.py:406-421,
is what the receiver gets. -/
theorem C48_CCTTSincgarsMP
    (fh_net_id hop_set_id lockout_set_id start_of_message clear_channel fh_sync_time_offset transmission_security_key : Int)
    (hc : (CCTTSincgarsMP.init fh_net_id hop_set_id lockout_set_id start_of_message clear_channel fh_sync_time_offset transmission_security_key).Canon)
    (b post : Bytes) (n : Option Int) (hn : ∀ k, n = some k → 0 ≤ k)
    (hb : (CCTTSincgarsMP.init fh_net_id hop_set_id lockout_set_id start_of_message clear_channel fh_sync_time_offset transmission_security_key).serialize.Emits b) :
    ∃ q : CCTTSincgarsMP, (CCTTSincgarsMP.parse CCTTSincgarsMP.init n).Returns (b ++ post) q ∧
     q.fh_net_id = fh_net_id ∧ q.hop_set_id = hop_set_id ∧ q.lockout_set_id = lockout_set_id ∧
      q.start_of_message = start_of_message ∧ q.clear_channel = clear_channel ∧
      q.fh_sync_time_offset = fh_sync_time_offset ∧
      q.transmission_security_key = transmission_security_key :=
  ⟨_, returns_of_rt (CCTTSincgarsMP.rt n hn _ _) (CCTTSincgarsMP.after_canon hc) hb post,
    rfl, rfl, rfl, rfl, rfl, rfl, rfl⟩

example : let p := CCTTSincgarsMP.init 2 1 2 1 2 1 2;
    p.serialize.res = .ok () ∧ (CCTTSincgarsMP.parse CCTTSincgarsMP.init none ⟨p.serialize.out ++ [9], 0⟩).1 = .ok p := by decide +kernel

/-- **C48.** What is passed to `DEFireFlags(...)`, /repo/opendis/record/warfare/enums.py:17-23,
is what the receiver gets. -/
theorem C48_DEFireFlags (weaponOn stateUpdateFlag : Int)
    (hc : (DEFireFlags.init weaponOn stateUpdateFlag).Canon)
    (b post : Bytes)
    (hb : (DEFireFlags.init weaponOn stateUpdateFlag).serialize.Emits b) :
    ∃ q : DEFireFlags, (DEFireFlags.parse DEFireFlags.init).Returns (b ++ post) q ∧
     q.weaponOn = weaponOn ∧ q.stateUpdateFlag = stateUpdateFlag :=
  ⟨_, returns_of_rt (DEFireFlags.rt _ _) (DEFireFlags.after_canon hc) hb post,
    rfl, rfl⟩

example : let p := DEFireFlags.init 1 0;
    p.serialize.res = .ok () ∧ (DEFireFlags.parse DEFireFlags.init ⟨p.serialize.out ++ [9], 0⟩).1 = .ok p := by decide +kernel

/-- **C48.** What is passed to `DirectedEnergyTargetEnergyDeposition(...)`, /repo/opendis/record/warfare/__init__.py:260-265,
is what the receiver gets. -/
theorem C48_DirectedEnergyTargetEnergyDeposition (targetEntityID : Option EntityIdentifier)
    (peakIrradiance : F64)
    (hc : (DirectedEnergyTargetEnergyDeposition.init targetEntityID peakIrradiance).Canon)
    (b post : Bytes)
    (hb : (DirectedEnergyTargetEnergyDeposition.init targetEntityID peakIrradiance).serialize.Emits b) :
    ∃ q : DirectedEnergyTargetEnergyDeposition, (DirectedEnergyTargetEnergyDeposition.parse DirectedEnergyTargetEnergyDeposition.init).Returns (b ++ post) q ∧
     q.targetEntityID = targetEntityID.getD EntityIdentifier.init ∧
      q.peakIrradiance = peakIrradiance :=
  ⟨_, returns_of_rt (DirectedEnergyTargetEnergyDeposition.rt _ _) (DirectedEnergyTargetEnergyDeposition.after_canon hc) hb post,
    rfl, rfl⟩

example : let p := DirectedEnergyTargetEnergyDeposition.init (some (EntityIdentifier.init (some (SimulationAddress.init 2 1)) 1)) 0x3FF8000000000000;
    p.serialize.res = .ok () ∧ (DirectedEnergyTargetEnergyDeposition.parse DirectedEnergyTargetEnergyDeposition.init ⟨p.serialize.out ++ [9], 0⟩).1 = .ok p := by decide +kernel

end Dis
