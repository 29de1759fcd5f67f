import Verif.Proof.SourceInit
import Verif.Proof.SourceRun5
import Verif.Proof.SourceHand
import Verif.Proof.SourceSpecialLaw
import Verif.Proof.SourceDirected
import Verif.Proof.SourceInit1

/-!
# Constructors with arguments, class by class, part 3 (C77)

Written by `tools/gensourceinit.py`.
-/

namespace Dis.Src

theorem EventIdentifierLiveEntity.makesOf (n : Nat) (a1 : Int) (a2 : Int) (a3 : Int) :
    MakesOf (run (n + 1)) I.EventIdentifierLiveEntity [.int a1, .int a2, .int a3] (EventIdentifierLiveEntity.enc (Dis.EventIdentifierLiveEntity.init a1 a2 a3)) :=
  made_with (n := n + 0) (d := I.EventIdentifierLiveEntity) (f := EventIdentifierLiveEntity.__init__) (env := [(I.self, .obj I.EventIdentifierLiveEntity (classAttrs program 16 I.EventIdentifierLiveEntity)), (I.__class__, .cls I.EventIdentifierLiveEntity), (I.eventNumber, .int a3), (I.siteNumber, .int a1), (I.applicationNumber, .int a2)])
    (by kernel_rfl) rfl rfl rfl (by kernel_rfl) (by kernel_rfl) (by kernel_rfl) (by kernel_rfl) <|
    inits_set (fun _ => gives_name rfl) (by kernel_rfl) <|
    inits_set (fun _ => gives_name rfl) (by kernel_rfl) <|
    inits_set (fun _ => gives_name rfl) (by kernel_rfl) <|
    inits_nil (by kernel_rfl)

theorem ExpendableDescriptor.makesOf (n : Nat) (a1 : Option Dis.EntityType) :
    MakesOf (run (n + 2)) I.ExpendableDescriptor [optArg EntityType.enc a1] (ExpendableDescriptor.enc (Dis.ExpendableDescriptor.init a1)) :=
  made_with (n := n + 1) (d := I.ExpendableDescriptor) (f := ExpendableDescriptor.__init__) (env := [(I.self, .obj I.ExpendableDescriptor (classAttrs program 16 I.ExpendableDescriptor)), (I.__class__, .cls I.ExpendableDescriptor), (I.expendableType, optArg EntityType.enc a1)])
    (by kernel_rfl) rfl rfl rfl (by kernel_rfl) (by kernel_rfl) (by kernel_rfl) (by kernel_rfl) <|
    inits_set (fun _ => gives_or_new rfl (EntityType.makes (n + 0)) (fun _ => rfl)) (by kernel_rfl) <|
    inits_set (fun _ => gives_int) (by kernel_rfl) <|
    inits_nil (by kernel_rfl)

theorem PropulsionSystemData.makesOf (n : Nat) (a1 : F64) (a2 : F64) :
    MakesOf (run (n + 1)) I.PropulsionSystemData [.float a1, .float a2] (PropulsionSystemData.enc (Dis.PropulsionSystemData.init a1 a2)) :=
  made_with (n := n + 0) (d := I.PropulsionSystemData) (f := PropulsionSystemData.__init__) (env := [(I.self, .obj I.PropulsionSystemData (classAttrs program 16 I.PropulsionSystemData)), (I.__class__, .cls I.PropulsionSystemData), (I.powerSetting, .float a1), (I.engineRpm, .float a2)])
    (by kernel_rfl) rfl rfl rfl (by kernel_rfl) (by kernel_rfl) (by kernel_rfl) (by kernel_rfl) <|
    inits_set (fun _ => gives_name rfl) (by kernel_rfl) <|
    inits_set (fun _ => gives_name rfl) (by kernel_rfl) <|
    inits_nil (by kernel_rfl)

theorem LiveEntityIdentifier.makesOf (n : Nat) (a1 : Option Dis.LiveSimulationAddress) (a2 : Int) :
    MakesOf (run (n + 2)) I.LiveEntityIdentifier [optArg LiveSimulationAddress.enc a1, .int a2] (LiveEntityIdentifier.enc (Dis.LiveEntityIdentifier.init a1 a2)) :=
  made_with (n := n + 1) (d := I.LiveEntityIdentifier) (f := LiveEntityIdentifier.__init__) (env := [(I.self, .obj I.LiveEntityIdentifier (classAttrs program 16 I.LiveEntityIdentifier)), (I.__class__, .cls I.LiveEntityIdentifier), (I.entityNumber, .int a2), (I.liveSimulationAddress, optArg LiveSimulationAddress.enc a1)])
    (by kernel_rfl) rfl rfl rfl (by kernel_rfl) (by kernel_rfl) (by kernel_rfl) (by kernel_rfl) <|
    inits_set (fun _ => gives_or_new rfl (LiveSimulationAddress.makes (n + 0)) (fun _ => rfl)) (by kernel_rfl) <|
    inits_set (fun _ => gives_name rfl) (by kernel_rfl) <|
    inits_nil (by kernel_rfl)

theorem EmitterSystem.makesOf (n : Nat) (a1 : Int) (a2 : Int) (a3 : Int) :
    MakesOf (run (n + 1)) I.EmitterSystem [.int a1, .int a2, .int a3] (EmitterSystem.enc (Dis.EmitterSystem.init a1 a2 a3)) :=
  made_with (n := n + 0) (d := I.EmitterSystem) (f := EmitterSystem.__init__) (env := [(I.self, .obj I.EmitterSystem (classAttrs program 16 I.EmitterSystem)), (I.__class__, .cls I.EmitterSystem), (I.emitterName, .int a1), (I.emitterFunction, .int a2), (I.emitterIDNumber, .int a3)])
    (by kernel_rfl) rfl rfl rfl (by kernel_rfl) (by kernel_rfl) (by kernel_rfl) (by kernel_rfl) <|
    inits_set (fun _ => gives_name rfl) (by kernel_rfl) <|
    inits_set (fun _ => gives_name rfl) (by kernel_rfl) <|
    inits_set (fun _ => gives_name rfl) (by kernel_rfl) <|
    inits_nil (by kernel_rfl)

theorem PduStatus.makesOf (n : Nat) (a1 : Int) :
    MakesOf (run (n + 1)) I.PduStatus [.int a1] (PduStatus.enc (Dis.PduStatus.init a1)) :=
  made_with (n := n + 0) (d := I.PduStatus) (f := PduStatus.__init__) (env := [(I.pduStatus, .int a1), (I.self, .obj I.PduStatus (classAttrs program 16 I.PduStatus)), (I.__class__, .cls I.PduStatus)])
    (by kernel_rfl) rfl rfl rfl (by kernel_rfl) (by kernel_rfl) (by kernel_rfl) (by kernel_rfl) <|
    inits_set (fun _ => gives_name rfl) (by kernel_rfl) <|
    inits_nil (by kernel_rfl)

theorem EmissionSystemBeamRecord.makesOf (n : Nat) (a1 : Int) (a2 : Int) (a3 : Int) (a4 : Dis.EEFundamentalParameterData) (a5 : Int) (a6 : Int) (a7 : Option Dis.BeamStatus) (a8 : Int) (a9 : Option (List Dis.TrackJamData)) :
    MakesOf (run (n + 2)) I.EmissionSystemBeamRecord [.int a1, .int a2, .int a3, EEFundamentalParameterData.enc a4, .int a5, .int a6, optArg BeamStatus.enc a7, .int a8, listArg TrackJamData.enc a9] (EmissionSystemBeamRecord.enc (Dis.EmissionSystemBeamRecord.init a1 a2 a3 (some a4) a5 a6 a7 a8 (a9.getD []))) :=
  made_with (n := n + 1) (d := I.EmissionSystemBeamRecord) (f := EmissionSystemBeamRecord.__init__) (env := [(I.self, .obj I.EmissionSystemBeamRecord (classAttrs program 16 I.EmissionSystemBeamRecord)), (I.__class__, .cls I.EmissionSystemBeamRecord), (I.beamDataLength, .int a1), (I.beamIDNumber, .int a2), (I.beamParameterIndex, .int a3), (I.fundamentalParameterData, EEFundamentalParameterData.enc a4), (I.beamFunction, .int a5), (I.highDensityTrackJam, .int a6), (I.beamStatus, optArg BeamStatus.enc a7), (I.jammingModeSequence, .int a8), (I.trackJamRecords, listArg TrackJamData.enc a9)])
    (by kernel_rfl) rfl rfl rfl (by kernel_rfl) (by kernel_rfl) (by kernel_rfl) (by kernel_rfl) <|
    inits_set (fun _ => gives_name rfl) (by kernel_rfl) <|
    inits_set (fun _ => gives_name rfl) (by kernel_rfl) <|
    inits_set (fun _ => gives_name rfl) (by kernel_rfl) <|
    inits_set (fun _ => gives_or_given rfl rfl) (by kernel_rfl) <|
    inits_set (fun _ => gives_name rfl) (by kernel_rfl) <|
    inits_set (fun _ => gives_name rfl) (by kernel_rfl) <|
    inits_set (fun _ => gives_or_new rfl (BeamStatus.makes (n + 0)) (fun _ => rfl)) (by kernel_rfl) <|
    inits_set (fun _ => gives_name rfl) (by kernel_rfl) <|
    inits_set (fun _ => gives_or_nil rfl) (by kernel_rfl) <|
    inits_nil (by kernel_rfl)

theorem EmissionSystemRecord.makesOf (n : Nat) (a1 : Int) (a2 : Option Dis.EmitterSystem) (a3 : Option Dis.Vector3Float) (a4 : Option (List Dis.EmissionSystemBeamRecord)) :
    MakesOf (run (n + 2)) I.EmissionSystemRecord [.int a1, optArg EmitterSystem.enc a2, optArg Vector3Float.enc a3, listArg EmissionSystemBeamRecord.enc a4] (EmissionSystemRecord.enc (Dis.EmissionSystemRecord.init a1 a2 a3 (a4.getD []))) :=
  made_with (n := n + 1) (d := I.EmissionSystemRecord) (f := EmissionSystemRecord.__init__) (env := [(I.self, .obj I.EmissionSystemRecord (classAttrs program 16 I.EmissionSystemRecord)), (I.__class__, .cls I.EmissionSystemRecord), (I.location, optArg Vector3Float.enc a3), (I.systemDataLength, .int a1), (I.emitterSystem, optArg EmitterSystem.enc a2), (I.beamRecords, listArg EmissionSystemBeamRecord.enc a4)])
    (by kernel_rfl) rfl rfl rfl (by kernel_rfl) (by kernel_rfl) (by kernel_rfl) (by kernel_rfl) <|
    inits_set (fun _ => gives_name rfl) (by kernel_rfl) <|
    inits_set (fun _ => gives_int) (by kernel_rfl) <|
    inits_set (fun _ => gives_or_new rfl (EmitterSystem.makes (n + 0)) (fun _ => rfl)) (by kernel_rfl) <|
    inits_set (fun _ => gives_or_new rfl (Vector3Float.makes (n + 0)) (fun _ => rfl)) (by kernel_rfl) <|
    inits_set (fun _ => gives_or_nil rfl) (by kernel_rfl) <|
    inits_nil (by kernel_rfl)

theorem EntityStateUpdatePdu.makesOf (n : Nat) (a1 : Option Dis.EntityIdentifier) (a2 : Option Dis.Vector3Float) (a3 : Option Dis.WorldCoordinates) (a4 : Option Dis.EulerAngles) (a5 : Int) (a6 : Option (List Dis.VariableParameter)) :
    MakesOf (run (n + 4)) I.EntityStateUpdatePdu [optArg EntityIdentifier.enc a1, optArg Vector3Float.enc a2, optArg WorldCoordinates.enc a3, optArg EulerAngles.enc a4, .int a5, listArg VariableParameter.enc a6] (EntityStateUpdatePdu.enc (Dis.EntityStateUpdatePdu.init a1 a2 a3 a4 a5 (a6.getD []))) :=
  made_with (n := n + 3) (d := I.EntityStateUpdatePdu) (f := EntityStateUpdatePdu.__init__) (env := [(I.self, .obj I.EntityStateUpdatePdu (classAttrs program 16 I.EntityStateUpdatePdu)), (I.__class__, .cls I.EntityStateUpdatePdu), (I.entityID, optArg EntityIdentifier.enc a1), (I.entityLinearVelocity, optArg Vector3Float.enc a2), (I.entityLocation, optArg WorldCoordinates.enc a3), (I.entityOrientation, optArg EulerAngles.enc a4), (I.entityAppearance, .int a5), (I.variableParameters, listArg VariableParameter.enc a6)])
    (by kernel_rfl) rfl rfl rfl (by kernel_rfl) (by kernel_rfl) (by kernel_rfl) (by kernel_rfl) <|
    inits_super (fs1 := EntityInformationFamilyPdu.fields Dis.EntityStateUpdatePdu.init.toEntityInformationFamilyPdu) (.inl rfl) EntityStateUpdatePdu.found rfl (fun _ => by kernel_rfl) <|
    inits_set (fun _ => gives_or_new rfl (EntityIdentifier.makes (n + 1)) (fun _ => rfl)) (by kernel_rfl) <|
    inits_set (fun _ => gives_int) (by kernel_rfl) <|
    inits_set (fun _ => gives_or_new rfl (Vector3Float.makes (n + 2)) (fun _ => rfl)) (by kernel_rfl) <|
    inits_set (fun _ => gives_or_new rfl (WorldCoordinates.makes (n + 2)) (fun _ => rfl)) (by kernel_rfl) <|
    inits_set (fun _ => gives_or_new rfl (EulerAngles.makes (n + 2)) (fun _ => rfl)) (by kernel_rfl) <|
    inits_set (fun _ => gives_name rfl) (by kernel_rfl) <|
    inits_set (fun _ => gives_or_nil rfl) (by kernel_rfl) <|
    inits_nil (by kernel_rfl)

theorem ServiceRequestPdu.makesOf (n : Nat) (a1 : Option Dis.EntityIdentifier) (a2 : Option Dis.EntityIdentifier) (a3 : Int) (a4 : Option (List Dis.SupplyQuantity)) :
    MakesOf (run (n + 4)) I.ServiceRequestPdu [optArg EntityIdentifier.enc a1, optArg EntityIdentifier.enc a2, .int a3, listArg SupplyQuantity.enc a4] (ServiceRequestPdu.enc (Dis.ServiceRequestPdu.init a1 a2 a3 (a4.getD []))) :=
  made_with (n := n + 3) (d := I.ServiceRequestPdu) (f := ServiceRequestPdu.__init__) (env := [(I.self, .obj I.ServiceRequestPdu (classAttrs program 16 I.ServiceRequestPdu)), (I.__class__, .cls I.ServiceRequestPdu), (I.requestingEntityID, optArg EntityIdentifier.enc a1), (I.servicingEntityID, optArg EntityIdentifier.enc a2), (I.serviceTypeRequested, .int a3), (I.supplies, listArg SupplyQuantity.enc a4)])
    (by kernel_rfl) rfl rfl rfl (by kernel_rfl) (by kernel_rfl) (by kernel_rfl) (by kernel_rfl) <|
    inits_super (fs1 := LogisticsFamilyPdu.fields Dis.ServiceRequestPdu.init.toLogisticsFamilyPdu) (.inl rfl) ServiceRequestPdu.found rfl (fun _ => by kernel_rfl) <|
    inits_set (fun _ => gives_or_new rfl (EntityIdentifier.makes (n + 1)) (fun _ => rfl)) (by kernel_rfl) <|
    inits_set (fun _ => gives_or_new rfl (EntityIdentifier.makes (n + 1)) (fun _ => rfl)) (by kernel_rfl) <|
    inits_set (fun _ => gives_name rfl) (by kernel_rfl) <|
    inits_set (fun _ => gives_int) (by kernel_rfl) <|
    inits_set (fun _ => gives_or_nil rfl) (by kernel_rfl) <|
    inits_nil (by kernel_rfl)

theorem RepairCompletePdu.makesOf (n : Nat) (a1 : Option Dis.EntityIdentifier) (a2 : Option Dis.EntityIdentifier) (a3 : Int) :
    MakesOf (run (n + 4)) I.RepairCompletePdu [optArg EntityIdentifier.enc a1, optArg EntityIdentifier.enc a2, .int a3] (RepairCompletePdu.enc (Dis.RepairCompletePdu.init a1 a2 a3)) :=
  made_with (n := n + 3) (d := I.RepairCompletePdu) (f := RepairCompletePdu.__init__) (env := [(I.receivingEntityID, optArg EntityIdentifier.enc a1), (I.self, .obj I.RepairCompletePdu (classAttrs program 16 I.RepairCompletePdu)), (I.__class__, .cls I.RepairCompletePdu), (I.repairingEntityID, optArg EntityIdentifier.enc a2), (I.repair, .int a3)])
    (by kernel_rfl) rfl rfl rfl (by kernel_rfl) (by kernel_rfl) (by kernel_rfl) (by kernel_rfl) <|
    inits_super (fs1 := LogisticsFamilyPdu.fields Dis.RepairCompletePdu.init.toLogisticsFamilyPdu) (.inl rfl) RepairCompletePdu.found rfl (fun _ => by kernel_rfl) <|
    inits_set (fun _ => gives_or_new rfl (EntityIdentifier.makes (n + 1)) (fun _ => rfl)) (by kernel_rfl) <|
    inits_set (fun _ => gives_or_new rfl (EntityIdentifier.makes (n + 1)) (fun _ => rfl)) (by kernel_rfl) <|
    inits_set (fun _ => gives_name rfl) (by kernel_rfl) <|
    inits_set (fun _ => gives_int) (by kernel_rfl) <|
    inits_nil (by kernel_rfl)

theorem CollisionPdu.makesOf (n : Nat) (a1 : Option Dis.EntityIdentifier) (a2 : Option Dis.EntityIdentifier) (a3 : Option Dis.EventIdentifier) (a4 : Int) (a5 : Option Dis.Vector3Float) (a6 : F64) (a7 : Option Dis.Vector3Float) :
    MakesOf (run (n + 4)) I.CollisionPdu [optArg EntityIdentifier.enc a1, optArg EntityIdentifier.enc a2, optArg EventIdentifier.enc a3, .int a4, optArg Vector3Float.enc a5, .float a6, optArg Vector3Float.enc a7] (CollisionPdu.enc (Dis.CollisionPdu.init a1 a2 a3 a4 a5 a6 a7)) :=
  made_with (n := n + 3) (d := I.CollisionPdu) (f := CollisionPdu.__init__) (env := [(I.self, .obj I.CollisionPdu (classAttrs program 16 I.CollisionPdu)), (I.__class__, .cls I.CollisionPdu), (I.issuingEntityID, optArg EntityIdentifier.enc a1), (I.collidingEntityID, optArg EntityIdentifier.enc a2), (I.eventID, optArg EventIdentifier.enc a3), (I.collisionType, .int a4), (I.velocity, optArg Vector3Float.enc a5), (I.mass, .float a6), (I.location, optArg Vector3Float.enc a7)])
    (by kernel_rfl) rfl rfl rfl (by kernel_rfl) (by kernel_rfl) (by kernel_rfl) (by kernel_rfl) <|
    inits_super (fs1 := EntityInformationFamilyPdu.fields Dis.CollisionPdu.init.toEntityInformationFamilyPdu) (.inl rfl) CollisionPdu.found rfl (fun _ => by kernel_rfl) <|
    inits_set (fun _ => gives_or_new rfl (EntityIdentifier.makes (n + 1)) (fun _ => rfl)) (by kernel_rfl) <|
    inits_set (fun _ => gives_or_new rfl (EntityIdentifier.makes (n + 1)) (fun _ => rfl)) (by kernel_rfl) <|
    inits_set (fun _ => gives_or_new rfl (EventIdentifier.makes (n + 1)) (fun _ => rfl)) (by kernel_rfl) <|
    inits_set (fun _ => gives_name rfl) (by kernel_rfl) <|
    inits_set (fun _ => gives_int) (by kernel_rfl) <|
    inits_set (fun _ => gives_or_new rfl (Vector3Float.makes (n + 2)) (fun _ => rfl)) (by kernel_rfl) <|
    inits_set (fun _ => gives_name rfl) (by kernel_rfl) <|
    inits_set (fun _ => gives_or_new rfl (Vector3Float.makes (n + 2)) (fun _ => rfl)) (by kernel_rfl) <|
    inits_nil (by kernel_rfl)

theorem RepairResponsePdu.makesOf (n : Nat) (a1 : Option Dis.EntityIdentifier) (a2 : Option Dis.EntityIdentifier) (a3 : Int) :
    MakesOf (run (n + 4)) I.RepairResponsePdu [optArg EntityIdentifier.enc a1, optArg EntityIdentifier.enc a2, .int a3] (RepairResponsePdu.enc (Dis.RepairResponsePdu.init a1 a2 a3)) :=
  made_with (n := n + 3) (d := I.RepairResponsePdu) (f := RepairResponsePdu.__init__) (env := [(I.receivingEntityID, optArg EntityIdentifier.enc a1), (I.self, .obj I.RepairResponsePdu (classAttrs program 16 I.RepairResponsePdu)), (I.__class__, .cls I.RepairResponsePdu), (I.repairingEntityID, optArg EntityIdentifier.enc a2), (I.repairResult, .int a3)])
    (by kernel_rfl) rfl rfl rfl (by kernel_rfl) (by kernel_rfl) (by kernel_rfl) (by kernel_rfl) <|
    inits_super (fs1 := LogisticsFamilyPdu.fields Dis.RepairResponsePdu.init.toLogisticsFamilyPdu) (.inl rfl) RepairResponsePdu.found rfl (fun _ => by kernel_rfl) <|
    inits_set (fun _ => gives_or_new rfl (EntityIdentifier.makes (n + 1)) (fun _ => rfl)) (by kernel_rfl) <|
    inits_set (fun _ => gives_or_new rfl (EntityIdentifier.makes (n + 1)) (fun _ => rfl)) (by kernel_rfl) <|
    inits_set (fun _ => gives_name rfl) (by kernel_rfl) <|
    inits_set (fun _ => gives_int) (by kernel_rfl) <|
    inits_set (fun _ => gives_int) (by kernel_rfl) <|
    inits_nil (by kernel_rfl)

theorem DataQueryPdu.makesOf (n : Nat) (a1 : Int) (a2 : Int) (a3 : Option (List Int)) (a4 : Option (List Int)) :
    MakesOf (run (n + 4)) I.DataQueryPdu [.int a1, .int a2, listArg Val.int a3, listArg Val.int a4] (DataQueryPdu.enc (Dis.DataQueryPdu.init a1 a2 (a3.getD []) (a4.getD []))) :=
  made_with (n := n + 3) (d := I.DataQueryPdu) (f := DataQueryPdu.__init__) (env := [(I.self, .obj I.DataQueryPdu (classAttrs program 16 I.DataQueryPdu)), (I.__class__, .cls I.DataQueryPdu), (I.fixedDatumIDs, listArg Val.int a3), (I.variableDatumIDs, listArg Val.int a4), (I.requestID, .int a1), (I.timeInterval, .int a2)])
    (by kernel_rfl) rfl rfl rfl (by kernel_rfl) (by kernel_rfl) (by kernel_rfl) (by kernel_rfl) <|
    inits_super (fs1 := SimulationManagementFamilyPdu.fields Dis.DataQueryPdu.init.toSimulationManagementFamilyPdu) (.inl rfl) DataQueryPdu.found rfl (fun _ => by kernel_rfl) <|
    inits_set (fun _ => gives_int) (by kernel_rfl) <|
    inits_set (fun _ => gives_int) (by kernel_rfl) <|
    inits_set (fun _ => gives_make (DataQueryDatumSpecification.makesOf (n + 2) (some _) (some _)) (fun _ hst => args_two (gives_or_nil rfl) (gives_or_nil rfl) hst) rfl rfl) (by kernel_rfl) <|
    inits_nil (by kernel_rfl)

theorem CreateEntityPdu.makesOf (n : Nat) (a1 : Int) :
    MakesOf (run (n + 4)) I.CreateEntityPdu [.int a1] (CreateEntityPdu.enc (Dis.CreateEntityPdu.init a1)) :=
  made_with (n := n + 3) (d := I.CreateEntityPdu) (f := CreateEntityPdu.__init__) (env := [(I.self, .obj I.CreateEntityPdu (classAttrs program 16 I.CreateEntityPdu)), (I.__class__, .cls I.CreateEntityPdu), (I.requestID, .int a1)])
    (by kernel_rfl) rfl rfl rfl (by kernel_rfl) (by kernel_rfl) (by kernel_rfl) (by kernel_rfl) <|
    inits_super (fs1 := SimulationManagementFamilyPdu.fields Dis.CreateEntityPdu.init.toSimulationManagementFamilyPdu) (.inl rfl) CreateEntityPdu.found rfl (fun _ => by kernel_rfl) <|
    inits_set (fun _ => gives_name rfl) (by kernel_rfl) <|
    inits_nil (by kernel_rfl)

theorem IntercomSignalPdu.makesOf (n : Nat) (a1 : Option Dis.EntityIdentifier) (a2 : Int) (a3 : Int) (a4 : Int) (a5 : Int) (a6 : Int) (a7 : Option (List Int)) :
    MakesOf (run (n + 4)) I.IntercomSignalPdu [optArg EntityIdentifier.enc a1, .int a2, .int a3, .int a4, .int a5, .int a6, listArg Val.int a7] (IntercomSignalPdu.enc (Dis.IntercomSignalPdu.init a1 a2 a3 a4 a5 a6 (a7.getD []))) :=
  made_with (n := n + 3) (d := I.IntercomSignalPdu) (f := IntercomSignalPdu.__init__) (env := [(I.self, .obj I.IntercomSignalPdu (classAttrs program 16 I.IntercomSignalPdu)), (I.__class__, .cls I.IntercomSignalPdu), (I.data, listArg Val.int a7), (I.entityID, optArg EntityIdentifier.enc a1), (I.communicationsDeviceID, .int a2), (I.encodingScheme, .int a3), (I.tdlType, .int a4), (I.sampleRate, .int a5), (I.samples, .int a6)])
    (by kernel_rfl) rfl rfl rfl (by kernel_rfl) (by kernel_rfl) (by kernel_rfl) (by kernel_rfl) <|
    inits_super (fs1 := RadioCommunicationsFamilyPdu.fields Dis.IntercomSignalPdu.init.toRadioCommunicationsFamilyPdu) (.inl rfl) IntercomSignalPdu.found rfl (fun _ => by kernel_rfl) <|
    inits_set (fun _ => gives_or_new rfl (EntityIdentifier.makes (n + 1)) (fun _ => rfl)) (by kernel_rfl) <|
    inits_set (fun _ => gives_name rfl) (by kernel_rfl) <|
    inits_set (fun _ => gives_name rfl) (by kernel_rfl) <|
    inits_set (fun _ => gives_name rfl) (by kernel_rfl) <|
    inits_set (fun _ => gives_name rfl) (by kernel_rfl) <|
    inits_set (fun _ => gives_name rfl) (by kernel_rfl) <|
    inits_set (fun _ => gives_or_nil rfl) (by kernel_rfl) <|
    inits_nil (by kernel_rfl)

theorem RemoveEntityPdu.makesOf (n : Nat) (a1 : Int) :
    MakesOf (run (n + 4)) I.RemoveEntityPdu [.int a1] (RemoveEntityPdu.enc (Dis.RemoveEntityPdu.init a1)) :=
  made_with (n := n + 3) (d := I.RemoveEntityPdu) (f := RemoveEntityPdu.__init__) (env := [(I.self, .obj I.RemoveEntityPdu (classAttrs program 16 I.RemoveEntityPdu)), (I.__class__, .cls I.RemoveEntityPdu), (I.requestID, .int a1)])
    (by kernel_rfl) rfl rfl rfl (by kernel_rfl) (by kernel_rfl) (by kernel_rfl) (by kernel_rfl) <|
    inits_super (fs1 := SimulationManagementFamilyPdu.fields Dis.RemoveEntityPdu.init.toSimulationManagementFamilyPdu) (.inl rfl) RemoveEntityPdu.found rfl (fun _ => by kernel_rfl) <|
    inits_set (fun _ => gives_name rfl) (by kernel_rfl) <|
    inits_nil (by kernel_rfl)

theorem ResupplyReceivedPdu.makesOf (n : Nat) (a1 : Option Dis.EntityIdentifier) (a2 : Option Dis.EntityIdentifier) (a3 : Option (List Dis.SupplyQuantity)) :
    MakesOf (run (n + 4)) I.ResupplyReceivedPdu [optArg EntityIdentifier.enc a1, optArg EntityIdentifier.enc a2, listArg SupplyQuantity.enc a3] (ResupplyReceivedPdu.enc (Dis.ResupplyReceivedPdu.init a1 a2 (a3.getD []))) :=
  made_with (n := n + 3) (d := I.ResupplyReceivedPdu) (f := ResupplyReceivedPdu.__init__) (env := [(I.receivingEntityID, optArg EntityIdentifier.enc a1), (I.self, .obj I.ResupplyReceivedPdu (classAttrs program 16 I.ResupplyReceivedPdu)), (I.__class__, .cls I.ResupplyReceivedPdu), (I.supplies, listArg SupplyQuantity.enc a3), (I.supplyingEntityID, optArg EntityIdentifier.enc a2)])
    (by kernel_rfl) rfl rfl rfl (by kernel_rfl) (by kernel_rfl) (by kernel_rfl) (by kernel_rfl) <|
    inits_super (fs1 := LogisticsFamilyPdu.fields Dis.ResupplyReceivedPdu.init.toLogisticsFamilyPdu) (.inl rfl) ResupplyReceivedPdu.found rfl (fun _ => by kernel_rfl) <|
    inits_set (fun _ => gives_or_new rfl (EntityIdentifier.makes (n + 1)) (fun _ => rfl)) (by kernel_rfl) <|
    inits_set (fun _ => gives_or_new rfl (EntityIdentifier.makes (n + 1)) (fun _ => rfl)) (by kernel_rfl) <|
    inits_set (fun _ => gives_int) (by kernel_rfl) <|
    inits_set (fun _ => gives_int) (by kernel_rfl) <|
    inits_set (fun _ => gives_or_nil rfl) (by kernel_rfl) <|
    inits_nil (by kernel_rfl)

theorem CollisionElasticPdu.makesOf (n : Nat) (a1 : Option Dis.EntityIdentifier) (a2 : Option Dis.EntityIdentifier) (a3 : Option Dis.EventIdentifier) (a4 : Option Dis.Vector3Float) (a5 : F64) (a6 : Option Dis.Vector3Float) (a7 : F64) (a8 : F64) (a9 : F64) (a10 : F64) (a11 : F64) (a12 : F64) (a13 : Option Dis.Vector3Float) (a14 : F64) :
    MakesOf (run (n + 4)) I.CollisionElasticPdu [optArg EntityIdentifier.enc a1, optArg EntityIdentifier.enc a2, optArg EventIdentifier.enc a3, optArg Vector3Float.enc a4, .float a5, optArg Vector3Float.enc a6, .float a7, .float a8, .float a9, .float a10, .float a11, .float a12, optArg Vector3Float.enc a13, .float a14] (CollisionElasticPdu.enc (Dis.CollisionElasticPdu.init a1 a2 a3 a4 a5 a6 a7 a8 a9 a10 a11 a12 a13 a14)) :=
  made_with (n := n + 3) (d := I.CollisionElasticPdu) (f := CollisionElasticPdu.__init__) (env := [(I.self, .obj I.CollisionElasticPdu (classAttrs program 16 I.CollisionElasticPdu)), (I.__class__, .cls I.CollisionElasticPdu), (I.issuingEntityID, optArg EntityIdentifier.enc a1), (I.collidingEntityID, optArg EntityIdentifier.enc a2), (I.mass, .float a5), (I.collisionEventID, optArg EventIdentifier.enc a3), (I.contactVelocity, optArg Vector3Float.enc a4), (I.locationOfImpact, optArg Vector3Float.enc a6), (I.collisionIntermediateResultXX, .float a7), (I.collisionIntermediateResultXY, .float a8), (I.collisionIntermediateResultXZ, .float a9), (I.collisionIntermediateResultYY, .float a10), (I.collisionIntermediateResultYZ, .float a11), (I.collisionIntermediateResultZZ, .float a12), (I.unitSurfaceNormal, optArg Vector3Float.enc a13), (I.coefficientOfRestitution, .float a14)])
    (by kernel_rfl) rfl rfl rfl (by kernel_rfl) (by kernel_rfl) (by kernel_rfl) (by kernel_rfl) <|
    inits_super (fs1 := EntityInformationFamilyPdu.fields Dis.CollisionElasticPdu.init.toEntityInformationFamilyPdu) (.inl rfl) CollisionElasticPdu.found rfl (fun _ => by kernel_rfl) <|
    inits_set (fun _ => gives_or_new rfl (EntityIdentifier.makes (n + 1)) (fun _ => rfl)) (by kernel_rfl) <|
    inits_set (fun _ => gives_or_new rfl (EntityIdentifier.makes (n + 1)) (fun _ => rfl)) (by kernel_rfl) <|
    inits_set (fun _ => gives_or_new rfl (EventIdentifier.makes (n + 1)) (fun _ => rfl)) (by kernel_rfl) <|
    inits_set (fun _ => gives_int) (by kernel_rfl) <|
    inits_set (fun _ => gives_or_new rfl (Vector3Float.makes (n + 2)) (fun _ => rfl)) (by kernel_rfl) <|
    inits_set (fun _ => gives_name rfl) (by kernel_rfl) <|
    inits_set (fun _ => gives_or_new rfl (Vector3Float.makes (n + 2)) (fun _ => rfl)) (by kernel_rfl) <|
    inits_set (fun _ => gives_name rfl) (by kernel_rfl) <|
    inits_set (fun _ => gives_name rfl) (by kernel_rfl) <|
    inits_set (fun _ => gives_name rfl) (by kernel_rfl) <|
    inits_set (fun _ => gives_name rfl) (by kernel_rfl) <|
    inits_set (fun _ => gives_name rfl) (by kernel_rfl) <|
    inits_set (fun _ => gives_name rfl) (by kernel_rfl) <|
    inits_set (fun _ => gives_or_new rfl (Vector3Float.makes (n + 2)) (fun _ => rfl)) (by kernel_rfl) <|
    inits_set (fun _ => gives_name rfl) (by kernel_rfl) <|
    inits_nil (by kernel_rfl)

theorem AcknowledgePdu.makesOf (n : Nat) (a1 : Int) (a2 : Int) (a3 : Int) :
    MakesOf (run (n + 4)) I.AcknowledgePdu [.int a1, .int a2, .int a3] (AcknowledgePdu.enc (Dis.AcknowledgePdu.init a1 a2 a3)) :=
  made_with (n := n + 3) (d := I.AcknowledgePdu) (f := AcknowledgePdu.__init__) (env := [(I.self, .obj I.AcknowledgePdu (classAttrs program 16 I.AcknowledgePdu)), (I.__class__, .cls I.AcknowledgePdu), (I.requestID, .int a3), (I.acknowledgeFlag, .int a1), (I.responseFlag, .int a2)])
    (by kernel_rfl) rfl rfl rfl (by kernel_rfl) (by kernel_rfl) (by kernel_rfl) (by kernel_rfl) <|
    inits_super (fs1 := SimulationManagementFamilyPdu.fields Dis.AcknowledgePdu.init.toSimulationManagementFamilyPdu) (.inl rfl) AcknowledgePdu.found rfl (fun _ => by kernel_rfl) <|
    inits_set (fun _ => gives_name rfl) (by kernel_rfl) <|
    inits_set (fun _ => gives_name rfl) (by kernel_rfl) <|
    inits_set (fun _ => gives_name rfl) (by kernel_rfl) <|
    inits_nil (by kernel_rfl)

theorem DesignatorPdu.makesOf (n : Nat) (a1 : Option Dis.EntityIdentifier) (a2 : Int) (a3 : Option Dis.EntityIdentifier) (a4 : Int) (a5 : F64) (a6 : F64) (a7 : Option Dis.Vector3Float) (a8 : Option Dis.WorldCoordinates) (a9 : Int) (a10 : Option Dis.Vector3Float) :
    MakesOf (run (n + 4)) I.DesignatorPdu [optArg EntityIdentifier.enc a1, .int a2, optArg EntityIdentifier.enc a3, .int a4, .float a5, .float a6, optArg Vector3Float.enc a7, optArg WorldCoordinates.enc a8, .int a9, optArg Vector3Float.enc a10] (DesignatorPdu.enc (Dis.DesignatorPdu.init a1 a2 a3 a4 a5 a6 a7 a8 a9 a10)) :=
  made_with (n := n + 3) (d := I.DesignatorPdu) (f := DesignatorPdu.__init__) (env := [(I.self, .obj I.DesignatorPdu (classAttrs program 16 I.DesignatorPdu)), (I.__class__, .cls I.DesignatorPdu), (I.deadReckoningAlgorithm, .int a9), (I.entityLinearAcceleration, optArg Vector3Float.enc a10), (I.designatingEntityID, optArg EntityIdentifier.enc a1), (I.codeName, .int a2), (I.designatedEntityID, optArg EntityIdentifier.enc a3), (I.designatorCode, .int a4), (I.designatorPower, .float a5), (I.designatorWavelength, .float a6), (I.designatorSpotWrtDesignated, optArg Vector3Float.enc a7), (I.designatorSpotLocation, optArg WorldCoordinates.enc a8)])
    (by kernel_rfl) rfl rfl rfl (by kernel_rfl) (by kernel_rfl) (by kernel_rfl) (by kernel_rfl) <|
    inits_super (fs1 := DistributedEmissionsFamilyPdu.fields Dis.DesignatorPdu.init.toDistributedEmissionsFamilyPdu) (.inl rfl) DesignatorPdu.found rfl (fun _ => by kernel_rfl) <|
    inits_set (fun _ => gives_or_new rfl (EntityIdentifier.makes (n + 1)) (fun _ => rfl)) (by kernel_rfl) <|
    inits_set (fun _ => gives_name rfl) (by kernel_rfl) <|
    inits_set (fun _ => gives_or_new rfl (EntityIdentifier.makes (n + 1)) (fun _ => rfl)) (by kernel_rfl) <|
    inits_set (fun _ => gives_name rfl) (by kernel_rfl) <|
    inits_set (fun _ => gives_name rfl) (by kernel_rfl) <|
    inits_set (fun _ => gives_name rfl) (by kernel_rfl) <|
    inits_set (fun _ => gives_or_new rfl (Vector3Float.makes (n + 2)) (fun _ => rfl)) (by kernel_rfl) <|
    inits_set (fun _ => gives_or_new rfl (WorldCoordinates.makes (n + 2)) (fun _ => rfl)) (by kernel_rfl) <|
    inits_set (fun _ => gives_name rfl) (by kernel_rfl) <|
    inits_set (fun _ => gives_int) (by kernel_rfl) <|
    inits_set (fun _ => gives_int) (by kernel_rfl) <|
    inits_set (fun _ => gives_or_new rfl (Vector3Float.makes (n + 2)) (fun _ => rfl)) (by kernel_rfl) <|
    inits_nil (by kernel_rfl)

theorem StopFreezePdu.makesOf (n : Nat) (a1 : Option Dis.ClockTime) (a2 : Int) (a3 : Int) (a4 : Int) :
    MakesOf (run (n + 4)) I.StopFreezePdu [optArg ClockTime.enc a1, .int a2, .int a3, .int a4] (StopFreezePdu.enc (Dis.StopFreezePdu.init a1 a2 a3 a4)) :=
  made_with (n := n + 3) (d := I.StopFreezePdu) (f := StopFreezePdu.__init__) (env := [(I.self, .obj I.StopFreezePdu (classAttrs program 16 I.StopFreezePdu)), (I.__class__, .cls I.StopFreezePdu), (I.requestID, .int a4), (I.realWorldTime, optArg ClockTime.enc a1), (I.reason, .int a2), (I.frozenBehavior, .int a3)])
    (by kernel_rfl) rfl rfl rfl (by kernel_rfl) (by kernel_rfl) (by kernel_rfl) (by kernel_rfl) <|
    inits_super (fs1 := SimulationManagementFamilyPdu.fields Dis.StopFreezePdu.init.toSimulationManagementFamilyPdu) (.inl rfl) StopFreezePdu.found rfl (fun _ => by kernel_rfl) <|
    inits_set (fun _ => gives_or_new rfl (ClockTime.makes (n + 2)) (fun _ => rfl)) (by kernel_rfl) <|
    inits_set (fun _ => gives_name rfl) (by kernel_rfl) <|
    inits_set (fun _ => gives_name rfl) (by kernel_rfl) <|
    inits_set (fun _ => gives_int) (by kernel_rfl) <|
    inits_set (fun _ => gives_name rfl) (by kernel_rfl) <|
    inits_nil (by kernel_rfl)

theorem EntityStatePdu.makesOf (n : Nat) (a1 : Option Dis.EntityIdentifier) (a2 : Int) (a3 : Option Dis.EntityType) (a4 : Option Dis.EntityType) (a5 : Option Dis.Vector3Float) (a6 : Option Dis.WorldCoordinates) (a7 : Option Dis.EulerAngles) (a8 : Int) (a9 : Option Dis.DeadReckoningParameters) (a10 : Option Dis.EntityMarking) (a11 : Int) (a12 : Option (List Dis.VariableParameter)) :
    MakesOf (run (n + 4)) I.EntityStatePdu [optArg EntityIdentifier.enc a1, .int a2, optArg EntityType.enc a3, optArg EntityType.enc a4, optArg Vector3Float.enc a5, optArg WorldCoordinates.enc a6, optArg EulerAngles.enc a7, .int a8, optArg DeadReckoningParameters.enc a9, optArg EntityMarking.enc a10, .int a11, listArg VariableParameter.enc a12] (EntityStatePdu.enc (Dis.EntityStatePdu.init a1 a2 a3 a4 a5 a6 a7 a8 a9 a10 a11 (a12.getD []))) :=
  made_with (n := n + 3) (d := I.EntityStatePdu) (f := EntityStatePdu.__init__) (env := [(I.self, .obj I.EntityStatePdu (classAttrs program 16 I.EntityStatePdu)), (I.__class__, .cls I.EntityStatePdu), (I.entityID, optArg EntityIdentifier.enc a1), (I.entityType, optArg EntityType.enc a3), (I.entityLinearVelocity, optArg Vector3Float.enc a5), (I.entityLocation, optArg WorldCoordinates.enc a6), (I.entityOrientation, optArg EulerAngles.enc a7), (I.entityAppearance, .int a8), (I.variableParameters, listArg VariableParameter.enc a12), (I.forceId, .int a2), (I.alternativeEntityType, optArg EntityType.enc a4), (I.deadReckoningParameters, optArg DeadReckoningParameters.enc a9), (I.marking, optArg EntityMarking.enc a10), (I.capabilities, .int a11)])
    (by kernel_rfl) rfl rfl rfl (by kernel_rfl) (by kernel_rfl) (by kernel_rfl) (by kernel_rfl) <|
    inits_super (fs1 := EntityInformationFamilyPdu.fields Dis.EntityStatePdu.init.toEntityInformationFamilyPdu) (.inl rfl) EntityStatePdu.found rfl (fun _ => by kernel_rfl) <|
    inits_set (fun _ => gives_or_new rfl (EntityIdentifier.makes (n + 1)) (fun _ => rfl)) (by kernel_rfl) <|
    inits_set (fun _ => gives_name rfl) (by kernel_rfl) <|
    inits_set (fun _ => gives_or_new rfl (EntityType.makes (n + 2)) (fun _ => rfl)) (by kernel_rfl) <|
    inits_set (fun _ => gives_or_new rfl (EntityType.makes (n + 2)) (fun _ => rfl)) (by kernel_rfl) <|
    inits_set (fun _ => gives_or_new rfl (Vector3Float.makes (n + 2)) (fun _ => rfl)) (by kernel_rfl) <|
    inits_set (fun _ => gives_or_new rfl (WorldCoordinates.makes (n + 2)) (fun _ => rfl)) (by kernel_rfl) <|
    inits_set (fun _ => gives_or_new rfl (EulerAngles.makes (n + 2)) (fun _ => rfl)) (by kernel_rfl) <|
    inits_set (fun _ => gives_name rfl) (by kernel_rfl) <|
    inits_set (fun _ => gives_or_new rfl (DeadReckoningParameters.makes (n + 1)) (fun _ => rfl)) (by kernel_rfl) <|
    inits_set (fun _ => gives_or_new rfl (EntityMarking.makes (n + 2)) (fun _ => rfl)) (by kernel_rfl) <|
    inits_set (fun _ => gives_name rfl) (by kernel_rfl) <|
    inits_set (fun _ => gives_or_nil rfl) (by kernel_rfl) <|
    inits_nil (by kernel_rfl)

theorem StartResumePdu.makesOf (n : Nat) (a1 : Option Dis.ClockTime) (a2 : Option Dis.ClockTime) (a3 : Int) :
    MakesOf (run (n + 4)) I.StartResumePdu [optArg ClockTime.enc a1, optArg ClockTime.enc a2, .int a3] (StartResumePdu.enc (Dis.StartResumePdu.init a1 a2 a3)) :=
  made_with (n := n + 3) (d := I.StartResumePdu) (f := StartResumePdu.__init__) (env := [(I.self, .obj I.StartResumePdu (classAttrs program 16 I.StartResumePdu)), (I.__class__, .cls I.StartResumePdu), (I.requestID, .int a3), (I.realWorldTime, optArg ClockTime.enc a1), (I.simulationTime, optArg ClockTime.enc a2)])
    (by kernel_rfl) rfl rfl rfl (by kernel_rfl) (by kernel_rfl) (by kernel_rfl) (by kernel_rfl) <|
    inits_super (fs1 := SimulationManagementFamilyPdu.fields Dis.StartResumePdu.init.toSimulationManagementFamilyPdu) (.inl rfl) StartResumePdu.found rfl (fun _ => by kernel_rfl) <|
    inits_set (fun _ => gives_or_new rfl (ClockTime.makes (n + 2)) (fun _ => rfl)) (by kernel_rfl) <|
    inits_set (fun _ => gives_or_new rfl (ClockTime.makes (n + 2)) (fun _ => rfl)) (by kernel_rfl) <|
    inits_set (fun _ => gives_name rfl) (by kernel_rfl) <|
    inits_nil (by kernel_rfl)

theorem ElectromagneticEmissionsPdu.makesOf (n : Nat) (a1 : Option Dis.EntityIdentifier) (a2 : Option Dis.EventIdentifier) (a3 : Int) (a4 : Option (List Dis.EmissionSystemRecord)) :
    MakesOf (run (n + 4)) I.ElectromagneticEmissionsPdu [optArg EntityIdentifier.enc a1, optArg EventIdentifier.enc a2, .int a3, listArg EmissionSystemRecord.enc a4] (ElectromagneticEmissionsPdu.enc (Dis.ElectromagneticEmissionsPdu.init a1 a2 a3 (a4.getD []))) :=
  made_with (n := n + 3) (d := I.ElectromagneticEmissionsPdu) (f := ElectromagneticEmissionsPdu.__init__) (env := [(I.self, .obj I.ElectromagneticEmissionsPdu (classAttrs program 16 I.ElectromagneticEmissionsPdu)), (I.__class__, .cls I.ElectromagneticEmissionsPdu), (I.eventID, optArg EventIdentifier.enc a2), (I.emittingEntityID, optArg EntityIdentifier.enc a1), (I.stateUpdateIndicator, .int a3), (I.systems, listArg EmissionSystemRecord.enc a4)])
    (by kernel_rfl) rfl rfl rfl (by kernel_rfl) (by kernel_rfl) (by kernel_rfl) (by kernel_rfl) <|
    inits_super (fs1 := DistributedEmissionsFamilyPdu.fields Dis.ElectromagneticEmissionsPdu.init.toDistributedEmissionsFamilyPdu) (.inl rfl) ElectromagneticEmissionsPdu.found rfl (fun _ => by kernel_rfl) <|
    inits_set (fun _ => gives_or_new rfl (EntityIdentifier.makes (n + 1)) (fun _ => rfl)) (by kernel_rfl) <|
    inits_set (fun _ => gives_or_new rfl (EventIdentifier.makes (n + 1)) (fun _ => rfl)) (by kernel_rfl) <|
    inits_set (fun _ => gives_name rfl) (by kernel_rfl) <|
    inits_set (fun _ => gives_or_nil rfl) (by kernel_rfl) <|
    inits_set (fun _ => gives_int) (by kernel_rfl) <|
    inits_nil (by kernel_rfl)

theorem ResupplyOfferPdu.makesOf (n : Nat) (a1 : Option Dis.EntityIdentifier) (a2 : Option Dis.EntityIdentifier) (a3 : Option (List Dis.SupplyQuantity)) :
    MakesOf (run (n + 4)) I.ResupplyOfferPdu [optArg EntityIdentifier.enc a1, optArg EntityIdentifier.enc a2, listArg SupplyQuantity.enc a3] (ResupplyOfferPdu.enc (Dis.ResupplyOfferPdu.init a1 a2 (a3.getD []))) :=
  made_with (n := n + 3) (d := I.ResupplyOfferPdu) (f := ResupplyOfferPdu.__init__) (env := [(I.receivingEntityID, optArg EntityIdentifier.enc a1), (I.self, .obj I.ResupplyOfferPdu (classAttrs program 16 I.ResupplyOfferPdu)), (I.__class__, .cls I.ResupplyOfferPdu), (I.supplies, listArg SupplyQuantity.enc a3), (I.supplyingEntityID, optArg EntityIdentifier.enc a2)])
    (by kernel_rfl) rfl rfl rfl (by kernel_rfl) (by kernel_rfl) (by kernel_rfl) (by kernel_rfl) <|
    inits_super (fs1 := LogisticsFamilyPdu.fields Dis.ResupplyOfferPdu.init.toLogisticsFamilyPdu) (.inl rfl) ResupplyOfferPdu.found rfl (fun _ => by kernel_rfl) <|
    inits_set (fun _ => gives_or_new rfl (EntityIdentifier.makes (n + 1)) (fun _ => rfl)) (by kernel_rfl) <|
    inits_set (fun _ => gives_or_new rfl (EntityIdentifier.makes (n + 1)) (fun _ => rfl)) (by kernel_rfl) <|
    inits_set (fun _ => gives_int) (by kernel_rfl) <|
    inits_set (fun _ => gives_int) (by kernel_rfl) <|
    inits_set (fun _ => gives_or_nil rfl) (by kernel_rfl) <|
    inits_nil (by kernel_rfl)

theorem PointObjectStatePdu.makesOf (n : Nat) (a1 : Option Dis.EntityIdentifier) (a2 : Option Dis.EntityIdentifier) (a3 : Int) (a4 : Int) (a5 : Int) (a6 : Option Dis.ObjectType) (a7 : Option Dis.WorldCoordinates) (a8 : Option Dis.EulerAngles) (a9 : F64) (a10 : Option Dis.SimulationAddress) (a11 : Option Dis.SimulationAddress) :
    MakesOf (run (n + 4)) I.PointObjectStatePdu [optArg EntityIdentifier.enc a1, optArg EntityIdentifier.enc a2, .int a3, .int a4, .int a5, optArg ObjectType.enc a6, optArg WorldCoordinates.enc a7, optArg EulerAngles.enc a8, .float a9, optArg SimulationAddress.enc a10, optArg SimulationAddress.enc a11] (PointObjectStatePdu.enc (Dis.PointObjectStatePdu.init a1 a2 a3 a4 a5 a6 a7 a8 a9 a10 a11)) :=
  made_with (n := n + 3) (d := I.PointObjectStatePdu) (f := PointObjectStatePdu.__init__) (env := [(I.self, .obj I.PointObjectStatePdu (classAttrs program 16 I.PointObjectStatePdu)), (I.__class__, .cls I.PointObjectStatePdu), (I.receivingID, optArg SimulationAddress.enc a11), (I.objectID, optArg EntityIdentifier.enc a1), (I.referencedObjectID, optArg EntityIdentifier.enc a2), (I.updateNumber, .int a3), (I.forceID, .int a4), (I.requesterID, optArg SimulationAddress.enc a10), (I.objectType, optArg ObjectType.enc a6), (I.modifications, .int a5), (I.objectLocation, optArg WorldCoordinates.enc a7), (I.objectOrientation, optArg EulerAngles.enc a8), (I.objectAppearance, .float a9)])
    (by kernel_rfl) rfl rfl rfl (by kernel_rfl) (by kernel_rfl) (by kernel_rfl) (by kernel_rfl) <|
    inits_super (fs1 := SyntheticEnvironmentFamilyPdu.fields Dis.PointObjectStatePdu.init.toSyntheticEnvironmentFamilyPdu) (.inl rfl) PointObjectStatePdu.found rfl (fun _ => by kernel_rfl) <|
    inits_set (fun _ => gives_or_new rfl (EntityIdentifier.makes (n + 1)) (fun _ => rfl)) (by kernel_rfl) <|
    inits_set (fun _ => gives_or_new rfl (EntityIdentifier.makes (n + 1)) (fun _ => rfl)) (by kernel_rfl) <|
    inits_set (fun _ => gives_name rfl) (by kernel_rfl) <|
    inits_set (fun _ => gives_name rfl) (by kernel_rfl) <|
    inits_set (fun _ => gives_name rfl) (by kernel_rfl) <|
    inits_set (fun _ => gives_or_new rfl (ObjectType.makes (n + 2)) (fun _ => rfl)) (by kernel_rfl) <|
    inits_set (fun _ => gives_or_new rfl (WorldCoordinates.makes (n + 2)) (fun _ => rfl)) (by kernel_rfl) <|
    inits_set (fun _ => gives_or_new rfl (EulerAngles.makes (n + 2)) (fun _ => rfl)) (by kernel_rfl) <|
    inits_set (fun _ => gives_name rfl) (by kernel_rfl) <|
    inits_set (fun _ => gives_int) (by kernel_rfl) <|
    inits_set (fun _ => gives_or_new rfl (SimulationAddress.makes (n + 2)) (fun _ => rfl)) (by kernel_rfl) <|
    inits_set (fun _ => gives_or_new rfl (SimulationAddress.makes (n + 2)) (fun _ => rfl)) (by kernel_rfl) <|
    inits_set (fun _ => gives_int) (by kernel_rfl) <|
    inits_nil (by kernel_rfl)

theorem FastEntityStatePdu.makesOf (n : Nat) (a1 : Int) (a2 : Int) (a3 : Int) (a4 : Int) (a5 : Int) (a6 : Int) (a7 : Int) (a8 : Int) (a9 : Int) (a10 : Int) (a11 : Int) (a12 : Int) (a13 : Int) (a14 : Int) (a15 : Int) (a16 : Int) (a17 : Int) (a18 : Int) (a19 : Int) (a20 : F64) (a21 : F64) (a22 : F64) (a23 : F64) (a24 : F64) (a25 : F64) (a26 : F64) (a27 : F64) (a28 : F64) (a29 : Int) (a30 : Int) (a31 : Option (List Int)) (a32 : F64) (a33 : F64) (a34 : F64) (a35 : F64) (a36 : F64) (a37 : F64) (a38 : Option (List Int)) (a39 : Int) (a40 : Option (List Dis.VariableParameter)) :
    MakesOf (run (n + 4)) I.FastEntityStatePdu [.int a1, .int a2, .int a3, .int a4, .int a5, .int a6, .int a7, .int a8, .int a9, .int a10, .int a11, .int a12, .int a13, .int a14, .int a15, .int a16, .int a17, .int a18, .int a19, .float a20, .float a21, .float a22, .float a23, .float a24, .float a25, .float a26, .float a27, .float a28, .int a29, .int a30, listArg Val.int a31, .float a32, .float a33, .float a34, .float a35, .float a36, .float a37, listArg Val.int a38, .int a39, listArg VariableParameter.enc a40] (FastEntityStatePdu.enc (Dis.FastEntityStatePdu.init a1 a2 a3 a4 a5 a6 a7 a8 a9 a10 a11 a12 a13 a14 a15 a16 a17 a18 a19 a20 a21 a22 a23 a24 a25 a26 a27 a28 a29 a30 (a31.getD []) a32 a33 a34 a35 a36 a37 (a38.getD []) a39 (a40.getD []))) :=
  made_with (n := n + 3) (d := I.FastEntityStatePdu) (f := FastEntityStatePdu.__init__) (env := [(I.self, .obj I.FastEntityStatePdu (classAttrs program 16 I.FastEntityStatePdu)), (I.__class__, .cls I.FastEntityStatePdu), (I.psi, .float a26), (I.theta, .float a27), (I.phi, .float a28), (I.site, .int a1), (I.application, .int a2), (I.deadReckoningAlgorithm, .int a30), (I.domain, .int a7), (I.country, .int a8), (I.category, .int a9), (I.subcategory, .int a10), (I.specific, .int a11), (I.extra, .int a12), (I.entityKind, .int a6), (I.entityAppearance, .int a29), (I.variableParameters, listArg VariableParameter.enc a40), (I.numberOfVariableParameters, .int a5), (I.forceId, .int a4), (I.marking, listArg Val.int a38), (I.capabilities, .int a39), (I.entity, .int a3), (I.altEntityKind, .int a13), (I.altDomain, .int a14), (I.altCountry, .int a15), (I.altCategory, .int a16), (I.altSubcategory, .int a17), (I.altSpecific, .int a18), (I.altExtra, .int a19), (I.xVelocity, .float a20), (I.yVelocity, .float a21), (I.zVelocity, .float a22), (I.xLocation, .float a23), (I.yLocation, .float a24), (I.zLocation, .float a25), (I.otherParameters, listArg Val.int a31), (I.xAcceleration, .float a32), (I.yAcceleration, .float a33), (I.zAcceleration, .float a34), (I.xAngularVelocity, .float a35), (I.yAngularVelocity, .float a36), (I.zAngularVelocity, .float a37)])
    (by kernel_rfl) rfl rfl rfl (by kernel_rfl) (by kernel_rfl) (by kernel_rfl) (by kernel_rfl) <|
    inits_super (fs1 := EntityInformationFamilyPdu.fields Dis.FastEntityStatePdu.init.toEntityInformationFamilyPdu) (.inl rfl) FastEntityStatePdu.found rfl (fun _ => by kernel_rfl) <|
    inits_set (fun _ => gives_name rfl) (by kernel_rfl) <|
    inits_set (fun _ => gives_name rfl) (by kernel_rfl) <|
    inits_set (fun _ => gives_name rfl) (by kernel_rfl) <|
    inits_set (fun _ => gives_name rfl) (by kernel_rfl) <|
    inits_set (fun _ => gives_name rfl) (by kernel_rfl) <|
    inits_set (fun _ => gives_name rfl) (by kernel_rfl) <|
    inits_set (fun _ => gives_name rfl) (by kernel_rfl) <|
    inits_set (fun _ => gives_name rfl) (by kernel_rfl) <|
    inits_set (fun _ => gives_name rfl) (by kernel_rfl) <|
    inits_set (fun _ => gives_name rfl) (by kernel_rfl) <|
    inits_set (fun _ => gives_name rfl) (by kernel_rfl) <|
    inits_set (fun _ => gives_name rfl) (by kernel_rfl) <|
    inits_set (fun _ => gives_name rfl) (by kernel_rfl) <|
    inits_set (fun _ => gives_name rfl) (by kernel_rfl) <|
    inits_set (fun _ => gives_name rfl) (by kernel_rfl) <|
    inits_set (fun _ => gives_name rfl) (by kernel_rfl) <|
    inits_set (fun _ => gives_name rfl) (by kernel_rfl) <|
    inits_set (fun _ => gives_name rfl) (by kernel_rfl) <|
    inits_set (fun _ => gives_name rfl) (by kernel_rfl) <|
    inits_set (fun _ => gives_name rfl) (by kernel_rfl) <|
    inits_set (fun _ => gives_name rfl) (by kernel_rfl) <|
    inits_set (fun _ => gives_name rfl) (by kernel_rfl) <|
    inits_set (fun _ => gives_name rfl) (by kernel_rfl) <|
    inits_set (fun _ => gives_name rfl) (by kernel_rfl) <|
    inits_set (fun _ => gives_name rfl) (by kernel_rfl) <|
    inits_set (fun _ => gives_name rfl) (by kernel_rfl) <|
    inits_set (fun _ => gives_name rfl) (by kernel_rfl) <|
    inits_set (fun _ => gives_name rfl) (by kernel_rfl) <|
    inits_set (fun _ => gives_name rfl) (by kernel_rfl) <|
    inits_set (fun _ => gives_name rfl) (by kernel_rfl) <|
    inits_set (fun _ => gives_or_zeros rfl) (by kernel_rfl) <|
    inits_set (fun _ => gives_name rfl) (by kernel_rfl) <|
    inits_set (fun _ => gives_name rfl) (by kernel_rfl) <|
    inits_set (fun _ => gives_name rfl) (by kernel_rfl) <|
    inits_set (fun _ => gives_name rfl) (by kernel_rfl) <|
    inits_set (fun _ => gives_name rfl) (by kernel_rfl) <|
    inits_set (fun _ => gives_name rfl) (by kernel_rfl) <|
    inits_set (fun _ => gives_or_zeros rfl) (by kernel_rfl) <|
    inits_set (fun _ => gives_name rfl) (by kernel_rfl) <|
    inits_set (fun _ => gives_or_nil rfl) (by kernel_rfl) <|
    inits_nil (by kernel_rfl)

theorem AcknowledgeReliablePdu.makesOf (n : Nat) (a1 : Int) (a2 : Int) (a3 : Int) :
    MakesOf (run (n + 4)) I.AcknowledgeReliablePdu [.int a1, .int a2, .int a3] (AcknowledgeReliablePdu.enc (Dis.AcknowledgeReliablePdu.init a1 a2 a3)) :=
  made_with (n := n + 3) (d := I.AcknowledgeReliablePdu) (f := AcknowledgeReliablePdu.__init__) (env := [(I.self, .obj I.AcknowledgeReliablePdu (classAttrs program 16 I.AcknowledgeReliablePdu)), (I.__class__, .cls I.AcknowledgeReliablePdu), (I.requestID, .int a3), (I.acknowledgeFlag, .int a1), (I.responseFlag, .int a2)])
    (by kernel_rfl) rfl rfl rfl (by kernel_rfl) (by kernel_rfl) (by kernel_rfl) (by kernel_rfl) <|
    inits_super (fs1 := SimulationManagementWithReliabilityFamilyPdu.fields Dis.AcknowledgeReliablePdu.init.toSimulationManagementWithReliabilityFamilyPdu) (.inl rfl) AcknowledgeReliablePdu.found rfl (fun _ => by kernel_rfl) <|
    inits_set (fun _ => gives_name rfl) (by kernel_rfl) <|
    inits_set (fun _ => gives_name rfl) (by kernel_rfl) <|
    inits_set (fun _ => gives_name rfl) (by kernel_rfl) <|
    inits_nil (by kernel_rfl)

theorem StartResumeReliablePdu.makesOf (n : Nat) (a1 : Option Dis.ClockTime) (a2 : Option Dis.ClockTime) (a3 : Int) (a4 : Int) :
    MakesOf (run (n + 4)) I.StartResumeReliablePdu [optArg ClockTime.enc a1, optArg ClockTime.enc a2, .int a3, .int a4] (StartResumeReliablePdu.enc (Dis.StartResumeReliablePdu.init a1 a2 a3 a4)) :=
  made_with (n := n + 3) (d := I.StartResumeReliablePdu) (f := StartResumeReliablePdu.__init__) (env := [(I.self, .obj I.StartResumeReliablePdu (classAttrs program 16 I.StartResumeReliablePdu)), (I.__class__, .cls I.StartResumeReliablePdu), (I.requestID, .int a4), (I.requiredReliabilityService, .int a3), (I.realWorldTime, optArg ClockTime.enc a1), (I.simulationTime, optArg ClockTime.enc a2)])
    (by kernel_rfl) rfl rfl rfl (by kernel_rfl) (by kernel_rfl) (by kernel_rfl) (by kernel_rfl) <|
    inits_super (fs1 := SimulationManagementWithReliabilityFamilyPdu.fields Dis.StartResumeReliablePdu.init.toSimulationManagementWithReliabilityFamilyPdu) (.inl rfl) StartResumeReliablePdu.found rfl (fun _ => by kernel_rfl) <|
    inits_set (fun _ => gives_or_new rfl (ClockTime.makes (n + 2)) (fun _ => rfl)) (by kernel_rfl) <|
    inits_set (fun _ => gives_or_new rfl (ClockTime.makes (n + 2)) (fun _ => rfl)) (by kernel_rfl) <|
    inits_set (fun _ => gives_name rfl) (by kernel_rfl) <|
    inits_set (fun _ => gives_int) (by kernel_rfl) <|
    inits_set (fun _ => gives_int) (by kernel_rfl) <|
    inits_set (fun _ => gives_name rfl) (by kernel_rfl) <|
    inits_nil (by kernel_rfl)

theorem ArealObjectStatePdu.makesOf (n : Nat) (a1 : Option Dis.EntityIdentifier) (a2 : Option Dis.EntityIdentifier) (a3 : Int) (a4 : Int) (a5 : Int) (a6 : Option Dis.ObjectType) (a7 : Int) (a8 : Int) (a9 : Option Dis.SimulationAddress) (a10 : Option Dis.SimulationAddress) (a11 : Option (List Dis.WorldCoordinates)) :
    MakesOf (run (n + 4)) I.ArealObjectStatePdu [optArg EntityIdentifier.enc a1, optArg EntityIdentifier.enc a2, .int a3, .int a4, .int a5, optArg ObjectType.enc a6, .int a7, .int a8, optArg SimulationAddress.enc a9, optArg SimulationAddress.enc a10, listArg WorldCoordinates.enc a11] (ArealObjectStatePdu.enc (Dis.ArealObjectStatePdu.init a1 a2 a3 a4 a5 a6 a7 a8 a9 a10 (a11.getD []))) :=
  made_with (n := n + 3) (d := I.ArealObjectStatePdu) (f := ArealObjectStatePdu.__init__) (env := [(I.self, .obj I.ArealObjectStatePdu (classAttrs program 16 I.ArealObjectStatePdu)), (I.__class__, .cls I.ArealObjectStatePdu), (I.receivingID, optArg SimulationAddress.enc a10), (I.objectID, optArg EntityIdentifier.enc a1), (I.referencedObjectID, optArg EntityIdentifier.enc a2), (I.updateNumber, .int a3), (I.requesterID, optArg SimulationAddress.enc a9), (I.objectType, optArg ObjectType.enc a6), (I.forceId, .int a4), (I.modifications, .int a5), (I.objectLocation, listArg WorldCoordinates.enc a11), (I.specificObjectAppearance, .int a7), (I.generalObjectAppearance, .int a8)])
    (by kernel_rfl) rfl rfl rfl (by kernel_rfl) (by kernel_rfl) (by kernel_rfl) (by kernel_rfl) <|
    inits_super (fs1 := SyntheticEnvironmentFamilyPdu.fields Dis.ArealObjectStatePdu.init.toSyntheticEnvironmentFamilyPdu) (.inl rfl) ArealObjectStatePdu.found rfl (fun _ => by kernel_rfl) <|
    inits_set (fun _ => gives_or_new rfl (EntityIdentifier.makes (n + 1)) (fun _ => rfl)) (by kernel_rfl) <|
    inits_set (fun _ => gives_or_new rfl (EntityIdentifier.makes (n + 1)) (fun _ => rfl)) (by kernel_rfl) <|
    inits_set (fun _ => gives_name rfl) (by kernel_rfl) <|
    inits_set (fun _ => gives_name rfl) (by kernel_rfl) <|
    inits_set (fun _ => gives_name rfl) (by kernel_rfl) <|
    inits_set (fun _ => gives_or_new rfl (ObjectType.makes (n + 2)) (fun _ => rfl)) (by kernel_rfl) <|
    inits_set (fun _ => gives_name rfl) (by kernel_rfl) <|
    inits_set (fun _ => gives_name rfl) (by kernel_rfl) <|
    inits_set (fun _ => gives_or_new rfl (SimulationAddress.makes (n + 2)) (fun _ => rfl)) (by kernel_rfl) <|
    inits_set (fun _ => gives_or_new rfl (SimulationAddress.makes (n + 2)) (fun _ => rfl)) (by kernel_rfl) <|
    inits_set (fun _ => gives_or_nil rfl) (by kernel_rfl) <|
    inits_nil (by kernel_rfl)

theorem DataQueryReliablePdu.makesOf (n : Nat) (a1 : Int) (a2 : Int) (a3 : Int) (a4 : Option (List Int)) (a5 : Option (List Int)) :
    MakesOf (run (n + 4)) I.DataQueryReliablePdu [.int a1, .int a2, .int a3, listArg Val.int a4, listArg Val.int a5] (DataQueryReliablePdu.enc (Dis.DataQueryReliablePdu.init a1 a2 a3 (a4.getD []) (a5.getD []))) :=
  made_with (n := n + 3) (d := I.DataQueryReliablePdu) (f := DataQueryReliablePdu.__init__) (env := [(I.self, .obj I.DataQueryReliablePdu (classAttrs program 16 I.DataQueryReliablePdu)), (I.__class__, .cls I.DataQueryReliablePdu), (I.fixedDatumIDs, listArg Val.int a4), (I.variableDatumIDs, listArg Val.int a5), (I.requestID, .int a2), (I.timeInterval, .int a3), (I.requiredReliabilityService, .int a1)])
    (by kernel_rfl) rfl rfl rfl (by kernel_rfl) (by kernel_rfl) (by kernel_rfl) (by kernel_rfl) <|
    inits_super (fs1 := SimulationManagementWithReliabilityFamilyPdu.fields Dis.DataQueryReliablePdu.init.toSimulationManagementWithReliabilityFamilyPdu) (.inl rfl) DataQueryReliablePdu.found rfl (fun _ => by kernel_rfl) <|
    inits_set (fun _ => gives_name rfl) (by kernel_rfl) <|
    inits_set (fun _ => gives_int) (by kernel_rfl) <|
    inits_set (fun _ => gives_int) (by kernel_rfl) <|
    inits_set (fun _ => gives_name rfl) (by kernel_rfl) <|
    inits_set (fun _ => gives_name rfl) (by kernel_rfl) <|
    inits_set (fun _ => gives_make (DataQueryDatumSpecification.makesOf (n + 2) (some _) (some _)) (fun _ hst => args_two (gives_or_nil rfl) (gives_or_nil rfl) hst) rfl rfl) (by kernel_rfl) <|
    inits_nil (by kernel_rfl)

theorem MinefieldStatePdu.makesOf (n : Nat) (a1 : Option Dis.MinefieldIdentifier) (a2 : Int) (a3 : Int) (a4 : Option Dis.EntityType) (a5 : Option Dis.WorldCoordinates) (a6 : Option Dis.EulerAngles) (a7 : Int) (a8 : Int) (a9 : Option (List Dis.Vector2Float)) (a10 : Option (List Dis.EntityType)) :
    MakesOf (run (n + 4)) I.MinefieldStatePdu [optArg MinefieldIdentifier.enc a1, .int a2, .int a3, optArg EntityType.enc a4, optArg WorldCoordinates.enc a5, optArg EulerAngles.enc a6, .int a7, .int a8, listArg Vector2Float.enc a9, listArg EntityType.enc a10] (MinefieldStatePdu.enc (Dis.MinefieldStatePdu.init a1 a2 a3 a4 a5 a6 a7 a8 (a9.getD []) (a10.getD []))) :=
  made_with (n := n + 3) (d := I.MinefieldStatePdu) (f := MinefieldStatePdu.__init__) (env := [(I.self, .obj I.MinefieldStatePdu (classAttrs program 16 I.MinefieldStatePdu)), (I.__class__, .cls I.MinefieldStatePdu), (I.protocolMode, .int a8), (I.forceID, .int a3), (I.minefieldID, optArg MinefieldIdentifier.enc a1), (I.minefieldSequence, .int a2), (I.minefieldType, optArg EntityType.enc a4), (I.minefieldLocation, optArg WorldCoordinates.enc a5), (I.minefieldOrientation, optArg EulerAngles.enc a6), (I.appearance, .int a7), (I.perimeterPoints, listArg Vector2Float.enc a9), (I.mineTypes, listArg EntityType.enc a10)])
    (by kernel_rfl) rfl rfl rfl (by kernel_rfl) (by kernel_rfl) (by kernel_rfl) (by kernel_rfl) <|
    inits_super (fs1 := MinefieldFamilyPdu.fields Dis.MinefieldStatePdu.init.toMinefieldFamilyPdu) (.inl rfl) MinefieldStatePdu.found rfl (fun _ => by kernel_rfl) <|
    inits_set (fun _ => gives_or_new rfl (MinefieldIdentifier.makes (n + 1)) (fun _ => rfl)) (by kernel_rfl) <|
    inits_set (fun _ => gives_name rfl) (by kernel_rfl) <|
    inits_set (fun _ => gives_name rfl) (by kernel_rfl) <|
    inits_set (fun _ => gives_or_new rfl (EntityType.makes (n + 2)) (fun _ => rfl)) (by kernel_rfl) <|
    inits_set (fun _ => gives_or_new rfl (WorldCoordinates.makes (n + 2)) (fun _ => rfl)) (by kernel_rfl) <|
    inits_set (fun _ => gives_or_new rfl (EulerAngles.makes (n + 2)) (fun _ => rfl)) (by kernel_rfl) <|
    inits_set (fun _ => gives_name rfl) (by kernel_rfl) <|
    inits_set (fun _ => gives_name rfl) (by kernel_rfl) <|
    inits_set (fun _ => gives_or_nil rfl) (by kernel_rfl) <|
    inits_set (fun _ => gives_or_nil rfl) (by kernel_rfl) <|
    inits_nil (by kernel_rfl)

theorem DetonationPdu.makesOf (n : Nat) (a1 : Option Dis.EntityIdentifier) (a2 : Option Dis.EventIdentifier) (a3 : Option Dis.Vector3Float) (a4 : Option Dis.WorldCoordinates) (a5 : Option Dis.MunitionDescriptor) (a6 : Option Dis.Vector3Float) (a7 : Int) (a8 : Option (List Dis.VariableParameter)) :
    MakesOf (run (n + 4)) I.DetonationPdu [optArg EntityIdentifier.enc a1, optArg EventIdentifier.enc a2, optArg Vector3Float.enc a3, optArg WorldCoordinates.enc a4, optArg MunitionDescriptor.enc a5, optArg Vector3Float.enc a6, .int a7, listArg VariableParameter.enc a8] (DetonationPdu.enc (Dis.DetonationPdu.init a1 a2 a3 a4 a5 a6 a7 (a8.getD []))) :=
  made_with (n := n + 3) (d := I.DetonationPdu) (f := DetonationPdu.__init__) (env := [(I.self, .obj I.DetonationPdu (classAttrs program 16 I.DetonationPdu)), (I.__class__, .cls I.DetonationPdu), (I.variableParameters, listArg VariableParameter.enc a8), (I.eventID, optArg EventIdentifier.enc a2), (I.velocity, optArg Vector3Float.enc a3), (I.location, optArg WorldCoordinates.enc a4), (I.explodingEntityID, optArg EntityIdentifier.enc a1), (I.descriptor, optArg MunitionDescriptor.enc a5), (I.locationInEntityCoordinates, optArg Vector3Float.enc a6), (I.detonationResult, .int a7)])
    (by kernel_rfl) rfl rfl rfl (by kernel_rfl) (by kernel_rfl) (by kernel_rfl) (by kernel_rfl) <|
    inits_super (fs1 := WarfareFamilyPdu.fields Dis.DetonationPdu.init.toWarfareFamilyPdu) (.inl rfl) DetonationPdu.found rfl (fun _ => by kernel_rfl) <|
    inits_set (fun _ => gives_or_new rfl (EntityIdentifier.makes (n + 1)) (fun _ => rfl)) (by kernel_rfl) <|
    inits_set (fun _ => gives_or_new rfl (EventIdentifier.makes (n + 1)) (fun _ => rfl)) (by kernel_rfl) <|
    inits_set (fun _ => gives_or_new rfl (Vector3Float.makes (n + 2)) (fun _ => rfl)) (by kernel_rfl) <|
    inits_set (fun _ => gives_or_new rfl (WorldCoordinates.makes (n + 2)) (fun _ => rfl)) (by kernel_rfl) <|
    inits_set (fun _ => gives_or_new rfl (MunitionDescriptor.makes (n + 1)) (fun _ => rfl)) (by kernel_rfl) <|
    inits_set (fun _ => gives_or_new rfl (Vector3Float.makes (n + 2)) (fun _ => rfl)) (by kernel_rfl) <|
    inits_set (fun _ => gives_name rfl) (by kernel_rfl) <|
    inits_set (fun _ => gives_int) (by kernel_rfl) <|
    inits_set (fun _ => gives_or_nil rfl) (by kernel_rfl) <|
    inits_nil (by kernel_rfl)

theorem RecordQueryReliablePdu.makesOf (n : Nat) (a1 : Int) (a2 : Int) (a3 : Int) (a4 : Int) (a5 : Option (List Int)) :
    MakesOf (run (n + 4)) I.RecordQueryReliablePdu [.int a1, .int a2, .int a3, .int a4, listArg Val.int a5] (RecordQueryReliablePdu.enc (Dis.RecordQueryReliablePdu.init a1 a2 a3 a4 (a5.getD []))) :=
  made_with (n := n + 3) (d := I.RecordQueryReliablePdu) (f := RecordQueryReliablePdu.__init__) (env := [(I.self, .obj I.RecordQueryReliablePdu (classAttrs program 16 I.RecordQueryReliablePdu)), (I.__class__, .cls I.RecordQueryReliablePdu), (I.requestID, .int a1), (I.recordIDs, listArg Val.int a5), (I.requiredReliabilityService, .int a2), (I.eventType, .int a3), (I.time, .int a4)])
    (by kernel_rfl) rfl rfl rfl (by kernel_rfl) (by kernel_rfl) (by kernel_rfl) (by kernel_rfl) <|
    inits_super (fs1 := SimulationManagementWithReliabilityFamilyPdu.fields Dis.RecordQueryReliablePdu.init.toSimulationManagementWithReliabilityFamilyPdu) (.inl rfl) RecordQueryReliablePdu.found rfl (fun _ => by kernel_rfl) <|
    inits_set (fun _ => gives_name rfl) (by kernel_rfl) <|
    inits_set (fun _ => gives_name rfl) (by kernel_rfl) <|
    inits_set (fun _ => gives_int) (by kernel_rfl) <|
    inits_set (fun _ => gives_int) (by kernel_rfl) <|
    inits_set (fun _ => gives_name rfl) (by kernel_rfl) <|
    inits_set (fun _ => gives_name rfl) (by kernel_rfl) <|
    inits_set (fun _ => gives_or_nil rfl) (by kernel_rfl) <|
    inits_nil (by kernel_rfl)

theorem FirePdu.makesOf (n : Nat) (a1 : Option Dis.EntityIdentifier) (a2 : Option Dis.EventIdentifier) (a3 : Int) (a4 : Option Dis.WorldCoordinates) (a5 : Option Dis.MunitionDescriptor) (a6 : Option Dis.Vector3Float) (a7 : F64) :
    MakesOf (run (n + 4)) I.FirePdu [optArg EntityIdentifier.enc a1, optArg EventIdentifier.enc a2, .int a3, optArg WorldCoordinates.enc a4, optArg MunitionDescriptor.enc a5, optArg Vector3Float.enc a6, .float a7] (FirePdu.enc (Dis.FirePdu.init a1 a2 a3 a4 a5 a6 a7)) :=
  made_with (n := n + 3) (d := I.FirePdu) (f := FirePdu.__init__) (env := [(I.self, .obj I.FirePdu (classAttrs program 16 I.FirePdu)), (I.__class__, .cls I.FirePdu), (I.eventID, optArg EventIdentifier.enc a2), (I.velocity, optArg Vector3Float.enc a6), (I.location, optArg WorldCoordinates.enc a4), (I.descriptor, optArg MunitionDescriptor.enc a5), (I.munitionExpendableID, optArg EntityIdentifier.enc a1), (I.fireMissionIndex, .int a3), (I.range_, .float a7)])
    (by kernel_rfl) rfl rfl rfl (by kernel_rfl) (by kernel_rfl) (by kernel_rfl) (by kernel_rfl) <|
    inits_super (fs1 := WarfareFamilyPdu.fields Dis.FirePdu.init.toWarfareFamilyPdu) (.inl rfl) FirePdu.found rfl (fun _ => by kernel_rfl) <|
    inits_set (fun _ => gives_or_new rfl (EntityIdentifier.makes (n + 1)) (fun _ => rfl)) (by kernel_rfl) <|
    inits_set (fun _ => gives_or_new rfl (EventIdentifier.makes (n + 1)) (fun _ => rfl)) (by kernel_rfl) <|
    inits_set (fun _ => gives_name rfl) (by kernel_rfl) <|
    inits_set (fun _ => gives_or_new rfl (WorldCoordinates.makes (n + 2)) (fun _ => rfl)) (by kernel_rfl) <|
    inits_set (fun _ => gives_or_new rfl (MunitionDescriptor.makes (n + 1)) (fun _ => rfl)) (by kernel_rfl) <|
    inits_set (fun _ => gives_or_new rfl (Vector3Float.makes (n + 2)) (fun _ => rfl)) (by kernel_rfl) <|
    inits_set (fun _ => gives_name rfl) (by kernel_rfl) <|
    inits_nil (by kernel_rfl)

theorem ReceiverPdu.makesOf (n : Nat) (a1 : Int) (a2 : F64) (a3 : Option Dis.EntityIdentifier) (a4 : Int) :
    MakesOf (run (n + 4)) I.ReceiverPdu [.int a1, .float a2, optArg EntityIdentifier.enc a3, .int a4] (ReceiverPdu.enc (Dis.ReceiverPdu.init a1 a2 a3 a4)) :=
  made_with (n := n + 3) (d := I.ReceiverPdu) (f := ReceiverPdu.__init__) (env := [(I.self, .obj I.ReceiverPdu (classAttrs program 16 I.ReceiverPdu)), (I.__class__, .cls I.ReceiverPdu), (I.receiverState, .int a1), (I.receivedPower, .float a2), (I.transmitterEntityID, optArg EntityIdentifier.enc a3), (I.transmitterRadioId, .int a4)])
    (by kernel_rfl) rfl rfl rfl (by kernel_rfl) (by kernel_rfl) (by kernel_rfl) (by kernel_rfl) <|
    inits_super (fs1 := RadioCommunicationsFamilyPdu.fields Dis.ReceiverPdu.init.toRadioCommunicationsFamilyPdu) (.inl rfl) ReceiverPdu.found rfl (fun _ => by kernel_rfl) <|
    inits_set (fun _ => gives_name rfl) (by kernel_rfl) <|
    inits_set (fun _ => gives_int) (by kernel_rfl) <|
    inits_set (fun _ => gives_name rfl) (by kernel_rfl) <|
    inits_set (fun _ => gives_or_new rfl (EntityIdentifier.makes (n + 1)) (fun _ => rfl)) (by kernel_rfl) <|
    inits_set (fun _ => gives_name rfl) (by kernel_rfl) <|
    inits_nil (by kernel_rfl)

theorem UaPdu.makesOf (n : Nat) (a1 : Option Dis.EntityIdentifier) (a2 : Option Dis.EventIdentifier) (a3 : Int) (a4 : Int) (a5 : Int) (a6 : Option (List Int)) (a7 : Option (List Int)) (a8 : Option (List Int)) :
    MakesOf (run (n + 4)) I.UaPdu [optArg EntityIdentifier.enc a1, optArg EventIdentifier.enc a2, .int a3, .int a4, .int a5, listArg Val.int a6, listArg Val.int a7, listArg Val.int a8] (UaPdu.enc (Dis.UaPdu.init a1 a2 a3 a4 a5 (a6.getD []) (a7.getD []) (a8.getD []))) :=
  made_with (n := n + 3) (d := I.UaPdu) (f := UaPdu.__init__) (env := [(I.self, .obj I.UaPdu (classAttrs program 16 I.UaPdu)), (I.__class__, .cls I.UaPdu), (I.eventID, optArg EventIdentifier.enc a2), (I.emittingEntityID, optArg EntityIdentifier.enc a1), (I.stateChangeIndicator, .int a3), (I.passiveParameterIndex, .int a4), (I.propulsionPlantConfiguration, .int a5), (I.shaftRPMs, listArg Val.int a6), (I.apaData, listArg Val.int a7), (I.emitterSystems, listArg Val.int a8)])
    (by kernel_rfl) rfl rfl rfl (by kernel_rfl) (by kernel_rfl) (by kernel_rfl) (by kernel_rfl) <|
    inits_super (fs1 := DistributedEmissionsFamilyPdu.fields Dis.UaPdu.init.toDistributedEmissionsFamilyPdu) (.inl rfl) UaPdu.found rfl (fun _ => by kernel_rfl) <|
    inits_set (fun _ => gives_or_new rfl (EntityIdentifier.makes (n + 1)) (fun _ => rfl)) (by kernel_rfl) <|
    inits_set (fun _ => gives_or_new rfl (EventIdentifier.makes (n + 1)) (fun _ => rfl)) (by kernel_rfl) <|
    inits_set (fun _ => gives_name rfl) (by kernel_rfl) <|
    inits_set (fun _ => gives_int) (by kernel_rfl) <|
    inits_set (fun _ => gives_name rfl) (by kernel_rfl) <|
    inits_set (fun _ => gives_name rfl) (by kernel_rfl) <|
    inits_set (fun _ => gives_or_nil rfl) (by kernel_rfl) <|
    inits_set (fun _ => gives_or_nil rfl) (by kernel_rfl) <|
    inits_set (fun _ => gives_or_nil rfl) (by kernel_rfl) <|
    inits_nil (by kernel_rfl)

theorem SignalPdu.makesOf (n : Nat) (a1 : Option Dis.EntityIdentifier) (a2 : Int) (a3 : Int) (a4 : Int) (a5 : Int) (a6 : Int) (a7 : Option (List Int)) :
    MakesOf (run (n + 4)) I.SignalPdu [optArg EntityIdentifier.enc a1, .int a2, .int a3, .int a4, .int a5, .int a6, listArg Val.int a7] (SignalPdu.enc (Dis.SignalPdu.init a1 a2 a3 a4 a5 a6 (a7.getD []))) :=
  made_with (n := n + 3) (d := I.SignalPdu) (f := SignalPdu.__init__) (env := [(I.self, .obj I.SignalPdu (classAttrs program 16 I.SignalPdu)), (I.__class__, .cls I.SignalPdu), (I.data, listArg Val.int a7), (I.entityID, optArg EntityIdentifier.enc a1), (I.encodingScheme, .int a3), (I.tdlType, .int a4), (I.sampleRate, .int a5), (I.samples, .int a6), (I.radioID, .int a2)])
    (by kernel_rfl) rfl rfl rfl (by kernel_rfl) (by kernel_rfl) (by kernel_rfl) (by kernel_rfl) <|
    inits_super (fs1 := RadioCommunicationsFamilyPdu.fields Dis.SignalPdu.init.toRadioCommunicationsFamilyPdu) (.inl rfl) SignalPdu.found rfl (fun _ => by kernel_rfl) <|
    inits_set (fun _ => gives_or_new rfl (EntityIdentifier.makes (n + 1)) (fun _ => rfl)) (by kernel_rfl) <|
    inits_set (fun _ => gives_name rfl) (by kernel_rfl) <|
    inits_set (fun _ => gives_name rfl) (by kernel_rfl) <|
    inits_set (fun _ => gives_name rfl) (by kernel_rfl) <|
    inits_set (fun _ => gives_name rfl) (by kernel_rfl) <|
    inits_set (fun _ => gives_name rfl) (by kernel_rfl) <|
    inits_set (fun _ => gives_or_nil rfl) (by kernel_rfl) <|
    inits_nil (by kernel_rfl)

theorem RemoveEntityReliablePdu.makesOf (n : Nat) (a1 : Int) (a2 : Int) :
    MakesOf (run (n + 4)) I.RemoveEntityReliablePdu [.int a1, .int a2] (RemoveEntityReliablePdu.enc (Dis.RemoveEntityReliablePdu.init a1 a2)) :=
  made_with (n := n + 3) (d := I.RemoveEntityReliablePdu) (f := RemoveEntityReliablePdu.__init__) (env := [(I.self, .obj I.RemoveEntityReliablePdu (classAttrs program 16 I.RemoveEntityReliablePdu)), (I.__class__, .cls I.RemoveEntityReliablePdu), (I.requestID, .int a2), (I.requiredReliabilityService, .int a1)])
    (by kernel_rfl) rfl rfl rfl (by kernel_rfl) (by kernel_rfl) (by kernel_rfl) (by kernel_rfl) <|
    inits_super (fs1 := SimulationManagementWithReliabilityFamilyPdu.fields Dis.RemoveEntityReliablePdu.init.toSimulationManagementWithReliabilityFamilyPdu) (.inl rfl) RemoveEntityReliablePdu.found rfl (fun _ => by kernel_rfl) <|
    inits_set (fun _ => gives_name rfl) (by kernel_rfl) <|
    inits_set (fun _ => gives_int) (by kernel_rfl) <|
    inits_set (fun _ => gives_int) (by kernel_rfl) <|
    inits_set (fun _ => gives_name rfl) (by kernel_rfl) <|
    inits_nil (by kernel_rfl)

theorem SeesPdu.makesOf (n : Nat) (a1 : Option Dis.EntityIdentifier) (a2 : Int) (a3 : Int) (a4 : Int) (a5 : Option (List Dis.PropulsionSystemData)) (a6 : Option (List Dis.VectoringNozzleSystem)) :
    MakesOf (run (n + 4)) I.SeesPdu [optArg EntityIdentifier.enc a1, .int a2, .int a3, .int a4, listArg PropulsionSystemData.enc a5, listArg VectoringNozzleSystem.enc a6] (SeesPdu.enc (Dis.SeesPdu.init a1 a2 a3 a4 (a5.getD []) (a6.getD []))) :=
  made_with (n := n + 3) (d := I.SeesPdu) (f := SeesPdu.__init__) (env := [(I.originatingEntityID, optArg EntityIdentifier.enc a1), (I.self, .obj I.SeesPdu (classAttrs program 16 I.SeesPdu)), (I.__class__, .cls I.SeesPdu), (I.infraredSignatureRepresentationIndex, .int a2), (I.acousticSignatureRepresentationIndex, .int a3), (I.radarCrossSectionSignatureRepresentationIndex, .int a4), (I.propulsionSystemData, listArg PropulsionSystemData.enc a5), (I.vectoringSystemData, listArg VectoringNozzleSystem.enc a6)])
    (by kernel_rfl) rfl rfl rfl (by kernel_rfl) (by kernel_rfl) (by kernel_rfl) (by kernel_rfl) <|
    inits_super (fs1 := DistributedEmissionsFamilyPdu.fields Dis.SeesPdu.init.toDistributedEmissionsFamilyPdu) (.inl rfl) SeesPdu.found rfl (fun _ => by kernel_rfl) <|
    inits_set (fun _ => gives_or_new rfl (EntityIdentifier.makes (n + 1)) (fun _ => rfl)) (by kernel_rfl) <|
    inits_set (fun _ => gives_name rfl) (by kernel_rfl) <|
    inits_set (fun _ => gives_name rfl) (by kernel_rfl) <|
    inits_set (fun _ => gives_name rfl) (by kernel_rfl) <|
    inits_set (fun _ => gives_or_nil rfl) (by kernel_rfl) <|
    inits_set (fun _ => gives_or_nil rfl) (by kernel_rfl) <|
    inits_nil (by kernel_rfl)

theorem CreateEntityReliablePdu.makesOf (n : Nat) (a1 : Int) (a2 : Int) :
    MakesOf (run (n + 4)) I.CreateEntityReliablePdu [.int a1, .int a2] (CreateEntityReliablePdu.enc (Dis.CreateEntityReliablePdu.init a1 a2)) :=
  made_with (n := n + 3) (d := I.CreateEntityReliablePdu) (f := CreateEntityReliablePdu.__init__) (env := [(I.self, .obj I.CreateEntityReliablePdu (classAttrs program 16 I.CreateEntityReliablePdu)), (I.__class__, .cls I.CreateEntityReliablePdu), (I.requestID, .int a2), (I.requiredReliabilityService, .int a1)])
    (by kernel_rfl) rfl rfl rfl (by kernel_rfl) (by kernel_rfl) (by kernel_rfl) (by kernel_rfl) <|
    inits_super (fs1 := SimulationManagementWithReliabilityFamilyPdu.fields Dis.CreateEntityReliablePdu.init.toSimulationManagementWithReliabilityFamilyPdu) (.inl rfl) CreateEntityReliablePdu.found rfl (fun _ => by kernel_rfl) <|
    inits_set (fun _ => gives_name rfl) (by kernel_rfl) <|
    inits_set (fun _ => gives_int) (by kernel_rfl) <|
    inits_set (fun _ => gives_int) (by kernel_rfl) <|
    inits_set (fun _ => gives_name rfl) (by kernel_rfl) <|
    inits_nil (by kernel_rfl)

theorem StopFreezeReliablePdu.makesOf (n : Nat) (a1 : Option Dis.ClockTime) (a2 : Int) (a3 : Int) (a4 : Int) (a5 : Int) :
    MakesOf (run (n + 4)) I.StopFreezeReliablePdu [optArg ClockTime.enc a1, .int a2, .int a3, .int a4, .int a5] (StopFreezeReliablePdu.enc (Dis.StopFreezeReliablePdu.init a1 a2 a3 a4 a5)) :=
  made_with (n := n + 3) (d := I.StopFreezeReliablePdu) (f := StopFreezeReliablePdu.__init__) (env := [(I.self, .obj I.StopFreezeReliablePdu (classAttrs program 16 I.StopFreezeReliablePdu)), (I.__class__, .cls I.StopFreezeReliablePdu), (I.requestID, .int a5), (I.requiredReliabilityService, .int a4), (I.realWorldTime, optArg ClockTime.enc a1), (I.reason, .int a2), (I.frozenBehavior, .int a3)])
    (by kernel_rfl) rfl rfl rfl (by kernel_rfl) (by kernel_rfl) (by kernel_rfl) (by kernel_rfl) <|
    inits_super (fs1 := SimulationManagementWithReliabilityFamilyPdu.fields Dis.StopFreezeReliablePdu.init.toSimulationManagementWithReliabilityFamilyPdu) (.inl rfl) StopFreezeReliablePdu.found rfl (fun _ => by kernel_rfl) <|
    inits_set (fun _ => gives_or_new rfl (ClockTime.makes (n + 2)) (fun _ => rfl)) (by kernel_rfl) <|
    inits_set (fun _ => gives_name rfl) (by kernel_rfl) <|
    inits_set (fun _ => gives_name rfl) (by kernel_rfl) <|
    inits_set (fun _ => gives_name rfl) (by kernel_rfl) <|
    inits_set (fun _ => gives_int) (by kernel_rfl) <|
    inits_set (fun _ => gives_name rfl) (by kernel_rfl) <|
    inits_nil (by kernel_rfl)

theorem MinefieldResponseNackPdu.makesOf (n : Nat) (a1 : Option Dis.EntityIdentifier) (a2 : Option Dis.EntityIdentifier) (a3 : Int) (a4 : Option (List Int)) :
    MakesOf (run (n + 4)) I.MinefieldResponseNackPdu [optArg EntityIdentifier.enc a1, optArg EntityIdentifier.enc a2, .int a3, listArg Val.int a4] (MinefieldResponseNackPdu.enc (Dis.MinefieldResponseNackPdu.init a1 a2 a3 (a4.getD []))) :=
  made_with (n := n + 3) (d := I.MinefieldResponseNackPdu) (f := MinefieldResponseNackPdu.__init__) (env := [(I.self, .obj I.MinefieldResponseNackPdu (classAttrs program 16 I.MinefieldResponseNackPdu)), (I.__class__, .cls I.MinefieldResponseNackPdu), (I.requestID, .int a3), (I.requestingEntityID, optArg EntityIdentifier.enc a2), (I.minefieldID, optArg EntityIdentifier.enc a1), (I.missingPduSequenceNumbers, listArg Val.int a4)])
    (by kernel_rfl) rfl rfl rfl (by kernel_rfl) (by kernel_rfl) (by kernel_rfl) (by kernel_rfl) <|
    inits_super (fs1 := MinefieldFamilyPdu.fields Dis.MinefieldResponseNackPdu.init.toMinefieldFamilyPdu) (.inl rfl) MinefieldResponseNackPdu.found rfl (fun _ => by kernel_rfl) <|
    inits_set (fun _ => gives_or_new rfl (EntityIdentifier.makes (n + 1)) (fun _ => rfl)) (by kernel_rfl) <|
    inits_set (fun _ => gives_or_new rfl (EntityIdentifier.makes (n + 1)) (fun _ => rfl)) (by kernel_rfl) <|
    inits_set (fun _ => gives_name rfl) (by kernel_rfl) <|
    inits_set (fun _ => gives_or_nil rfl) (by kernel_rfl) <|
    inits_nil (by kernel_rfl)

theorem IsPartOfPdu.makesOf (n : Nat) (a1 : Option Dis.EntityIdentifier) (a2 : Option Dis.EntityIdentifier) (a3 : Option Dis.Relationship) (a4 : Option Dis.Vector3Float) (a5 : Option Dis.NamedLocationIdentification) (a6 : Option Dis.EntityType) :
    MakesOf (run (n + 4)) I.IsPartOfPdu [optArg EntityIdentifier.enc a1, optArg EntityIdentifier.enc a2, optArg Relationship.enc a3, optArg Vector3Float.enc a4, optArg NamedLocationIdentification.enc a5, optArg EntityType.enc a6] (IsPartOfPdu.enc (Dis.IsPartOfPdu.init a1 a2 a3 a4 a5 a6)) :=
  made_with (n := n + 3) (d := I.IsPartOfPdu) (f := IsPartOfPdu.__init__) (env := [(I.originatingEntityID, optArg EntityIdentifier.enc a1), (I.receivingEntityID, optArg EntityIdentifier.enc a2), (I.self, .obj I.IsPartOfPdu (classAttrs program 16 I.IsPartOfPdu)), (I.__class__, .cls I.IsPartOfPdu), (I.relationship, optArg Relationship.enc a3), (I.partLocation, optArg Vector3Float.enc a4), (I.namedLocationID, optArg NamedLocationIdentification.enc a5), (I.partEntityType, optArg EntityType.enc a6)])
    (by kernel_rfl) rfl rfl rfl (by kernel_rfl) (by kernel_rfl) (by kernel_rfl) (by kernel_rfl) <|
    inits_super (fs1 := EntityManagementFamilyPdu.fields Dis.IsPartOfPdu.init.toEntityManagementFamilyPdu) (.inl rfl) IsPartOfPdu.found rfl (fun _ => by kernel_rfl) <|
    inits_set (fun _ => gives_or_new rfl (EntityIdentifier.makes (n + 1)) (fun _ => rfl)) (by kernel_rfl) <|
    inits_set (fun _ => gives_or_new rfl (EntityIdentifier.makes (n + 1)) (fun _ => rfl)) (by kernel_rfl) <|
    inits_set (fun _ => gives_or_new rfl (Relationship.makes (n + 2)) (fun _ => rfl)) (by kernel_rfl) <|
    inits_set (fun _ => gives_or_new rfl (Vector3Float.makes (n + 2)) (fun _ => rfl)) (by kernel_rfl) <|
    inits_set (fun _ => gives_or_new rfl (NamedLocationIdentification.makes (n + 2)) (fun _ => rfl)) (by kernel_rfl) <|
    inits_set (fun _ => gives_or_new rfl (EntityType.makes (n + 2)) (fun _ => rfl)) (by kernel_rfl) <|
    inits_nil (by kernel_rfl)

end Dis.Src
