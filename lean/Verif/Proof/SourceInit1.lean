import Verif.Proof.SourceInit
import Verif.Proof.SourceRun5
import Verif.Proof.SourceHand
import Verif.Proof.SourceSpecialLaw
import Verif.Proof.SourceDirected

/-!
# Constructors with arguments, class by class, part 1 (C77)

Written by `tools/gensourceinit.py`.
-/

namespace Dis.Src

theorem DataQueryDatumSpecification.makesOf (n : Nat) (a1 : Option (List Int)) (a2 : Option (List Int)) :
    MakesOf (run (n + 1)) I.DataQueryDatumSpecification [listArg Val.int a1, listArg Val.int a2] (DataQueryDatumSpecification.enc (Dis.DataQueryDatumSpecification.init (a1.getD []) (a2.getD []))) :=
  made_with (n := n + 0) (d := I.DataQueryDatumSpecification) (f := DataQueryDatumSpecification.__init__) (env := [(I.self, .obj I.DataQueryDatumSpecification (classAttrs program 16 I.DataQueryDatumSpecification)), (I.__class__, .cls I.DataQueryDatumSpecification), (I.fixedDatumIDs, listArg Val.int a1), (I.variableDatumIDs, listArg Val.int a2)])
    (by kernel_rfl) rfl rfl rfl (by kernel_rfl) (by kernel_rfl) (by kernel_rfl) (by kernel_rfl) <|
    inits_set (fun _ => gives_or_nil rfl) (by kernel_rfl) <|
    inits_set (fun _ => gives_or_nil rfl) (by kernel_rfl) <|
    inits_nil (by kernel_rfl)

theorem DatumSpecification.makesOf (n : Nat) (a1 : Option (List Dis.FixedDatum)) (a2 : Option (List Dis.VariableDatum)) :
    MakesOf (run (n + 1)) I.DatumSpecification [listArg FixedDatum.enc a1, listArg VariableDatum.enc a2] (DatumSpecification.enc (Dis.DatumSpecification.init (a1.getD []) (a2.getD []))) :=
  made_with (n := n + 0) (d := I.DatumSpecification) (f := DatumSpecification.__init__) (env := [(I.self, .obj I.DatumSpecification (classAttrs program 16 I.DatumSpecification)), (I.__class__, .cls I.DatumSpecification), (I.fixedDatumRecords, listArg FixedDatum.enc a1), (I.variableDatumRecords, listArg VariableDatum.enc a2)])
    (by kernel_rfl) rfl rfl rfl (by kernel_rfl) (by kernel_rfl) (by kernel_rfl) (by kernel_rfl) <|
    inits_set (fun _ => gives_or_nil rfl) (by kernel_rfl) <|
    inits_set (fun _ => gives_or_nil rfl) (by kernel_rfl) <|
    inits_nil (by kernel_rfl)

theorem SimulationAddress.makesOf (n : Nat) (a1 : Int) (a2 : Int) :
    MakesOf (run (n + 1)) I.SimulationAddress [.int a1, .int a2] (SimulationAddress.enc (Dis.SimulationAddress.init a1 a2)) :=
  made_with (n := n + 0) (d := I.SimulationAddress) (f := SimulationAddress.__init__) (env := [(I.self, .obj I.SimulationAddress (classAttrs program 16 I.SimulationAddress)), (I.__class__, .cls I.SimulationAddress), (I.site, .int a1), (I.application, .int a2)])
    (by kernel_rfl) rfl rfl rfl (by kernel_rfl) (by kernel_rfl) (by kernel_rfl) (by kernel_rfl) <|
    inits_set (fun _ => gives_name rfl) (by kernel_rfl) <|
    inits_set (fun _ => gives_name rfl) (by kernel_rfl) <|
    inits_nil (by kernel_rfl)

theorem EntityIdentifier.makesOf (n : Nat) (a1 : Option Dis.SimulationAddress) (a2 : Int) :
    MakesOf (run (n + 2)) I.EntityIdentifier [optArg SimulationAddress.enc a1, .int a2] (EntityIdentifier.enc (Dis.EntityIdentifier.init a1 a2)) :=
  made_with (n := n + 1) (d := I.EntityIdentifier) (f := EntityIdentifier.__init__) (env := [(I.self, .obj I.EntityIdentifier (classAttrs program 16 I.EntityIdentifier)), (I.__class__, .cls I.EntityIdentifier), (I.simulationAddress, optArg SimulationAddress.enc a1), (I.entityNumber, .int a2)])
    (by kernel_rfl) rfl rfl rfl (by kernel_rfl) (by kernel_rfl) (by kernel_rfl) (by kernel_rfl) <|
    inits_set (fun _ => gives_or_new rfl (SimulationAddress.makes (n + 0)) (fun _ => rfl)) (by kernel_rfl) <|
    inits_set (fun _ => gives_name rfl) (by kernel_rfl) <|
    inits_nil (by kernel_rfl)

theorem EulerAngles.makesOf (n : Nat) (a1 : F64) (a2 : F64) (a3 : F64) :
    MakesOf (run (n + 1)) I.EulerAngles [.float a1, .float a2, .float a3] (EulerAngles.enc (Dis.EulerAngles.init a1 a2 a3)) :=
  made_with (n := n + 0) (d := I.EulerAngles) (f := EulerAngles.__init__) (env := [(I.self, .obj I.EulerAngles (classAttrs program 16 I.EulerAngles)), (I.__class__, .cls I.EulerAngles), (I.psi, .float a1), (I.theta, .float a2), (I.phi, .float a3)])
    (by kernel_rfl) rfl rfl rfl (by kernel_rfl) (by kernel_rfl) (by kernel_rfl) (by kernel_rfl) <|
    inits_set (fun _ => gives_name rfl) (by kernel_rfl) <|
    inits_set (fun _ => gives_name rfl) (by kernel_rfl) <|
    inits_set (fun _ => gives_name rfl) (by kernel_rfl) <|
    inits_nil (by kernel_rfl)

theorem EventIdentifier.makesOf (n : Nat) (a1 : Option Dis.SimulationAddress) (a2 : Int) :
    MakesOf (run (n + 2)) I.EventIdentifier [optArg SimulationAddress.enc a1, .int a2] (EventIdentifier.enc (Dis.EventIdentifier.init a1 a2)) :=
  made_with (n := n + 1) (d := I.EventIdentifier) (f := EventIdentifier.__init__) (env := [(I.self, .obj I.EventIdentifier (classAttrs program 16 I.EventIdentifier)), (I.__class__, .cls I.EventIdentifier), (I.simulationAddress, optArg SimulationAddress.enc a1), (I.eventNumber, .int a2)])
    (by kernel_rfl) rfl rfl rfl (by kernel_rfl) (by kernel_rfl) (by kernel_rfl) (by kernel_rfl) <|
    inits_set (fun _ => gives_or_new rfl (SimulationAddress.makes (n + 0)) (fun _ => rfl)) (by kernel_rfl) <|
    inits_set (fun _ => gives_name rfl) (by kernel_rfl) <|
    inits_nil (by kernel_rfl)

theorem Vector3Float.makesOf (n : Nat) (a1 : F64) (a2 : F64) (a3 : F64) :
    MakesOf (run (n + 1)) I.Vector3Float [.float a1, .float a2, .float a3] (Vector3Float.enc (Dis.Vector3Float.init a1 a2 a3)) :=
  made_with (n := n + 0) (d := I.Vector3Float) (f := Vector3Float.__init__) (env := [(I.self, .obj I.Vector3Float (classAttrs program 16 I.Vector3Float)), (I.__class__, .cls I.Vector3Float), (I.x, .float a1), (I.y, .float a2), (I.z, .float a3)])
    (by kernel_rfl) rfl rfl rfl (by kernel_rfl) (by kernel_rfl) (by kernel_rfl) (by kernel_rfl) <|
    inits_set (fun _ => gives_name rfl) (by kernel_rfl) <|
    inits_set (fun _ => gives_name rfl) (by kernel_rfl) <|
    inits_set (fun _ => gives_name rfl) (by kernel_rfl) <|
    inits_nil (by kernel_rfl)

theorem WorldCoordinates.makesOf (n : Nat) (a1 : F64) (a2 : F64) (a3 : F64) :
    MakesOf (run (n + 1)) I.WorldCoordinates [.float a1, .float a2, .float a3] (WorldCoordinates.enc (Dis.WorldCoordinates.init a1 a2 a3)) :=
  made_with (n := n + 0) (d := I.WorldCoordinates) (f := WorldCoordinates.__init__) (env := [(I.self, .obj I.WorldCoordinates (classAttrs program 16 I.WorldCoordinates)), (I.__class__, .cls I.WorldCoordinates), (I.x, .float a1), (I.y, .float a2), (I.z, .float a3)])
    (by kernel_rfl) rfl rfl rfl (by kernel_rfl) (by kernel_rfl) (by kernel_rfl) (by kernel_rfl) <|
    inits_set (fun _ => gives_name rfl) (by kernel_rfl) <|
    inits_set (fun _ => gives_name rfl) (by kernel_rfl) <|
    inits_set (fun _ => gives_name rfl) (by kernel_rfl) <|
    inits_nil (by kernel_rfl)

theorem RadioIdentifier.makesOf (n : Nat) (a1 : Int) (a2 : Int) (a3 : Int) (a4 : Int) :
    MakesOf (run (n + 1)) I.RadioIdentifier [.int a1, .int a2, .int a3, .int a4] (RadioIdentifier.enc (Dis.RadioIdentifier.init a1 a2 a3 a4)) :=
  made_with (n := n + 0) (d := I.RadioIdentifier) (f := RadioIdentifier.__init__) (env := [(I.self, .obj I.RadioIdentifier (classAttrs program 16 I.RadioIdentifier)), (I.__class__, .cls I.RadioIdentifier), (I.siteNumber, .int a1), (I.applicationNumber, .int a2), (I.referenceNumber, .int a3), (I.radioNumber, .int a4)])
    (by kernel_rfl) rfl rfl rfl (by kernel_rfl) (by kernel_rfl) (by kernel_rfl) (by kernel_rfl) <|
    inits_set (fun _ => gives_name rfl) (by kernel_rfl) <|
    inits_set (fun _ => gives_name rfl) (by kernel_rfl) <|
    inits_set (fun _ => gives_name rfl) (by kernel_rfl) <|
    inits_set (fun _ => gives_name rfl) (by kernel_rfl) <|
    inits_nil (by kernel_rfl)

theorem RequestID.makesOf (n : Nat) (a1 : Int) :
    MakesOf (run (n + 1)) I.RequestID [.int a1] (RequestID.enc (Dis.RequestID.init a1)) :=
  made_with (n := n + 0) (d := I.RequestID) (f := RequestID.__init__) (env := [(I.self, .obj I.RequestID (classAttrs program 16 I.RequestID)), (I.__class__, .cls I.RequestID), (I.requestID, .int a1)])
    (by kernel_rfl) rfl rfl rfl (by kernel_rfl) (by kernel_rfl) (by kernel_rfl) (by kernel_rfl) <|
    inits_set (fun _ => gives_name rfl) (by kernel_rfl) <|
    inits_nil (by kernel_rfl)

theorem IFFData.makesOf (n : Nat) (a1 : Int) (a2 : Int) (a3 : Option (List Int)) :
    MakesOf (run (n + 1)) I.IFFData [.int a1, .int a2, listArg Val.int a3] (IFFData.enc (Dis.IFFData.init a1 a2 (a3.getD []))) :=
  made_with (n := n + 0) (d := I.IFFData) (f := IFFData.__init__) (env := [(I.self, .obj I.IFFData (classAttrs program 16 I.IFFData)), (I.__class__, .cls I.IFFData), (I.recordType, .int a1), (I.recordLength, .int a2), (I.iffData, listArg Val.int a3)])
    (by kernel_rfl) rfl rfl rfl (by kernel_rfl) (by kernel_rfl) (by kernel_rfl) (by kernel_rfl) <|
    inits_set (fun _ => gives_name rfl) (by kernel_rfl) <|
    inits_set (fun _ => gives_name rfl) (by kernel_rfl) <|
    inits_set (fun _ => gives_or_nil rfl) (by kernel_rfl) <|
    inits_nil (by kernel_rfl)

theorem EntityType.makesOf (n : Nat) (a1 : Int) (a2 : Int) (a3 : Int) (a4 : Int) (a5 : Int) (a6 : Int) (a7 : Int) :
    MakesOf (run (n + 1)) I.EntityType [.int a1, .int a2, .int a3, .int a4, .int a5, .int a6, .int a7] (EntityType.enc (Dis.EntityType.init a1 a2 a3 a4 a5 a6 a7)) :=
  made_with (n := n + 0) (d := I.EntityType) (f := EntityType.__init__) (env := [(I.self, .obj I.EntityType (classAttrs program 16 I.EntityType)), (I.__class__, .cls I.EntityType), (I.domain, .int a2), (I.country, .int a3), (I.category, .int a4), (I.subcategory, .int a5), (I.specific, .int a6), (I.extra, .int a7), (I.entityKind, .int a1)])
    (by kernel_rfl) rfl rfl rfl (by kernel_rfl) (by kernel_rfl) (by kernel_rfl) (by kernel_rfl) <|
    inits_set (fun _ => gives_name rfl) (by kernel_rfl) <|
    inits_set (fun _ => gives_name rfl) (by kernel_rfl) <|
    inits_set (fun _ => gives_name rfl) (by kernel_rfl) <|
    inits_set (fun _ => gives_name rfl) (by kernel_rfl) <|
    inits_set (fun _ => gives_name rfl) (by kernel_rfl) <|
    inits_set (fun _ => gives_name rfl) (by kernel_rfl) <|
    inits_set (fun _ => gives_name rfl) (by kernel_rfl) <|
    inits_nil (by kernel_rfl)

theorem MunitionDescriptor.makesOf (n : Nat) (a1 : Option Dis.EntityType) (a2 : Int) (a3 : Int) (a4 : Int) (a5 : Int) :
    MakesOf (run (n + 2)) I.MunitionDescriptor [optArg EntityType.enc a1, .int a2, .int a3, .int a4, .int a5] (MunitionDescriptor.enc (Dis.MunitionDescriptor.init a1 a2 a3 a4 a5)) :=
  made_with (n := n + 1) (d := I.MunitionDescriptor) (f := MunitionDescriptor.__init__) (env := [(I.self, .obj I.MunitionDescriptor (classAttrs program 16 I.MunitionDescriptor)), (I.__class__, .cls I.MunitionDescriptor), (I.munitionType, optArg EntityType.enc a1), (I.warhead, .int a2), (I.fuse, .int a3), (I.quantity, .int a4), (I.rate, .int a5)])
    (by kernel_rfl) rfl rfl rfl (by kernel_rfl) (by kernel_rfl) (by kernel_rfl) (by kernel_rfl) <|
    inits_set (fun _ => gives_or_new rfl (EntityType.makes (n + 0)) (fun _ => rfl)) (by kernel_rfl) <|
    inits_set (fun _ => gives_name rfl) (by kernel_rfl) <|
    inits_set (fun _ => gives_name rfl) (by kernel_rfl) <|
    inits_set (fun _ => gives_name rfl) (by kernel_rfl) <|
    inits_set (fun _ => gives_name rfl) (by kernel_rfl) <|
    inits_nil (by kernel_rfl)

theorem MinefieldSensorType.makesOf (n : Nat) (a1 : Int) :
    MakesOf (run (n + 1)) I.MinefieldSensorType [.int a1] (MinefieldSensorType.enc (Dis.MinefieldSensorType.init a1)) :=
  made_with (n := n + 0) (d := I.MinefieldSensorType) (f := MinefieldSensorType.__init__) (env := [(I.self, .obj I.MinefieldSensorType (classAttrs program 16 I.MinefieldSensorType)), (I.__class__, .cls I.MinefieldSensorType), (I.sensorType, .int a1)])
    (by kernel_rfl) rfl rfl rfl (by kernel_rfl) (by kernel_rfl) (by kernel_rfl) (by kernel_rfl) <|
    inits_set (fun _ => gives_name rfl) (by kernel_rfl) <|
    inits_nil (by kernel_rfl)

theorem GroupID.makesOf (n : Nat) (a1 : Option Dis.SimulationAddress) (a2 : Int) :
    MakesOf (run (n + 2)) I.GroupID [optArg SimulationAddress.enc a1, .int a2] (GroupID.enc (Dis.GroupID.init a1 a2)) :=
  made_with (n := n + 1) (d := I.GroupID) (f := GroupID.__init__) (env := [(I.self, .obj I.GroupID (classAttrs program 16 I.GroupID)), (I.__class__, .cls I.GroupID), (I.simulationAddress, optArg SimulationAddress.enc a1), (I.groupNumber, .int a2)])
    (by kernel_rfl) rfl rfl rfl (by kernel_rfl) (by kernel_rfl) (by kernel_rfl) (by kernel_rfl) <|
    inits_set (fun _ => gives_or_new rfl (SimulationAddress.makes (n + 0)) (fun _ => rfl)) (by kernel_rfl) <|
    inits_set (fun _ => gives_name rfl) (by kernel_rfl) <|
    inits_nil (by kernel_rfl)

theorem LayerHeader.makesOf (n : Nat) (a1 : Int) (a2 : Int) (a3 : Int) :
    MakesOf (run (n + 1)) I.LayerHeader [.int a1, .int a2, .int a3] (LayerHeader.enc (Dis.LayerHeader.init a1 a2 a3)) :=
  made_with (n := n + 0) (d := I.LayerHeader) (f := LayerHeader.__init__) (env := [(I.length, .int a3), (I.self, .obj I.LayerHeader (classAttrs program 16 I.LayerHeader)), (I.__class__, .cls I.LayerHeader), (I.layerNumber, .int a1), (I.layerSpecificInformation, .int a2)])
    (by kernel_rfl) rfl rfl rfl (by kernel_rfl) (by kernel_rfl) (by kernel_rfl) (by kernel_rfl) <|
    inits_set (fun _ => gives_name rfl) (by kernel_rfl) <|
    inits_set (fun _ => gives_name rfl) (by kernel_rfl) <|
    inits_set (fun _ => gives_name rfl) (by kernel_rfl) <|
    inits_nil (by kernel_rfl)

theorem UnsignedDISInteger.makesOf (n : Nat) (a1 : Int) :
    MakesOf (run (n + 1)) I.UnsignedDISInteger [.int a1] (UnsignedDISInteger.enc (Dis.UnsignedDISInteger.init a1)) :=
  made_with (n := n + 0) (d := I.UnsignedDISInteger) (f := UnsignedDISInteger.__init__) (env := [(I.self, .obj I.UnsignedDISInteger (classAttrs program 16 I.UnsignedDISInteger)), (I.__class__, .cls I.UnsignedDISInteger), (I.val, .int a1)])
    (by kernel_rfl) rfl rfl rfl (by kernel_rfl) (by kernel_rfl) (by kernel_rfl) (by kernel_rfl) <|
    inits_set (fun _ => gives_name rfl) (by kernel_rfl) <|
    inits_nil (by kernel_rfl)

theorem DeadReckoningParameters.makesOf (n : Nat) (a1 : Int) (a2 : Option (List Int)) (a3 : Option Dis.Vector3Float) (a4 : Option Dis.Vector3Float) :
    MakesOf (run (n + 2)) I.DeadReckoningParameters [.int a1, listArg Val.int a2, optArg Vector3Float.enc a3, optArg Vector3Float.enc a4] (DeadReckoningParameters.enc (Dis.DeadReckoningParameters.init a1 (a2.getD []) a3 a4)) :=
  made_with (n := n + 1) (d := I.DeadReckoningParameters) (f := DeadReckoningParameters.__init__) (env := [(I.self, .obj I.DeadReckoningParameters (classAttrs program 16 I.DeadReckoningParameters)), (I.__class__, .cls I.DeadReckoningParameters), (I.deadReckoningAlgorithm, .int a1), (I.parameters, listArg Val.int a2), (I.entityLinearAcceleration, optArg Vector3Float.enc a3), (I.entityAngularVelocity, optArg Vector3Float.enc a4)])
    (by kernel_rfl) rfl rfl rfl (by kernel_rfl) (by kernel_rfl) (by kernel_rfl) (by kernel_rfl) <|
    inits_set (fun _ => gives_name rfl) (by kernel_rfl) <|
    inits_set (fun _ => gives_or_zeros rfl) (by kernel_rfl) <|
    inits_set (fun _ => gives_or_new rfl (Vector3Float.makes (n + 0)) (fun _ => rfl)) (by kernel_rfl) <|
    inits_set (fun _ => gives_or_new rfl (Vector3Float.makes (n + 0)) (fun _ => rfl)) (by kernel_rfl) <|
    inits_nil (by kernel_rfl)

theorem ProtocolMode.makesOf (n : Nat) (a1 : Int) :
    MakesOf (run (n + 1)) I.ProtocolMode [.int a1] (ProtocolMode.enc (Dis.ProtocolMode.init a1)) :=
  made_with (n := n + 0) (d := I.ProtocolMode) (f := ProtocolMode.__init__) (env := [(I.self, .obj I.ProtocolMode (classAttrs program 16 I.ProtocolMode)), (I.__class__, .cls I.ProtocolMode), (I.protocolMode, .int a1)])
    (by kernel_rfl) rfl rfl rfl (by kernel_rfl) (by kernel_rfl) (by kernel_rfl) (by kernel_rfl) <|
    inits_set (fun _ => gives_name rfl) (by kernel_rfl) <|
    inits_nil (by kernel_rfl)

theorem AngleDeception.makesOf (n : Nat) (a1 : Int) (a2 : Int) (a3 : Int) (a4 : F64) (a5 : F64) (a6 : F64) (a7 : F64) (a8 : F64) (a9 : F64) (a10 : F64) (a11 : F64) :
    MakesOf (run (n + 1)) I.AngleDeception [.int a1, .int a2, .int a3, .float a4, .float a5, .float a6, .float a7, .float a8, .float a9, .float a10, .float a11] (AngleDeception.enc (Dis.AngleDeception.init a1 a2 a3 a4 a5 a6 a7 a8 a9 a10 a11)) :=
  made_with (n := n + 0) (d := I.AngleDeception) (f := AngleDeception.__init__) (env := [(I.self, .obj I.AngleDeception (classAttrs program 16 I.AngleDeception)), (I.__class__, .cls I.AngleDeception), (I.emitterNumber, .int a1), (I.beamNumber, .int a2), (I.stateIndicator, .int a3), (I.azimuthOffset, .float a4), (I.azimuthWidth, .float a5), (I.azimuthPullRate, .float a6), (I.azimuthPullAcceleration, .float a7), (I.elevationOffset, .float a8), (I.elevationWidth, .float a9), (I.elevationPullRate, .float a10), (I.elevationPullAcceleration, .float a11)])
    (by kernel_rfl) rfl rfl rfl (by kernel_rfl) (by kernel_rfl) (by kernel_rfl) (by kernel_rfl) <|
    inits_set (fun _ => gives_int) (by kernel_rfl) <|
    inits_set (fun _ => gives_name rfl) (by kernel_rfl) <|
    inits_set (fun _ => gives_name rfl) (by kernel_rfl) <|
    inits_set (fun _ => gives_name rfl) (by kernel_rfl) <|
    inits_set (fun _ => gives_int) (by kernel_rfl) <|
    inits_set (fun _ => gives_name rfl) (by kernel_rfl) <|
    inits_set (fun _ => gives_name rfl) (by kernel_rfl) <|
    inits_set (fun _ => gives_name rfl) (by kernel_rfl) <|
    inits_set (fun _ => gives_name rfl) (by kernel_rfl) <|
    inits_set (fun _ => gives_name rfl) (by kernel_rfl) <|
    inits_set (fun _ => gives_name rfl) (by kernel_rfl) <|
    inits_set (fun _ => gives_name rfl) (by kernel_rfl) <|
    inits_set (fun _ => gives_name rfl) (by kernel_rfl) <|
    inits_set (fun _ => gives_int) (by kernel_rfl) <|
    inits_nil (by kernel_rfl)

theorem EntityAssociation.makesOf (n : Nat) (a1 : Int) (a2 : Int) (a3 : Int) (a4 : Option Dis.EntityIdentifier) (a5 : Int) (a6 : Int) (a7 : Int) (a8 : Int) :
    MakesOf (run (n + 3)) I.EntityAssociation [.int a1, .int a2, .int a3, optArg EntityIdentifier.enc a4, .int a5, .int a6, .int a7, .int a8] (EntityAssociation.enc (Dis.EntityAssociation.init a1 a2 a3 a4 a5 a6 a7 a8)) :=
  made_with (n := n + 2) (d := I.EntityAssociation) (f := EntityAssociation.__init__) (env := [(I.self, .obj I.EntityAssociation (classAttrs program 16 I.EntityAssociation)), (I.__class__, .cls I.EntityAssociation), (I.groupNumber, .int a8), (I.changeIndicator, .int a1), (I.associationStatus, .int a2), (I.associationType, .int a3), (I.entityID, optArg EntityIdentifier.enc a4), (I.ownStationLocation, .int a5), (I.physicalConnectionType, .int a6), (I.groupMemberType, .int a7)])
    (by kernel_rfl) rfl rfl rfl (by kernel_rfl) (by kernel_rfl) (by kernel_rfl) (by kernel_rfl) <|
    inits_set (fun _ => gives_name rfl) (by kernel_rfl) <|
    inits_set (fun _ => gives_name rfl) (by kernel_rfl) <|
    inits_set (fun _ => gives_name rfl) (by kernel_rfl) <|
    inits_set (fun _ => gives_or_new rfl (EntityIdentifier.makes (n + 0)) (fun _ => rfl)) (by kernel_rfl) <|
    inits_set (fun _ => gives_name rfl) (by kernel_rfl) <|
    inits_set (fun _ => gives_name rfl) (by kernel_rfl) <|
    inits_set (fun _ => gives_name rfl) (by kernel_rfl) <|
    inits_set (fun _ => gives_name rfl) (by kernel_rfl) <|
    inits_nil (by kernel_rfl)

theorem VectoringNozzleSystem.makesOf (n : Nat) (a1 : F64) (a2 : F64) :
    MakesOf (run (n + 1)) I.VectoringNozzleSystem [.float a1, .float a2] (VectoringNozzleSystem.enc (Dis.VectoringNozzleSystem.init a1 a2)) :=
  made_with (n := n + 0) (d := I.VectoringNozzleSystem) (f := VectoringNozzleSystem.__init__) (env := [(I.self, .obj I.VectoringNozzleSystem (classAttrs program 16 I.VectoringNozzleSystem)), (I.__class__, .cls I.VectoringNozzleSystem), (I.horizontalDeflectionAngle, .float a1), (I.verticalDeflectionAngle, .float a2)])
    (by kernel_rfl) rfl rfl rfl (by kernel_rfl) (by kernel_rfl) (by kernel_rfl) (by kernel_rfl) <|
    inits_set (fun _ => gives_name rfl) (by kernel_rfl) <|
    inits_set (fun _ => gives_name rfl) (by kernel_rfl) <|
    inits_nil (by kernel_rfl)

theorem FalseTargetsAttribute.makesOf (n : Nat) (a1 : Int) (a2 : Int) (a3 : Int) (a4 : Int) (a5 : F64) (a6 : F64) (a7 : F64) (a8 : F64) (a9 : F64) :
    MakesOf (run (n + 1)) I.FalseTargetsAttribute [.int a1, .int a2, .int a3, .int a4, .float a5, .float a6, .float a7, .float a8, .float a9] (FalseTargetsAttribute.enc (Dis.FalseTargetsAttribute.init a1 a2 a3 a4 a5 a6 a7 a8 a9)) :=
  made_with (n := n + 0) (d := I.FalseTargetsAttribute) (f := FalseTargetsAttribute.__init__) (env := [(I.self, .obj I.FalseTargetsAttribute (classAttrs program 16 I.FalseTargetsAttribute)), (I.__class__, .cls I.FalseTargetsAttribute), (I.emitterNumber, .int a1), (I.beamNumber, .int a2), (I.stateIndicator, .int a3), (I.falseTargetCount, .int a4), (I.walkSpeed, .float a5), (I.walkAcceleration, .float a6), (I.maximumWalkDistance, .float a7), (I.keepTime, .float a8), (I.echoSpacing, .float a9)])
    (by kernel_rfl) rfl rfl rfl (by kernel_rfl) (by kernel_rfl) (by kernel_rfl) (by kernel_rfl) <|
    inits_set (fun _ => gives_int) (by kernel_rfl) <|
    inits_set (fun _ => gives_name rfl) (by kernel_rfl) <|
    inits_set (fun _ => gives_name rfl) (by kernel_rfl) <|
    inits_set (fun _ => gives_name rfl) (by kernel_rfl) <|
    inits_set (fun _ => gives_int) (by kernel_rfl) <|
    inits_set (fun _ => gives_name rfl) (by kernel_rfl) <|
    inits_set (fun _ => gives_name rfl) (by kernel_rfl) <|
    inits_set (fun _ => gives_name rfl) (by kernel_rfl) <|
    inits_set (fun _ => gives_name rfl) (by kernel_rfl) <|
    inits_set (fun _ => gives_name rfl) (by kernel_rfl) <|
    inits_set (fun _ => gives_name rfl) (by kernel_rfl) <|
    inits_nil (by kernel_rfl)

theorem MinefieldIdentifier.makesOf (n : Nat) (a1 : Option Dis.SimulationAddress) (a2 : Int) :
    MakesOf (run (n + 2)) I.MinefieldIdentifier [optArg SimulationAddress.enc a1, .int a2] (MinefieldIdentifier.enc (Dis.MinefieldIdentifier.init a1 a2)) :=
  made_with (n := n + 1) (d := I.MinefieldIdentifier) (f := MinefieldIdentifier.__init__) (env := [(I.self, .obj I.MinefieldIdentifier (classAttrs program 16 I.MinefieldIdentifier)), (I.__class__, .cls I.MinefieldIdentifier), (I.simulationAddress, optArg SimulationAddress.enc a1), (I.minefieldNumber, .int a2)])
    (by kernel_rfl) rfl rfl rfl (by kernel_rfl) (by kernel_rfl) (by kernel_rfl) (by kernel_rfl) <|
    inits_set (fun _ => gives_or_new rfl (SimulationAddress.makes (n + 0)) (fun _ => rfl)) (by kernel_rfl) <|
    inits_set (fun _ => gives_name rfl) (by kernel_rfl) <|
    inits_nil (by kernel_rfl)

theorem RadioType.makesOf (n : Nat) (a1 : Int) (a2 : Int) (a3 : Int) (a4 : Int) (a5 : Int) (a6 : Int) :
    MakesOf (run (n + 1)) I.RadioType [.int a1, .int a2, .int a3, .int a4, .int a5, .int a6] (RadioType.enc (Dis.RadioType.init a1 a2 a3 a4 a5 a6)) :=
  made_with (n := n + 0) (d := I.RadioType) (f := RadioType.__init__) (env := [(I.self, .obj I.RadioType (classAttrs program 16 I.RadioType)), (I.__class__, .cls I.RadioType), (I.domain, .int a1), (I.country, .int a2), (I.category, .int a3), (I.subcategory, .int a4), (I.specific, .int a5), (I.extra, .int a6)])
    (by kernel_rfl) rfl rfl rfl (by kernel_rfl) (by kernel_rfl) (by kernel_rfl) (by kernel_rfl) <|
    inits_set (fun _ => gives_name rfl) (by kernel_rfl) <|
    inits_set (fun _ => gives_name rfl) (by kernel_rfl) <|
    inits_set (fun _ => gives_name rfl) (by kernel_rfl) <|
    inits_set (fun _ => gives_name rfl) (by kernel_rfl) <|
    inits_set (fun _ => gives_name rfl) (by kernel_rfl) <|
    inits_set (fun _ => gives_name rfl) (by kernel_rfl) <|
    inits_nil (by kernel_rfl)

theorem NamedLocationIdentification.makesOf (n : Nat) (a1 : Int) (a2 : Int) :
    MakesOf (run (n + 1)) I.NamedLocationIdentification [.int a1, .int a2] (NamedLocationIdentification.enc (Dis.NamedLocationIdentification.init a1 a2)) :=
  made_with (n := n + 0) (d := I.NamedLocationIdentification) (f := NamedLocationIdentification.__init__) (env := [(I.self, .obj I.NamedLocationIdentification (classAttrs program 16 I.NamedLocationIdentification)), (I.__class__, .cls I.NamedLocationIdentification), (I.stationName, .int a1), (I.stationNumber, .int a2)])
    (by kernel_rfl) rfl rfl rfl (by kernel_rfl) (by kernel_rfl) (by kernel_rfl) (by kernel_rfl) <|
    inits_set (fun _ => gives_name rfl) (by kernel_rfl) <|
    inits_set (fun _ => gives_name rfl) (by kernel_rfl) <|
    inits_nil (by kernel_rfl)

theorem IFFDataSpecification.makesOf (n : Nat) (a1 : Option (List Dis.IFFData)) :
    MakesOf (run (n + 1)) I.IFFDataSpecification [listArg IFFData.enc a1] (IFFDataSpecification.enc (Dis.IFFDataSpecification.init (a1.getD []))) :=
  made_with (n := n + 0) (d := I.IFFDataSpecification) (f := IFFDataSpecification.__init__) (env := [(I.self, .obj I.IFFDataSpecification (classAttrs program 16 I.IFFDataSpecification)), (I.__class__, .cls I.IFFDataSpecification), (I.iffDataRecords, listArg IFFData.enc a1)])
    (by kernel_rfl) rfl rfl rfl (by kernel_rfl) (by kernel_rfl) (by kernel_rfl) (by kernel_rfl) <|
    inits_set (fun _ => gives_or_nil rfl) (by kernel_rfl) <|
    inits_nil (by kernel_rfl)

theorem OwnershipStatus.makesOf (n : Nat) (a1 : Option Dis.EntityIdentifier) (a2 : Int) :
    MakesOf (run (n + 3)) I.OwnershipStatus [optArg EntityIdentifier.enc a1, .int a2] (OwnershipStatus.enc (Dis.OwnershipStatus.init a1 a2)) :=
  made_with (n := n + 2) (d := I.OwnershipStatus) (f := OwnershipStatus.__init__) (env := [(I.self, .obj I.OwnershipStatus (classAttrs program 16 I.OwnershipStatus)), (I.__class__, .cls I.OwnershipStatus), (I.entityId, optArg EntityIdentifier.enc a1), (I.ownershipStatus, .int a2)])
    (by kernel_rfl) rfl rfl rfl (by kernel_rfl) (by kernel_rfl) (by kernel_rfl) (by kernel_rfl) <|
    inits_set (fun _ => gives_or_new rfl (EntityIdentifier.makes (n + 0)) (fun _ => rfl)) (by kernel_rfl) <|
    inits_set (fun _ => gives_name rfl) (by kernel_rfl) <|
    inits_set (fun _ => gives_int) (by kernel_rfl) <|
    inits_nil (by kernel_rfl)

theorem Attribute.makesOf (n : Nat) (a1 : Int) (a2 : Int) (a3 : Int) :
    MakesOf (run (n + 1)) I.Attribute [.int a1, .int a2, .int a3] (Attribute.enc (Dis.Attribute.init a1 a2 a3)) :=
  made_with (n := n + 0) (d := I.Attribute) (f := Attribute.__init__) (env := [(I.self, .obj I.Attribute (classAttrs program 16 I.Attribute)), (I.__class__, .cls I.Attribute), (I.recordType, .int a1), (I.recordLength, .int a2), (I.recordSpecificFields, .int a3)])
    (by kernel_rfl) rfl rfl rfl (by kernel_rfl) (by kernel_rfl) (by kernel_rfl) (by kernel_rfl) <|
    inits_set (fun _ => gives_name rfl) (by kernel_rfl) <|
    inits_set (fun _ => gives_name rfl) (by kernel_rfl) <|
    inits_set (fun _ => gives_name rfl) (by kernel_rfl) <|
    inits_nil (by kernel_rfl)

theorem RecordQuerySpecification.makesOf (n : Nat) (a1 : Option (List Int)) :
    MakesOf (run (n + 1)) I.RecordQuerySpecification [listArg Val.int a1] (RecordQuerySpecification.enc (Dis.RecordQuerySpecification.init (a1.getD []))) :=
  made_with (n := n + 0) (d := I.RecordQuerySpecification) (f := RecordQuerySpecification.__init__) (env := [(I.self, .obj I.RecordQuerySpecification (classAttrs program 16 I.RecordQuerySpecification)), (I.__class__, .cls I.RecordQuerySpecification), (I.recordIDs, listArg Val.int a1)])
    (by kernel_rfl) rfl rfl rfl (by kernel_rfl) (by kernel_rfl) (by kernel_rfl) (by kernel_rfl) <|
    inits_set (fun _ => gives_or_nil rfl) (by kernel_rfl) <|
    inits_nil (by kernel_rfl)

theorem ArticulatedParts.makesOf (n : Nat) (a1 : Int) (a2 : Int) (a3 : Int) (a4 : Int) :
    MakesOf (run (n + 1)) I.ArticulatedParts [.int a1, .int a2, .int a3, .int a4] (ArticulatedParts.enc (Dis.ArticulatedParts.init a1 a2 a3 a4)) :=
  made_with (n := n + 0) (d := I.ArticulatedParts) (f := ArticulatedParts.__init__) (env := [(I.self, .obj I.ArticulatedParts (classAttrs program 16 I.ArticulatedParts)), (I.__class__, .cls I.ArticulatedParts), (I.changeIndicator, .int a1), (I.partAttachedTo, .int a2), (I.parameterType, .int a3), (I.parameterValue, .int a4)])
    (by kernel_rfl) rfl rfl rfl (by kernel_rfl) (by kernel_rfl) (by kernel_rfl) (by kernel_rfl) <|
    inits_set (fun _ => gives_name rfl) (by kernel_rfl) <|
    inits_set (fun _ => gives_name rfl) (by kernel_rfl) <|
    inits_set (fun _ => gives_name rfl) (by kernel_rfl) <|
    inits_set (fun _ => gives_name rfl) (by kernel_rfl) <|
    inits_nil (by kernel_rfl)

theorem ObjectType.makesOf (n : Nat) (a1 : Int) (a2 : Int) (a3 : Int) (a4 : Int) :
    MakesOf (run (n + 1)) I.ObjectType [.int a1, .int a2, .int a3, .int a4] (ObjectType.enc (Dis.ObjectType.init a1 a2 a3 a4)) :=
  made_with (n := n + 0) (d := I.ObjectType) (f := ObjectType.__init__) (env := [(I.self, .obj I.ObjectType (classAttrs program 16 I.ObjectType)), (I.__class__, .cls I.ObjectType), (I.domain, .int a1), (I.category, .int a3), (I.subcategory, .int a4), (I.objectKind, .int a2)])
    (by kernel_rfl) rfl rfl rfl (by kernel_rfl) (by kernel_rfl) (by kernel_rfl) (by kernel_rfl) <|
    inits_set (fun _ => gives_name rfl) (by kernel_rfl) <|
    inits_set (fun _ => gives_name rfl) (by kernel_rfl) <|
    inits_set (fun _ => gives_name rfl) (by kernel_rfl) <|
    inits_set (fun _ => gives_name rfl) (by kernel_rfl) <|
    inits_nil (by kernel_rfl)

theorem Association.makesOf (n : Nat) (a1 : Int) (a2 : Option Dis.EntityIdentifier) (a3 : Option Dis.WorldCoordinates) :
    MakesOf (run (n + 3)) I.Association [.int a1, optArg EntityIdentifier.enc a2, optArg WorldCoordinates.enc a3] (Association.enc (Dis.Association.init a1 a2 a3)) :=
  made_with (n := n + 2) (d := I.Association) (f := Association.__init__) (env := [(I.self, .obj I.Association (classAttrs program 16 I.Association)), (I.__class__, .cls I.Association), (I.associationType, .int a1), (I.associatedEntityID, optArg EntityIdentifier.enc a2), (I.associatedLocation, optArg WorldCoordinates.enc a3)])
    (by kernel_rfl) rfl rfl rfl (by kernel_rfl) (by kernel_rfl) (by kernel_rfl) (by kernel_rfl) <|
    inits_set (fun _ => gives_name rfl) (by kernel_rfl) <|
    inits_set (fun _ => gives_int) (by kernel_rfl) <|
    inits_set (fun _ => gives_or_new rfl (EntityIdentifier.makes (n + 0)) (fun _ => rfl)) (by kernel_rfl) <|
    inits_set (fun _ => gives_or_new rfl (WorldCoordinates.makes (n + 1)) (fun _ => rfl)) (by kernel_rfl) <|
    inits_nil (by kernel_rfl)

theorem RecordSpecificationElement.makesOf (n : Nat) (a1 : Int) (a2 : Int) (a3 : Int) (a4 : Int) (a5 : Int) :
    MakesOf (run (n + 1)) I.RecordSpecificationElement [.int a1, .int a2, .int a3, .int a4, .int a5] (RecordSpecificationElement.enc (Dis.RecordSpecificationElement.init a1 a2 a3 a4 a5)) :=
  made_with (n := n + 0) (d := I.RecordSpecificationElement) (f := RecordSpecificationElement.__init__) (env := [(I.self, .obj I.RecordSpecificationElement (classAttrs program 16 I.RecordSpecificationElement)), (I.__class__, .cls I.RecordSpecificationElement), (I.recordLength, .int a3), (I.recordID, .int a1), (I.recordSetSerialNumber, .int a2), (I.recordCount, .int a4), (I.recordValues, .int a5)])
    (by kernel_rfl) rfl rfl rfl (by kernel_rfl) (by kernel_rfl) (by kernel_rfl) (by kernel_rfl) <|
    inits_set (fun _ => gives_name rfl) (by kernel_rfl) <|
    inits_set (fun _ => gives_name rfl) (by kernel_rfl) <|
    inits_set (fun _ => gives_name rfl) (by kernel_rfl) <|
    inits_set (fun _ => gives_name rfl) (by kernel_rfl) <|
    inits_set (fun _ => gives_name rfl) (by kernel_rfl) <|
    inits_set (fun _ => gives_int) (by kernel_rfl) <|
    inits_nil (by kernel_rfl)

theorem AntennaLocation.makesOf (n : Nat) (a1 : Option Dis.WorldCoordinates) (a2 : Option Dis.Vector3Float) :
    MakesOf (run (n + 2)) I.AntennaLocation [optArg WorldCoordinates.enc a1, optArg Vector3Float.enc a2] (AntennaLocation.enc (Dis.AntennaLocation.init a1 a2)) :=
  made_with (n := n + 1) (d := I.AntennaLocation) (f := AntennaLocation.__init__) (env := [(I.self, .obj I.AntennaLocation (classAttrs program 16 I.AntennaLocation)), (I.__class__, .cls I.AntennaLocation), (I.antennaLocation, optArg WorldCoordinates.enc a1), (I.relativeAntennaLocation, optArg Vector3Float.enc a2)])
    (by kernel_rfl) rfl rfl rfl (by kernel_rfl) (by kernel_rfl) (by kernel_rfl) (by kernel_rfl) <|
    inits_set (fun _ => gives_or_new rfl (WorldCoordinates.makes (n + 0)) (fun _ => rfl)) (by kernel_rfl) <|
    inits_set (fun _ => gives_or_new rfl (Vector3Float.makes (n + 0)) (fun _ => rfl)) (by kernel_rfl) <|
    inits_nil (by kernel_rfl)

theorem ObjectIdentifier.makesOf (n : Nat) (a1 : Option Dis.SimulationAddress) (a2 : Int) :
    MakesOf (run (n + 2)) I.ObjectIdentifier [optArg SimulationAddress.enc a1, .int a2] (ObjectIdentifier.enc (Dis.ObjectIdentifier.init a1 a2)) :=
  made_with (n := n + 1) (d := I.ObjectIdentifier) (f := ObjectIdentifier.__init__) (env := [(I.self, .obj I.ObjectIdentifier (classAttrs program 16 I.ObjectIdentifier)), (I.__class__, .cls I.ObjectIdentifier), (I.simulationAddress, optArg SimulationAddress.enc a1), (I.objectNumber, .int a2)])
    (by kernel_rfl) rfl rfl rfl (by kernel_rfl) (by kernel_rfl) (by kernel_rfl) (by kernel_rfl) <|
    inits_set (fun _ => gives_or_new rfl (SimulationAddress.makes (n + 0)) (fun _ => rfl)) (by kernel_rfl) <|
    inits_set (fun _ => gives_name rfl) (by kernel_rfl) <|
    inits_nil (by kernel_rfl)

theorem AggregateIdentifier.makesOf (n : Nat) (a1 : Option Dis.SimulationAddress) (a2 : Int) :
    MakesOf (run (n + 2)) I.AggregateIdentifier [optArg SimulationAddress.enc a1, .int a2] (AggregateIdentifier.enc (Dis.AggregateIdentifier.init a1 a2)) :=
  made_with (n := n + 1) (d := I.AggregateIdentifier) (f := AggregateIdentifier.__init__) (env := [(I.self, .obj I.AggregateIdentifier (classAttrs program 16 I.AggregateIdentifier)), (I.__class__, .cls I.AggregateIdentifier), (I.simulationAddress, optArg SimulationAddress.enc a1), (I.aggregateID, .int a2)])
    (by kernel_rfl) rfl rfl rfl (by kernel_rfl) (by kernel_rfl) (by kernel_rfl) (by kernel_rfl) <|
    inits_set (fun _ => gives_or_new rfl (SimulationAddress.makes (n + 0)) (fun _ => rfl)) (by kernel_rfl) <|
    inits_set (fun _ => gives_name rfl) (by kernel_rfl) <|
    inits_nil (by kernel_rfl)

theorem FixedDatum.makesOf (n : Nat) (a1 : Int) (a2 : Int) :
    MakesOf (run (n + 1)) I.FixedDatum [.int a1, .int a2] (FixedDatum.enc (Dis.FixedDatum.init a1 a2)) :=
  made_with (n := n + 0) (d := I.FixedDatum) (f := FixedDatum.__init__) (env := [(I.self, .obj I.FixedDatum (classAttrs program 16 I.FixedDatum)), (I.__class__, .cls I.FixedDatum), (I.fixedDatumID, .int a1), (I.fixedDatumValue, .int a2)])
    (by kernel_rfl) rfl rfl rfl (by kernel_rfl) (by kernel_rfl) (by kernel_rfl) (by kernel_rfl) <|
    inits_set (fun _ => gives_name rfl) (by kernel_rfl) <|
    inits_set (fun _ => gives_name rfl) (by kernel_rfl) <|
    inits_nil (by kernel_rfl)

theorem VariableParameter.makesOf (n : Nat) (a1 : Int) (a2 : F64) (a3 : Int) (a4 : Int) (a5 : Int) :
    MakesOf (run (n + 1)) I.VariableParameter [.int a1, .float a2, .int a3, .int a4, .int a5] (VariableParameter.enc (Dis.VariableParameter.init a1 a2 a3 a4 a5)) :=
  made_with (n := n + 0) (d := I.VariableParameter) (f := VariableParameter.__init__) (env := [(I.self, .obj I.VariableParameter (classAttrs program 16 I.VariableParameter)), (I.__class__, .cls I.VariableParameter), (I.recordType, .int a1), (I.variableParameterFields1, .float a2), (I.variableParameterFields2, .int a3), (I.variableParameterFields3, .int a4), (I.variableParameterFields4, .int a5)])
    (by kernel_rfl) rfl rfl rfl (by kernel_rfl) (by kernel_rfl) (by kernel_rfl) (by kernel_rfl) <|
    inits_set (fun _ => gives_name rfl) (by kernel_rfl) <|
    inits_set (fun _ => gives_name rfl) (by kernel_rfl) <|
    inits_set (fun _ => gives_name rfl) (by kernel_rfl) <|
    inits_set (fun _ => gives_name rfl) (by kernel_rfl) <|
    inits_set (fun _ => gives_name rfl) (by kernel_rfl) <|
    inits_nil (by kernel_rfl)

theorem LiveSimulationAddress.makesOf (n : Nat) (a1 : Int) (a2 : Int) :
    MakesOf (run (n + 1)) I.LiveSimulationAddress [.int a1, .int a2] (LiveSimulationAddress.enc (Dis.LiveSimulationAddress.init a1 a2)) :=
  made_with (n := n + 0) (d := I.LiveSimulationAddress) (f := LiveSimulationAddress.__init__) (env := [(I.self, .obj I.LiveSimulationAddress (classAttrs program 16 I.LiveSimulationAddress)), (I.__class__, .cls I.LiveSimulationAddress), (I.liveSiteNumber, .int a1), (I.liveApplicationNumber, .int a2)])
    (by kernel_rfl) rfl rfl rfl (by kernel_rfl) (by kernel_rfl) (by kernel_rfl) (by kernel_rfl) <|
    inits_set (fun _ => gives_name rfl) (by kernel_rfl) <|
    inits_set (fun _ => gives_name rfl) (by kernel_rfl) <|
    inits_nil (by kernel_rfl)

theorem EntityMarking.makesOf (n : Nat) (a1 : Int) (a2 : Option (List Int)) :
    MakesOf (run (n + 1)) I.EntityMarking [.int a1, listArg Val.int a2] (EntityMarking.enc (Dis.EntityMarking.init a1 (a2.getD []))) :=
  made_with (n := n + 0) (d := I.EntityMarking) (f := EntityMarking.__init__) (env := [(I.self, .obj I.EntityMarking (classAttrs program 16 I.EntityMarking)), (I.__class__, .cls I.EntityMarking), (I.characterSet, .int a1), (I.characters, listArg Val.int a2)])
    (by kernel_rfl) rfl rfl rfl (by kernel_rfl) (by kernel_rfl) (by kernel_rfl) (by kernel_rfl) <|
    inits_set (fun _ => gives_name rfl) (by kernel_rfl) <|
    inits_set (fun _ => gives_or_zeros rfl) (by kernel_rfl) <|
    inits_nil (by kernel_rfl)

theorem UAFundamentalParameter.makesOf (n : Nat) (a1 : Int) (a2 : Int) (a3 : F64) (a4 : F64) (a5 : F64) (a6 : F64) :
    MakesOf (run (n + 1)) I.UAFundamentalParameter [.int a1, .int a2, .float a3, .float a4, .float a5, .float a6] (UAFundamentalParameter.enc (Dis.UAFundamentalParameter.init a1 a2 a3 a4 a5 a6)) :=
  made_with (n := n + 0) (d := I.UAFundamentalParameter) (f := UAFundamentalParameter.__init__) (env := [(I.self, .obj I.UAFundamentalParameter (classAttrs program 16 I.UAFundamentalParameter)), (I.__class__, .cls I.UAFundamentalParameter), (I.activeEmissionParameterIndex, .int a1), (I.scanPattern, .int a2), (I.beamCenterAzimuthHorizontal, .float a3), (I.azimuthBeamwidthHorizontal, .float a4), (I.beamCenterDepressionElevation, .float a5), (I.beamwidthDownElevation, .float a6)])
    (by kernel_rfl) rfl rfl rfl (by kernel_rfl) (by kernel_rfl) (by kernel_rfl) (by kernel_rfl) <|
    inits_set (fun _ => gives_name rfl) (by kernel_rfl) <|
    inits_set (fun _ => gives_name rfl) (by kernel_rfl) <|
    inits_set (fun _ => gives_name rfl) (by kernel_rfl) <|
    inits_set (fun _ => gives_name rfl) (by kernel_rfl) <|
    inits_set (fun _ => gives_name rfl) (by kernel_rfl) <|
    inits_set (fun _ => gives_name rfl) (by kernel_rfl) <|
    inits_nil (by kernel_rfl)

theorem ExplosionDescriptor.makesOf (n : Nat) (a1 : Option Dis.EntityType) (a2 : Int) (a3 : F64) :
    MakesOf (run (n + 2)) I.ExplosionDescriptor [optArg EntityType.enc a1, .int a2, .float a3] (ExplosionDescriptor.enc (Dis.ExplosionDescriptor.init a1 a2 a3)) :=
  made_with (n := n + 1) (d := I.ExplosionDescriptor) (f := ExplosionDescriptor.__init__) (env := [(I.self, .obj I.ExplosionDescriptor (classAttrs program 16 I.ExplosionDescriptor)), (I.__class__, .cls I.ExplosionDescriptor), (I.explodingObject, optArg EntityType.enc a1), (I.explosiveMaterial, .int a2), (I.explosiveForce, .float a3)])
    (by kernel_rfl) rfl rfl rfl (by kernel_rfl) (by kernel_rfl) (by kernel_rfl) (by kernel_rfl) <|
    inits_set (fun _ => gives_or_new rfl (EntityType.makes (n + 0)) (fun _ => rfl)) (by kernel_rfl) <|
    inits_set (fun _ => gives_name rfl) (by kernel_rfl) <|
    inits_set (fun _ => gives_int) (by kernel_rfl) <|
    inits_set (fun _ => gives_name rfl) (by kernel_rfl) <|
    inits_nil (by kernel_rfl)

theorem ClockTime.makesOf (n : Nat) (a1 : Int) (a2 : Int) :
    MakesOf (run (n + 1)) I.ClockTime [.int a1, .int a2] (ClockTime.enc (Dis.ClockTime.init a1 a2)) :=
  made_with (n := n + 0) (d := I.ClockTime) (f := ClockTime.__init__) (env := [(I.self, .obj I.ClockTime (classAttrs program 16 I.ClockTime)), (I.__class__, .cls I.ClockTime), (I.hour, .int a1), (I.timePastHour, .int a2)])
    (by kernel_rfl) rfl rfl rfl (by kernel_rfl) (by kernel_rfl) (by kernel_rfl) (by kernel_rfl) <|
    inits_set (fun _ => gives_name rfl) (by kernel_rfl) <|
    inits_set (fun _ => gives_name rfl) (by kernel_rfl) <|
    inits_nil (by kernel_rfl)

theorem SecondaryOperationalData.makesOf (n : Nat) (a1 : Int) (a2 : Int) (a3 : Int) :
    MakesOf (run (n + 1)) I.SecondaryOperationalData [.int a1, .int a2, .int a3] (SecondaryOperationalData.enc (Dis.SecondaryOperationalData.init a1 a2 a3)) :=
  made_with (n := n + 0) (d := I.SecondaryOperationalData) (f := SecondaryOperationalData.__init__) (env := [(I.self, .obj I.SecondaryOperationalData (classAttrs program 16 I.SecondaryOperationalData)), (I.__class__, .cls I.SecondaryOperationalData), (I.operationalData1, .int a1), (I.operationalData2, .int a2), (I.numberOfIFFFundamentalParameterRecords, .int a3)])
    (by kernel_rfl) rfl rfl rfl (by kernel_rfl) (by kernel_rfl) (by kernel_rfl) (by kernel_rfl) <|
    inits_set (fun _ => gives_name rfl) (by kernel_rfl) <|
    inits_set (fun _ => gives_name rfl) (by kernel_rfl) <|
    inits_set (fun _ => gives_name rfl) (by kernel_rfl) <|
    inits_nil (by kernel_rfl)

end Dis.Src
