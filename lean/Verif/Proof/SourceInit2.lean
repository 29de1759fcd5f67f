import Verif.Proof.SourceInit
import Verif.Proof.SourceRun5
import Verif.Proof.SourceHand
import Verif.Proof.SourceSpecialLaw
import Verif.Proof.SourceDirected
import Verif.Proof.SourceInit1

/-!
# Constructors with arguments, class by class, part 2 (C77)

Written by `tools/gensourceinit.py`.
-/

namespace Dis.Src

theorem EnvironmentType.makesOf (n : Nat) (a1 : Int) (a2 : Int) (a3 : Int) (a4 : Int) (a5 : Int) (a6 : Int) (a7 : Int) :
    MakesOf (run (n + 1)) I.EnvironmentType [.int a1, .int a2, .int a3, .int a4, .int a5, .int a6, .int a7] (EnvironmentType.enc (Dis.EnvironmentType.init a1 a2 a3 a4 a5 a6 a7)) :=
  made_with (n := n + 0) (d := I.EnvironmentType) (f := EnvironmentType.__init__) (env := [(I.self, .obj I.EnvironmentType (classAttrs program 16 I.EnvironmentType)), (I.__class__, .cls I.EnvironmentType), (I.domain, .int a2), (I.category, .int a4), (I.subcategory, .int a5), (I.specific, .int a6), (I.extra, .int a7), (I.entityKind, .int a1), (I.entityClass, .int a3)])
    (by kernel_rfl) rfl rfl rfl (by kernel_rfl) (by kernel_rfl) (by kernel_rfl) (by kernel_rfl) <|
    inits_set (fun _ => gives_name rfl) (by kernel_rfl) <|
    inits_set (fun _ => gives_name rfl) (by kernel_rfl) <|
    inits_set (fun _ => gives_name rfl) (by kernel_rfl) <|
    inits_set (fun _ => gives_name rfl) (by kernel_rfl) <|
    inits_set (fun _ => gives_name rfl) (by kernel_rfl) <|
    inits_set (fun _ => gives_name rfl) (by kernel_rfl) <|
    inits_set (fun _ => gives_name rfl) (by kernel_rfl) <|
    inits_nil (by kernel_rfl)

theorem TotalRecordSets.makesOf (n : Nat) (a1 : Int) :
    MakesOf (run (n + 1)) I.TotalRecordSets [.int a1] (TotalRecordSets.enc (Dis.TotalRecordSets.init a1)) :=
  made_with (n := n + 0) (d := I.TotalRecordSets) (f := TotalRecordSets.__init__) (env := [(I.self, .obj I.TotalRecordSets (classAttrs program 16 I.TotalRecordSets)), (I.__class__, .cls I.TotalRecordSets), (I.totalRecordSets, .int a1)])
    (by kernel_rfl) rfl rfl rfl (by kernel_rfl) (by kernel_rfl) (by kernel_rfl) (by kernel_rfl) <|
    inits_set (fun _ => gives_name rfl) (by kernel_rfl) <|
    inits_set (fun _ => gives_int) (by kernel_rfl) <|
    inits_nil (by kernel_rfl)

theorem MineEntityIdentifier.makesOf (n : Nat) (a1 : Option Dis.SimulationAddress) (a2 : Int) :
    MakesOf (run (n + 2)) I.MineEntityIdentifier [optArg SimulationAddress.enc a1, .int a2] (MineEntityIdentifier.enc (Dis.MineEntityIdentifier.init a1 a2)) :=
  made_with (n := n + 1) (d := I.MineEntityIdentifier) (f := MineEntityIdentifier.__init__) (env := [(I.self, .obj I.MineEntityIdentifier (classAttrs program 16 I.MineEntityIdentifier)), (I.__class__, .cls I.MineEntityIdentifier), (I.simulationAddress, optArg SimulationAddress.enc a1), (I.mineEntityNumber, .int a2)])
    (by kernel_rfl) rfl rfl rfl (by kernel_rfl) (by kernel_rfl) (by kernel_rfl) (by kernel_rfl) <|
    inits_set (fun _ => gives_or_new rfl (SimulationAddress.makes (n + 0)) (fun _ => rfl)) (by kernel_rfl) <|
    inits_set (fun _ => gives_name rfl) (by kernel_rfl) <|
    inits_nil (by kernel_rfl)

theorem Relationship.makesOf (n : Nat) (a1 : Int) (a2 : Int) :
    MakesOf (run (n + 1)) I.Relationship [.int a1, .int a2] (Relationship.enc (Dis.Relationship.init a1 a2)) :=
  made_with (n := n + 0) (d := I.Relationship) (f := Relationship.__init__) (env := [(I.self, .obj I.Relationship (classAttrs program 16 I.Relationship)), (I.__class__, .cls I.Relationship), (I.nature, .int a1), (I.position, .int a2)])
    (by kernel_rfl) rfl rfl rfl (by kernel_rfl) (by kernel_rfl) (by kernel_rfl) (by kernel_rfl) <|
    inits_set (fun _ => gives_name rfl) (by kernel_rfl) <|
    inits_set (fun _ => gives_name rfl) (by kernel_rfl) <|
    inits_nil (by kernel_rfl)

theorem EEFundamentalParameterData.makesOf (n : Nat) (a1 : F64) (a2 : F64) (a3 : F64) (a4 : F64) (a5 : F64) (a6 : F64) (a7 : F64) (a8 : F64) (a9 : F64) (a10 : F64) :
    MakesOf (run (n + 1)) I.EEFundamentalParameterData [.float a1, .float a2, .float a3, .float a4, .float a5, .float a6, .float a7, .float a8, .float a9, .float a10] (EEFundamentalParameterData.enc (Dis.EEFundamentalParameterData.init a1 a2 a3 a4 a5 a6 a7 a8 a9 a10)) :=
  made_with (n := n + 0) (d := I.EEFundamentalParameterData) (f := EEFundamentalParameterData.__init__) (env := [(I.self, .obj I.EEFundamentalParameterData (classAttrs program 16 I.EEFundamentalParameterData)), (I.__class__, .cls I.EEFundamentalParameterData), (I.frequency, .float a1), (I.frequencyRange, .float a2), (I.effectiveRadiatedPower, .float a3), (I.pulseRepetitionFrequency, .float a4), (I.pulseWidth, .float a5), (I.beamAzimuthCenter, .float a6), (I.beamAzimuthSweep, .float a7), (I.beamElevationCenter, .float a8), (I.beamElevationSweep, .float a9), (I.beamSweepSync, .float a10)])
    (by kernel_rfl) rfl rfl rfl (by kernel_rfl) (by kernel_rfl) (by kernel_rfl) (by kernel_rfl) <|
    inits_set (fun _ => gives_name rfl) (by kernel_rfl) <|
    inits_set (fun _ => gives_name rfl) (by kernel_rfl) <|
    inits_set (fun _ => gives_name rfl) (by kernel_rfl) <|
    inits_set (fun _ => gives_name rfl) (by kernel_rfl) <|
    inits_set (fun _ => gives_name rfl) (by kernel_rfl) <|
    inits_set (fun _ => gives_name rfl) (by kernel_rfl) <|
    inits_set (fun _ => gives_name rfl) (by kernel_rfl) <|
    inits_set (fun _ => gives_name rfl) (by kernel_rfl) <|
    inits_set (fun _ => gives_name rfl) (by kernel_rfl) <|
    inits_set (fun _ => gives_name rfl) (by kernel_rfl) <|
    inits_nil (by kernel_rfl)

theorem JammingTechnique.makesOf (n : Nat) (a1 : Int) (a2 : Int) (a3 : Int) (a4 : Int) :
    MakesOf (run (n + 1)) I.JammingTechnique [.int a1, .int a2, .int a3, .int a4] (JammingTechnique.enc (Dis.JammingTechnique.init a1 a2 a3 a4)) :=
  made_with (n := n + 0) (d := I.JammingTechnique) (f := JammingTechnique.__init__) (env := [(I.self, .obj I.JammingTechnique (classAttrs program 16 I.JammingTechnique)), (I.__class__, .cls I.JammingTechnique), (I.category, .int a2), (I.subcategory, .int a3), (I.specific, .int a4), (I.kind, .int a1)])
    (by kernel_rfl) rfl rfl rfl (by kernel_rfl) (by kernel_rfl) (by kernel_rfl) (by kernel_rfl) <|
    inits_set (fun _ => gives_name rfl) (by kernel_rfl) <|
    inits_set (fun _ => gives_name rfl) (by kernel_rfl) <|
    inits_set (fun _ => gives_name rfl) (by kernel_rfl) <|
    inits_set (fun _ => gives_name rfl) (by kernel_rfl) <|
    inits_nil (by kernel_rfl)

theorem Expendable.makesOf (n : Nat) (a1 : Option Dis.EntityType) (a2 : Int) (a3 : Int) (a4 : Int) :
    MakesOf (run (n + 2)) I.Expendable [optArg EntityType.enc a1, .int a2, .int a3, .int a4] (Expendable.enc (Dis.Expendable.init a1 a2 a3 a4)) :=
  made_with (n := n + 1) (d := I.Expendable) (f := Expendable.__init__) (env := [(I.self, .obj I.Expendable (classAttrs program 16 I.Expendable)), (I.__class__, .cls I.Expendable), (I.quantity, .int a3), (I.expendable, optArg EntityType.enc a1), (I.station, .int a2), (I.expendableStatus, .int a4)])
    (by kernel_rfl) rfl rfl rfl (by kernel_rfl) (by kernel_rfl) (by kernel_rfl) (by kernel_rfl) <|
    inits_set (fun _ => gives_or_new rfl (EntityType.makes (n + 0)) (fun _ => rfl)) (by kernel_rfl) <|
    inits_set (fun _ => gives_name rfl) (by kernel_rfl) <|
    inits_set (fun _ => gives_name rfl) (by kernel_rfl) <|
    inits_set (fun _ => gives_name rfl) (by kernel_rfl) <|
    inits_set (fun _ => gives_int) (by kernel_rfl) <|
    inits_nil (by kernel_rfl)

theorem CommunicationsNodeID.makesOf (n : Nat) (a1 : Option Dis.EntityIdentifier) (a2 : Int) :
    MakesOf (run (n + 3)) I.CommunicationsNodeID [optArg EntityIdentifier.enc a1, .int a2] (CommunicationsNodeID.enc (Dis.CommunicationsNodeID.init a1 a2)) :=
  made_with (n := n + 2) (d := I.CommunicationsNodeID) (f := CommunicationsNodeID.__init__) (env := [(I.self, .obj I.CommunicationsNodeID (classAttrs program 16 I.CommunicationsNodeID)), (I.__class__, .cls I.CommunicationsNodeID), (I.entityID, optArg EntityIdentifier.enc a1), (I.elementID, .int a2)])
    (by kernel_rfl) rfl rfl rfl (by kernel_rfl) (by kernel_rfl) (by kernel_rfl) (by kernel_rfl) <|
    inits_set (fun _ => gives_or_new rfl (EntityIdentifier.makes (n + 0)) (fun _ => rfl)) (by kernel_rfl) <|
    inits_set (fun _ => gives_name rfl) (by kernel_rfl) <|
    inits_nil (by kernel_rfl)

theorem IOCommunicationsNode.makesOf (n : Nat) (a1 : Int) (a2 : Option Dis.CommunicationsNodeID) :
    MakesOf (run (n + 4)) I.IOCommunicationsNode [.int a1, optArg CommunicationsNodeID.enc a2] (IOCommunicationsNode.enc (Dis.IOCommunicationsNode.init a1 a2)) :=
  made_with (n := n + 3) (d := I.IOCommunicationsNode) (f := IOCommunicationsNode.__init__) (env := [(I.self, .obj I.IOCommunicationsNode (classAttrs program 16 I.IOCommunicationsNode)), (I.__class__, .cls I.IOCommunicationsNode), (I.communicationsNodeType, .int a1), (I.communicationsNodeID, optArg CommunicationsNodeID.enc a2)])
    (by kernel_rfl) rfl rfl rfl (by kernel_rfl) (by kernel_rfl) (by kernel_rfl) (by kernel_rfl) <|
    inits_set (fun _ => gives_name rfl) (by kernel_rfl) <|
    inits_set (fun _ => gives_int) (by kernel_rfl) <|
    inits_set (fun _ => gives_or_new rfl (CommunicationsNodeID.makes (n + 0)) (fun _ => rfl)) (by kernel_rfl) <|
    inits_nil (by kernel_rfl)

theorem LinearSegmentParameter.makesOf (n : Nat) (a1 : Int) (a2 : Int) (a3 : Int) (a4 : Int) (a5 : Option Dis.WorldCoordinates) (a6 : Option Dis.EulerAngles) (a7 : F64) (a8 : F64) (a9 : F64) (a10 : F64) :
    MakesOf (run (n + 2)) I.LinearSegmentParameter [.int a1, .int a2, .int a3, .int a4, optArg WorldCoordinates.enc a5, optArg EulerAngles.enc a6, .float a7, .float a8, .float a9, .float a10] (LinearSegmentParameter.enc (Dis.LinearSegmentParameter.init a1 a2 a3 a4 a5 a6 a7 a8 a9 a10)) :=
  made_with (n := n + 1) (d := I.LinearSegmentParameter) (f := LinearSegmentParameter.__init__) (env := [(I.self, .obj I.LinearSegmentParameter (classAttrs program 16 I.LinearSegmentParameter)), (I.__class__, .cls I.LinearSegmentParameter), (I.segmentNumber, .int a1), (I.segmentModification, .int a2), (I.generalSegmentAppearance, .int a3), (I.specificSegmentAppearance, .int a4), (I.segmentLocation, optArg WorldCoordinates.enc a5), (I.segmentOrientation, optArg EulerAngles.enc a6), (I.segmentLength, .float a7), (I.segmentWidth, .float a8), (I.segmentHeight, .float a9), (I.segmentDepth, .float a10)])
    (by kernel_rfl) rfl rfl rfl (by kernel_rfl) (by kernel_rfl) (by kernel_rfl) (by kernel_rfl) <|
    inits_set (fun _ => gives_name rfl) (by kernel_rfl) <|
    inits_set (fun _ => gives_name rfl) (by kernel_rfl) <|
    inits_set (fun _ => gives_name rfl) (by kernel_rfl) <|
    inits_set (fun _ => gives_name rfl) (by kernel_rfl) <|
    inits_set (fun _ => gives_or_new rfl (WorldCoordinates.makes (n + 0)) (fun _ => rfl)) (by kernel_rfl) <|
    inits_set (fun _ => gives_or_new rfl (EulerAngles.makes (n + 0)) (fun _ => rfl)) (by kernel_rfl) <|
    inits_set (fun _ => gives_name rfl) (by kernel_rfl) <|
    inits_set (fun _ => gives_name rfl) (by kernel_rfl) <|
    inits_set (fun _ => gives_name rfl) (by kernel_rfl) <|
    inits_set (fun _ => gives_name rfl) (by kernel_rfl) <|
    inits_set (fun _ => gives_int) (by kernel_rfl) <|
    inits_nil (by kernel_rfl)

theorem SystemIdentifier.makesOf (n : Nat) (a1 : Int) (a2 : Int) (a3 : Int) (a4 : Option Dis.ChangeOptions) :
    MakesOf (run (n + 2)) I.SystemIdentifier [.int a1, .int a2, .int a3, optArg ChangeOptions.enc a4] (SystemIdentifier.enc (Dis.SystemIdentifier.init a1 a2 a3 a4)) :=
  made_with (n := n + 1) (d := I.SystemIdentifier) (f := SystemIdentifier.__init__) (env := [(I.self, .obj I.SystemIdentifier (classAttrs program 16 I.SystemIdentifier)), (I.__class__, .cls I.SystemIdentifier), (I.systemType, .int a1), (I.systemName, .int a2), (I.systemMode, .int a3), (I.changeOptions, optArg ChangeOptions.enc a4)])
    (by kernel_rfl) rfl rfl rfl (by kernel_rfl) (by kernel_rfl) (by kernel_rfl) (by kernel_rfl) <|
    inits_set (fun _ => gives_name rfl) (by kernel_rfl) <|
    inits_set (fun _ => gives_name rfl) (by kernel_rfl) <|
    inits_set (fun _ => gives_name rfl) (by kernel_rfl) <|
    inits_set (fun _ => gives_or_new rfl (ChangeOptions.makes (n + 0)) (fun _ => rfl)) (by kernel_rfl) <|
    inits_nil (by kernel_rfl)

theorem TrackJamData.makesOf (n : Nat) (a1 : Option Dis.EntityIdentifier) (a2 : Int) (a3 : Int) :
    MakesOf (run (n + 3)) I.TrackJamData [optArg EntityIdentifier.enc a1, .int a2, .int a3] (TrackJamData.enc (Dis.TrackJamData.init a1 a2 a3)) :=
  made_with (n := n + 2) (d := I.TrackJamData) (f := TrackJamData.__init__) (env := [(I.self, .obj I.TrackJamData (classAttrs program 16 I.TrackJamData)), (I.__class__, .cls I.TrackJamData), (I.emitterNumber, .int a2), (I.beamNumber, .int a3), (I.entityID, optArg EntityIdentifier.enc a1)])
    (by kernel_rfl) rfl rfl rfl (by kernel_rfl) (by kernel_rfl) (by kernel_rfl) (by kernel_rfl) <|
    inits_set (fun _ => gives_or_new rfl (EntityIdentifier.makes (n + 0)) (fun _ => rfl)) (by kernel_rfl) <|
    inits_set (fun _ => gives_name rfl) (by kernel_rfl) <|
    inits_set (fun _ => gives_name rfl) (by kernel_rfl) <|
    inits_nil (by kernel_rfl)

theorem AggregateType.makesOf (n : Nat) (a1 : Int) (a2 : Int) (a3 : Int) (a4 : Int) (a5 : Int) (a6 : Int) (a7 : Int) :
    MakesOf (run (n + 1)) I.AggregateType [.int a1, .int a2, .int a3, .int a4, .int a5, .int a6, .int a7] (AggregateType.enc (Dis.AggregateType.init a1 a2 a3 a4 a5 a6 a7)) :=
  made_with (n := n + 0) (d := I.AggregateType) (f := AggregateType.__init__) (env := [(I.self, .obj I.AggregateType (classAttrs program 16 I.AggregateType)), (I.__class__, .cls I.AggregateType), (I.domain, .int a2), (I.country, .int a3), (I.category, .int a4), (I.subcategory, .int a5), (I.extra, .int a7), (I.aggregateKind, .int a1), (I.specificInfo, .int a6)])
    (by kernel_rfl) rfl rfl rfl (by kernel_rfl) (by kernel_rfl) (by kernel_rfl) (by kernel_rfl) <|
    inits_set (fun _ => gives_name rfl) (by kernel_rfl) <|
    inits_set (fun _ => gives_name rfl) (by kernel_rfl) <|
    inits_set (fun _ => gives_name rfl) (by kernel_rfl) <|
    inits_set (fun _ => gives_name rfl) (by kernel_rfl) <|
    inits_set (fun _ => gives_name rfl) (by kernel_rfl) <|
    inits_set (fun _ => gives_name rfl) (by kernel_rfl) <|
    inits_set (fun _ => gives_name rfl) (by kernel_rfl) <|
    inits_nil (by kernel_rfl)

theorem SimulationIdentifier.makesOf (n : Nat) (a1 : Option Dis.SimulationAddress) (a2 : Int) :
    MakesOf (run (n + 2)) I.SimulationIdentifier [optArg SimulationAddress.enc a1, .int a2] (SimulationIdentifier.enc (Dis.SimulationIdentifier.init a1 a2)) :=
  made_with (n := n + 1) (d := I.SimulationIdentifier) (f := SimulationIdentifier.__init__) (env := [(I.self, .obj I.SimulationIdentifier (classAttrs program 16 I.SimulationIdentifier)), (I.__class__, .cls I.SimulationIdentifier), (I.simulationAddress, optArg SimulationAddress.enc a1), (I.referenceNumber, .int a2)])
    (by kernel_rfl) rfl rfl rfl (by kernel_rfl) (by kernel_rfl) (by kernel_rfl) (by kernel_rfl) <|
    inits_set (fun _ => gives_or_new rfl (SimulationAddress.makes (n + 0)) (fun _ => rfl)) (by kernel_rfl) <|
    inits_set (fun _ => gives_name rfl) (by kernel_rfl) <|
    inits_nil (by kernel_rfl)

theorem PduHeader.makesOf (n : Nat) (a1 : Int) (a2 : Int) (a3 : Int) (a4 : Int) (a5 : Int) (a6 : Int) (a7 : Int) :
    MakesOf (run (n + 1)) I.PduHeader [.int a1, .int a2, .int a3, .int a4, .int a5, .int a6, .int a7] (PduHeader.enc (Dis.PduHeader.init a1 a2 a3 a4 a5 a6 a7)) :=
  made_with (n := n + 0) (d := I.PduHeader) (f := PduHeader.__init__) (env := [(I.protocolVersion, .int a1), (I.exerciseID, .int a2), (I.timestamp, .int a5), (I.pduType, .int a3), (I.protocolFamily, .int a4), (I.pduStatus, .int a7), (I.self, .obj I.PduHeader (classAttrs program 16 I.PduHeader)), (I.__class__, .cls I.PduHeader), (I.pduLength, .int a6)])
    (by kernel_rfl) rfl rfl rfl (by kernel_rfl) (by kernel_rfl) (by kernel_rfl) (by kernel_rfl) <|
    inits_set (fun _ => gives_name rfl) (by kernel_rfl) <|
    inits_set (fun _ => gives_name rfl) (by kernel_rfl) <|
    inits_set (fun _ => gives_name rfl) (by kernel_rfl) <|
    inits_set (fun _ => gives_name rfl) (by kernel_rfl) <|
    inits_set (fun _ => gives_name rfl) (by kernel_rfl) <|
    inits_set (fun _ => gives_name rfl) (by kernel_rfl) <|
    inits_set (fun _ => gives_name rfl) (by kernel_rfl) <|
    inits_set (fun _ => gives_int) (by kernel_rfl) <|
    inits_nil (by kernel_rfl)

theorem SimulationManagementPduHeader.makesOf (n : Nat) (a1 : Option Dis.PduHeader) (a2 : Option Dis.SimulationIdentifier) (a3 : Option Dis.SimulationIdentifier) :
    MakesOf (run (n + 3)) I.SimulationManagementPduHeader [optArg PduHeader.enc a1, optArg SimulationIdentifier.enc a2, optArg SimulationIdentifier.enc a3] (SimulationManagementPduHeader.enc (Dis.SimulationManagementPduHeader.init a1 a2 a3)) :=
  made_with (n := n + 2) (d := I.SimulationManagementPduHeader) (f := SimulationManagementPduHeader.__init__) (env := [(I.self, .obj I.SimulationManagementPduHeader (classAttrs program 16 I.SimulationManagementPduHeader)), (I.__class__, .cls I.SimulationManagementPduHeader), (I.pduHeader, optArg PduHeader.enc a1), (I.originatingID, optArg SimulationIdentifier.enc a2), (I.receivingID, optArg SimulationIdentifier.enc a3)])
    (by kernel_rfl) rfl rfl rfl (by kernel_rfl) (by kernel_rfl) (by kernel_rfl) (by kernel_rfl) <|
    inits_set (fun _ => gives_or_new rfl (PduHeader.makes (n + 1)) (fun _ => rfl)) (by kernel_rfl) <|
    inits_set (fun _ => gives_or_new rfl (SimulationIdentifier.makes (n + 0)) (fun _ => rfl)) (by kernel_rfl) <|
    inits_set (fun _ => gives_or_new rfl (SimulationIdentifier.makes (n + 0)) (fun _ => rfl)) (by kernel_rfl) <|
    inits_nil (by kernel_rfl)

theorem BeamData.makesOf (n : Nat) (a1 : F64) (a2 : F64) (a3 : F64) (a4 : F64) (a5 : F64) :
    MakesOf (run (n + 1)) I.BeamData [.float a1, .float a2, .float a3, .float a4, .float a5] (BeamData.enc (Dis.BeamData.init a1 a2 a3 a4 a5)) :=
  made_with (n := n + 0) (d := I.BeamData) (f := BeamData.__init__) (env := [(I.self, .obj I.BeamData (classAttrs program 16 I.BeamData)), (I.__class__, .cls I.BeamData), (I.beamAzimuthCenter, .float a1), (I.beamAzimuthSweep, .float a2), (I.beamElevationCenter, .float a3), (I.beamElevationSweep, .float a4), (I.beamSweepSync, .float a5)])
    (by kernel_rfl) rfl rfl rfl (by kernel_rfl) (by kernel_rfl) (by kernel_rfl) (by kernel_rfl) <|
    inits_set (fun _ => gives_name rfl) (by kernel_rfl) <|
    inits_set (fun _ => gives_name rfl) (by kernel_rfl) <|
    inits_set (fun _ => gives_name rfl) (by kernel_rfl) <|
    inits_set (fun _ => gives_name rfl) (by kernel_rfl) <|
    inits_set (fun _ => gives_name rfl) (by kernel_rfl) <|
    inits_nil (by kernel_rfl)

theorem EngineFuel.makesOf (n : Nat) (a1 : Int) (a2 : Int) (a3 : Int) (a4 : Int) :
    MakesOf (run (n + 1)) I.EngineFuel [.int a1, .int a2, .int a3, .int a4] (EngineFuel.enc (Dis.EngineFuel.init a1 a2 a3 a4)) :=
  made_with (n := n + 0) (d := I.EngineFuel) (f := EngineFuel.__init__) (env := [(I.self, .obj I.EngineFuel (classAttrs program 16 I.EngineFuel)), (I.__class__, .cls I.EngineFuel), (I.fuelQuantity, .int a1), (I.fuelMeasurementUnits, .int a2), (I.fuelType, .int a3), (I.fuelLocation, .int a4)])
    (by kernel_rfl) rfl rfl rfl (by kernel_rfl) (by kernel_rfl) (by kernel_rfl) (by kernel_rfl) <|
    inits_set (fun _ => gives_int) (by kernel_rfl) <|
    inits_set (fun _ => gives_int) (by kernel_rfl) <|
    inits_set (fun _ => gives_int) (by kernel_rfl) <|
    inits_set (fun _ => gives_int) (by kernel_rfl) <|
    inits_set (fun _ => gives_int) (by kernel_rfl) <|
    inits_nil (by kernel_rfl)

theorem IOEffect.makesOf (n : Nat) (a1 : Int) (a2 : Int) (a3 : Int) (a4 : Int) (a5 : Int) (a6 : Int) :
    MakesOf (run (n + 1)) I.IOEffect [.int a1, .int a2, .int a3, .int a4, .int a5, .int a6] (IOEffect.enc (Dis.IOEffect.init a1 a2 a3 a4 a5 a6)) :=
  made_with (n := n + 0) (d := I.IOEffect) (f := IOEffect.__init__) (env := [(I.self, .obj I.IOEffect (classAttrs program 16 I.IOEffect)), (I.__class__, .cls I.IOEffect), (I.ioStatus, .int a1), (I.ioLinkType, .int a2), (I.ioEffect, .int a3), (I.ioEffectDutyCycle, .int a4), (I.ioEffectDuration, .int a5), (I.ioProcess, .int a6)])
    (by kernel_rfl) rfl rfl rfl (by kernel_rfl) (by kernel_rfl) (by kernel_rfl) (by kernel_rfl) <|
    inits_set (fun _ => gives_name rfl) (by kernel_rfl) <|
    inits_set (fun _ => gives_name rfl) (by kernel_rfl) <|
    inits_set (fun _ => gives_name rfl) (by kernel_rfl) <|
    inits_set (fun _ => gives_name rfl) (by kernel_rfl) <|
    inits_set (fun _ => gives_name rfl) (by kernel_rfl) <|
    inits_set (fun _ => gives_name rfl) (by kernel_rfl) <|
    inits_set (fun _ => gives_int) (by kernel_rfl) <|
    inits_nil (by kernel_rfl)

theorem GridAxisDescriptorVariable.makesOf (n : Nat) (a1 : F64) (a2 : F64) (a3 : Int) (a4 : Int) (a5 : Int) (a6 : Int) (a7 : Int) (a8 : F64) (a9 : F64) (a10 : Option (List Int)) :
    MakesOf (run (n + 1)) I.GridAxisDescriptorVariable [.float a1, .float a2, .int a3, .int a4, .int a5, .int a6, .int a7, .float a8, .float a9, listArg Val.int a10] (GridAxisDescriptorVariable.enc (Dis.GridAxisDescriptorVariable.init a1 a2 a3 a4 a5 a6 a7 a8 a9 (a10.getD []))) :=
  made_with (n := n + 0) (d := I.GridAxisDescriptorVariable) (f := GridAxisDescriptorVariable.__init__) (env := [(I.self, .obj I.GridAxisDescriptorVariable (classAttrs program 16 I.GridAxisDescriptorVariable)), (I.__class__, .cls I.GridAxisDescriptorVariable), (I.domainInitialXi, .float a1), (I.domainFinalXi, .float a2), (I.domainPointsXi, .int a3), (I.interleafFactor, .int a4), (I.axisType, .int a5), (I.numberOfPointsOnXiAxis, .int a6), (I.initialIndex, .int a7), (I.coordinateScaleXi, .float a8), (I.coordinateOffsetXi, .float a9), (I.xiValues, listArg Val.int a10)])
    (by kernel_rfl) rfl rfl rfl (by kernel_rfl) (by kernel_rfl) (by kernel_rfl) (by kernel_rfl) <|
    inits_set (fun _ => gives_name rfl) (by kernel_rfl) <|
    inits_set (fun _ => gives_name rfl) (by kernel_rfl) <|
    inits_set (fun _ => gives_name rfl) (by kernel_rfl) <|
    inits_set (fun _ => gives_name rfl) (by kernel_rfl) <|
    inits_set (fun _ => gives_name rfl) (by kernel_rfl) <|
    inits_set (fun _ => gives_name rfl) (by kernel_rfl) <|
    inits_set (fun _ => gives_name rfl) (by kernel_rfl) <|
    inits_set (fun _ => gives_name rfl) (by kernel_rfl) <|
    inits_set (fun _ => gives_name rfl) (by kernel_rfl) <|
    inits_set (fun _ => gives_or_nil rfl) (by kernel_rfl) <|
    inits_nil (by kernel_rfl)

theorem SupplyQuantity.makesOf (n : Nat) (a1 : Option Dis.EntityType) (a2 : F64) :
    MakesOf (run (n + 2)) I.SupplyQuantity [optArg EntityType.enc a1, .float a2] (SupplyQuantity.enc (Dis.SupplyQuantity.init a1 a2)) :=
  made_with (n := n + 1) (d := I.SupplyQuantity) (f := SupplyQuantity.__init__) (env := [(I.self, .obj I.SupplyQuantity (classAttrs program 16 I.SupplyQuantity)), (I.__class__, .cls I.SupplyQuantity), (I.quantity, .float a2), (I.supplyType, optArg EntityType.enc a1)])
    (by kernel_rfl) rfl rfl rfl (by kernel_rfl) (by kernel_rfl) (by kernel_rfl) (by kernel_rfl) <|
    inits_set (fun _ => gives_or_new rfl (EntityType.makes (n + 0)) (fun _ => rfl)) (by kernel_rfl) <|
    inits_set (fun _ => gives_name rfl) (by kernel_rfl) <|
    inits_nil (by kernel_rfl)

theorem SilentEntitySystem.makesOf (n : Nat) (a1 : Int) (a2 : Option Dis.EntityType) (a3 : Option (List Int)) :
    MakesOf (run (n + 2)) I.SilentEntitySystem [.int a1, optArg EntityType.enc a2, listArg Val.int a3] (SilentEntitySystem.enc (Dis.SilentEntitySystem.init a1 a2 (a3.getD []))) :=
  made_with (n := n + 1) (d := I.SilentEntitySystem) (f := SilentEntitySystem.__init__) (env := [(I.self, .obj I.SilentEntitySystem (classAttrs program 16 I.SilentEntitySystem)), (I.__class__, .cls I.SilentEntitySystem), (I.numberOfEntities, .int a1), (I.entityType, optArg EntityType.enc a2), (I.appearanceRecordList, listArg Val.int a3)])
    (by kernel_rfl) rfl rfl rfl (by kernel_rfl) (by kernel_rfl) (by kernel_rfl) (by kernel_rfl) <|
    inits_set (fun _ => gives_name rfl) (by kernel_rfl) <|
    inits_set (fun _ => gives_or_new rfl (EntityType.makes (n + 0)) (fun _ => rfl)) (by kernel_rfl) <|
    inits_set (fun _ => gives_or_nil rfl) (by kernel_rfl) <|
    inits_nil (by kernel_rfl)

theorem BlankingSector.makesOf (n : Nat) (a1 : Int) (a2 : Int) (a3 : Int) (a4 : F64) (a5 : F64) (a6 : F64) (a7 : F64) (a8 : F64) :
    MakesOf (run (n + 1)) I.BlankingSector [.int a1, .int a2, .int a3, .float a4, .float a5, .float a6, .float a7, .float a8] (BlankingSector.enc (Dis.BlankingSector.init a1 a2 a3 a4 a5 a6 a7 a8)) :=
  made_with (n := n + 0) (d := I.BlankingSector) (f := BlankingSector.__init__) (env := [(I.self, .obj I.BlankingSector (classAttrs program 16 I.BlankingSector)), (I.__class__, .cls I.BlankingSector), (I.emitterNumber, .int a1), (I.beamNumber, .int a2), (I.stateIndicator, .int a3), (I.leftAzimuth, .float a4), (I.rightAzimuth, .float a5), (I.lowerElevation, .float a6), (I.upperElevation, .float a7), (I.residualPower, .float a8)])
    (by kernel_rfl) rfl rfl rfl (by kernel_rfl) (by kernel_rfl) (by kernel_rfl) (by kernel_rfl) <|
    inits_set (fun _ => gives_int) (by kernel_rfl) <|
    inits_set (fun _ => gives_name rfl) (by kernel_rfl) <|
    inits_set (fun _ => gives_name rfl) (by kernel_rfl) <|
    inits_set (fun _ => gives_name rfl) (by kernel_rfl) <|
    inits_set (fun _ => gives_int) (by kernel_rfl) <|
    inits_set (fun _ => gives_name rfl) (by kernel_rfl) <|
    inits_set (fun _ => gives_name rfl) (by kernel_rfl) <|
    inits_set (fun _ => gives_name rfl) (by kernel_rfl) <|
    inits_set (fun _ => gives_name rfl) (by kernel_rfl) <|
    inits_set (fun _ => gives_name rfl) (by kernel_rfl) <|
    inits_set (fun _ => gives_int) (by kernel_rfl) <|
    inits_set (fun _ => gives_int) (by kernel_rfl) <|
    inits_nil (by kernel_rfl)

theorem LaunchedMunitionRecord.makesOf (n : Nat) (a1 : Option Dis.EventIdentifier) (a2 : Option Dis.EventIdentifier) (a3 : Option Dis.EventIdentifier) (a4 : Option Dis.WorldCoordinates) :
    MakesOf (run (n + 3)) I.LaunchedMunitionRecord [optArg EventIdentifier.enc a1, optArg EventIdentifier.enc a2, optArg EventIdentifier.enc a3, optArg WorldCoordinates.enc a4] (LaunchedMunitionRecord.enc (Dis.LaunchedMunitionRecord.init a1 a2 a3 a4)) :=
  made_with (n := n + 2) (d := I.LaunchedMunitionRecord) (f := LaunchedMunitionRecord.__init__) (env := [(I.firingEntityID, optArg EventIdentifier.enc a2), (I.targetEntityID, optArg EventIdentifier.enc a3), (I.self, .obj I.LaunchedMunitionRecord (classAttrs program 16 I.LaunchedMunitionRecord)), (I.__class__, .cls I.LaunchedMunitionRecord), (I.fireEventID, optArg EventIdentifier.enc a1), (I.targetLocation, optArg WorldCoordinates.enc a4)])
    (by kernel_rfl) rfl rfl rfl (by kernel_rfl) (by kernel_rfl) (by kernel_rfl) (by kernel_rfl) <|
    inits_set (fun _ => gives_or_new rfl (EventIdentifier.makes (n + 0)) (fun _ => rfl)) (by kernel_rfl) <|
    inits_set (fun _ => gives_int) (by kernel_rfl) <|
    inits_set (fun _ => gives_or_new rfl (EventIdentifier.makes (n + 0)) (fun _ => rfl)) (by kernel_rfl) <|
    inits_set (fun _ => gives_int) (by kernel_rfl) <|
    inits_set (fun _ => gives_or_new rfl (EventIdentifier.makes (n + 0)) (fun _ => rfl)) (by kernel_rfl) <|
    inits_set (fun _ => gives_int) (by kernel_rfl) <|
    inits_set (fun _ => gives_or_new rfl (WorldCoordinates.makes (n + 1)) (fun _ => rfl)) (by kernel_rfl) <|
    inits_nil (by kernel_rfl)

theorem IFFFundamentalParameterData.makesOf (n : Nat) (a1 : F64) (a2 : F64) (a3 : F64) (a4 : F64) (a5 : Int) (a6 : Int) (a7 : Option (List Int)) :
    MakesOf (run (n + 1)) I.IFFFundamentalParameterData [.float a1, .float a2, .float a3, .float a4, .int a5, .int a6, listArg Val.int a7] (IFFFundamentalParameterData.enc (Dis.IFFFundamentalParameterData.init a1 a2 a3 a4 a5 a6 (a7.getD []))) :=
  made_with (n := n + 0) (d := I.IFFFundamentalParameterData) (f := IFFFundamentalParameterData.__init__) (env := [(I.self, .obj I.IFFFundamentalParameterData (classAttrs program 16 I.IFFFundamentalParameterData)), (I.__class__, .cls I.IFFFundamentalParameterData), (I.frequency, .float a2), (I.pulseWidth, .float a4), (I.erp, .float a1), (I.pgrf, .float a3), (I.burstLength, .int a5), (I.applicableModes, .int a6), (I.systemSpecificData, listArg Val.int a7)])
    (by kernel_rfl) rfl rfl rfl (by kernel_rfl) (by kernel_rfl) (by kernel_rfl) (by kernel_rfl) <|
    inits_set (fun _ => gives_name rfl) (by kernel_rfl) <|
    inits_set (fun _ => gives_name rfl) (by kernel_rfl) <|
    inits_set (fun _ => gives_name rfl) (by kernel_rfl) <|
    inits_set (fun _ => gives_name rfl) (by kernel_rfl) <|
    inits_set (fun _ => gives_name rfl) (by kernel_rfl) <|
    inits_set (fun _ => gives_name rfl) (by kernel_rfl) <|
    inits_set (fun _ => gives_or_zeros rfl) (by kernel_rfl) <|
    inits_nil (by kernel_rfl)

theorem FundamentalOperationalData.makesOf (n : Nat) (a1 : Int) (a2 : Int) (a3 : Int) (a4 : Int) (a5 : Int) (a6 : Int) (a7 : Int) (a8 : Int) (a9 : Int) (a10 : Int) :
    MakesOf (run (n + 1)) I.FundamentalOperationalData [.int a1, .int a2, .int a3, .int a4, .int a5, .int a6, .int a7, .int a8, .int a9, .int a10] (FundamentalOperationalData.enc (Dis.FundamentalOperationalData.init a1 a2 a3 a4 a5 a6 a7 a8 a9 a10)) :=
  made_with (n := n + 0) (d := I.FundamentalOperationalData) (f := FundamentalOperationalData.__init__) (env := [(I.self, .obj I.FundamentalOperationalData (classAttrs program 16 I.FundamentalOperationalData)), (I.__class__, .cls I.FundamentalOperationalData), (I.systemStatus, .int a1), (I.dataField1, .int a2), (I.informationLayers, .int a3), (I.dataField2, .int a4), (I.parameter1, .int a5), (I.parameter2, .int a6), (I.parameter3, .int a7), (I.parameter4, .int a8), (I.parameter5, .int a9), (I.parameter6, .int a10)])
    (by kernel_rfl) rfl rfl rfl (by kernel_rfl) (by kernel_rfl) (by kernel_rfl) (by kernel_rfl) <|
    inits_set (fun _ => gives_name rfl) (by kernel_rfl) <|
    inits_set (fun _ => gives_name rfl) (by kernel_rfl) <|
    inits_set (fun _ => gives_name rfl) (by kernel_rfl) <|
    inits_set (fun _ => gives_name rfl) (by kernel_rfl) <|
    inits_set (fun _ => gives_name rfl) (by kernel_rfl) <|
    inits_set (fun _ => gives_name rfl) (by kernel_rfl) <|
    inits_set (fun _ => gives_name rfl) (by kernel_rfl) <|
    inits_set (fun _ => gives_name rfl) (by kernel_rfl) <|
    inits_set (fun _ => gives_name rfl) (by kernel_rfl) <|
    inits_set (fun _ => gives_name rfl) (by kernel_rfl) <|
    inits_nil (by kernel_rfl)

theorem IntercomCommunicationsParameters.makesOf (n : Nat) (a1 : Int) (a2 : Int) (a3 : Int) :
    MakesOf (run (n + 1)) I.IntercomCommunicationsParameters [.int a1, .int a2, .int a3] (IntercomCommunicationsParameters.enc (Dis.IntercomCommunicationsParameters.init a1 a2 a3)) :=
  made_with (n := n + 0) (d := I.IntercomCommunicationsParameters) (f := IntercomCommunicationsParameters.__init__) (env := [(I.self, .obj I.IntercomCommunicationsParameters (classAttrs program 16 I.IntercomCommunicationsParameters)), (I.__class__, .cls I.IntercomCommunicationsParameters), (I.recordType, .int a1), (I.recordLength, .int a2), (I.recordSpecificField, .int a3)])
    (by kernel_rfl) rfl rfl rfl (by kernel_rfl) (by kernel_rfl) (by kernel_rfl) (by kernel_rfl) <|
    inits_set (fun _ => gives_name rfl) (by kernel_rfl) <|
    inits_set (fun _ => gives_name rfl) (by kernel_rfl) <|
    inits_set (fun _ => gives_name rfl) (by kernel_rfl) <|
    inits_nil (by kernel_rfl)

theorem Munition.makesOf (n : Nat) (a1 : Option Dis.EntityType) (a2 : Int) (a3 : Int) (a4 : Int) :
    MakesOf (run (n + 2)) I.Munition [optArg EntityType.enc a1, .int a2, .int a3, .int a4] (Munition.enc (Dis.Munition.init a1 a2 a3 a4)) :=
  made_with (n := n + 1) (d := I.Munition) (f := Munition.__init__) (env := [(I.self, .obj I.Munition (classAttrs program 16 I.Munition)), (I.__class__, .cls I.Munition), (I.munitionType, optArg EntityType.enc a1), (I.quantity, .int a3), (I.station, .int a2), (I.munitionStatus, .int a4)])
    (by kernel_rfl) rfl rfl rfl (by kernel_rfl) (by kernel_rfl) (by kernel_rfl) (by kernel_rfl) <|
    inits_set (fun _ => gives_or_new rfl (EntityType.makes (n + 0)) (fun _ => rfl)) (by kernel_rfl) <|
    inits_set (fun _ => gives_name rfl) (by kernel_rfl) <|
    inits_set (fun _ => gives_name rfl) (by kernel_rfl) <|
    inits_set (fun _ => gives_name rfl) (by kernel_rfl) <|
    inits_set (fun _ => gives_int) (by kernel_rfl) <|
    inits_nil (by kernel_rfl)

theorem StandardVariableSpecification.makesOf (n : Nat) (a1 : Option (List Int)) :
    MakesOf (run (n + 1)) I.StandardVariableSpecification [listArg Val.int a1] (StandardVariableSpecification.enc (Dis.StandardVariableSpecification.init (a1.getD []))) :=
  made_with (n := n + 0) (d := I.StandardVariableSpecification) (f := StandardVariableSpecification.__init__) (env := [(I.self, .obj I.StandardVariableSpecification (classAttrs program 16 I.StandardVariableSpecification)), (I.__class__, .cls I.StandardVariableSpecification), (I.standardVariables, listArg Val.int a1)])
    (by kernel_rfl) rfl rfl rfl (by kernel_rfl) (by kernel_rfl) (by kernel_rfl) (by kernel_rfl) <|
    inits_set (fun _ => gives_or_nil rfl) (by kernel_rfl) <|
    inits_nil (by kernel_rfl)

theorem Vector2Float.makesOf (n : Nat) (a1 : F64) (a2 : F64) :
    MakesOf (run (n + 1)) I.Vector2Float [.float a1, .float a2] (Vector2Float.enc (Dis.Vector2Float.init a1 a2)) :=
  made_with (n := n + 0) (d := I.Vector2Float) (f := Vector2Float.__init__) (env := [(I.self, .obj I.Vector2Float (classAttrs program 16 I.Vector2Float)), (I.__class__, .cls I.Vector2Float), (I.x, .float a1), (I.y, .float a2)])
    (by kernel_rfl) rfl rfl rfl (by kernel_rfl) (by kernel_rfl) (by kernel_rfl) (by kernel_rfl) <|
    inits_set (fun _ => gives_name rfl) (by kernel_rfl) <|
    inits_set (fun _ => gives_name rfl) (by kernel_rfl) <|
    inits_nil (by kernel_rfl)

theorem AcousticEmitter.makesOf (n : Nat) (a1 : Int) (a2 : Int) (a3 : Int) :
    MakesOf (run (n + 1)) I.AcousticEmitter [.int a1, .int a2, .int a3] (AcousticEmitter.enc (Dis.AcousticEmitter.init a1 a2 a3)) :=
  made_with (n := n + 0) (d := I.AcousticEmitter) (f := AcousticEmitter.__init__) (env := [(I.self, .obj I.AcousticEmitter (classAttrs program 16 I.AcousticEmitter)), (I.__class__, .cls I.AcousticEmitter), (I.acousticSystemName, .int a1), (I.acousticFunction, .int a2), (I.acousticIDNumber, .int a3)])
    (by kernel_rfl) rfl rfl rfl (by kernel_rfl) (by kernel_rfl) (by kernel_rfl) (by kernel_rfl) <|
    inits_set (fun _ => gives_name rfl) (by kernel_rfl) <|
    inits_set (fun _ => gives_name rfl) (by kernel_rfl) <|
    inits_set (fun _ => gives_name rfl) (by kernel_rfl) <|
    inits_nil (by kernel_rfl)

theorem AggregateMarking.makesOf (n : Nat) (a1 : Int) (a2 : List Int) :
    MakesOf (run (n + 1)) I.AggregateMarking [.int a1, .list (a2.map Val.int)] (AggregateMarking.enc (Dis.AggregateMarking.init a1 a2)) :=
  made_with (n := n + 0) (d := I.AggregateMarking) (f := AggregateMarking.__init__) (env := [(I.self, .obj I.AggregateMarking (classAttrs program 16 I.AggregateMarking)), (I.__class__, .cls I.AggregateMarking), (I.characterSet, .int a1), (I.characters, .list (a2.map Val.int))])
    (by kernel_rfl) rfl rfl rfl (by kernel_rfl) (by kernel_rfl) (by kernel_rfl) (by kernel_rfl) <|
    inits_set (fun _ => gives_name rfl) (by kernel_rfl) <|
    inits_set (fun _ => gives_zeros) (by kernel_rfl) <|
    inits_nil (by kernel_rfl)

theorem DataFilterRecord.makesOf (n : Nat) (a1 : Int) :
    MakesOf (run (n + 1)) I.DataFilterRecord [.int a1] (DataFilterRecord.enc (Dis.DataFilterRecord.init a1)) :=
  made_with (n := n + 0) (d := I.DataFilterRecord) (f := DataFilterRecord.__init__) (env := [(I.self, .obj I.DataFilterRecord (classAttrs program 16 I.DataFilterRecord)), (I.__class__, .cls I.DataFilterRecord), (I.bitFlags, .int a1)])
    (by kernel_rfl) rfl rfl rfl (by kernel_rfl) (by kernel_rfl) (by kernel_rfl) (by kernel_rfl) <|
    inits_set (fun _ => gives_name rfl) (by kernel_rfl) <|
    inits_nil (by kernel_rfl)

theorem IntercomIdentifier.makesOf (n : Nat) (a1 : Int) (a2 : Int) (a3 : Int) (a4 : Int) :
    MakesOf (run (n + 1)) I.IntercomIdentifier [.int a1, .int a2, .int a3, .int a4] (IntercomIdentifier.enc (Dis.IntercomIdentifier.init a1 a2 a3 a4)) :=
  made_with (n := n + 0) (d := I.IntercomIdentifier) (f := IntercomIdentifier.__init__) (env := [(I.self, .obj I.IntercomIdentifier (classAttrs program 16 I.IntercomIdentifier)), (I.__class__, .cls I.IntercomIdentifier), (I.siteNumber, .int a1), (I.applicationNumber, .int a2), (I.referenceNumber, .int a3), (I.intercomNumber, .int a4)])
    (by kernel_rfl) rfl rfl rfl (by kernel_rfl) (by kernel_rfl) (by kernel_rfl) (by kernel_rfl) <|
    inits_set (fun _ => gives_name rfl) (by kernel_rfl) <|
    inits_set (fun _ => gives_name rfl) (by kernel_rfl) <|
    inits_set (fun _ => gives_name rfl) (by kernel_rfl) <|
    inits_set (fun _ => gives_name rfl) (by kernel_rfl) <|
    inits_nil (by kernel_rfl)

theorem StorageFuel.makesOf (n : Nat) (a1 : Int) (a2 : Int) (a3 : Int) (a4 : Int) :
    MakesOf (run (n + 1)) I.StorageFuel [.int a1, .int a2, .int a3, .int a4] (StorageFuel.enc (Dis.StorageFuel.init a1 a2 a3 a4)) :=
  made_with (n := n + 0) (d := I.StorageFuel) (f := StorageFuel.__init__) (env := [(I.self, .obj I.StorageFuel (classAttrs program 16 I.StorageFuel)), (I.__class__, .cls I.StorageFuel), (I.fuelQuantity, .int a1), (I.fuelMeasurementUnits, .int a2), (I.fuelType, .int a3), (I.fuelLocation, .int a4)])
    (by kernel_rfl) rfl rfl rfl (by kernel_rfl) (by kernel_rfl) (by kernel_rfl) (by kernel_rfl) <|
    inits_set (fun _ => gives_name rfl) (by kernel_rfl) <|
    inits_set (fun _ => gives_name rfl) (by kernel_rfl) <|
    inits_set (fun _ => gives_name rfl) (by kernel_rfl) <|
    inits_set (fun _ => gives_name rfl) (by kernel_rfl) <|
    inits_set (fun _ => gives_int) (by kernel_rfl) <|
    inits_nil (by kernel_rfl)

theorem Sensor.makesOf (n : Nat) (a1 : Int) (a2 : Int) (a3 : Int) (a4 : Int) (a5 : Int) :
    MakesOf (run (n + 1)) I.Sensor [.int a1, .int a2, .int a3, .int a4, .int a5] (Sensor.enc (Dis.Sensor.init a1 a2 a3 a4 a5)) :=
  made_with (n := n + 0) (d := I.Sensor) (f := Sensor.__init__) (env := [(I.self, .obj I.Sensor (classAttrs program 16 I.Sensor)), (I.__class__, .cls I.Sensor), (I.quantity, .int a5), (I.sensorType, .int a3), (I.station, .int a4), (I.sensorTypeSource, .int a1), (I.sensorOnOffStatus, .int a2)])
    (by kernel_rfl) rfl rfl rfl (by kernel_rfl) (by kernel_rfl) (by kernel_rfl) (by kernel_rfl) <|
    inits_set (fun _ => gives_name rfl) (by kernel_rfl) <|
    inits_set (fun _ => gives_name rfl) (by kernel_rfl) <|
    inits_set (fun _ => gives_name rfl) (by kernel_rfl) <|
    inits_set (fun _ => gives_name rfl) (by kernel_rfl) <|
    inits_set (fun _ => gives_name rfl) (by kernel_rfl) <|
    inits_set (fun _ => gives_int) (by kernel_rfl) <|
    inits_nil (by kernel_rfl)

theorem MunitionReload.makesOf (n : Nat) (a1 : Option Dis.EntityType) (a2 : Int) (a3 : Int) (a4 : Int) (a5 : Int) (a6 : Int) :
    MakesOf (run (n + 2)) I.MunitionReload [optArg EntityType.enc a1, .int a2, .int a3, .int a4, .int a5, .int a6] (MunitionReload.enc (Dis.MunitionReload.init a1 a2 a3 a4 a5 a6)) :=
  made_with (n := n + 1) (d := I.MunitionReload) (f := MunitionReload.__init__) (env := [(I.self, .obj I.MunitionReload (classAttrs program 16 I.MunitionReload)), (I.__class__, .cls I.MunitionReload), (I.munitionType, optArg EntityType.enc a1), (I.station, .int a2), (I.standardQuantity, .int a3), (I.maximumQuantity, .int a4), (I.standardQuantityReloadTime, .int a5), (I.maximumQuantityReloadTime, .int a6)])
    (by kernel_rfl) rfl rfl rfl (by kernel_rfl) (by kernel_rfl) (by kernel_rfl) (by kernel_rfl) <|
    inits_set (fun _ => gives_or_new rfl (EntityType.makes (n + 0)) (fun _ => rfl)) (by kernel_rfl) <|
    inits_set (fun _ => gives_name rfl) (by kernel_rfl) <|
    inits_set (fun _ => gives_name rfl) (by kernel_rfl) <|
    inits_set (fun _ => gives_name rfl) (by kernel_rfl) <|
    inits_set (fun _ => gives_name rfl) (by kernel_rfl) <|
    inits_set (fun _ => gives_name rfl) (by kernel_rfl) <|
    inits_nil (by kernel_rfl)

theorem StorageFuelReload.makesOf (n : Nat) (a1 : Int) (a2 : Int) (a3 : Int) (a4 : Int) (a5 : Int) (a6 : Int) (a7 : Int) :
    MakesOf (run (n + 1)) I.StorageFuelReload [.int a1, .int a2, .int a3, .int a4, .int a5, .int a6, .int a7] (StorageFuelReload.enc (Dis.StorageFuelReload.init a1 a2 a3 a4 a5 a6 a7)) :=
  made_with (n := n + 0) (d := I.StorageFuelReload) (f := StorageFuelReload.__init__) (env := [(I.self, .obj I.StorageFuelReload (classAttrs program 16 I.StorageFuelReload)), (I.__class__, .cls I.StorageFuelReload), (I.fuelMeasurementUnits, .int a5), (I.fuelType, .int a6), (I.fuelLocation, .int a7), (I.standardQuantity, .int a1), (I.maximumQuantity, .int a2), (I.standardQuantityReloadTime, .int a3), (I.maximumQuantityReloadTime, .int a4)])
    (by kernel_rfl) rfl rfl rfl (by kernel_rfl) (by kernel_rfl) (by kernel_rfl) (by kernel_rfl) <|
    inits_set (fun _ => gives_name rfl) (by kernel_rfl) <|
    inits_set (fun _ => gives_name rfl) (by kernel_rfl) <|
    inits_set (fun _ => gives_name rfl) (by kernel_rfl) <|
    inits_set (fun _ => gives_name rfl) (by kernel_rfl) <|
    inits_set (fun _ => gives_name rfl) (by kernel_rfl) <|
    inits_set (fun _ => gives_name rfl) (by kernel_rfl) <|
    inits_set (fun _ => gives_name rfl) (by kernel_rfl) <|
    inits_set (fun _ => gives_int) (by kernel_rfl) <|
    inits_nil (by kernel_rfl)

theorem ExpendableReload.makesOf (n : Nat) (a1 : Option Dis.EntityType) (a2 : Int) (a3 : Int) (a4 : Int) (a5 : Int) (a6 : Int) :
    MakesOf (run (n + 2)) I.ExpendableReload [optArg EntityType.enc a1, .int a2, .int a3, .int a4, .int a5, .int a6] (ExpendableReload.enc (Dis.ExpendableReload.init a1 a2 a3 a4 a5 a6)) :=
  made_with (n := n + 1) (d := I.ExpendableReload) (f := ExpendableReload.__init__) (env := [(I.self, .obj I.ExpendableReload (classAttrs program 16 I.ExpendableReload)), (I.__class__, .cls I.ExpendableReload), (I.expendable, optArg EntityType.enc a1), (I.station, .int a2), (I.standardQuantity, .int a3), (I.maximumQuantity, .int a4), (I.standardQuantityReloadTime, .int a5), (I.maximumQuantityReloadTime, .int a6)])
    (by kernel_rfl) rfl rfl rfl (by kernel_rfl) (by kernel_rfl) (by kernel_rfl) (by kernel_rfl) <|
    inits_set (fun _ => gives_or_new rfl (EntityType.makes (n + 0)) (fun _ => rfl)) (by kernel_rfl) <|
    inits_set (fun _ => gives_name rfl) (by kernel_rfl) <|
    inits_set (fun _ => gives_name rfl) (by kernel_rfl) <|
    inits_set (fun _ => gives_name rfl) (by kernel_rfl) <|
    inits_set (fun _ => gives_name rfl) (by kernel_rfl) <|
    inits_set (fun _ => gives_name rfl) (by kernel_rfl) <|
    inits_nil (by kernel_rfl)

theorem EngineFuelReload.makesOf (n : Nat) (a1 : Int) (a2 : Int) (a3 : Int) (a4 : Int) (a5 : Int) (a6 : Int) :
    MakesOf (run (n + 1)) I.EngineFuelReload [.int a1, .int a2, .int a3, .int a4, .int a5, .int a6] (EngineFuelReload.enc (Dis.EngineFuelReload.init a1 a2 a3 a4 a5 a6)) :=
  made_with (n := n + 0) (d := I.EngineFuelReload) (f := EngineFuelReload.__init__) (env := [(I.self, .obj I.EngineFuelReload (classAttrs program 16 I.EngineFuelReload)), (I.__class__, .cls I.EngineFuelReload), (I.fuelMeasurementUnits, .int a5), (I.fuelLocation, .int a6), (I.standardQuantity, .int a1), (I.maximumQuantity, .int a2), (I.standardQuantityReloadTime, .int a3), (I.maximumQuantityReloadTime, .int a4)])
    (by kernel_rfl) rfl rfl rfl (by kernel_rfl) (by kernel_rfl) (by kernel_rfl) (by kernel_rfl) <|
    inits_set (fun _ => gives_name rfl) (by kernel_rfl) <|
    inits_set (fun _ => gives_name rfl) (by kernel_rfl) <|
    inits_set (fun _ => gives_name rfl) (by kernel_rfl) <|
    inits_set (fun _ => gives_name rfl) (by kernel_rfl) <|
    inits_set (fun _ => gives_name rfl) (by kernel_rfl) <|
    inits_set (fun _ => gives_name rfl) (by kernel_rfl) <|
    inits_set (fun _ => gives_int) (by kernel_rfl) <|
    inits_nil (by kernel_rfl)

theorem UnattachedIdentifier.makesOf (n : Nat) (a1 : Option Dis.SimulationAddress) (a2 : Int) :
    MakesOf (run (n + 2)) I.UnattachedIdentifier [optArg SimulationAddress.enc a1, .int a2] (UnattachedIdentifier.enc (Dis.UnattachedIdentifier.init a1 a2)) :=
  made_with (n := n + 1) (d := I.UnattachedIdentifier) (f := UnattachedIdentifier.__init__) (env := [(I.self, .obj I.UnattachedIdentifier (classAttrs program 16 I.UnattachedIdentifier)), (I.__class__, .cls I.UnattachedIdentifier), (I.simulationAddress, optArg SimulationAddress.enc a1), (I.referenceNumber, .int a2)])
    (by kernel_rfl) rfl rfl rfl (by kernel_rfl) (by kernel_rfl) (by kernel_rfl) (by kernel_rfl) <|
    inits_set (fun _ => gives_or_new rfl (SimulationAddress.makes (n + 0)) (fun _ => rfl)) (by kernel_rfl) <|
    inits_set (fun _ => gives_name rfl) (by kernel_rfl) <|
    inits_nil (by kernel_rfl)

theorem EntityTypeVP.makesOf (n : Nat) (a1 : Int) (a2 : Option Dis.EntityType) :
    MakesOf (run (n + 2)) I.EntityTypeVP [.int a1, optArg EntityType.enc a2] (EntityTypeVP.enc (Dis.EntityTypeVP.init a1 a2)) :=
  made_with (n := n + 1) (d := I.EntityTypeVP) (f := EntityTypeVP.__init__) (env := [(I.self, .obj I.EntityTypeVP (classAttrs program 16 I.EntityTypeVP)), (I.__class__, .cls I.EntityTypeVP), (I.changeIndicator, .int a1), (I.entityType, optArg EntityType.enc a2)])
    (by kernel_rfl) rfl rfl rfl (by kernel_rfl) (by kernel_rfl) (by kernel_rfl) (by kernel_rfl) <|
    inits_set (fun _ => gives_name rfl) (by kernel_rfl) <|
    inits_set (fun _ => gives_or_new rfl (EntityType.makes (n + 0)) (fun _ => rfl)) (by kernel_rfl) <|
    inits_set (fun _ => gives_int) (by kernel_rfl) <|
    inits_set (fun _ => gives_int) (by kernel_rfl) <|
    inits_nil (by kernel_rfl)

theorem BeamStatus.makesOf (n : Nat) (a1 : Int) :
    MakesOf (run (n + 1)) I.BeamStatus [.int a1] (BeamStatus.enc (Dis.BeamStatus.init a1)) :=
  made_with (n := n + 0) (d := I.BeamStatus) (f := BeamStatus.__init__) (env := [(I.self, .obj I.BeamStatus (classAttrs program 16 I.BeamStatus)), (I.__class__, .cls I.BeamStatus), (I.beamState, .int a1)])
    (by kernel_rfl) rfl rfl rfl (by kernel_rfl) (by kernel_rfl) (by kernel_rfl) (by kernel_rfl) <|
    inits_set (fun _ => gives_bin (gives_name rfl) gives_int fun _ => rfl) (by kernel_rfl) <|
    inits_nil (by kernel_rfl)

theorem GridAxis.makesOf (n : Nat) (a1 : F64) (a2 : F64) (a3 : Int) (a4 : Int) (a5 : Int) (a6 : Int) (a7 : Int) :
    MakesOf (run (n + 1)) I.GridAxis [.float a1, .float a2, .int a3, .int a4, .int a5, .int a6, .int a7] (GridAxis.enc (Dis.GridAxis.init a1 a2 a3 a4 a5 a6 a7)) :=
  made_with (n := n + 0) (d := I.GridAxis) (f := GridAxis.__init__) (env := [(I.self, .obj I.GridAxis (classAttrs program 16 I.GridAxis)), (I.__class__, .cls I.GridAxis), (I.domainInitialXi, .float a1), (I.domainFinalXi, .float a2), (I.domainPointsXi, .int a3), (I.interleafFactor, .int a4), (I.axisType, .int a5), (I.numberOfPointsOnXiAxis, .int a6), (I.initialIndex, .int a7)])
    (by kernel_rfl) rfl rfl rfl (by kernel_rfl) (by kernel_rfl) (by kernel_rfl) (by kernel_rfl) <|
    inits_set (fun _ => gives_name rfl) (by kernel_rfl) <|
    inits_set (fun _ => gives_name rfl) (by kernel_rfl) <|
    inits_set (fun _ => gives_name rfl) (by kernel_rfl) <|
    inits_set (fun _ => gives_name rfl) (by kernel_rfl) <|
    inits_set (fun _ => gives_name rfl) (by kernel_rfl) <|
    inits_set (fun _ => gives_name rfl) (by kernel_rfl) <|
    inits_set (fun _ => gives_name rfl) (by kernel_rfl) <|
    inits_nil (by kernel_rfl)

theorem RecordSpecification.makesOf (n : Nat) (a1 : Option (List Dis.RecordSpecificationElement)) :
    MakesOf (run (n + 1)) I.RecordSpecification [listArg RecordSpecificationElement.enc a1] (RecordSpecification.enc (Dis.RecordSpecification.init (a1.getD []))) :=
  made_with (n := n + 0) (d := I.RecordSpecification) (f := RecordSpecification.__init__) (env := [(I.self, .obj I.RecordSpecification (classAttrs program 16 I.RecordSpecification)), (I.__class__, .cls I.RecordSpecification), (I.recordSets, listArg RecordSpecificationElement.enc a1)])
    (by kernel_rfl) rfl rfl rfl (by kernel_rfl) (by kernel_rfl) (by kernel_rfl) (by kernel_rfl) <|
    inits_set (fun _ => gives_or_nil rfl) (by kernel_rfl) <|
    inits_nil (by kernel_rfl)

end Dis.Src
