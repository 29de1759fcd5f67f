import Verif.Proof.SourceInit
import Verif.Proof.SourceTransmitter
import Verif.Proof.SourceIntercom

/-!
# The constructors of `TransmitterPdu` and `IntercomControlPdu` with arguments (C77)

Written by `tools/gensourceinit.py`.
-/

namespace Dis.Src

theorem TransmitterPdu.makesOf (n : Nat) (a1 : Option Dis.EntityIdentifier) (a2 : Int) (a3 : Option Dis.EntityType) (a4 : Int) (a5 : Int) (a6 : Option Dis.WorldCoordinates) (a7 : Option Dis.Vector3Float) (a8 : Int) (a9 : Int) (a10 : F64) (a11 : F64) (a12 : Option Dis.ModulationType) (a13 : Int) (a14 : Int) (a15 : Option Dis.ModulationParametersRecord) (a16 : Option Dis.AntennaPatternRecord) (a17 : Option (List Dis.SVRecord)) :
    MakesOf (run (n + 4)) I.TransmitterPdu [optArg EntityIdentifier.enc a1, .int a2, optArg EntityType.enc a3, .int a4, .int a5, optArg WorldCoordinates.enc a6, optArg Vector3Float.enc a7, .int a8, .int a9, .float a10, .float a11, optArg ModulationType.enc a12, .int a13, .int a14, modVal a15, antVal a16, listArg svEnc a17] (TransmitterPdu.enc (Dis.TransmitterPdu.init a1 a2 a3 a4 a5 a6 a7 a8 a9 a10 a11 a12 a13 a14 a15 a16 (a17.getD []))) :=
  made_with (n := n + 3) (d := I.TransmitterPdu) (f := TransmitterPdu.__init__) (env := [(I.self, .obj I.TransmitterPdu (classAttrs program 16 I.TransmitterPdu)), (I.__class__, .cls I.TransmitterPdu), (I.radioNumber, .int a2), (I.antennaLocation, optArg WorldCoordinates.enc a6), (I.relativeAntennaLocation, optArg Vector3Float.enc a7), (I.frequency, .int a9), (I.radioReferenceID, optArg EntityIdentifier.enc a1), (I.radioEntityType, optArg EntityType.enc a3), (I.transmitState, .int a4), (I.inputSource, .int a5), (I.antennaPatternType, .int a8), (I.transmitFrequencyBandwidth, .float a10), (I.power, .float a11), (I.modulationType, optArg ModulationType.enc a12), (I.cryptoSystem, .int a13), (I.cryptoKeyId, .int a14), (I.modulationParameters, modVal a15), (I.antennaPattern, antVal a16), (I.variableTransmitterParameters, listArg svEnc a17)])
    (by kernel_rfl) rfl rfl rfl (by kernel_rfl) (by kernel_rfl) (by kernel_rfl) (by kernel_rfl) <|
    inits_super (fs1 := RadioCommunicationsFamilyPdu.fields Dis.TransmitterPdu.init.toRadioCommunicationsFamilyPdu) (.inl rfl) TransmitterPdu.found rfl (fun _ => by kernel_rfl) <|
    inits_set (fun _ => gives_or_new rfl (EntityIdentifier.makes (n + 1)) (fun _ => rfl)) (by kernel_rfl) <|
    inits_set (fun _ => gives_name rfl) (by kernel_rfl) <|
    inits_set (fun _ => gives_or_new rfl (EntityType.makes (n + 2)) (fun _ => rfl)) (by kernel_rfl) <|
    inits_set (fun _ => gives_name rfl) (by kernel_rfl) <|
    inits_set (fun _ => gives_name rfl) (by kernel_rfl) <|
    inits_set (fun _ => gives_or_new rfl (WorldCoordinates.makes (n + 2)) (fun _ => rfl)) (by kernel_rfl) <|
    inits_set (fun _ => gives_or_new rfl (Vector3Float.makes (n + 2)) (fun _ => rfl)) (by kernel_rfl) <|
    inits_set (fun _ => gives_name rfl) (by kernel_rfl) <|
    inits_set (fun _ => gives_name rfl) (by kernel_rfl) <|
    inits_set (fun _ => gives_name rfl) (by kernel_rfl) <|
    inits_set (fun _ => gives_name rfl) (by kernel_rfl) <|
    inits_set (fun _ => gives_or_new rfl (ModulationType.makes (n + 1)) (fun _ => rfl)) (by kernel_rfl) <|
    inits_set (fun _ => gives_name rfl) (by kernel_rfl) <|
    inits_set (fun _ => gives_name rfl) (by kernel_rfl) <|
    inits_set (fun _ => gives_int) (by kernel_rfl) <|
    inits_set (fun _ => gives_int) (by kernel_rfl) <|
    inits_set (fun _ => gives_name rfl) (by kernel_rfl) <|
    inits_set (fun _ => gives_name rfl) (by kernel_rfl) <|
    inits_set (fun _ => gives_list_copy rfl) (by kernel_rfl) <|
    inits_nil (by kernel_rfl)

theorem IntercomControlPdu.makesOf (n : Nat) (a1 : Int) (a2 : Int) (a3 : Option Dis.EntityIdentifier) (a4 : Int) (a5 : Int) (a6 : Int) (a7 : Int) (a8 : Int) (a9 : Option Dis.EntityIdentifier) (a10 : Int) (a11 : Dis.IntercomParametersValue) :
    MakesOf (run (n + 4)) I.IntercomControlPdu [.int a1, .int a2, optArg EntityIdentifier.enc a3, .int a4, .int a5, .int a6, .int a7, .int a8, optArg EntityIdentifier.enc a9, .int a10, paramsVal a11] (IntercomControlPdu.enc (Dis.IntercomControlPdu.init a1 a2 a3 a4 a5 a6 a7 a8 a9 a10 a11)) :=
  made_with (n := n + 3) (d := I.IntercomControlPdu) (f := IntercomControlPdu.__init__) (env := [(I.self, .obj I.IntercomControlPdu (classAttrs program 16 I.IntercomControlPdu)), (I.__class__, .cls I.IntercomControlPdu), (I.controlType, .int a1), (I.communicationsChannelType, .int a2), (I.sourceEntityID, optArg EntityIdentifier.enc a3), (I.sourceCommunicationsDeviceID, .int a4), (I.sourceLineID, .int a5), (I.transmitPriority, .int a6), (I.transmitLineState, .int a7), (I.command, .int a8), (I.masterEntityID, optArg EntityIdentifier.enc a9), (I.masterCommunicationsDeviceID, .int a10), (I.intercomParameters, paramsVal a11)])
    (by kernel_rfl) rfl rfl rfl (by kernel_rfl) (by kernel_rfl) (by kernel_rfl) (by kernel_rfl) <|
    inits_super (fs1 := RadioCommunicationsFamilyPdu.fields Dis.IntercomControlPdu.init.toRadioCommunicationsFamilyPdu) (.inl rfl) IntercomControlPdu.found rfl (fun _ => by kernel_rfl) <|
    inits_set (fun _ => gives_name rfl) (by kernel_rfl) <|
    inits_set (fun _ => gives_name rfl) (by kernel_rfl) <|
    inits_set (fun _ => gives_or_new rfl (EntityIdentifier.makes (n + 1)) (fun _ => rfl)) (by kernel_rfl) <|
    inits_set (fun _ => gives_name rfl) (by kernel_rfl) <|
    inits_set (fun _ => gives_name rfl) (by kernel_rfl) <|
    inits_set (fun _ => gives_name rfl) (by kernel_rfl) <|
    inits_set (fun _ => gives_name rfl) (by kernel_rfl) <|
    inits_set (fun _ => gives_name rfl) (by kernel_rfl) <|
    inits_set (fun _ => gives_or_new rfl (EntityIdentifier.makes (n + 1)) (fun _ => rfl)) (by kernel_rfl) <|
    inits_set (fun _ => gives_name rfl) (by kernel_rfl) <|
    inits_set (fun _ => gives_name rfl) (by kernel_rfl) <|
    inits_nil (by kernel_rfl)

end Dis.Src
