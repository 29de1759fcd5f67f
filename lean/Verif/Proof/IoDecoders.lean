import Verif.Proof.IoFactory

/-!
# The decoders of the factory, class by class (C79)

Written by `tools/geniofactory.py`.
-/

namespace Dis.Io

open Src

theorem EntityStateUpdatePdu_decodes : Decodes I.EntityStateUpdatePdu (PduClass.decode .EntityStateUpdatePdu) :=
  decodes .EntityStateUpdatePdu (List.mem_of_getElem? (i := 99) rfl) rfl .EntityStateUpdatePdu rfl fun _ => rfl

theorem ServiceRequestPdu_decodes : Decodes I.ServiceRequestPdu (PduClass.decode .ServiceRequestPdu) :=
  decodes .ServiceRequestPdu (List.mem_of_getElem? (i := 100) rfl) rfl .ServiceRequestPdu rfl fun _ => rfl

theorem RepairCompletePdu_decodes : Decodes I.RepairCompletePdu (PduClass.decode .RepairCompletePdu) :=
  decodes .RepairCompletePdu (List.mem_of_getElem? (i := 101) rfl) rfl .RepairCompletePdu rfl fun _ => rfl

theorem CollisionPdu_decodes : Decodes I.CollisionPdu (PduClass.decode .CollisionPdu) :=
  decodes .CollisionPdu (List.mem_of_getElem? (i := 102) rfl) rfl .CollisionPdu rfl fun _ => rfl

theorem RepairResponsePdu_decodes : Decodes I.RepairResponsePdu (PduClass.decode .RepairResponsePdu) :=
  decodes .RepairResponsePdu (List.mem_of_getElem? (i := 103) rfl) rfl .RepairResponsePdu rfl fun _ => rfl

theorem DataQueryPdu_decodes : Decodes I.DataQueryPdu (PduClass.decode .DataQueryPdu) :=
  decodes .DataQueryPdu (List.mem_of_getElem? (i := 104) rfl) rfl .DataQueryPdu rfl fun _ => rfl

theorem CreateEntityPdu_decodes : Decodes I.CreateEntityPdu (PduClass.decode .CreateEntityPdu) :=
  decodes .CreateEntityPdu (List.mem_of_getElem? (i := 105) rfl) rfl .CreateEntityPdu rfl fun _ => rfl

theorem IntercomSignalPdu_decodes : Decodes I.IntercomSignalPdu (PduClass.decode .IntercomSignalPdu) :=
  decodes .IntercomSignalPdu (List.mem_of_getElem? (i := 106) rfl) rfl .IntercomSignalPdu rfl fun _ => rfl

theorem RemoveEntityPdu_decodes : Decodes I.RemoveEntityPdu (PduClass.decode .RemoveEntityPdu) :=
  decodes .RemoveEntityPdu (List.mem_of_getElem? (i := 107) rfl) rfl .RemoveEntityPdu rfl fun _ => rfl

theorem ResupplyReceivedPdu_decodes : Decodes I.ResupplyReceivedPdu (PduClass.decode .ResupplyReceivedPdu) :=
  decodes .ResupplyReceivedPdu (List.mem_of_getElem? (i := 108) rfl) rfl .ResupplyReceivedPdu rfl fun _ => rfl

theorem CollisionElasticPdu_decodes : Decodes I.CollisionElasticPdu (PduClass.decode .CollisionElasticPdu) :=
  decodes .CollisionElasticPdu (List.mem_of_getElem? (i := 109) rfl) rfl .CollisionElasticPdu rfl fun _ => rfl

theorem ActionRequestPdu_decodes : Decodes I.ActionRequestPdu (PduClass.decode .ActionRequestPdu) :=
  decodes .ActionRequestPdu (List.mem_of_getElem? (i := 143) rfl) rfl .ActionRequestPdu rfl fun _ => rfl

theorem AcknowledgePdu_decodes : Decodes I.AcknowledgePdu (PduClass.decode .AcknowledgePdu) :=
  decodes .AcknowledgePdu (List.mem_of_getElem? (i := 110) rfl) rfl .AcknowledgePdu rfl fun _ => rfl

theorem ActionRequestReliablePdu_decodes : Decodes I.ActionRequestReliablePdu (PduClass.decode .ActionRequestReliablePdu) :=
  decodes .ActionRequestReliablePdu (List.mem_of_getElem? (i := 144) rfl) rfl .ActionRequestReliablePdu rfl fun _ => rfl

theorem DesignatorPdu_decodes : Decodes I.DesignatorPdu (PduClass.decode .DesignatorPdu) :=
  decodes .DesignatorPdu (List.mem_of_getElem? (i := 111) rfl) rfl .DesignatorPdu rfl fun _ => rfl

theorem StopFreezePdu_decodes : Decodes I.StopFreezePdu (PduClass.decode .StopFreezePdu) :=
  decodes .StopFreezePdu (List.mem_of_getElem? (i := 112) rfl) rfl .StopFreezePdu rfl fun _ => rfl

theorem EntityStatePdu_decodes : Decodes I.EntityStatePdu (PduClass.decode .EntityStatePdu) :=
  decodes .EntityStatePdu (List.mem_of_getElem? (i := 113) rfl) rfl .EntityStatePdu rfl fun _ => rfl

theorem StartResumePdu_decodes : Decodes I.StartResumePdu (PduClass.decode .StartResumePdu) :=
  decodes .StartResumePdu (List.mem_of_getElem? (i := 114) rfl) rfl .StartResumePdu rfl fun _ => rfl

theorem ElectromagneticEmissionsPdu_decodes : Decodes I.ElectromagneticEmissionsPdu (PduClass.decode .ElectromagneticEmissionsPdu) :=
  decodes .ElectromagneticEmissionsPdu (List.mem_of_getElem? (i := 115) rfl) rfl .ElectromagneticEmissionsPdu rfl fun _ => rfl

theorem ResupplyOfferPdu_decodes : Decodes I.ResupplyOfferPdu (PduClass.decode .ResupplyOfferPdu) :=
  decodes .ResupplyOfferPdu (List.mem_of_getElem? (i := 116) rfl) rfl .ResupplyOfferPdu rfl fun _ => rfl

theorem SetDataReliablePdu_decodes : Decodes I.SetDataReliablePdu (PduClass.decode .SetDataReliablePdu) :=
  decodes .SetDataReliablePdu (List.mem_of_getElem? (i := 145) rfl) rfl .SetDataReliablePdu rfl fun _ => rfl

theorem EventReportPdu_decodes : Decodes I.EventReportPdu (PduClass.decode .EventReportPdu) :=
  decodes .EventReportPdu (List.mem_of_getElem? (i := 146) rfl) rfl .EventReportPdu rfl fun _ => rfl

theorem PointObjectStatePdu_decodes : Decodes I.PointObjectStatePdu (PduClass.decode .PointObjectStatePdu) :=
  decodes .PointObjectStatePdu (List.mem_of_getElem? (i := 117) rfl) rfl .PointObjectStatePdu rfl fun _ => rfl

theorem DataPdu_decodes : Decodes I.DataPdu (PduClass.decode .DataPdu) :=
  decodes .DataPdu (List.mem_of_getElem? (i := 147) rfl) rfl .DataPdu rfl fun _ => rfl

theorem FastEntityStatePdu_decodes : Decodes I.FastEntityStatePdu (PduClass.decode .FastEntityStatePdu) :=
  decodes .FastEntityStatePdu (List.mem_of_getElem? (i := 118) rfl) rfl .FastEntityStatePdu rfl fun _ => rfl

theorem AcknowledgeReliablePdu_decodes : Decodes I.AcknowledgeReliablePdu (PduClass.decode .AcknowledgeReliablePdu) :=
  decodes .AcknowledgeReliablePdu (List.mem_of_getElem? (i := 119) rfl) rfl .AcknowledgeReliablePdu rfl fun _ => rfl

theorem StartResumeReliablePdu_decodes : Decodes I.StartResumeReliablePdu (PduClass.decode .StartResumeReliablePdu) :=
  decodes .StartResumeReliablePdu (List.mem_of_getElem? (i := 120) rfl) rfl .StartResumeReliablePdu rfl fun _ => rfl

theorem ArealObjectStatePdu_decodes : Decodes I.ArealObjectStatePdu (PduClass.decode .ArealObjectStatePdu) :=
  decodes .ArealObjectStatePdu (List.mem_of_getElem? (i := 121) rfl) rfl .ArealObjectStatePdu rfl fun _ => rfl

theorem DataQueryReliablePdu_decodes : Decodes I.DataQueryReliablePdu (PduClass.decode .DataQueryReliablePdu) :=
  decodes .DataQueryReliablePdu (List.mem_of_getElem? (i := 122) rfl) rfl .DataQueryReliablePdu rfl fun _ => rfl

theorem MinefieldStatePdu_decodes : Decodes I.MinefieldStatePdu (PduClass.decode .MinefieldStatePdu) :=
  decodes .MinefieldStatePdu (List.mem_of_getElem? (i := 123) rfl) rfl .MinefieldStatePdu rfl fun _ => rfl

theorem DataReliablePdu_decodes : Decodes I.DataReliablePdu (PduClass.decode .DataReliablePdu) :=
  decodes .DataReliablePdu (List.mem_of_getElem? (i := 148) rfl) rfl .DataReliablePdu rfl fun _ => rfl

theorem CommentPdu_decodes : Decodes I.CommentPdu (PduClass.decode .CommentPdu) :=
  decodes .CommentPdu (List.mem_of_getElem? (i := 149) rfl) rfl .CommentPdu rfl fun _ => rfl

theorem CommentReliablePdu_decodes : Decodes I.CommentReliablePdu (PduClass.decode .CommentReliablePdu) :=
  decodes .CommentReliablePdu (List.mem_of_getElem? (i := 150) rfl) rfl .CommentReliablePdu rfl fun _ => rfl

theorem DirectedEnergyFirePdu_decodes : Decodes I.DirectedEnergyFirePdu (PduClass.decode .DirectedEnergyFirePdu) :=
  decodes .DirectedEnergyFirePdu (List.mem_of_getElem? (i := 164) rfl) rfl .DirectedEnergyFirePdu rfl fun _ => rfl

theorem DetonationPdu_decodes : Decodes I.DetonationPdu (PduClass.decode .DetonationPdu) :=
  decodes .DetonationPdu (List.mem_of_getElem? (i := 124) rfl) rfl .DetonationPdu rfl fun _ => rfl

theorem SetDataPdu_decodes : Decodes I.SetDataPdu (PduClass.decode .SetDataPdu) :=
  decodes .SetDataPdu (List.mem_of_getElem? (i := 151) rfl) rfl .SetDataPdu rfl fun _ => rfl

theorem RecordQueryReliablePdu_decodes : Decodes I.RecordQueryReliablePdu (PduClass.decode .RecordQueryReliablePdu) :=
  decodes .RecordQueryReliablePdu (List.mem_of_getElem? (i := 125) rfl) rfl .RecordQueryReliablePdu rfl fun _ => rfl

theorem ActionResponsePdu_decodes : Decodes I.ActionResponsePdu (PduClass.decode .ActionResponsePdu) :=
  decodes .ActionResponsePdu (List.mem_of_getElem? (i := 152) rfl) rfl .ActionResponsePdu rfl fun _ => rfl

theorem EntityDamageStatusPdu_decodes : Decodes I.EntityDamageStatusPdu (PduClass.decode .EntityDamageStatusPdu) :=
  decodes .EntityDamageStatusPdu (List.mem_of_getElem? (i := 165) rfl) rfl .EntityDamageStatusPdu rfl fun _ => rfl

theorem FirePdu_decodes : Decodes I.FirePdu (PduClass.decode .FirePdu) :=
  decodes .FirePdu (List.mem_of_getElem? (i := 126) rfl) rfl .FirePdu rfl fun _ => rfl

theorem ReceiverPdu_decodes : Decodes I.ReceiverPdu (PduClass.decode .ReceiverPdu) :=
  decodes .ReceiverPdu (List.mem_of_getElem? (i := 127) rfl) rfl .ReceiverPdu rfl fun _ => rfl

theorem UaPdu_decodes : Decodes I.UaPdu (PduClass.decode .UaPdu) :=
  decodes .UaPdu (List.mem_of_getElem? (i := 128) rfl) rfl .UaPdu rfl fun _ => rfl

theorem SignalPdu_decodes : Decodes I.SignalPdu (PduClass.decode .SignalPdu) :=
  decodes .SignalPdu (List.mem_of_getElem? (i := 129) rfl) rfl .SignalPdu rfl fun _ => rfl

theorem RemoveEntityReliablePdu_decodes : Decodes I.RemoveEntityReliablePdu (PduClass.decode .RemoveEntityReliablePdu) :=
  decodes .RemoveEntityReliablePdu (List.mem_of_getElem? (i := 130) rfl) rfl .RemoveEntityReliablePdu rfl fun _ => rfl

theorem SeesPdu_decodes : Decodes I.SeesPdu (PduClass.decode .SeesPdu) :=
  decodes .SeesPdu (List.mem_of_getElem? (i := 131) rfl) rfl .SeesPdu rfl fun _ => rfl

theorem CreateEntityReliablePdu_decodes : Decodes I.CreateEntityReliablePdu (PduClass.decode .CreateEntityReliablePdu) :=
  decodes .CreateEntityReliablePdu (List.mem_of_getElem? (i := 132) rfl) rfl .CreateEntityReliablePdu rfl fun _ => rfl

theorem StopFreezeReliablePdu_decodes : Decodes I.StopFreezeReliablePdu (PduClass.decode .StopFreezeReliablePdu) :=
  decodes .StopFreezeReliablePdu (List.mem_of_getElem? (i := 133) rfl) rfl .StopFreezeReliablePdu rfl fun _ => rfl

theorem EventReportReliablePdu_decodes : Decodes I.EventReportReliablePdu (PduClass.decode .EventReportReliablePdu) :=
  decodes .EventReportReliablePdu (List.mem_of_getElem? (i := 153) rfl) rfl .EventReportReliablePdu rfl fun _ => rfl

theorem MinefieldResponseNackPdu_decodes : Decodes I.MinefieldResponseNackPdu (PduClass.decode .MinefieldResponseNackPdu) :=
  decodes .MinefieldResponseNackPdu (List.mem_of_getElem? (i := 134) rfl) rfl .MinefieldResponseNackPdu rfl fun _ => rfl

theorem ActionResponseReliablePdu_decodes : Decodes I.ActionResponseReliablePdu (PduClass.decode .ActionResponseReliablePdu) :=
  decodes .ActionResponseReliablePdu (List.mem_of_getElem? (i := 154) rfl) rfl .ActionResponseReliablePdu rfl fun _ => rfl

theorem IsPartOfPdu_decodes : Decodes I.IsPartOfPdu (PduClass.decode .IsPartOfPdu) :=
  decodes .IsPartOfPdu (List.mem_of_getElem? (i := 135) rfl) rfl .IsPartOfPdu rfl fun _ => rfl

theorem AggregateStatePdu_decodes : Decodes I.AggregateStatePdu (PduClass.decode .AggregateStatePdu) :=
  decodes .AggregateStatePdu (List.mem_of_getElem? (i := 155) rfl) rfl .AggregateStatePdu rfl fun _ => rfl

theorem all_decode : ∀ c : PduClass, Decodes (ident c) c.decode
  | .EntityStateUpdatePdu => EntityStateUpdatePdu_decodes
  | .ServiceRequestPdu => ServiceRequestPdu_decodes
  | .RepairCompletePdu => RepairCompletePdu_decodes
  | .CollisionPdu => CollisionPdu_decodes
  | .RepairResponsePdu => RepairResponsePdu_decodes
  | .DataQueryPdu => DataQueryPdu_decodes
  | .LinearObjectStatePdu => linear_decodes
  | .CreateEntityPdu => CreateEntityPdu_decodes
  | .IntercomSignalPdu => IntercomSignalPdu_decodes
  | .RemoveEntityPdu => RemoveEntityPdu_decodes
  | .ResupplyReceivedPdu => ResupplyReceivedPdu_decodes
  | .CollisionElasticPdu => CollisionElasticPdu_decodes
  | .ActionRequestPdu => ActionRequestPdu_decodes
  | .AcknowledgePdu => AcknowledgePdu_decodes
  | .ActionRequestReliablePdu => ActionRequestReliablePdu_decodes
  | .DesignatorPdu => DesignatorPdu_decodes
  | .StopFreezePdu => StopFreezePdu_decodes
  | .EntityStatePdu => EntityStatePdu_decodes
  | .StartResumePdu => StartResumePdu_decodes
  | .TransmitterPdu => transmitter_decodes
  | .ElectromagneticEmissionsPdu => ElectromagneticEmissionsPdu_decodes
  | .ResupplyOfferPdu => ResupplyOfferPdu_decodes
  | .SetDataReliablePdu => SetDataReliablePdu_decodes
  | .EventReportPdu => EventReportPdu_decodes
  | .PointObjectStatePdu => PointObjectStatePdu_decodes
  | .DataPdu => DataPdu_decodes
  | .FastEntityStatePdu => FastEntityStatePdu_decodes
  | .AcknowledgeReliablePdu => AcknowledgeReliablePdu_decodes
  | .StartResumeReliablePdu => StartResumeReliablePdu_decodes
  | .ArealObjectStatePdu => ArealObjectStatePdu_decodes
  | .DataQueryReliablePdu => DataQueryReliablePdu_decodes
  | .MinefieldStatePdu => MinefieldStatePdu_decodes
  | .DataReliablePdu => DataReliablePdu_decodes
  | .CommentPdu => CommentPdu_decodes
  | .CommentReliablePdu => CommentReliablePdu_decodes
  | .DirectedEnergyFirePdu => DirectedEnergyFirePdu_decodes
  | .DetonationPdu => DetonationPdu_decodes
  | .SetDataPdu => SetDataPdu_decodes
  | .RecordQueryReliablePdu => RecordQueryReliablePdu_decodes
  | .ActionResponsePdu => ActionResponsePdu_decodes
  | .EntityDamageStatusPdu => EntityDamageStatusPdu_decodes
  | .FirePdu => FirePdu_decodes
  | .ReceiverPdu => ReceiverPdu_decodes
  | .UaPdu => UaPdu_decodes
  | .IntercomControlPdu => intercom_decodes
  | .SignalPdu => SignalPdu_decodes
  | .RemoveEntityReliablePdu => RemoveEntityReliablePdu_decodes
  | .SeesPdu => SeesPdu_decodes
  | .CreateEntityReliablePdu => CreateEntityReliablePdu_decodes
  | .StopFreezeReliablePdu => StopFreezeReliablePdu_decodes
  | .EventReportReliablePdu => EventReportReliablePdu_decodes
  | .MinefieldResponseNackPdu => MinefieldResponseNackPdu_decodes
  | .ActionResponseReliablePdu => ActionResponseReliablePdu_decodes
  | .IsPartOfPdu => IsPartOfPdu_decodes
  | .AggregateStatePdu => AggregateStatePdu_decodes

theorem all_serialize (file : Val → Except PyErr Bytes) (n : Nat) (io : Streams) : ∀ (p : AnyPdu) (v : Src.Val), value p = some v →
    (world file n).call (ident p.cls) I.serialize v [.out] [] io =
      (p.serialize.res.map fun _ => .none, v, ⟨io.inp, io.out ++ p.serialize.out⟩)
  | .EntityStateUpdatePdu p, v, h =>
    serializes .EntityStateUpdatePdu (List.mem_of_getElem? (i := 99) rfl) file n io p v (Option.some.inj h)
  | .ServiceRequestPdu p, v, h =>
    serializes .ServiceRequestPdu (List.mem_of_getElem? (i := 100) rfl) file n io p v (Option.some.inj h)
  | .RepairCompletePdu p, v, h =>
    serializes .RepairCompletePdu (List.mem_of_getElem? (i := 101) rfl) file n io p v (Option.some.inj h)
  | .CollisionPdu p, v, h =>
    serializes .CollisionPdu (List.mem_of_getElem? (i := 102) rfl) file n io p v (Option.some.inj h)
  | .RepairResponsePdu p, v, h =>
    serializes .RepairResponsePdu (List.mem_of_getElem? (i := 103) rfl) file n io p v (Option.some.inj h)
  | .DataQueryPdu p, v, h =>
    serializes .DataQueryPdu (List.mem_of_getElem? (i := 104) rfl) file n io p v (Option.some.inj h)
  | .LinearObjectStatePdu _, _, h => nomatch h
  | .CreateEntityPdu p, v, h =>
    serializes .CreateEntityPdu (List.mem_of_getElem? (i := 105) rfl) file n io p v (Option.some.inj h)
  | .IntercomSignalPdu p, v, h =>
    serializes .IntercomSignalPdu (List.mem_of_getElem? (i := 106) rfl) file n io p v (Option.some.inj h)
  | .RemoveEntityPdu p, v, h =>
    serializes .RemoveEntityPdu (List.mem_of_getElem? (i := 107) rfl) file n io p v (Option.some.inj h)
  | .ResupplyReceivedPdu p, v, h =>
    serializes .ResupplyReceivedPdu (List.mem_of_getElem? (i := 108) rfl) file n io p v (Option.some.inj h)
  | .CollisionElasticPdu p, v, h =>
    serializes .CollisionElasticPdu (List.mem_of_getElem? (i := 109) rfl) file n io p v (Option.some.inj h)
  | .ActionRequestPdu p, v, h =>
    serializes .ActionRequestPdu (List.mem_of_getElem? (i := 143) rfl) file n io p v (Option.some.inj h)
  | .AcknowledgePdu p, v, h =>
    serializes .AcknowledgePdu (List.mem_of_getElem? (i := 110) rfl) file n io p v (Option.some.inj h)
  | .ActionRequestReliablePdu p, v, h =>
    serializes .ActionRequestReliablePdu (List.mem_of_getElem? (i := 144) rfl) file n io p v (Option.some.inj h)
  | .DesignatorPdu p, v, h =>
    serializes .DesignatorPdu (List.mem_of_getElem? (i := 111) rfl) file n io p v (Option.some.inj h)
  | .StopFreezePdu p, v, h =>
    serializes .StopFreezePdu (List.mem_of_getElem? (i := 112) rfl) file n io p v (Option.some.inj h)
  | .EntityStatePdu p, v, h =>
    serializes .EntityStatePdu (List.mem_of_getElem? (i := 113) rfl) file n io p v (Option.some.inj h)
  | .StartResumePdu p, v, h =>
    serializes .StartResumePdu (List.mem_of_getElem? (i := 114) rfl) file n io p v (Option.some.inj h)
  | .TransmitterPdu p, v, h => by
    cases h
    simp only [world, treeStreams_eq]
    exact C77_transmitter_serialize n p io
  | .ElectromagneticEmissionsPdu p, v, h =>
    serializes .ElectromagneticEmissionsPdu (List.mem_of_getElem? (i := 115) rfl) file n io p v (Option.some.inj h)
  | .ResupplyOfferPdu p, v, h =>
    serializes .ResupplyOfferPdu (List.mem_of_getElem? (i := 116) rfl) file n io p v (Option.some.inj h)
  | .SetDataReliablePdu p, v, h =>
    serializes .SetDataReliablePdu (List.mem_of_getElem? (i := 145) rfl) file n io p v (Option.some.inj h)
  | .EventReportPdu p, v, h =>
    serializes .EventReportPdu (List.mem_of_getElem? (i := 146) rfl) file n io p v (Option.some.inj h)
  | .PointObjectStatePdu p, v, h =>
    serializes .PointObjectStatePdu (List.mem_of_getElem? (i := 117) rfl) file n io p v (Option.some.inj h)
  | .DataPdu p, v, h =>
    serializes .DataPdu (List.mem_of_getElem? (i := 147) rfl) file n io p v (Option.some.inj h)
  | .FastEntityStatePdu p, v, h =>
    serializes .FastEntityStatePdu (List.mem_of_getElem? (i := 118) rfl) file n io p v (Option.some.inj h)
  | .AcknowledgeReliablePdu p, v, h =>
    serializes .AcknowledgeReliablePdu (List.mem_of_getElem? (i := 119) rfl) file n io p v (Option.some.inj h)
  | .StartResumeReliablePdu p, v, h =>
    serializes .StartResumeReliablePdu (List.mem_of_getElem? (i := 120) rfl) file n io p v (Option.some.inj h)
  | .ArealObjectStatePdu p, v, h =>
    serializes .ArealObjectStatePdu (List.mem_of_getElem? (i := 121) rfl) file n io p v (Option.some.inj h)
  | .DataQueryReliablePdu p, v, h =>
    serializes .DataQueryReliablePdu (List.mem_of_getElem? (i := 122) rfl) file n io p v (Option.some.inj h)
  | .MinefieldStatePdu p, v, h =>
    serializes .MinefieldStatePdu (List.mem_of_getElem? (i := 123) rfl) file n io p v (Option.some.inj h)
  | .DataReliablePdu p, v, h =>
    serializes .DataReliablePdu (List.mem_of_getElem? (i := 148) rfl) file n io p v (Option.some.inj h)
  | .CommentPdu p, v, h =>
    serializes .CommentPdu (List.mem_of_getElem? (i := 149) rfl) file n io p v (Option.some.inj h)
  | .CommentReliablePdu p, v, h =>
    serializes .CommentReliablePdu (List.mem_of_getElem? (i := 150) rfl) file n io p v (Option.some.inj h)
  | .DirectedEnergyFirePdu p, v, h =>
    serializes .DirectedEnergyFirePdu (List.mem_of_getElem? (i := 164) rfl) file n io p v (Option.some.inj h)
  | .DetonationPdu p, v, h =>
    serializes .DetonationPdu (List.mem_of_getElem? (i := 124) rfl) file n io p v (Option.some.inj h)
  | .SetDataPdu p, v, h =>
    serializes .SetDataPdu (List.mem_of_getElem? (i := 151) rfl) file n io p v (Option.some.inj h)
  | .RecordQueryReliablePdu p, v, h =>
    serializes .RecordQueryReliablePdu (List.mem_of_getElem? (i := 125) rfl) file n io p v (Option.some.inj h)
  | .ActionResponsePdu p, v, h =>
    serializes .ActionResponsePdu (List.mem_of_getElem? (i := 152) rfl) file n io p v (Option.some.inj h)
  | .EntityDamageStatusPdu p, v, h =>
    serializes .EntityDamageStatusPdu (List.mem_of_getElem? (i := 165) rfl) file n io p v (Option.some.inj h)
  | .FirePdu p, v, h =>
    serializes .FirePdu (List.mem_of_getElem? (i := 126) rfl) file n io p v (Option.some.inj h)
  | .ReceiverPdu p, v, h =>
    serializes .ReceiverPdu (List.mem_of_getElem? (i := 127) rfl) file n io p v (Option.some.inj h)
  | .UaPdu p, v, h =>
    serializes .UaPdu (List.mem_of_getElem? (i := 128) rfl) file n io p v (Option.some.inj h)
  | .IntercomControlPdu p, v, h => by
    cases h
    simp only [world, treeStreams_eq]
    exact C77_intercom_serialize n p io
  | .SignalPdu p, v, h =>
    serializes .SignalPdu (List.mem_of_getElem? (i := 129) rfl) file n io p v (Option.some.inj h)
  | .RemoveEntityReliablePdu p, v, h =>
    serializes .RemoveEntityReliablePdu (List.mem_of_getElem? (i := 130) rfl) file n io p v (Option.some.inj h)
  | .SeesPdu p, v, h =>
    serializes .SeesPdu (List.mem_of_getElem? (i := 131) rfl) file n io p v (Option.some.inj h)
  | .CreateEntityReliablePdu p, v, h =>
    serializes .CreateEntityReliablePdu (List.mem_of_getElem? (i := 132) rfl) file n io p v (Option.some.inj h)
  | .StopFreezeReliablePdu p, v, h =>
    serializes .StopFreezeReliablePdu (List.mem_of_getElem? (i := 133) rfl) file n io p v (Option.some.inj h)
  | .EventReportReliablePdu p, v, h =>
    serializes .EventReportReliablePdu (List.mem_of_getElem? (i := 153) rfl) file n io p v (Option.some.inj h)
  | .MinefieldResponseNackPdu p, v, h =>
    serializes .MinefieldResponseNackPdu (List.mem_of_getElem? (i := 134) rfl) file n io p v (Option.some.inj h)
  | .ActionResponseReliablePdu p, v, h =>
    serializes .ActionResponseReliablePdu (List.mem_of_getElem? (i := 154) rfl) file n io p v (Option.some.inj h)
  | .IsPartOfPdu p, v, h =>
    serializes .IsPartOfPdu (List.mem_of_getElem? (i := 135) rfl) file n io p v (Option.some.inj h)
  | .AggregateStatePdu p, v, h =>
    serializes .AggregateStatePdu (List.mem_of_getElem? (i := 155) rfl) file n io p v (Option.some.inj h)

end Dis.Io
