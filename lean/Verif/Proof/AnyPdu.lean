import Verif.Spec.AnyPdu
import Verif.Proof.Special
import Verif.Proof.LayoutSpecial
import Verif.Proof.Begins

/-!
# The theorems about each PDU class, over all of them

Generated by `tools/genany.py`.
-/

namespace Dis

theorem AnyPdu.rt : ∀ p : AnyPdu, p.Decodable → RT p.serialize p.cls.decode p.received
  | .EntityStateUpdatePdu p, _ => RT.last (f := AnyPdu.EntityStateUpdatePdu) (Dis.EntityStateUpdatePdu.rt _ p)
  | .ServiceRequestPdu p, _ => RT.last (f := AnyPdu.ServiceRequestPdu) (Dis.ServiceRequestPdu.rt _ p)
  | .RepairCompletePdu p, _ => RT.last (f := AnyPdu.RepairCompletePdu) (Dis.RepairCompletePdu.rt _ p)
  | .CollisionPdu p, _ => RT.last (f := AnyPdu.CollisionPdu) (Dis.CollisionPdu.rt _ p)
  | .RepairResponsePdu p, _ => RT.last (f := AnyPdu.RepairResponsePdu) (Dis.RepairResponsePdu.rt _ p)
  | .DataQueryPdu p, _ => RT.last (f := AnyPdu.DataQueryPdu) (Dis.DataQueryPdu.rt _ p)
  | .LinearObjectStatePdu _, h => absurd h id
  | .CreateEntityPdu p, _ => RT.last (f := AnyPdu.CreateEntityPdu) (Dis.CreateEntityPdu.rt _ p)
  | .IntercomSignalPdu p, _ => RT.last (f := AnyPdu.IntercomSignalPdu) (Dis.IntercomSignalPdu.rt _ p)
  | .RemoveEntityPdu p, _ => RT.last (f := AnyPdu.RemoveEntityPdu) (Dis.RemoveEntityPdu.rt _ p)
  | .ResupplyReceivedPdu p, h => RT.last (f := AnyPdu.ResupplyReceivedPdu) (Dis.ResupplyReceivedPdu.rt _ p h)
  | .CollisionElasticPdu p, _ => RT.last (f := AnyPdu.CollisionElasticPdu) (Dis.CollisionElasticPdu.rt _ p)
  | .ActionRequestPdu p, _ => RT.last (f := AnyPdu.ActionRequestPdu) (Dis.ActionRequestPdu.rt _ p)
  | .AcknowledgePdu p, _ => RT.last (f := AnyPdu.AcknowledgePdu) (Dis.AcknowledgePdu.rt _ p)
  | .ActionRequestReliablePdu p, _ => RT.last (f := AnyPdu.ActionRequestReliablePdu) (Dis.ActionRequestReliablePdu.rt _ p)
  | .DesignatorPdu p, _ => RT.last (f := AnyPdu.DesignatorPdu) (Dis.DesignatorPdu.rt _ p)
  | .StopFreezePdu p, _ => RT.last (f := AnyPdu.StopFreezePdu) (Dis.StopFreezePdu.rt _ p)
  | .EntityStatePdu p, _ => RT.last (f := AnyPdu.EntityStatePdu) (Dis.EntityStatePdu.rt _ p)
  | .StartResumePdu p, _ => RT.last (f := AnyPdu.StartResumePdu) (Dis.StartResumePdu.rt _ p)
  | .TransmitterPdu p, h => RT.last (f := AnyPdu.TransmitterPdu) (Dis.TransmitterPdu.rt _ p h)
  | .ElectromagneticEmissionsPdu p, _ => RT.last (f := AnyPdu.ElectromagneticEmissionsPdu) (Dis.ElectromagneticEmissionsPdu.rt _ p)
  | .ResupplyOfferPdu p, _ => RT.last (f := AnyPdu.ResupplyOfferPdu) (Dis.ResupplyOfferPdu.rt _ p)
  | .SetDataReliablePdu p, _ => RT.last (f := AnyPdu.SetDataReliablePdu) (Dis.SetDataReliablePdu.rt _ p)
  | .EventReportPdu p, _ => RT.last (f := AnyPdu.EventReportPdu) (Dis.EventReportPdu.rt _ p)
  | .PointObjectStatePdu p, _ => RT.last (f := AnyPdu.PointObjectStatePdu) (Dis.PointObjectStatePdu.rt _ p)
  | .DataPdu p, _ => RT.last (f := AnyPdu.DataPdu) (Dis.DataPdu.rt _ p)
  | .FastEntityStatePdu p, _ => RT.last (f := AnyPdu.FastEntityStatePdu) (Dis.FastEntityStatePdu.rt _ p)
  | .AcknowledgeReliablePdu p, _ => RT.last (f := AnyPdu.AcknowledgeReliablePdu) (Dis.AcknowledgeReliablePdu.rt _ p)
  | .StartResumeReliablePdu p, _ => RT.last (f := AnyPdu.StartResumeReliablePdu) (Dis.StartResumeReliablePdu.rt _ p)
  | .ArealObjectStatePdu p, _ => RT.last (f := AnyPdu.ArealObjectStatePdu) (Dis.ArealObjectStatePdu.rt _ p)
  | .DataQueryReliablePdu p, _ => RT.last (f := AnyPdu.DataQueryReliablePdu) (Dis.DataQueryReliablePdu.rt _ p)
  | .MinefieldStatePdu p, _ => RT.last (f := AnyPdu.MinefieldStatePdu) (Dis.MinefieldStatePdu.rt _ p)
  | .DataReliablePdu p, _ => RT.last (f := AnyPdu.DataReliablePdu) (Dis.DataReliablePdu.rt _ p)
  | .CommentPdu p, _ => RT.last (f := AnyPdu.CommentPdu) (Dis.CommentPdu.rt _ p)
  | .CommentReliablePdu p, _ => RT.last (f := AnyPdu.CommentReliablePdu) (Dis.CommentReliablePdu.rt _ p)
  | .DirectedEnergyFirePdu p, h => RT.last (f := AnyPdu.DirectedEnergyFirePdu) (Dis.DirectedEnergyFirePdu.rt _ p h)
  | .DetonationPdu p, _ => RT.last (f := AnyPdu.DetonationPdu) (Dis.DetonationPdu.rt _ p)
  | .SetDataPdu p, _ => RT.last (f := AnyPdu.SetDataPdu) (Dis.SetDataPdu.rt _ p)
  | .RecordQueryReliablePdu p, _ => RT.last (f := AnyPdu.RecordQueryReliablePdu) (Dis.RecordQueryReliablePdu.rt _ p)
  | .ActionResponsePdu p, _ => RT.last (f := AnyPdu.ActionResponsePdu) (Dis.ActionResponsePdu.rt _ p)
  | .EntityDamageStatusPdu p, h => RT.last (f := AnyPdu.EntityDamageStatusPdu) (Dis.EntityDamageStatusPdu.rt _ p h)
  | .FirePdu p, _ => RT.last (f := AnyPdu.FirePdu) (Dis.FirePdu.rt _ p)
  | .ReceiverPdu p, _ => RT.last (f := AnyPdu.ReceiverPdu) (Dis.ReceiverPdu.rt _ p)
  | .UaPdu p, _ => RT.last (f := AnyPdu.UaPdu) (Dis.UaPdu.rt _ p)
  | .IntercomControlPdu _, h => absurd h id
  | .SignalPdu p, _ => RT.last (f := AnyPdu.SignalPdu) (Dis.SignalPdu.rt _ p)
  | .RemoveEntityReliablePdu p, _ => RT.last (f := AnyPdu.RemoveEntityReliablePdu) (Dis.RemoveEntityReliablePdu.rt _ p)
  | .SeesPdu p, h => RT.last (f := AnyPdu.SeesPdu) (Dis.SeesPdu.rt _ p h)
  | .CreateEntityReliablePdu p, _ => RT.last (f := AnyPdu.CreateEntityReliablePdu) (Dis.CreateEntityReliablePdu.rt _ p)
  | .StopFreezeReliablePdu p, _ => RT.last (f := AnyPdu.StopFreezeReliablePdu) (Dis.StopFreezeReliablePdu.rt _ p)
  | .EventReportReliablePdu p, _ => RT.last (f := AnyPdu.EventReportReliablePdu) (Dis.EventReportReliablePdu.rt _ p)
  | .MinefieldResponseNackPdu p, _ => RT.last (f := AnyPdu.MinefieldResponseNackPdu) (Dis.MinefieldResponseNackPdu.rt _ p)
  | .ActionResponseReliablePdu p, _ => RT.last (f := AnyPdu.ActionResponseReliablePdu) (Dis.ActionResponseReliablePdu.rt _ p)
  | .IsPartOfPdu p, _ => RT.last (f := AnyPdu.IsPartOfPdu) (Dis.IsPartOfPdu.rt _ p)
  | .AggregateStatePdu p, _ => RT.last (f := AnyPdu.AggregateStatePdu) (Dis.AggregateStatePdu.rt _ p)

theorem PduClass.loc : ∀ c : PduClass, c ≠ .TransmitterPdu → Local c.decode
  | .EntityStateUpdatePdu, _ => Local.bind (Dis.EntityStateUpdatePdu.loc _) fun _ => Local.pure _
  | .ServiceRequestPdu, _ => Local.bind (Dis.ServiceRequestPdu.loc _) fun _ => Local.pure _
  | .RepairCompletePdu, _ => Local.bind (Dis.RepairCompletePdu.loc _) fun _ => Local.pure _
  | .CollisionPdu, _ => Local.bind (Dis.CollisionPdu.loc _) fun _ => Local.pure _
  | .RepairResponsePdu, _ => Local.bind (Dis.RepairResponsePdu.loc _) fun _ => Local.pure _
  | .DataQueryPdu, _ => Local.bind (Dis.DataQueryPdu.loc _) fun _ => Local.pure _
  | .LinearObjectStatePdu, _ => Local.bind (Local.ofExcept _) fun _ => Local.bind (Dis.LinearObjectStatePdu.loc _) fun _ => Local.pure _
  | .CreateEntityPdu, _ => Local.bind (Dis.CreateEntityPdu.loc _) fun _ => Local.pure _
  | .IntercomSignalPdu, _ => Local.bind (Dis.IntercomSignalPdu.loc _) fun _ => Local.pure _
  | .RemoveEntityPdu, _ => Local.bind (Dis.RemoveEntityPdu.loc _) fun _ => Local.pure _
  | .ResupplyReceivedPdu, _ => Local.bind (Dis.ResupplyReceivedPdu.loc _) fun _ => Local.pure _
  | .CollisionElasticPdu, _ => Local.bind (Dis.CollisionElasticPdu.loc _) fun _ => Local.pure _
  | .ActionRequestPdu, _ => Local.bind (Dis.ActionRequestPdu.loc _) fun _ => Local.pure _
  | .AcknowledgePdu, _ => Local.bind (Dis.AcknowledgePdu.loc _) fun _ => Local.pure _
  | .ActionRequestReliablePdu, _ => Local.bind (Dis.ActionRequestReliablePdu.loc _) fun _ => Local.pure _
  | .DesignatorPdu, _ => Local.bind (Dis.DesignatorPdu.loc _) fun _ => Local.pure _
  | .StopFreezePdu, _ => Local.bind (Dis.StopFreezePdu.loc _) fun _ => Local.pure _
  | .EntityStatePdu, _ => Local.bind (Dis.EntityStatePdu.loc _) fun _ => Local.pure _
  | .StartResumePdu, _ => Local.bind (Dis.StartResumePdu.loc _) fun _ => Local.pure _
  | .TransmitterPdu, h => absurd rfl h
  | .ElectromagneticEmissionsPdu, _ => Local.bind (Dis.ElectromagneticEmissionsPdu.loc _) fun _ => Local.pure _
  | .ResupplyOfferPdu, _ => Local.bind (Dis.ResupplyOfferPdu.loc _) fun _ => Local.pure _
  | .SetDataReliablePdu, _ => Local.bind (Dis.SetDataReliablePdu.loc _) fun _ => Local.pure _
  | .EventReportPdu, _ => Local.bind (Dis.EventReportPdu.loc _) fun _ => Local.pure _
  | .PointObjectStatePdu, _ => Local.bind (Dis.PointObjectStatePdu.loc _) fun _ => Local.pure _
  | .DataPdu, _ => Local.bind (Dis.DataPdu.loc _) fun _ => Local.pure _
  | .FastEntityStatePdu, _ => Local.bind (Dis.FastEntityStatePdu.loc _) fun _ => Local.pure _
  | .AcknowledgeReliablePdu, _ => Local.bind (Dis.AcknowledgeReliablePdu.loc _) fun _ => Local.pure _
  | .StartResumeReliablePdu, _ => Local.bind (Dis.StartResumeReliablePdu.loc _) fun _ => Local.pure _
  | .ArealObjectStatePdu, _ => Local.bind (Dis.ArealObjectStatePdu.loc _) fun _ => Local.pure _
  | .DataQueryReliablePdu, _ => Local.bind (Dis.DataQueryReliablePdu.loc _) fun _ => Local.pure _
  | .MinefieldStatePdu, _ => Local.bind (Dis.MinefieldStatePdu.loc _) fun _ => Local.pure _
  | .DataReliablePdu, _ => Local.bind (Dis.DataReliablePdu.loc _) fun _ => Local.pure _
  | .CommentPdu, _ => Local.bind (Dis.CommentPdu.loc _) fun _ => Local.pure _
  | .CommentReliablePdu, _ => Local.bind (Dis.CommentReliablePdu.loc _) fun _ => Local.pure _
  | .DirectedEnergyFirePdu, _ => Local.bind (Dis.DirectedEnergyFirePdu.loc _) fun _ => Local.pure _
  | .DetonationPdu, _ => Local.bind (Dis.DetonationPdu.loc _) fun _ => Local.pure _
  | .SetDataPdu, _ => Local.bind (Dis.SetDataPdu.loc _) fun _ => Local.pure _
  | .RecordQueryReliablePdu, _ => Local.bind (Dis.RecordQueryReliablePdu.loc _) fun _ => Local.pure _
  | .ActionResponsePdu, _ => Local.bind (Dis.ActionResponsePdu.loc _) fun _ => Local.pure _
  | .EntityDamageStatusPdu, _ => Local.bind (Dis.EntityDamageStatusPdu.loc _) fun _ => Local.pure _
  | .FirePdu, _ => Local.bind (Dis.FirePdu.loc _) fun _ => Local.pure _
  | .ReceiverPdu, _ => Local.bind (Dis.ReceiverPdu.loc _) fun _ => Local.pure _
  | .UaPdu, _ => Local.bind (Dis.UaPdu.loc _) fun _ => Local.pure _
  | .IntercomControlPdu, _ => Local.bind (Dis.IntercomControlPdu.loc _) fun _ => Local.pure _
  | .SignalPdu, _ => Local.bind (Dis.SignalPdu.loc _) fun _ => Local.pure _
  | .RemoveEntityReliablePdu, _ => Local.bind (Dis.RemoveEntityReliablePdu.loc _) fun _ => Local.pure _
  | .SeesPdu, _ => Local.bind (Dis.SeesPdu.loc _) fun _ => Local.pure _
  | .CreateEntityReliablePdu, _ => Local.bind (Dis.CreateEntityReliablePdu.loc _) fun _ => Local.pure _
  | .StopFreezeReliablePdu, _ => Local.bind (Dis.StopFreezeReliablePdu.loc _) fun _ => Local.pure _
  | .EventReportReliablePdu, _ => Local.bind (Dis.EventReportReliablePdu.loc _) fun _ => Local.pure _
  | .MinefieldResponseNackPdu, _ => Local.bind (Dis.MinefieldResponseNackPdu.loc _) fun _ => Local.pure _
  | .ActionResponseReliablePdu, _ => Local.bind (Dis.ActionResponseReliablePdu.loc _) fun _ => Local.pure _
  | .IsPartOfPdu, _ => Local.bind (Dis.IsPartOfPdu.loc _) fun _ => Local.pure _
  | .AggregateStatePdu, _ => Local.bind (Dis.AggregateStatePdu.loc _) fun _ => Local.pure _

theorem AnyPdu.received_canon : ∀ p : AnyPdu, p.Canon → p.received = p
  | .EntityStateUpdatePdu _, h => congrArg AnyPdu.EntityStateUpdatePdu (Dis.EntityStateUpdatePdu.after_canon h)
  | .ServiceRequestPdu _, h => congrArg AnyPdu.ServiceRequestPdu (Dis.ServiceRequestPdu.after_canon h)
  | .RepairCompletePdu _, h => congrArg AnyPdu.RepairCompletePdu (Dis.RepairCompletePdu.after_canon h)
  | .CollisionPdu _, h => congrArg AnyPdu.CollisionPdu (Dis.CollisionPdu.after_canon h)
  | .RepairResponsePdu _, h => congrArg AnyPdu.RepairResponsePdu (Dis.RepairResponsePdu.after_canon h)
  | .DataQueryPdu _, h => congrArg AnyPdu.DataQueryPdu (Dis.DataQueryPdu.after_canon h)
  | .LinearObjectStatePdu _, h => absurd h id
  | .CreateEntityPdu _, h => congrArg AnyPdu.CreateEntityPdu (Dis.CreateEntityPdu.after_canon h)
  | .IntercomSignalPdu _, h => congrArg AnyPdu.IntercomSignalPdu (Dis.IntercomSignalPdu.after_canon h)
  | .RemoveEntityPdu _, h => congrArg AnyPdu.RemoveEntityPdu (Dis.RemoveEntityPdu.after_canon h)
  | .ResupplyReceivedPdu _, h => congrArg AnyPdu.ResupplyReceivedPdu (Dis.ResupplyReceivedPdu.after_canon h)
  | .CollisionElasticPdu _, h => congrArg AnyPdu.CollisionElasticPdu (Dis.CollisionElasticPdu.after_canon h)
  | .ActionRequestPdu _, h => congrArg AnyPdu.ActionRequestPdu (Dis.ActionRequestPdu.after_canon h)
  | .AcknowledgePdu _, h => congrArg AnyPdu.AcknowledgePdu (Dis.AcknowledgePdu.after_canon h)
  | .ActionRequestReliablePdu _, h => congrArg AnyPdu.ActionRequestReliablePdu (Dis.ActionRequestReliablePdu.after_canon h)
  | .DesignatorPdu _, h => congrArg AnyPdu.DesignatorPdu (Dis.DesignatorPdu.after_canon h)
  | .StopFreezePdu _, h => congrArg AnyPdu.StopFreezePdu (Dis.StopFreezePdu.after_canon h)
  | .EntityStatePdu _, h => congrArg AnyPdu.EntityStatePdu (Dis.EntityStatePdu.after_canon h)
  | .StartResumePdu _, h => congrArg AnyPdu.StartResumePdu (Dis.StartResumePdu.after_canon h)
  | .TransmitterPdu _, h => congrArg AnyPdu.TransmitterPdu (Dis.TransmitterPdu.after_canon h)
  | .ElectromagneticEmissionsPdu _, h => congrArg AnyPdu.ElectromagneticEmissionsPdu (Dis.ElectromagneticEmissionsPdu.after_canon h)
  | .ResupplyOfferPdu _, h => congrArg AnyPdu.ResupplyOfferPdu (Dis.ResupplyOfferPdu.after_canon h)
  | .SetDataReliablePdu _, h => congrArg AnyPdu.SetDataReliablePdu (Dis.SetDataReliablePdu.after_canon h)
  | .EventReportPdu _, h => congrArg AnyPdu.EventReportPdu (Dis.EventReportPdu.after_canon h)
  | .PointObjectStatePdu _, h => congrArg AnyPdu.PointObjectStatePdu (Dis.PointObjectStatePdu.after_canon h)
  | .DataPdu _, h => congrArg AnyPdu.DataPdu (Dis.DataPdu.after_canon h)
  | .FastEntityStatePdu _, h => congrArg AnyPdu.FastEntityStatePdu (Dis.FastEntityStatePdu.after_canon h)
  | .AcknowledgeReliablePdu _, h => congrArg AnyPdu.AcknowledgeReliablePdu (Dis.AcknowledgeReliablePdu.after_canon h)
  | .StartResumeReliablePdu _, h => congrArg AnyPdu.StartResumeReliablePdu (Dis.StartResumeReliablePdu.after_canon h)
  | .ArealObjectStatePdu _, h => congrArg AnyPdu.ArealObjectStatePdu (Dis.ArealObjectStatePdu.after_canon h)
  | .DataQueryReliablePdu _, h => congrArg AnyPdu.DataQueryReliablePdu (Dis.DataQueryReliablePdu.after_canon h)
  | .MinefieldStatePdu _, h => congrArg AnyPdu.MinefieldStatePdu (Dis.MinefieldStatePdu.after_canon h)
  | .DataReliablePdu _, h => congrArg AnyPdu.DataReliablePdu (Dis.DataReliablePdu.after_canon h)
  | .CommentPdu _, h => congrArg AnyPdu.CommentPdu (Dis.CommentPdu.after_canon h)
  | .CommentReliablePdu _, h => congrArg AnyPdu.CommentReliablePdu (Dis.CommentReliablePdu.after_canon h)
  | .DirectedEnergyFirePdu _, h => congrArg AnyPdu.DirectedEnergyFirePdu (Dis.DirectedEnergyFirePdu.after_canon h)
  | .DetonationPdu _, h => congrArg AnyPdu.DetonationPdu (Dis.DetonationPdu.after_canon h)
  | .SetDataPdu _, h => congrArg AnyPdu.SetDataPdu (Dis.SetDataPdu.after_canon h)
  | .RecordQueryReliablePdu _, h => congrArg AnyPdu.RecordQueryReliablePdu (Dis.RecordQueryReliablePdu.after_canon h)
  | .ActionResponsePdu _, h => congrArg AnyPdu.ActionResponsePdu (Dis.ActionResponsePdu.after_canon h)
  | .EntityDamageStatusPdu _, h => congrArg AnyPdu.EntityDamageStatusPdu (Dis.EntityDamageStatusPdu.after_canon h)
  | .FirePdu _, h => congrArg AnyPdu.FirePdu (Dis.FirePdu.after_canon h)
  | .ReceiverPdu _, h => congrArg AnyPdu.ReceiverPdu (Dis.ReceiverPdu.after_canon h)
  | .UaPdu _, h => congrArg AnyPdu.UaPdu (Dis.UaPdu.after_canon h)
  | .IntercomControlPdu _, h => absurd h id
  | .SignalPdu _, h => congrArg AnyPdu.SignalPdu (Dis.SignalPdu.after_canon h)
  | .RemoveEntityReliablePdu _, h => congrArg AnyPdu.RemoveEntityReliablePdu (Dis.RemoveEntityReliablePdu.after_canon h)
  | .SeesPdu _, h => congrArg AnyPdu.SeesPdu (Dis.SeesPdu.after_canon h)
  | .CreateEntityReliablePdu _, h => congrArg AnyPdu.CreateEntityReliablePdu (Dis.CreateEntityReliablePdu.after_canon h)
  | .StopFreezeReliablePdu _, h => congrArg AnyPdu.StopFreezeReliablePdu (Dis.StopFreezeReliablePdu.after_canon h)
  | .EventReportReliablePdu _, h => congrArg AnyPdu.EventReportReliablePdu (Dis.EventReportReliablePdu.after_canon h)
  | .MinefieldResponseNackPdu _, h => congrArg AnyPdu.MinefieldResponseNackPdu (Dis.MinefieldResponseNackPdu.after_canon h)
  | .ActionResponseReliablePdu _, h => congrArg AnyPdu.ActionResponseReliablePdu (Dis.ActionResponseReliablePdu.after_canon h)
  | .IsPartOfPdu _, h => congrArg AnyPdu.IsPartOfPdu (Dis.IsPartOfPdu.after_canon h)
  | .AggregateStatePdu _, h => congrArg AnyPdu.AggregateStatePdu (Dis.AggregateStatePdu.after_canon h)

theorem AnyPdu.received_cls : ∀ p : AnyPdu, p.received.cls = p.cls
  | .EntityStateUpdatePdu _ => rfl
  | .ServiceRequestPdu _ => rfl
  | .RepairCompletePdu _ => rfl
  | .CollisionPdu _ => rfl
  | .RepairResponsePdu _ => rfl
  | .DataQueryPdu _ => rfl
  | .LinearObjectStatePdu _ => rfl
  | .CreateEntityPdu _ => rfl
  | .IntercomSignalPdu _ => rfl
  | .RemoveEntityPdu _ => rfl
  | .ResupplyReceivedPdu _ => rfl
  | .CollisionElasticPdu _ => rfl
  | .ActionRequestPdu _ => rfl
  | .AcknowledgePdu _ => rfl
  | .ActionRequestReliablePdu _ => rfl
  | .DesignatorPdu _ => rfl
  | .StopFreezePdu _ => rfl
  | .EntityStatePdu _ => rfl
  | .StartResumePdu _ => rfl
  | .TransmitterPdu _ => rfl
  | .ElectromagneticEmissionsPdu _ => rfl
  | .ResupplyOfferPdu _ => rfl
  | .SetDataReliablePdu _ => rfl
  | .EventReportPdu _ => rfl
  | .PointObjectStatePdu _ => rfl
  | .DataPdu _ => rfl
  | .FastEntityStatePdu _ => rfl
  | .AcknowledgeReliablePdu _ => rfl
  | .StartResumeReliablePdu _ => rfl
  | .ArealObjectStatePdu _ => rfl
  | .DataQueryReliablePdu _ => rfl
  | .MinefieldStatePdu _ => rfl
  | .DataReliablePdu _ => rfl
  | .CommentPdu _ => rfl
  | .CommentReliablePdu _ => rfl
  | .DirectedEnergyFirePdu _ => rfl
  | .DetonationPdu _ => rfl
  | .SetDataPdu _ => rfl
  | .RecordQueryReliablePdu _ => rfl
  | .ActionResponsePdu _ => rfl
  | .EntityDamageStatusPdu _ => rfl
  | .FirePdu _ => rfl
  | .ReceiverPdu _ => rfl
  | .UaPdu _ => rfl
  | .IntercomControlPdu _ => rfl
  | .SignalPdu _ => rfl
  | .RemoveEntityReliablePdu _ => rfl
  | .SeesPdu _ => rfl
  | .CreateEntityReliablePdu _ => rfl
  | .StopFreezeReliablePdu _ => rfl
  | .EventReportReliablePdu _ => rfl
  | .MinefieldResponseNackPdu _ => rfl
  | .ActionResponseReliablePdu _ => rfl
  | .IsPartOfPdu _ => rfl
  | .AggregateStatePdu _ => rfl

theorem AnyPdu.ok_iff : ∀ p : AnyPdu, p.serialize.Ok ↔ p.Fits
  | .EntityStateUpdatePdu p => Dis.EntityStateUpdatePdu.ok_iff p
  | .ServiceRequestPdu p => Dis.ServiceRequestPdu.ok_iff p
  | .RepairCompletePdu p => Dis.RepairCompletePdu.ok_iff p
  | .CollisionPdu p => Dis.CollisionPdu.ok_iff p
  | .RepairResponsePdu p => Dis.RepairResponsePdu.ok_iff p
  | .DataQueryPdu p => Dis.DataQueryPdu.ok_iff p
  | .LinearObjectStatePdu p => Dis.LinearObjectStatePdu.ok_iff p
  | .CreateEntityPdu p => Dis.CreateEntityPdu.ok_iff p
  | .IntercomSignalPdu p => Dis.IntercomSignalPdu.ok_iff p
  | .RemoveEntityPdu p => Dis.RemoveEntityPdu.ok_iff p
  | .ResupplyReceivedPdu p => Dis.ResupplyReceivedPdu.ok_iff p
  | .CollisionElasticPdu p => Dis.CollisionElasticPdu.ok_iff p
  | .ActionRequestPdu p => Dis.ActionRequestPdu.ok_iff p
  | .AcknowledgePdu p => Dis.AcknowledgePdu.ok_iff p
  | .ActionRequestReliablePdu p => Dis.ActionRequestReliablePdu.ok_iff p
  | .DesignatorPdu p => Dis.DesignatorPdu.ok_iff p
  | .StopFreezePdu p => Dis.StopFreezePdu.ok_iff p
  | .EntityStatePdu p => Dis.EntityStatePdu.ok_iff p
  | .StartResumePdu p => Dis.StartResumePdu.ok_iff p
  | .TransmitterPdu p => Dis.TransmitterPdu.ok_iff p
  | .ElectromagneticEmissionsPdu p => Dis.ElectromagneticEmissionsPdu.ok_iff p
  | .ResupplyOfferPdu p => Dis.ResupplyOfferPdu.ok_iff p
  | .SetDataReliablePdu p => Dis.SetDataReliablePdu.ok_iff p
  | .EventReportPdu p => Dis.EventReportPdu.ok_iff p
  | .PointObjectStatePdu p => Dis.PointObjectStatePdu.ok_iff p
  | .DataPdu p => Dis.DataPdu.ok_iff p
  | .FastEntityStatePdu p => Dis.FastEntityStatePdu.ok_iff p
  | .AcknowledgeReliablePdu p => Dis.AcknowledgeReliablePdu.ok_iff p
  | .StartResumeReliablePdu p => Dis.StartResumeReliablePdu.ok_iff p
  | .ArealObjectStatePdu p => Dis.ArealObjectStatePdu.ok_iff p
  | .DataQueryReliablePdu p => Dis.DataQueryReliablePdu.ok_iff p
  | .MinefieldStatePdu p => Dis.MinefieldStatePdu.ok_iff p
  | .DataReliablePdu p => Dis.DataReliablePdu.ok_iff p
  | .CommentPdu p => Dis.CommentPdu.ok_iff p
  | .CommentReliablePdu p => Dis.CommentReliablePdu.ok_iff p
  | .DirectedEnergyFirePdu p => Dis.DirectedEnergyFirePdu.ok_iff p
  | .DetonationPdu p => Dis.DetonationPdu.ok_iff p
  | .SetDataPdu p => Dis.SetDataPdu.ok_iff p
  | .RecordQueryReliablePdu p => Dis.RecordQueryReliablePdu.ok_iff p
  | .ActionResponsePdu p => Dis.ActionResponsePdu.ok_iff p
  | .EntityDamageStatusPdu p => Dis.EntityDamageStatusPdu.ok_iff p
  | .FirePdu p => Dis.FirePdu.ok_iff p
  | .ReceiverPdu p => Dis.ReceiverPdu.ok_iff p
  | .UaPdu p => Dis.UaPdu.ok_iff p
  | .IntercomControlPdu p => Dis.IntercomControlPdu.ok_iff p
  | .SignalPdu p => Dis.SignalPdu.ok_iff p
  | .RemoveEntityReliablePdu p => Dis.RemoveEntityReliablePdu.ok_iff p
  | .SeesPdu p => Dis.SeesPdu.ok_iff p
  | .CreateEntityReliablePdu p => Dis.CreateEntityReliablePdu.ok_iff p
  | .StopFreezeReliablePdu p => Dis.StopFreezeReliablePdu.ok_iff p
  | .EventReportReliablePdu p => Dis.EventReportReliablePdu.ok_iff p
  | .MinefieldResponseNackPdu p => Dis.MinefieldResponseNackPdu.ok_iff p
  | .ActionResponseReliablePdu p => Dis.ActionResponseReliablePdu.ok_iff p
  | .IsPartOfPdu p => Dis.IsPartOfPdu.ok_iff p
  | .AggregateStatePdu p => Dis.AggregateStatePdu.ok_iff p

theorem AnyPdu.lay : ∀ p : AnyPdu, Lay p.serialize p.wire
  | .EntityStateUpdatePdu p => Dis.EntityStateUpdatePdu.lay p
  | .ServiceRequestPdu p => Dis.ServiceRequestPdu.lay p
  | .RepairCompletePdu p => Dis.RepairCompletePdu.lay p
  | .CollisionPdu p => Dis.CollisionPdu.lay p
  | .RepairResponsePdu p => Dis.RepairResponsePdu.lay p
  | .DataQueryPdu p => Dis.DataQueryPdu.lay p
  | .LinearObjectStatePdu p => Dis.LinearObjectStatePdu.lay p
  | .CreateEntityPdu p => Dis.CreateEntityPdu.lay p
  | .IntercomSignalPdu p => Dis.IntercomSignalPdu.lay p
  | .RemoveEntityPdu p => Dis.RemoveEntityPdu.lay p
  | .ResupplyReceivedPdu p => Dis.ResupplyReceivedPdu.lay p
  | .CollisionElasticPdu p => Dis.CollisionElasticPdu.lay p
  | .ActionRequestPdu p => Dis.ActionRequestPdu.lay p
  | .AcknowledgePdu p => Dis.AcknowledgePdu.lay p
  | .ActionRequestReliablePdu p => Dis.ActionRequestReliablePdu.lay p
  | .DesignatorPdu p => Dis.DesignatorPdu.lay p
  | .StopFreezePdu p => Dis.StopFreezePdu.lay p
  | .EntityStatePdu p => Dis.EntityStatePdu.lay p
  | .StartResumePdu p => Dis.StartResumePdu.lay p
  | .TransmitterPdu p => Dis.TransmitterPdu.lay p
  | .ElectromagneticEmissionsPdu p => Dis.ElectromagneticEmissionsPdu.lay p
  | .ResupplyOfferPdu p => Dis.ResupplyOfferPdu.lay p
  | .SetDataReliablePdu p => Dis.SetDataReliablePdu.lay p
  | .EventReportPdu p => Dis.EventReportPdu.lay p
  | .PointObjectStatePdu p => Dis.PointObjectStatePdu.lay p
  | .DataPdu p => Dis.DataPdu.lay p
  | .FastEntityStatePdu p => Dis.FastEntityStatePdu.lay p
  | .AcknowledgeReliablePdu p => Dis.AcknowledgeReliablePdu.lay p
  | .StartResumeReliablePdu p => Dis.StartResumeReliablePdu.lay p
  | .ArealObjectStatePdu p => Dis.ArealObjectStatePdu.lay p
  | .DataQueryReliablePdu p => Dis.DataQueryReliablePdu.lay p
  | .MinefieldStatePdu p => Dis.MinefieldStatePdu.lay p
  | .DataReliablePdu p => Dis.DataReliablePdu.lay p
  | .CommentPdu p => Dis.CommentPdu.lay p
  | .CommentReliablePdu p => Dis.CommentReliablePdu.lay p
  | .DirectedEnergyFirePdu p => Dis.DirectedEnergyFirePdu.lay p
  | .DetonationPdu p => Dis.DetonationPdu.lay p
  | .SetDataPdu p => Dis.SetDataPdu.lay p
  | .RecordQueryReliablePdu p => Dis.RecordQueryReliablePdu.lay p
  | .ActionResponsePdu p => Dis.ActionResponsePdu.lay p
  | .EntityDamageStatusPdu p => Dis.EntityDamageStatusPdu.lay p
  | .FirePdu p => Dis.FirePdu.lay p
  | .ReceiverPdu p => Dis.ReceiverPdu.lay p
  | .UaPdu p => Dis.UaPdu.lay p
  | .IntercomControlPdu p => Dis.IntercomControlPdu.lay p
  | .SignalPdu p => Dis.SignalPdu.lay p
  | .RemoveEntityReliablePdu p => Dis.RemoveEntityReliablePdu.lay p
  | .SeesPdu p => Dis.SeesPdu.lay p
  | .CreateEntityReliablePdu p => Dis.CreateEntityReliablePdu.lay p
  | .StopFreezeReliablePdu p => Dis.StopFreezeReliablePdu.lay p
  | .EventReportReliablePdu p => Dis.EventReportReliablePdu.lay p
  | .MinefieldResponseNackPdu p => Dis.MinefieldResponseNackPdu.lay p
  | .ActionResponseReliablePdu p => Dis.ActionResponseReliablePdu.lay p
  | .IsPartOfPdu p => Dis.IsPartOfPdu.lay p
  | .AggregateStatePdu p => Dis.AggregateStatePdu.lay p

theorem PduClass.decode_cls : ∀ c : PduClass, ∀ s p s', c.decode s = (.ok p, s') → p.cls = c
  | .EntityStateUpdatePdu, _, _, _, h => by obtain ⟨_, _, _, h⟩ := R.bind_inv h; cases h; rfl
  | .ServiceRequestPdu, _, _, _, h => by obtain ⟨_, _, _, h⟩ := R.bind_inv h; cases h; rfl
  | .RepairCompletePdu, _, _, _, h => by obtain ⟨_, _, _, h⟩ := R.bind_inv h; cases h; rfl
  | .CollisionPdu, _, _, _, h => by obtain ⟨_, _, _, h⟩ := R.bind_inv h; cases h; rfl
  | .RepairResponsePdu, _, _, _, h => by obtain ⟨_, _, _, h⟩ := R.bind_inv h; cases h; rfl
  | .DataQueryPdu, _, _, _, h => by obtain ⟨_, _, _, h⟩ := R.bind_inv h; cases h; rfl
  | .LinearObjectStatePdu, _, _, _, h => by obtain ⟨_, _, h, _⟩ := R.bind_inv h; cases h
  | .CreateEntityPdu, _, _, _, h => by obtain ⟨_, _, _, h⟩ := R.bind_inv h; cases h; rfl
  | .IntercomSignalPdu, _, _, _, h => by obtain ⟨_, _, _, h⟩ := R.bind_inv h; cases h; rfl
  | .RemoveEntityPdu, _, _, _, h => by obtain ⟨_, _, _, h⟩ := R.bind_inv h; cases h; rfl
  | .ResupplyReceivedPdu, _, _, _, h => by obtain ⟨_, _, _, h⟩ := R.bind_inv h; cases h; rfl
  | .CollisionElasticPdu, _, _, _, h => by obtain ⟨_, _, _, h⟩ := R.bind_inv h; cases h; rfl
  | .ActionRequestPdu, _, _, _, h => by obtain ⟨_, _, _, h⟩ := R.bind_inv h; cases h; rfl
  | .AcknowledgePdu, _, _, _, h => by obtain ⟨_, _, _, h⟩ := R.bind_inv h; cases h; rfl
  | .ActionRequestReliablePdu, _, _, _, h => by obtain ⟨_, _, _, h⟩ := R.bind_inv h; cases h; rfl
  | .DesignatorPdu, _, _, _, h => by obtain ⟨_, _, _, h⟩ := R.bind_inv h; cases h; rfl
  | .StopFreezePdu, _, _, _, h => by obtain ⟨_, _, _, h⟩ := R.bind_inv h; cases h; rfl
  | .EntityStatePdu, _, _, _, h => by obtain ⟨_, _, _, h⟩ := R.bind_inv h; cases h; rfl
  | .StartResumePdu, _, _, _, h => by obtain ⟨_, _, _, h⟩ := R.bind_inv h; cases h; rfl
  | .TransmitterPdu, _, _, _, h => by obtain ⟨_, _, _, h⟩ := R.bind_inv h; cases h; rfl
  | .ElectromagneticEmissionsPdu, _, _, _, h => by obtain ⟨_, _, _, h⟩ := R.bind_inv h; cases h; rfl
  | .ResupplyOfferPdu, _, _, _, h => by obtain ⟨_, _, _, h⟩ := R.bind_inv h; cases h; rfl
  | .SetDataReliablePdu, _, _, _, h => by obtain ⟨_, _, _, h⟩ := R.bind_inv h; cases h; rfl
  | .EventReportPdu, _, _, _, h => by obtain ⟨_, _, _, h⟩ := R.bind_inv h; cases h; rfl
  | .PointObjectStatePdu, _, _, _, h => by obtain ⟨_, _, _, h⟩ := R.bind_inv h; cases h; rfl
  | .DataPdu, _, _, _, h => by obtain ⟨_, _, _, h⟩ := R.bind_inv h; cases h; rfl
  | .FastEntityStatePdu, _, _, _, h => by obtain ⟨_, _, _, h⟩ := R.bind_inv h; cases h; rfl
  | .AcknowledgeReliablePdu, _, _, _, h => by obtain ⟨_, _, _, h⟩ := R.bind_inv h; cases h; rfl
  | .StartResumeReliablePdu, _, _, _, h => by obtain ⟨_, _, _, h⟩ := R.bind_inv h; cases h; rfl
  | .ArealObjectStatePdu, _, _, _, h => by obtain ⟨_, _, _, h⟩ := R.bind_inv h; cases h; rfl
  | .DataQueryReliablePdu, _, _, _, h => by obtain ⟨_, _, _, h⟩ := R.bind_inv h; cases h; rfl
  | .MinefieldStatePdu, _, _, _, h => by obtain ⟨_, _, _, h⟩ := R.bind_inv h; cases h; rfl
  | .DataReliablePdu, _, _, _, h => by obtain ⟨_, _, _, h⟩ := R.bind_inv h; cases h; rfl
  | .CommentPdu, _, _, _, h => by obtain ⟨_, _, _, h⟩ := R.bind_inv h; cases h; rfl
  | .CommentReliablePdu, _, _, _, h => by obtain ⟨_, _, _, h⟩ := R.bind_inv h; cases h; rfl
  | .DirectedEnergyFirePdu, _, _, _, h => by obtain ⟨_, _, _, h⟩ := R.bind_inv h; cases h; rfl
  | .DetonationPdu, _, _, _, h => by obtain ⟨_, _, _, h⟩ := R.bind_inv h; cases h; rfl
  | .SetDataPdu, _, _, _, h => by obtain ⟨_, _, _, h⟩ := R.bind_inv h; cases h; rfl
  | .RecordQueryReliablePdu, _, _, _, h => by obtain ⟨_, _, _, h⟩ := R.bind_inv h; cases h; rfl
  | .ActionResponsePdu, _, _, _, h => by obtain ⟨_, _, _, h⟩ := R.bind_inv h; cases h; rfl
  | .EntityDamageStatusPdu, _, _, _, h => by obtain ⟨_, _, _, h⟩ := R.bind_inv h; cases h; rfl
  | .FirePdu, _, _, _, h => by obtain ⟨_, _, _, h⟩ := R.bind_inv h; cases h; rfl
  | .ReceiverPdu, _, _, _, h => by obtain ⟨_, _, _, h⟩ := R.bind_inv h; cases h; rfl
  | .UaPdu, _, _, _, h => by obtain ⟨_, _, _, h⟩ := R.bind_inv h; cases h; rfl
  | .IntercomControlPdu, _, _, _, h => by obtain ⟨_, _, _, h⟩ := R.bind_inv h; cases h; rfl
  | .SignalPdu, _, _, _, h => by obtain ⟨_, _, _, h⟩ := R.bind_inv h; cases h; rfl
  | .RemoveEntityReliablePdu, _, _, _, h => by obtain ⟨_, _, _, h⟩ := R.bind_inv h; cases h; rfl
  | .SeesPdu, _, _, _, h => by obtain ⟨_, _, _, h⟩ := R.bind_inv h; cases h; rfl
  | .CreateEntityReliablePdu, _, _, _, h => by obtain ⟨_, _, _, h⟩ := R.bind_inv h; cases h; rfl
  | .StopFreezeReliablePdu, _, _, _, h => by obtain ⟨_, _, _, h⟩ := R.bind_inv h; cases h; rfl
  | .EventReportReliablePdu, _, _, _, h => by obtain ⟨_, _, _, h⟩ := R.bind_inv h; cases h; rfl
  | .MinefieldResponseNackPdu, _, _, _, h => by obtain ⟨_, _, _, h⟩ := R.bind_inv h; cases h; rfl
  | .ActionResponseReliablePdu, _, _, _, h => by obtain ⟨_, _, _, h⟩ := R.bind_inv h; cases h; rfl
  | .IsPartOfPdu, _, _, _, h => by obtain ⟨_, _, _, h⟩ := R.bind_inv h; cases h; rfl
  | .AggregateStatePdu, _, _, _, h => by obtain ⟨_, _, _, h⟩ := R.bind_inv h; cases h; rfl

/-- Unfolds the `serialize` of the family class. -/
macro "begins_base" : tactic => `(tactic| first | exact Begins.refl | exact Begins.bind Begins.refl)

theorem AnyPdu.begins : ∀ p : AnyPdu, Begins p.serialize (Pdu.serialize p.toPdu)
  | .EntityStateUpdatePdu p => by exact (Begins.bind (by begins_base) : Begins (Dis.EntityStateUpdatePdu.serialize p) (Pdu.serialize p.toPdu))
  | .ServiceRequestPdu p => by exact (Begins.bind (by begins_base) : Begins (Dis.ServiceRequestPdu.serialize p) (Pdu.serialize p.toPdu))
  | .RepairCompletePdu p => by exact (Begins.bind (by begins_base) : Begins (Dis.RepairCompletePdu.serialize p) (Pdu.serialize p.toPdu))
  | .CollisionPdu p => by exact (Begins.bind (by begins_base) : Begins (Dis.CollisionPdu.serialize p) (Pdu.serialize p.toPdu))
  | .RepairResponsePdu p => by exact (Begins.bind (by begins_base) : Begins (Dis.RepairResponsePdu.serialize p) (Pdu.serialize p.toPdu))
  | .DataQueryPdu p => by exact (Begins.bind (by begins_base) : Begins (Dis.DataQueryPdu.serialize p) (Pdu.serialize p.toPdu))
  | .LinearObjectStatePdu p => by exact (Begins.bind (by begins_base) : Begins (Dis.LinearObjectStatePdu.serialize p) (Pdu.serialize p.toPdu))
  | .CreateEntityPdu p => by exact (Begins.bind (by begins_base) : Begins (Dis.CreateEntityPdu.serialize p) (Pdu.serialize p.toPdu))
  | .IntercomSignalPdu p => by exact (Begins.bind (by begins_base) : Begins (Dis.IntercomSignalPdu.serialize p) (Pdu.serialize p.toPdu))
  | .RemoveEntityPdu p => by exact (Begins.bind (by begins_base) : Begins (Dis.RemoveEntityPdu.serialize p) (Pdu.serialize p.toPdu))
  | .ResupplyReceivedPdu p => by exact (Begins.bind (by begins_base) : Begins (Dis.ResupplyReceivedPdu.serialize p) (Pdu.serialize p.toPdu))
  | .CollisionElasticPdu p => by exact (Begins.bind (by begins_base) : Begins (Dis.CollisionElasticPdu.serialize p) (Pdu.serialize p.toPdu))
  | .ActionRequestPdu p => by exact (Begins.bind (by begins_base) : Begins (Dis.ActionRequestPdu.serialize p) (Pdu.serialize p.toPdu))
  | .AcknowledgePdu p => by exact (Begins.bind (by begins_base) : Begins (Dis.AcknowledgePdu.serialize p) (Pdu.serialize p.toPdu))
  | .ActionRequestReliablePdu p => by exact (Begins.bind (by begins_base) : Begins (Dis.ActionRequestReliablePdu.serialize p) (Pdu.serialize p.toPdu))
  | .DesignatorPdu p => by exact (Begins.bind (by begins_base) : Begins (Dis.DesignatorPdu.serialize p) (Pdu.serialize p.toPdu))
  | .StopFreezePdu p => by exact (Begins.bind (by begins_base) : Begins (Dis.StopFreezePdu.serialize p) (Pdu.serialize p.toPdu))
  | .EntityStatePdu p => by exact (Begins.bind (by begins_base) : Begins (Dis.EntityStatePdu.serialize p) (Pdu.serialize p.toPdu))
  | .StartResumePdu p => by exact (Begins.bind (by begins_base) : Begins (Dis.StartResumePdu.serialize p) (Pdu.serialize p.toPdu))
  | .TransmitterPdu p => by exact (Begins.bind (by begins_base) : Begins (Dis.TransmitterPdu.serialize p) (Pdu.serialize p.toPdu))
  | .ElectromagneticEmissionsPdu p => by exact (Begins.bind (by begins_base) : Begins (Dis.ElectromagneticEmissionsPdu.serialize p) (Pdu.serialize p.toPdu))
  | .ResupplyOfferPdu p => by exact (Begins.bind (by begins_base) : Begins (Dis.ResupplyOfferPdu.serialize p) (Pdu.serialize p.toPdu))
  | .SetDataReliablePdu p => by exact (Begins.bind (by begins_base) : Begins (Dis.SetDataReliablePdu.serialize p) (Pdu.serialize p.toPdu))
  | .EventReportPdu p => by exact (Begins.bind (by begins_base) : Begins (Dis.EventReportPdu.serialize p) (Pdu.serialize p.toPdu))
  | .PointObjectStatePdu p => by exact (Begins.bind (by begins_base) : Begins (Dis.PointObjectStatePdu.serialize p) (Pdu.serialize p.toPdu))
  | .DataPdu p => by exact (Begins.bind (by begins_base) : Begins (Dis.DataPdu.serialize p) (Pdu.serialize p.toPdu))
  | .FastEntityStatePdu p => by exact (Begins.bind (by begins_base) : Begins (Dis.FastEntityStatePdu.serialize p) (Pdu.serialize p.toPdu))
  | .AcknowledgeReliablePdu p => by exact (Begins.bind (by begins_base) : Begins (Dis.AcknowledgeReliablePdu.serialize p) (Pdu.serialize p.toPdu))
  | .StartResumeReliablePdu p => by exact (Begins.bind (by begins_base) : Begins (Dis.StartResumeReliablePdu.serialize p) (Pdu.serialize p.toPdu))
  | .ArealObjectStatePdu p => by exact (Begins.bind (by begins_base) : Begins (Dis.ArealObjectStatePdu.serialize p) (Pdu.serialize p.toPdu))
  | .DataQueryReliablePdu p => by exact (Begins.bind (by begins_base) : Begins (Dis.DataQueryReliablePdu.serialize p) (Pdu.serialize p.toPdu))
  | .MinefieldStatePdu p => by exact (Begins.bind (by begins_base) : Begins (Dis.MinefieldStatePdu.serialize p) (Pdu.serialize p.toPdu))
  | .DataReliablePdu p => by exact (Begins.bind (by begins_base) : Begins (Dis.DataReliablePdu.serialize p) (Pdu.serialize p.toPdu))
  | .CommentPdu p => by exact (Begins.bind (by begins_base) : Begins (Dis.CommentPdu.serialize p) (Pdu.serialize p.toPdu))
  | .CommentReliablePdu p => by exact (Begins.bind (by begins_base) : Begins (Dis.CommentReliablePdu.serialize p) (Pdu.serialize p.toPdu))
  | .DirectedEnergyFirePdu p => by exact (Begins.bind (by begins_base) : Begins (Dis.DirectedEnergyFirePdu.serialize p) (Pdu.serialize p.toPdu))
  | .DetonationPdu p => by exact (Begins.bind (by begins_base) : Begins (Dis.DetonationPdu.serialize p) (Pdu.serialize p.toPdu))
  | .SetDataPdu p => by exact (Begins.bind (by begins_base) : Begins (Dis.SetDataPdu.serialize p) (Pdu.serialize p.toPdu))
  | .RecordQueryReliablePdu p => by exact (Begins.bind (by begins_base) : Begins (Dis.RecordQueryReliablePdu.serialize p) (Pdu.serialize p.toPdu))
  | .ActionResponsePdu p => by exact (Begins.bind (by begins_base) : Begins (Dis.ActionResponsePdu.serialize p) (Pdu.serialize p.toPdu))
  | .EntityDamageStatusPdu p => by exact (Begins.bind (by begins_base) : Begins (Dis.EntityDamageStatusPdu.serialize p) (Pdu.serialize p.toPdu))
  | .FirePdu p => by exact (Begins.bind (by begins_base) : Begins (Dis.FirePdu.serialize p) (Pdu.serialize p.toPdu))
  | .ReceiverPdu p => by exact (Begins.bind (by begins_base) : Begins (Dis.ReceiverPdu.serialize p) (Pdu.serialize p.toPdu))
  | .UaPdu p => by exact (Begins.bind (by begins_base) : Begins (Dis.UaPdu.serialize p) (Pdu.serialize p.toPdu))
  | .IntercomControlPdu p => by exact (Begins.bind (by begins_base) : Begins (Dis.IntercomControlPdu.serialize p) (Pdu.serialize p.toPdu))
  | .SignalPdu p => by exact (Begins.bind (by begins_base) : Begins (Dis.SignalPdu.serialize p) (Pdu.serialize p.toPdu))
  | .RemoveEntityReliablePdu p => by exact (Begins.bind (by begins_base) : Begins (Dis.RemoveEntityReliablePdu.serialize p) (Pdu.serialize p.toPdu))
  | .SeesPdu p => by exact (Begins.bind (by begins_base) : Begins (Dis.SeesPdu.serialize p) (Pdu.serialize p.toPdu))
  | .CreateEntityReliablePdu p => by exact (Begins.bind (by begins_base) : Begins (Dis.CreateEntityReliablePdu.serialize p) (Pdu.serialize p.toPdu))
  | .StopFreezeReliablePdu p => by exact (Begins.bind (by begins_base) : Begins (Dis.StopFreezeReliablePdu.serialize p) (Pdu.serialize p.toPdu))
  | .EventReportReliablePdu p => by exact (Begins.bind (by begins_base) : Begins (Dis.EventReportReliablePdu.serialize p) (Pdu.serialize p.toPdu))
  | .MinefieldResponseNackPdu p => by exact (Begins.bind (by begins_base) : Begins (Dis.MinefieldResponseNackPdu.serialize p) (Pdu.serialize p.toPdu))
  | .ActionResponseReliablePdu p => by exact (Begins.bind (by begins_base) : Begins (Dis.ActionResponseReliablePdu.serialize p) (Pdu.serialize p.toPdu))
  | .IsPartOfPdu p => by exact (Begins.bind (by begins_base) : Begins (Dis.IsPartOfPdu.serialize p) (Pdu.serialize p.toPdu))
  | .AggregateStatePdu p => by exact (Begins.bind (by begins_base) : Begins (Dis.AggregateStatePdu.serialize p) (Pdu.serialize p.toPdu))

end Dis
