import Verif.Spec.Special
import Verif.Spec.LayoutSpecial
import Verif.Model.Factory

/-!
# Specification of the PDU classes, over all of them

Generated by `tools/genany.py`.
-/

namespace Dis

/-- The PDU a receiver should get: the wire fields of `p`, defaults elsewhere (classes of
/repo/opendis/dis7.py, lines beside each). -/
def AnyPdu.received : AnyPdu → AnyPdu
  | .EntityStateUpdatePdu p => .EntityStateUpdatePdu (Dis.EntityStateUpdatePdu.after Dis.EntityStateUpdatePdu.init p)  -- /repo/opendis/dis7.py:3760-3820
  | .ServiceRequestPdu p => .ServiceRequestPdu (Dis.ServiceRequestPdu.after Dis.ServiceRequestPdu.init p)  -- /repo/opendis/dis7.py:3823-3872
  | .RepairCompletePdu p => .RepairCompletePdu (Dis.RepairCompletePdu.after Dis.RepairCompletePdu.init p)  -- /repo/opendis/dis7.py:3875-3910
  | .CollisionPdu p => .CollisionPdu (Dis.CollisionPdu.after Dis.CollisionPdu.init p)  -- /repo/opendis/dis7.py:3932-3987
  | .RepairResponsePdu p => .RepairResponsePdu (Dis.RepairResponsePdu.after Dis.RepairResponsePdu.init p)  -- /repo/opendis/dis7.py:3990-4027
  | .DataQueryPdu p => .DataQueryPdu (Dis.DataQueryPdu.after Dis.DataQueryPdu.init p)  -- /repo/opendis/dis7.py:4059-4107
  | .LinearObjectStatePdu p => .LinearObjectStatePdu p  -- /repo/opendis/dis7.py:4110-4175
  | .CreateEntityPdu p => .CreateEntityPdu (Dis.CreateEntityPdu.after Dis.CreateEntityPdu.init p)  -- /repo/opendis/dis7.py:4178-4198
  | .IntercomSignalPdu p => .IntercomSignalPdu (Dis.IntercomSignalPdu.after Dis.IntercomSignalPdu.init p)  -- /repo/opendis/dis7.py:4220-4280
  | .RemoveEntityPdu p => .RemoveEntityPdu (Dis.RemoveEntityPdu.after Dis.RemoveEntityPdu.init p)  -- /repo/opendis/dis7.py:4283-4305
  | .ResupplyReceivedPdu p => .ResupplyReceivedPdu (Dis.ResupplyReceivedPdu.after Dis.ResupplyReceivedPdu.init p)  -- /repo/opendis/dis7.py:4308-4355
  | .CollisionElasticPdu p => .CollisionElasticPdu (Dis.CollisionElasticPdu.after Dis.CollisionElasticPdu.init p)  -- /repo/opendis/dis7.py:4388-4474
  | .ActionRequestPdu p => .ActionRequestPdu (Dis.ActionRequestPdu.after Dis.ActionRequestPdu.init p)  -- /repo/opendis/dis7.py:4477-4527
  | .AcknowledgePdu p => .AcknowledgePdu (Dis.AcknowledgePdu.after Dis.AcknowledgePdu.init p)  -- /repo/opendis/dis7.py:4530-4562
  | .ActionRequestReliablePdu p => .ActionRequestReliablePdu (Dis.ActionRequestReliablePdu.after Dis.ActionRequestReliablePdu.init p)  -- /repo/opendis/dis7.py:4613-4675
  | .DesignatorPdu p => .DesignatorPdu (Dis.DesignatorPdu.after Dis.DesignatorPdu.init p)  -- /repo/opendis/dis7.py:4678-4753
  | .StopFreezePdu p => .StopFreezePdu (Dis.StopFreezePdu.after Dis.StopFreezePdu.init p)  -- /repo/opendis/dis7.py:4756-4795
  | .EntityStatePdu p => .EntityStatePdu (Dis.EntityStatePdu.after Dis.EntityStatePdu.init p)  -- /repo/opendis/dis7.py:4798-4887
  | .StartResumePdu p => .StartResumePdu (Dis.StartResumePdu.after Dis.StartResumePdu.init p)  -- /repo/opendis/dis7.py:4909-4940
  | .TransmitterPdu p => .TransmitterPdu (Dis.TransmitterPdu.after Dis.TransmitterPdu.init p)  -- /repo/opendis/dis7.py:4943-5116
  | .ElectromagneticEmissionsPdu p => .ElectromagneticEmissionsPdu (Dis.ElectromagneticEmissionsPdu.after Dis.ElectromagneticEmissionsPdu.init p)  -- /repo/opendis/dis7.py:5119-5169
  | .ResupplyOfferPdu p => .ResupplyOfferPdu (Dis.ResupplyOfferPdu.after Dis.ResupplyOfferPdu.init p)  -- /repo/opendis/dis7.py:5279-5327
  | .SetDataReliablePdu p => .SetDataReliablePdu (Dis.SetDataReliablePdu.after Dis.SetDataReliablePdu.init p)  -- /repo/opendis/dis7.py:5413-5468
  | .EventReportPdu p => .EventReportPdu (Dis.EventReportPdu.after Dis.EventReportPdu.init p)  -- /repo/opendis/dis7.py:5471-5502
  | .PointObjectStatePdu p => .PointObjectStatePdu (Dis.PointObjectStatePdu.after Dis.PointObjectStatePdu.init p)  -- /repo/opendis/dis7.py:5505-5582
  | .DataPdu p => .DataPdu (Dis.DataPdu.after Dis.DataPdu.init p)  -- /repo/opendis/dis7.py:5585-5634
  | .FastEntityStatePdu p => .FastEntityStatePdu (Dis.FastEntityStatePdu.after Dis.FastEntityStatePdu.init p)  -- /repo/opendis/dis7.py:5637-5868
  | .AcknowledgeReliablePdu p => .AcknowledgeReliablePdu (Dis.AcknowledgeReliablePdu.after Dis.AcknowledgeReliablePdu.init p)  -- /repo/opendis/dis7.py:5871-5902
  | .StartResumeReliablePdu p => .StartResumeReliablePdu (Dis.StartResumeReliablePdu.after Dis.StartResumeReliablePdu.init p)  -- /repo/opendis/dis7.py:5905-5946
  | .ArealObjectStatePdu p => .ArealObjectStatePdu (Dis.ArealObjectStatePdu.after Dis.ArealObjectStatePdu.init p)  -- /repo/opendis/dis7.py:5949-6025
  | .DataQueryReliablePdu p => .DataQueryReliablePdu (Dis.DataQueryReliablePdu.after Dis.DataQueryReliablePdu.init p)  -- /repo/opendis/dis7.py:6028-6087
  | .MinefieldStatePdu p => .MinefieldStatePdu (Dis.MinefieldStatePdu.after Dis.MinefieldStatePdu.init p)  -- /repo/opendis/dis7.py:6090-6172
  | .DataReliablePdu p => .DataReliablePdu (Dis.DataReliablePdu.after Dis.DataReliablePdu.init p)  -- /repo/opendis/dis7.py:6175-6230
  | .CommentPdu p => .CommentPdu (Dis.CommentPdu.after Dis.CommentPdu.init p)  -- /repo/opendis/dis7.py:6233-6272
  | .CommentReliablePdu p => .CommentReliablePdu (Dis.CommentReliablePdu.after Dis.CommentReliablePdu.init p)  -- /repo/opendis/dis7.py:6275-6315
  | .DirectedEnergyFirePdu p => .DirectedEnergyFirePdu (Dis.DirectedEnergyFirePdu.after Dis.DirectedEnergyFirePdu.init p)  -- /repo/opendis/dis7.py:6318-6403
  | .DetonationPdu p => .DetonationPdu (Dis.DetonationPdu.after Dis.DetonationPdu.init p)  -- /repo/opendis/dis7.py:6406-6475
  | .SetDataPdu p => .SetDataPdu (Dis.SetDataPdu.after Dis.SetDataPdu.init p)  -- /repo/opendis/dis7.py:6478-6524
  | .RecordQueryReliablePdu p => .RecordQueryReliablePdu (Dis.RecordQueryReliablePdu.after Dis.RecordQueryReliablePdu.init p)  -- /repo/opendis/dis7.py:6527-6581
  | .ActionResponsePdu p => .ActionResponsePdu (Dis.ActionResponsePdu.after Dis.ActionResponsePdu.init p)  -- /repo/opendis/dis7.py:6584-6632
  | .EntityDamageStatusPdu p => .EntityDamageStatusPdu (Dis.EntityDamageStatusPdu.after Dis.EntityDamageStatusPdu.init p)  -- /repo/opendis/dis7.py:6635-6677
  | .FirePdu p => .FirePdu (Dis.FirePdu.after Dis.FirePdu.init p)  -- /repo/opendis/dis7.py:6680-6733
  | .ReceiverPdu p => .ReceiverPdu (Dis.ReceiverPdu.after Dis.ReceiverPdu.init p)  -- /repo/opendis/dis7.py:6736-6775
  | .UaPdu p => .UaPdu (Dis.UaPdu.after Dis.UaPdu.init p)  -- /repo/opendis/dis7.py:6778-6870
  | .IntercomControlPdu p => .IntercomControlPdu p  -- /repo/opendis/dis7.py:6873-6954
  | .SignalPdu p => .SignalPdu (Dis.SignalPdu.after Dis.SignalPdu.init p)  -- /repo/opendis/dis7.py:6957-7015
  | .RemoveEntityReliablePdu p => .RemoveEntityReliablePdu (Dis.RemoveEntityReliablePdu.after Dis.RemoveEntityReliablePdu.init p)  -- /repo/opendis/dis7.py:7018-7049
  | .SeesPdu p => .SeesPdu (Dis.SeesPdu.after Dis.SeesPdu.init p)  -- /repo/opendis/dis7.py:7052-7119
  | .CreateEntityReliablePdu p => .CreateEntityReliablePdu (Dis.CreateEntityReliablePdu.after Dis.CreateEntityReliablePdu.init p)  -- /repo/opendis/dis7.py:7122-7153
  | .StopFreezeReliablePdu p => .StopFreezeReliablePdu (Dis.StopFreezeReliablePdu.after Dis.StopFreezeReliablePdu.init p)  -- /repo/opendis/dis7.py:7156-7199
  | .EventReportReliablePdu p => .EventReportReliablePdu (Dis.EventReportReliablePdu.after Dis.EventReportReliablePdu.init p)  -- /repo/opendis/dis7.py:7202-7250
  | .MinefieldResponseNackPdu p => .MinefieldResponseNackPdu (Dis.MinefieldResponseNackPdu.after Dis.MinefieldResponseNackPdu.init p)  -- /repo/opendis/dis7.py:7253-7299
  | .ActionResponseReliablePdu p => .ActionResponseReliablePdu (Dis.ActionResponseReliablePdu.after Dis.ActionResponseReliablePdu.init p)  -- /repo/opendis/dis7.py:7302-7349
  | .IsPartOfPdu p => .IsPartOfPdu (Dis.IsPartOfPdu.after Dis.IsPartOfPdu.init p)  -- /repo/opendis/dis7.py:7352-7397
  | .AggregateStatePdu p => .AggregateStatePdu (Dis.AggregateStatePdu.after Dis.AggregateStatePdu.init p)  -- /repo/opendis/dis7.py:7400-7537

/-- The PDU has no list or part that its `parse` method cannot read back (classes of
/repo/opendis/dis7.py, lines beside each). -/
def AnyPdu.Decodable : AnyPdu → Prop
  | .EntityStateUpdatePdu _ => True  -- /repo/opendis/dis7.py:3760-3820
  | .ServiceRequestPdu _ => True  -- /repo/opendis/dis7.py:3823-3872
  | .RepairCompletePdu _ => True  -- /repo/opendis/dis7.py:3875-3910
  | .CollisionPdu _ => True  -- /repo/opendis/dis7.py:3932-3987
  | .RepairResponsePdu _ => True  -- /repo/opendis/dis7.py:3990-4027
  | .DataQueryPdu _ => True  -- /repo/opendis/dis7.py:4059-4107
  | .LinearObjectStatePdu _ => False  -- /repo/opendis/dis7.py:4110-4175
  | .CreateEntityPdu _ => True  -- /repo/opendis/dis7.py:4178-4198
  | .IntercomSignalPdu _ => True  -- /repo/opendis/dis7.py:4220-4280
  | .RemoveEntityPdu _ => True  -- /repo/opendis/dis7.py:4283-4305
  | .ResupplyReceivedPdu p => p.Decodable  -- /repo/opendis/dis7.py:4308-4355
  | .CollisionElasticPdu _ => True  -- /repo/opendis/dis7.py:4388-4474
  | .ActionRequestPdu _ => True  -- /repo/opendis/dis7.py:4477-4527
  | .AcknowledgePdu _ => True  -- /repo/opendis/dis7.py:4530-4562
  | .ActionRequestReliablePdu _ => True  -- /repo/opendis/dis7.py:4613-4675
  | .DesignatorPdu _ => True  -- /repo/opendis/dis7.py:4678-4753
  | .StopFreezePdu _ => True  -- /repo/opendis/dis7.py:4756-4795
  | .EntityStatePdu _ => True  -- /repo/opendis/dis7.py:4798-4887
  | .StartResumePdu _ => True  -- /repo/opendis/dis7.py:4909-4940
  | .TransmitterPdu p => p.Decodable  -- /repo/opendis/dis7.py:4943-5116
  | .ElectromagneticEmissionsPdu _ => True  -- /repo/opendis/dis7.py:5119-5169
  | .ResupplyOfferPdu _ => True  -- /repo/opendis/dis7.py:5279-5327
  | .SetDataReliablePdu _ => True  -- /repo/opendis/dis7.py:5413-5468
  | .EventReportPdu _ => True  -- /repo/opendis/dis7.py:5471-5502
  | .PointObjectStatePdu _ => True  -- /repo/opendis/dis7.py:5505-5582
  | .DataPdu _ => True  -- /repo/opendis/dis7.py:5585-5634
  | .FastEntityStatePdu _ => True  -- /repo/opendis/dis7.py:5637-5868
  | .AcknowledgeReliablePdu _ => True  -- /repo/opendis/dis7.py:5871-5902
  | .StartResumeReliablePdu _ => True  -- /repo/opendis/dis7.py:5905-5946
  | .ArealObjectStatePdu _ => True  -- /repo/opendis/dis7.py:5949-6025
  | .DataQueryReliablePdu _ => True  -- /repo/opendis/dis7.py:6028-6087
  | .MinefieldStatePdu _ => True  -- /repo/opendis/dis7.py:6090-6172
  | .DataReliablePdu _ => True  -- /repo/opendis/dis7.py:6175-6230
  | .CommentPdu _ => True  -- /repo/opendis/dis7.py:6233-6272
  | .CommentReliablePdu _ => True  -- /repo/opendis/dis7.py:6275-6315
  | .DirectedEnergyFirePdu p => p.Decodable  -- /repo/opendis/dis7.py:6318-6403
  | .DetonationPdu _ => True  -- /repo/opendis/dis7.py:6406-6475
  | .SetDataPdu _ => True  -- /repo/opendis/dis7.py:6478-6524
  | .RecordQueryReliablePdu _ => True  -- /repo/opendis/dis7.py:6527-6581
  | .ActionResponsePdu _ => True  -- /repo/opendis/dis7.py:6584-6632
  | .EntityDamageStatusPdu p => p.Decodable  -- /repo/opendis/dis7.py:6635-6677
  | .FirePdu _ => True  -- /repo/opendis/dis7.py:6680-6733
  | .ReceiverPdu _ => True  -- /repo/opendis/dis7.py:6736-6775
  | .UaPdu _ => True  -- /repo/opendis/dis7.py:6778-6870
  | .IntercomControlPdu _ => False  -- /repo/opendis/dis7.py:6873-6954
  | .SignalPdu _ => True  -- /repo/opendis/dis7.py:6957-7015
  | .RemoveEntityReliablePdu _ => True  -- /repo/opendis/dis7.py:7018-7049
  | .SeesPdu p => p.Decodable  -- /repo/opendis/dis7.py:7052-7119
  | .CreateEntityReliablePdu _ => True  -- /repo/opendis/dis7.py:7122-7153
  | .StopFreezeReliablePdu _ => True  -- /repo/opendis/dis7.py:7156-7199
  | .EventReportReliablePdu _ => True  -- /repo/opendis/dis7.py:7202-7250
  | .MinefieldResponseNackPdu _ => True  -- /repo/opendis/dis7.py:7253-7299
  | .ActionResponseReliablePdu _ => True  -- /repo/opendis/dis7.py:7302-7349
  | .IsPartOfPdu _ => True  -- /repo/opendis/dis7.py:7352-7397
  | .AggregateStatePdu _ => True  -- /repo/opendis/dis7.py:7400-7537

/-- Singles exact, attributes that are not on the wire at their defaults (classes of
/repo/opendis/dis7.py, lines beside each). -/
def AnyPdu.Canon : AnyPdu → Prop
  | .EntityStateUpdatePdu p => p.Canon  -- /repo/opendis/dis7.py:3760-3820
  | .ServiceRequestPdu p => p.Canon  -- /repo/opendis/dis7.py:3823-3872
  | .RepairCompletePdu p => p.Canon  -- /repo/opendis/dis7.py:3875-3910
  | .CollisionPdu p => p.Canon  -- /repo/opendis/dis7.py:3932-3987
  | .RepairResponsePdu p => p.Canon  -- /repo/opendis/dis7.py:3990-4027
  | .DataQueryPdu p => p.Canon  -- /repo/opendis/dis7.py:4059-4107
  | .LinearObjectStatePdu _ => False  -- /repo/opendis/dis7.py:4110-4175
  | .CreateEntityPdu p => p.Canon  -- /repo/opendis/dis7.py:4178-4198
  | .IntercomSignalPdu p => p.Canon  -- /repo/opendis/dis7.py:4220-4280
  | .RemoveEntityPdu p => p.Canon  -- /repo/opendis/dis7.py:4283-4305
  | .ResupplyReceivedPdu p => p.Canon  -- /repo/opendis/dis7.py:4308-4355
  | .CollisionElasticPdu p => p.Canon  -- /repo/opendis/dis7.py:4388-4474
  | .ActionRequestPdu p => p.Canon  -- /repo/opendis/dis7.py:4477-4527
  | .AcknowledgePdu p => p.Canon  -- /repo/opendis/dis7.py:4530-4562
  | .ActionRequestReliablePdu p => p.Canon  -- /repo/opendis/dis7.py:4613-4675
  | .DesignatorPdu p => p.Canon  -- /repo/opendis/dis7.py:4678-4753
  | .StopFreezePdu p => p.Canon  -- /repo/opendis/dis7.py:4756-4795
  | .EntityStatePdu p => p.Canon  -- /repo/opendis/dis7.py:4798-4887
  | .StartResumePdu p => p.Canon  -- /repo/opendis/dis7.py:4909-4940
  | .TransmitterPdu p => p.Canon  -- /repo/opendis/dis7.py:4943-5116
  | .ElectromagneticEmissionsPdu p => p.Canon  -- /repo/opendis/dis7.py:5119-5169
  | .ResupplyOfferPdu p => p.Canon  -- /repo/opendis/dis7.py:5279-5327
  | .SetDataReliablePdu p => p.Canon  -- /repo/opendis/dis7.py:5413-5468
  | .EventReportPdu p => p.Canon  -- /repo/opendis/dis7.py:5471-5502
  | .PointObjectStatePdu p => p.Canon  -- /repo/opendis/dis7.py:5505-5582
  | .DataPdu p => p.Canon  -- /repo/opendis/dis7.py:5585-5634
  | .FastEntityStatePdu p => p.Canon  -- /repo/opendis/dis7.py:5637-5868
  | .AcknowledgeReliablePdu p => p.Canon  -- /repo/opendis/dis7.py:5871-5902
  | .StartResumeReliablePdu p => p.Canon  -- /repo/opendis/dis7.py:5905-5946
  | .ArealObjectStatePdu p => p.Canon  -- /repo/opendis/dis7.py:5949-6025
  | .DataQueryReliablePdu p => p.Canon  -- /repo/opendis/dis7.py:6028-6087
  | .MinefieldStatePdu p => p.Canon  -- /repo/opendis/dis7.py:6090-6172
  | .DataReliablePdu p => p.Canon  -- /repo/opendis/dis7.py:6175-6230
  | .CommentPdu p => p.Canon  -- /repo/opendis/dis7.py:6233-6272
  | .CommentReliablePdu p => p.Canon  -- /repo/opendis/dis7.py:6275-6315
  | .DirectedEnergyFirePdu p => p.Canon  -- /repo/opendis/dis7.py:6318-6403
  | .DetonationPdu p => p.Canon  -- /repo/opendis/dis7.py:6406-6475
  | .SetDataPdu p => p.Canon  -- /repo/opendis/dis7.py:6478-6524
  | .RecordQueryReliablePdu p => p.Canon  -- /repo/opendis/dis7.py:6527-6581
  | .ActionResponsePdu p => p.Canon  -- /repo/opendis/dis7.py:6584-6632
  | .EntityDamageStatusPdu p => p.Canon  -- /repo/opendis/dis7.py:6635-6677
  | .FirePdu p => p.Canon  -- /repo/opendis/dis7.py:6680-6733
  | .ReceiverPdu p => p.Canon  -- /repo/opendis/dis7.py:6736-6775
  | .UaPdu p => p.Canon  -- /repo/opendis/dis7.py:6778-6870
  | .IntercomControlPdu _ => False  -- /repo/opendis/dis7.py:6873-6954
  | .SignalPdu p => p.Canon  -- /repo/opendis/dis7.py:6957-7015
  | .RemoveEntityReliablePdu p => p.Canon  -- /repo/opendis/dis7.py:7018-7049
  | .SeesPdu p => p.Canon  -- /repo/opendis/dis7.py:7052-7119
  | .CreateEntityReliablePdu p => p.Canon  -- /repo/opendis/dis7.py:7122-7153
  | .StopFreezeReliablePdu p => p.Canon  -- /repo/opendis/dis7.py:7156-7199
  | .EventReportReliablePdu p => p.Canon  -- /repo/opendis/dis7.py:7202-7250
  | .MinefieldResponseNackPdu p => p.Canon  -- /repo/opendis/dis7.py:7253-7299
  | .ActionResponseReliablePdu p => p.Canon  -- /repo/opendis/dis7.py:7302-7349
  | .IsPartOfPdu p => p.Canon  -- /repo/opendis/dis7.py:7352-7397
  | .AggregateStatePdu p => p.Canon  -- /repo/opendis/dis7.py:7400-7537

/-- Every field fits its slot (classes of /repo/opendis/dis7.py, lines beside each). -/
def AnyPdu.Fits : AnyPdu → Prop
  | .EntityStateUpdatePdu p => p.WireOk  -- /repo/opendis/dis7.py:3760-3820
  | .ServiceRequestPdu p => p.WireOk  -- /repo/opendis/dis7.py:3823-3872
  | .RepairCompletePdu p => p.WireOk  -- /repo/opendis/dis7.py:3875-3910
  | .CollisionPdu p => p.WireOk  -- /repo/opendis/dis7.py:3932-3987
  | .RepairResponsePdu p => p.WireOk  -- /repo/opendis/dis7.py:3990-4027
  | .DataQueryPdu p => p.WireOk  -- /repo/opendis/dis7.py:4059-4107
  | .LinearObjectStatePdu p => p.WireOk  -- /repo/opendis/dis7.py:4110-4175
  | .CreateEntityPdu p => p.WireOk  -- /repo/opendis/dis7.py:4178-4198
  | .IntercomSignalPdu p => p.WireOk  -- /repo/opendis/dis7.py:4220-4280
  | .RemoveEntityPdu p => p.WireOk  -- /repo/opendis/dis7.py:4283-4305
  | .ResupplyReceivedPdu p => p.WireOk  -- /repo/opendis/dis7.py:4308-4355
  | .CollisionElasticPdu p => p.WireOk  -- /repo/opendis/dis7.py:4388-4474
  | .ActionRequestPdu p => p.WireOk  -- /repo/opendis/dis7.py:4477-4527
  | .AcknowledgePdu p => p.WireOk  -- /repo/opendis/dis7.py:4530-4562
  | .ActionRequestReliablePdu p => p.WireOk  -- /repo/opendis/dis7.py:4613-4675
  | .DesignatorPdu p => p.WireOk  -- /repo/opendis/dis7.py:4678-4753
  | .StopFreezePdu p => p.WireOk  -- /repo/opendis/dis7.py:4756-4795
  | .EntityStatePdu p => p.WireOk  -- /repo/opendis/dis7.py:4798-4887
  | .StartResumePdu p => p.WireOk  -- /repo/opendis/dis7.py:4909-4940
  | .TransmitterPdu p => p.WireOk  -- /repo/opendis/dis7.py:4943-5116
  | .ElectromagneticEmissionsPdu p => p.WireOk  -- /repo/opendis/dis7.py:5119-5169
  | .ResupplyOfferPdu p => p.WireOk  -- /repo/opendis/dis7.py:5279-5327
  | .SetDataReliablePdu p => p.WireOk  -- /repo/opendis/dis7.py:5413-5468
  | .EventReportPdu p => p.WireOk  -- /repo/opendis/dis7.py:5471-5502
  | .PointObjectStatePdu p => p.WireOk  -- /repo/opendis/dis7.py:5505-5582
  | .DataPdu p => p.WireOk  -- /repo/opendis/dis7.py:5585-5634
  | .FastEntityStatePdu p => p.WireOk  -- /repo/opendis/dis7.py:5637-5868
  | .AcknowledgeReliablePdu p => p.WireOk  -- /repo/opendis/dis7.py:5871-5902
  | .StartResumeReliablePdu p => p.WireOk  -- /repo/opendis/dis7.py:5905-5946
  | .ArealObjectStatePdu p => p.WireOk  -- /repo/opendis/dis7.py:5949-6025
  | .DataQueryReliablePdu p => p.WireOk  -- /repo/opendis/dis7.py:6028-6087
  | .MinefieldStatePdu p => p.WireOk  -- /repo/opendis/dis7.py:6090-6172
  | .DataReliablePdu p => p.WireOk  -- /repo/opendis/dis7.py:6175-6230
  | .CommentPdu p => p.WireOk  -- /repo/opendis/dis7.py:6233-6272
  | .CommentReliablePdu p => p.WireOk  -- /repo/opendis/dis7.py:6275-6315
  | .DirectedEnergyFirePdu p => p.WireOk  -- /repo/opendis/dis7.py:6318-6403
  | .DetonationPdu p => p.WireOk  -- /repo/opendis/dis7.py:6406-6475
  | .SetDataPdu p => p.WireOk  -- /repo/opendis/dis7.py:6478-6524
  | .RecordQueryReliablePdu p => p.WireOk  -- /repo/opendis/dis7.py:6527-6581
  | .ActionResponsePdu p => p.WireOk  -- /repo/opendis/dis7.py:6584-6632
  | .EntityDamageStatusPdu p => p.WireOk  -- /repo/opendis/dis7.py:6635-6677
  | .FirePdu p => p.WireOk  -- /repo/opendis/dis7.py:6680-6733
  | .ReceiverPdu p => p.WireOk  -- /repo/opendis/dis7.py:6736-6775
  | .UaPdu p => p.WireOk  -- /repo/opendis/dis7.py:6778-6870
  | .IntercomControlPdu p => p.WireOk  -- /repo/opendis/dis7.py:6873-6954
  | .SignalPdu p => p.WireOk  -- /repo/opendis/dis7.py:6957-7015
  | .RemoveEntityReliablePdu p => p.WireOk  -- /repo/opendis/dis7.py:7018-7049
  | .SeesPdu p => p.WireOk  -- /repo/opendis/dis7.py:7052-7119
  | .CreateEntityReliablePdu p => p.WireOk  -- /repo/opendis/dis7.py:7122-7153
  | .StopFreezeReliablePdu p => p.WireOk  -- /repo/opendis/dis7.py:7156-7199
  | .EventReportReliablePdu p => p.WireOk  -- /repo/opendis/dis7.py:7202-7250
  | .MinefieldResponseNackPdu p => p.WireOk  -- /repo/opendis/dis7.py:7253-7299
  | .ActionResponseReliablePdu p => p.WireOk  -- /repo/opendis/dis7.py:7302-7349
  | .IsPartOfPdu p => p.WireOk  -- /repo/opendis/dis7.py:7352-7397
  | .AggregateStatePdu p => p.WireOk  -- /repo/opendis/dis7.py:7400-7537

/-- Layout on the wire (classes of /repo/opendis/dis7.py, lines beside each). -/
def AnyPdu.wire : AnyPdu → List Slot
  | .EntityStateUpdatePdu p => p.wire  -- /repo/opendis/dis7.py:3760-3820
  | .ServiceRequestPdu p => p.wire  -- /repo/opendis/dis7.py:3823-3872
  | .RepairCompletePdu p => p.wire  -- /repo/opendis/dis7.py:3875-3910
  | .CollisionPdu p => p.wire  -- /repo/opendis/dis7.py:3932-3987
  | .RepairResponsePdu p => p.wire  -- /repo/opendis/dis7.py:3990-4027
  | .DataQueryPdu p => p.wire  -- /repo/opendis/dis7.py:4059-4107
  | .LinearObjectStatePdu p => p.wire  -- /repo/opendis/dis7.py:4110-4175
  | .CreateEntityPdu p => p.wire  -- /repo/opendis/dis7.py:4178-4198
  | .IntercomSignalPdu p => p.wire  -- /repo/opendis/dis7.py:4220-4280
  | .RemoveEntityPdu p => p.wire  -- /repo/opendis/dis7.py:4283-4305
  | .ResupplyReceivedPdu p => p.wire  -- /repo/opendis/dis7.py:4308-4355
  | .CollisionElasticPdu p => p.wire  -- /repo/opendis/dis7.py:4388-4474
  | .ActionRequestPdu p => p.wire  -- /repo/opendis/dis7.py:4477-4527
  | .AcknowledgePdu p => p.wire  -- /repo/opendis/dis7.py:4530-4562
  | .ActionRequestReliablePdu p => p.wire  -- /repo/opendis/dis7.py:4613-4675
  | .DesignatorPdu p => p.wire  -- /repo/opendis/dis7.py:4678-4753
  | .StopFreezePdu p => p.wire  -- /repo/opendis/dis7.py:4756-4795
  | .EntityStatePdu p => p.wire  -- /repo/opendis/dis7.py:4798-4887
  | .StartResumePdu p => p.wire  -- /repo/opendis/dis7.py:4909-4940
  | .TransmitterPdu p => p.wire  -- /repo/opendis/dis7.py:4943-5116
  | .ElectromagneticEmissionsPdu p => p.wire  -- /repo/opendis/dis7.py:5119-5169
  | .ResupplyOfferPdu p => p.wire  -- /repo/opendis/dis7.py:5279-5327
  | .SetDataReliablePdu p => p.wire  -- /repo/opendis/dis7.py:5413-5468
  | .EventReportPdu p => p.wire  -- /repo/opendis/dis7.py:5471-5502
  | .PointObjectStatePdu p => p.wire  -- /repo/opendis/dis7.py:5505-5582
  | .DataPdu p => p.wire  -- /repo/opendis/dis7.py:5585-5634
  | .FastEntityStatePdu p => p.wire  -- /repo/opendis/dis7.py:5637-5868
  | .AcknowledgeReliablePdu p => p.wire  -- /repo/opendis/dis7.py:5871-5902
  | .StartResumeReliablePdu p => p.wire  -- /repo/opendis/dis7.py:5905-5946
  | .ArealObjectStatePdu p => p.wire  -- /repo/opendis/dis7.py:5949-6025
  | .DataQueryReliablePdu p => p.wire  -- /repo/opendis/dis7.py:6028-6087
  | .MinefieldStatePdu p => p.wire  -- /repo/opendis/dis7.py:6090-6172
  | .DataReliablePdu p => p.wire  -- /repo/opendis/dis7.py:6175-6230
  | .CommentPdu p => p.wire  -- /repo/opendis/dis7.py:6233-6272
  | .CommentReliablePdu p => p.wire  -- /repo/opendis/dis7.py:6275-6315
  | .DirectedEnergyFirePdu p => p.wire  -- /repo/opendis/dis7.py:6318-6403
  | .DetonationPdu p => p.wire  -- /repo/opendis/dis7.py:6406-6475
  | .SetDataPdu p => p.wire  -- /repo/opendis/dis7.py:6478-6524
  | .RecordQueryReliablePdu p => p.wire  -- /repo/opendis/dis7.py:6527-6581
  | .ActionResponsePdu p => p.wire  -- /repo/opendis/dis7.py:6584-6632
  | .EntityDamageStatusPdu p => p.wire  -- /repo/opendis/dis7.py:6635-6677
  | .FirePdu p => p.wire  -- /repo/opendis/dis7.py:6680-6733
  | .ReceiverPdu p => p.wire  -- /repo/opendis/dis7.py:6736-6775
  | .UaPdu p => p.wire  -- /repo/opendis/dis7.py:6778-6870
  | .IntercomControlPdu p => p.wire  -- /repo/opendis/dis7.py:6873-6954
  | .SignalPdu p => p.wire  -- /repo/opendis/dis7.py:6957-7015
  | .RemoveEntityReliablePdu p => p.wire  -- /repo/opendis/dis7.py:7018-7049
  | .SeesPdu p => p.wire  -- /repo/opendis/dis7.py:7052-7119
  | .CreateEntityReliablePdu p => p.wire  -- /repo/opendis/dis7.py:7122-7153
  | .StopFreezeReliablePdu p => p.wire  -- /repo/opendis/dis7.py:7156-7199
  | .EventReportReliablePdu p => p.wire  -- /repo/opendis/dis7.py:7202-7250
  | .MinefieldResponseNackPdu p => p.wire  -- /repo/opendis/dis7.py:7253-7299
  | .ActionResponseReliablePdu p => p.wire  -- /repo/opendis/dis7.py:7302-7349
  | .IsPartOfPdu p => p.wire  -- /repo/opendis/dis7.py:7352-7397
  | .AggregateStatePdu p => p.wire  -- /repo/opendis/dis7.py:7400-7537

end Dis
