import Verif.Model.Special

/-!
# `opendis/PduFactory.py`

Generated by `tools/genfactory.py` from the table in the source and the class attributes `pduType`.
-/

namespace Dis

/-- The concrete PDU classes of /repo/opendis/dis7.py (those with a class attribute `pduType`). -/
inductive PduClass where
  /-- /repo/opendis/dis7.py:3760-3820 -/
  | EntityStateUpdatePdu
  /-- /repo/opendis/dis7.py:3823-3872 -/
  | ServiceRequestPdu
  /-- /repo/opendis/dis7.py:3875-3910 -/
  | RepairCompletePdu
  /-- /repo/opendis/dis7.py:3932-3987 -/
  | CollisionPdu
  /-- /repo/opendis/dis7.py:3990-4027 -/
  | RepairResponsePdu
  /-- /repo/opendis/dis7.py:4059-4107 -/
  | DataQueryPdu
  /-- /repo/opendis/dis7.py:4110-4175 -/
  | LinearObjectStatePdu
  /-- /repo/opendis/dis7.py:4178-4198 -/
  | CreateEntityPdu
  /-- /repo/opendis/dis7.py:4220-4280 -/
  | IntercomSignalPdu
  /-- /repo/opendis/dis7.py:4283-4305 -/
  | RemoveEntityPdu
  /-- /repo/opendis/dis7.py:4308-4355 -/
  | ResupplyReceivedPdu
  /-- /repo/opendis/dis7.py:4388-4474 -/
  | CollisionElasticPdu
  /-- /repo/opendis/dis7.py:4477-4527 -/
  | ActionRequestPdu
  /-- /repo/opendis/dis7.py:4530-4562 -/
  | AcknowledgePdu
  /-- /repo/opendis/dis7.py:4613-4675 -/
  | ActionRequestReliablePdu
  /-- /repo/opendis/dis7.py:4678-4753 -/
  | DesignatorPdu
  /-- /repo/opendis/dis7.py:4756-4795 -/
  | StopFreezePdu
  /-- /repo/opendis/dis7.py:4798-4887 -/
  | EntityStatePdu
  /-- /repo/opendis/dis7.py:4909-4940 -/
  | StartResumePdu
  /-- /repo/opendis/dis7.py:4943-5116 -/
  | TransmitterPdu
  /-- /repo/opendis/dis7.py:5119-5169 -/
  | ElectromagneticEmissionsPdu
  /-- /repo/opendis/dis7.py:5279-5327 -/
  | ResupplyOfferPdu
  /-- /repo/opendis/dis7.py:5413-5468 -/
  | SetDataReliablePdu
  /-- /repo/opendis/dis7.py:5471-5502 -/
  | EventReportPdu
  /-- /repo/opendis/dis7.py:5505-5582 -/
  | PointObjectStatePdu
  /-- /repo/opendis/dis7.py:5585-5634 -/
  | DataPdu
  /-- /repo/opendis/dis7.py:5637-5868 -/
  | FastEntityStatePdu
  /-- /repo/opendis/dis7.py:5871-5902 -/
  | AcknowledgeReliablePdu
  /-- /repo/opendis/dis7.py:5905-5946 -/
  | StartResumeReliablePdu
  /-- /repo/opendis/dis7.py:5949-6025 -/
  | ArealObjectStatePdu
  /-- /repo/opendis/dis7.py:6028-6087 -/
  | DataQueryReliablePdu
  /-- /repo/opendis/dis7.py:6090-6172 -/
  | MinefieldStatePdu
  /-- /repo/opendis/dis7.py:6175-6230 -/
  | DataReliablePdu
  /-- /repo/opendis/dis7.py:6233-6272 -/
  | CommentPdu
  /-- /repo/opendis/dis7.py:6275-6315 -/
  | CommentReliablePdu
  /-- /repo/opendis/dis7.py:6318-6403 -/
  | DirectedEnergyFirePdu
  /-- /repo/opendis/dis7.py:6406-6475 -/
  | DetonationPdu
  /-- /repo/opendis/dis7.py:6478-6524 -/
  | SetDataPdu
  /-- /repo/opendis/dis7.py:6527-6581 -/
  | RecordQueryReliablePdu
  /-- /repo/opendis/dis7.py:6584-6632 -/
  | ActionResponsePdu
  /-- /repo/opendis/dis7.py:6635-6677 -/
  | EntityDamageStatusPdu
  /-- /repo/opendis/dis7.py:6680-6733 -/
  | FirePdu
  /-- /repo/opendis/dis7.py:6736-6775 -/
  | ReceiverPdu
  /-- /repo/opendis/dis7.py:6778-6870 -/
  | UaPdu
  /-- /repo/opendis/dis7.py:6873-6954 -/
  | IntercomControlPdu
  /-- /repo/opendis/dis7.py:6957-7015 -/
  | SignalPdu
  /-- /repo/opendis/dis7.py:7018-7049 -/
  | RemoveEntityReliablePdu
  /-- /repo/opendis/dis7.py:7052-7119 -/
  | SeesPdu
  /-- /repo/opendis/dis7.py:7122-7153 -/
  | CreateEntityReliablePdu
  /-- /repo/opendis/dis7.py:7156-7199 -/
  | StopFreezeReliablePdu
  /-- /repo/opendis/dis7.py:7202-7250 -/
  | EventReportReliablePdu
  /-- /repo/opendis/dis7.py:7253-7299 -/
  | MinefieldResponseNackPdu
  /-- /repo/opendis/dis7.py:7302-7349 -/
  | ActionResponseReliablePdu
  /-- /repo/opendis/dis7.py:7352-7397 -/
  | IsPartOfPdu
  /-- /repo/opendis/dis7.py:7400-7537 -/
  | AggregateStatePdu
  deriving DecidableEq, Repr

/-- The class attribute `pduType` (line of the attribute in /repo/opendis/dis7.py beside each). -/
def PduClass.pduType : PduClass → Int
  | .EntityStateUpdatePdu => 67  -- /repo/opendis/dis7.py:3766
  | .ServiceRequestPdu => 5  -- /repo/opendis/dis7.py:3829
  | .RepairCompletePdu => 9  -- /repo/opendis/dis7.py:3880
  | .CollisionPdu => 4  -- /repo/opendis/dis7.py:3938
  | .RepairResponsePdu => 10  -- /repo/opendis/dis7.py:3995
  | .DataQueryPdu => 18  -- /repo/opendis/dis7.py:4064
  | .LinearObjectStatePdu => 44  -- /repo/opendis/dis7.py:4117
  | .CreateEntityPdu => 11  -- /repo/opendis/dis7.py:4183
  | .IntercomSignalPdu => 31  -- /repo/opendis/dis7.py:4225
  | .RemoveEntityPdu => 12  -- /repo/opendis/dis7.py:4289
  | .ResupplyReceivedPdu => 7  -- /repo/opendis/dis7.py:4313
  | .CollisionElasticPdu => 66  -- /repo/opendis/dis7.py:4394
  | .ActionRequestPdu => 16  -- /repo/opendis/dis7.py:4483
  | .AcknowledgePdu => 15  -- /repo/opendis/dis7.py:4536
  | .ActionRequestReliablePdu => 56  -- /repo/opendis/dis7.py:4619
  | .DesignatorPdu => 24  -- /repo/opendis/dis7.py:4683
  | .StopFreezePdu => 14  -- /repo/opendis/dis7.py:4761
  | .EntityStatePdu => 1  -- /repo/opendis/dis7.py:4803
  | .StartResumePdu => 13  -- /repo/opendis/dis7.py:4914
  | .TransmitterPdu => 25  -- /repo/opendis/dis7.py:4950
  | .ElectromagneticEmissionsPdu => 23  -- /repo/opendis/dis7.py:5125
  | .ResupplyOfferPdu => 6  -- /repo/opendis/dis7.py:5285
  | .SetDataReliablePdu => 59  -- /repo/opendis/dis7.py:5419
  | .EventReportPdu => 21  -- /repo/opendis/dis7.py:5477
  | .PointObjectStatePdu => 43  -- /repo/opendis/dis7.py:5511
  | .DataPdu => 20  -- /repo/opendis/dis7.py:5591
  | .FastEntityStatePdu => 1  -- /repo/opendis/dis7.py:5644
  | .AcknowledgeReliablePdu => 55  -- /repo/opendis/dis7.py:5877
  | .StartResumeReliablePdu => 53  -- /repo/opendis/dis7.py:5910
  | .ArealObjectStatePdu => 45  -- /repo/opendis/dis7.py:5956
  | .DataQueryReliablePdu => 58  -- /repo/opendis/dis7.py:6033
  | .MinefieldStatePdu => 37  -- /repo/opendis/dis7.py:6096
  | .DataReliablePdu => 60  -- /repo/opendis/dis7.py:6181
  | .CommentPdu => 22  -- /repo/opendis/dis7.py:6238
  | .CommentReliablePdu => 62  -- /repo/opendis/dis7.py:6281
  | .DirectedEnergyFirePdu => 68  -- /repo/opendis/dis7.py:6324
  | .DetonationPdu => 3  -- /repo/opendis/dis7.py:6413
  | .SetDataPdu => 19  -- /repo/opendis/dis7.py:6483
  | .RecordQueryReliablePdu => 63  -- /repo/opendis/dis7.py:6532
  | .ActionResponsePdu => 17  -- /repo/opendis/dis7.py:6589
  | .EntityDamageStatusPdu => 69  -- /repo/opendis/dis7.py:6641
  | .FirePdu => 2  -- /repo/opendis/dis7.py:6686
  | .ReceiverPdu => 27  -- /repo/opendis/dis7.py:6741
  | .UaPdu => 29  -- /repo/opendis/dis7.py:6785
  | .IntercomControlPdu => 32  -- /repo/opendis/dis7.py:6881
  | .SignalPdu => 26  -- /repo/opendis/dis7.py:6964
  | .RemoveEntityReliablePdu => 52  -- /repo/opendis/dis7.py:7023
  | .SeesPdu => 30  -- /repo/opendis/dis7.py:7057
  | .CreateEntityReliablePdu => 51  -- /repo/opendis/dis7.py:7127
  | .StopFreezeReliablePdu => 54  -- /repo/opendis/dis7.py:7161
  | .EventReportReliablePdu => 61  -- /repo/opendis/dis7.py:7208
  | .MinefieldResponseNackPdu => 40  -- /repo/opendis/dis7.py:7258
  | .ActionResponseReliablePdu => 57  -- /repo/opendis/dis7.py:7307
  | .IsPartOfPdu => 36  -- /repo/opendis/dis7.py:7358
  | .AggregateStatePdu => 33  -- /repo/opendis/dis7.py:7407

/-- A PDU object: an instance of one of the concrete classes of /repo/opendis/dis7.py (the values
`getPdu` can return, /repo/opendis/PduFactory.py:67). -/
inductive AnyPdu where
  /-- /repo/opendis/dis7.py:3760-3820 -/
  | EntityStateUpdatePdu (p : _root_.Dis.EntityStateUpdatePdu)
  /-- /repo/opendis/dis7.py:3823-3872 -/
  | ServiceRequestPdu (p : _root_.Dis.ServiceRequestPdu)
  /-- /repo/opendis/dis7.py:3875-3910 -/
  | RepairCompletePdu (p : _root_.Dis.RepairCompletePdu)
  /-- /repo/opendis/dis7.py:3932-3987 -/
  | CollisionPdu (p : _root_.Dis.CollisionPdu)
  /-- /repo/opendis/dis7.py:3990-4027 -/
  | RepairResponsePdu (p : _root_.Dis.RepairResponsePdu)
  /-- /repo/opendis/dis7.py:4059-4107 -/
  | DataQueryPdu (p : _root_.Dis.DataQueryPdu)
  /-- /repo/opendis/dis7.py:4110-4175 -/
  | LinearObjectStatePdu (p : _root_.Dis.LinearObjectStatePdu)
  /-- /repo/opendis/dis7.py:4178-4198 -/
  | CreateEntityPdu (p : _root_.Dis.CreateEntityPdu)
  /-- /repo/opendis/dis7.py:4220-4280 -/
  | IntercomSignalPdu (p : _root_.Dis.IntercomSignalPdu)
  /-- /repo/opendis/dis7.py:4283-4305 -/
  | RemoveEntityPdu (p : _root_.Dis.RemoveEntityPdu)
  /-- /repo/opendis/dis7.py:4308-4355 -/
  | ResupplyReceivedPdu (p : _root_.Dis.ResupplyReceivedPdu)
  /-- /repo/opendis/dis7.py:4388-4474 -/
  | CollisionElasticPdu (p : _root_.Dis.CollisionElasticPdu)
  /-- /repo/opendis/dis7.py:4477-4527 -/
  | ActionRequestPdu (p : _root_.Dis.ActionRequestPdu)
  /-- /repo/opendis/dis7.py:4530-4562 -/
  | AcknowledgePdu (p : _root_.Dis.AcknowledgePdu)
  /-- /repo/opendis/dis7.py:4613-4675 -/
  | ActionRequestReliablePdu (p : _root_.Dis.ActionRequestReliablePdu)
  /-- /repo/opendis/dis7.py:4678-4753 -/
  | DesignatorPdu (p : _root_.Dis.DesignatorPdu)
  /-- /repo/opendis/dis7.py:4756-4795 -/
  | StopFreezePdu (p : _root_.Dis.StopFreezePdu)
  /-- /repo/opendis/dis7.py:4798-4887 -/
  | EntityStatePdu (p : _root_.Dis.EntityStatePdu)
  /-- /repo/opendis/dis7.py:4909-4940 -/
  | StartResumePdu (p : _root_.Dis.StartResumePdu)
  /-- /repo/opendis/dis7.py:4943-5116 -/
  | TransmitterPdu (p : _root_.Dis.TransmitterPdu)
  /-- /repo/opendis/dis7.py:5119-5169 -/
  | ElectromagneticEmissionsPdu (p : _root_.Dis.ElectromagneticEmissionsPdu)
  /-- /repo/opendis/dis7.py:5279-5327 -/
  | ResupplyOfferPdu (p : _root_.Dis.ResupplyOfferPdu)
  /-- /repo/opendis/dis7.py:5413-5468 -/
  | SetDataReliablePdu (p : _root_.Dis.SetDataReliablePdu)
  /-- /repo/opendis/dis7.py:5471-5502 -/
  | EventReportPdu (p : _root_.Dis.EventReportPdu)
  /-- /repo/opendis/dis7.py:5505-5582 -/
  | PointObjectStatePdu (p : _root_.Dis.PointObjectStatePdu)
  /-- /repo/opendis/dis7.py:5585-5634 -/
  | DataPdu (p : _root_.Dis.DataPdu)
  /-- /repo/opendis/dis7.py:5637-5868 -/
  | FastEntityStatePdu (p : _root_.Dis.FastEntityStatePdu)
  /-- /repo/opendis/dis7.py:5871-5902 -/
  | AcknowledgeReliablePdu (p : _root_.Dis.AcknowledgeReliablePdu)
  /-- /repo/opendis/dis7.py:5905-5946 -/
  | StartResumeReliablePdu (p : _root_.Dis.StartResumeReliablePdu)
  /-- /repo/opendis/dis7.py:5949-6025 -/
  | ArealObjectStatePdu (p : _root_.Dis.ArealObjectStatePdu)
  /-- /repo/opendis/dis7.py:6028-6087 -/
  | DataQueryReliablePdu (p : _root_.Dis.DataQueryReliablePdu)
  /-- /repo/opendis/dis7.py:6090-6172 -/
  | MinefieldStatePdu (p : _root_.Dis.MinefieldStatePdu)
  /-- /repo/opendis/dis7.py:6175-6230 -/
  | DataReliablePdu (p : _root_.Dis.DataReliablePdu)
  /-- /repo/opendis/dis7.py:6233-6272 -/
  | CommentPdu (p : _root_.Dis.CommentPdu)
  /-- /repo/opendis/dis7.py:6275-6315 -/
  | CommentReliablePdu (p : _root_.Dis.CommentReliablePdu)
  /-- /repo/opendis/dis7.py:6318-6403 -/
  | DirectedEnergyFirePdu (p : _root_.Dis.DirectedEnergyFirePdu)
  /-- /repo/opendis/dis7.py:6406-6475 -/
  | DetonationPdu (p : _root_.Dis.DetonationPdu)
  /-- /repo/opendis/dis7.py:6478-6524 -/
  | SetDataPdu (p : _root_.Dis.SetDataPdu)
  /-- /repo/opendis/dis7.py:6527-6581 -/
  | RecordQueryReliablePdu (p : _root_.Dis.RecordQueryReliablePdu)
  /-- /repo/opendis/dis7.py:6584-6632 -/
  | ActionResponsePdu (p : _root_.Dis.ActionResponsePdu)
  /-- /repo/opendis/dis7.py:6635-6677 -/
  | EntityDamageStatusPdu (p : _root_.Dis.EntityDamageStatusPdu)
  /-- /repo/opendis/dis7.py:6680-6733 -/
  | FirePdu (p : _root_.Dis.FirePdu)
  /-- /repo/opendis/dis7.py:6736-6775 -/
  | ReceiverPdu (p : _root_.Dis.ReceiverPdu)
  /-- /repo/opendis/dis7.py:6778-6870 -/
  | UaPdu (p : _root_.Dis.UaPdu)
  /-- /repo/opendis/dis7.py:6873-6954 -/
  | IntercomControlPdu (p : _root_.Dis.IntercomControlPdu)
  /-- /repo/opendis/dis7.py:6957-7015 -/
  | SignalPdu (p : _root_.Dis.SignalPdu)
  /-- /repo/opendis/dis7.py:7018-7049 -/
  | RemoveEntityReliablePdu (p : _root_.Dis.RemoveEntityReliablePdu)
  /-- /repo/opendis/dis7.py:7052-7119 -/
  | SeesPdu (p : _root_.Dis.SeesPdu)
  /-- /repo/opendis/dis7.py:7122-7153 -/
  | CreateEntityReliablePdu (p : _root_.Dis.CreateEntityReliablePdu)
  /-- /repo/opendis/dis7.py:7156-7199 -/
  | StopFreezeReliablePdu (p : _root_.Dis.StopFreezeReliablePdu)
  /-- /repo/opendis/dis7.py:7202-7250 -/
  | EventReportReliablePdu (p : _root_.Dis.EventReportReliablePdu)
  /-- /repo/opendis/dis7.py:7253-7299 -/
  | MinefieldResponseNackPdu (p : _root_.Dis.MinefieldResponseNackPdu)
  /-- /repo/opendis/dis7.py:7302-7349 -/
  | ActionResponseReliablePdu (p : _root_.Dis.ActionResponseReliablePdu)
  /-- /repo/opendis/dis7.py:7352-7397 -/
  | IsPartOfPdu (p : _root_.Dis.IsPartOfPdu)
  /-- /repo/opendis/dis7.py:7400-7537 -/
  | AggregateStatePdu (p : _root_.Dis.AggregateStatePdu)
  deriving DecidableEq

/-- `type(pdu)` (classes of /repo/opendis/dis7.py). -/
def AnyPdu.cls : AnyPdu → PduClass
  | .EntityStateUpdatePdu _ => .EntityStateUpdatePdu
  | .ServiceRequestPdu _ => .ServiceRequestPdu
  | .RepairCompletePdu _ => .RepairCompletePdu
  | .CollisionPdu _ => .CollisionPdu
  | .RepairResponsePdu _ => .RepairResponsePdu
  | .DataQueryPdu _ => .DataQueryPdu
  | .LinearObjectStatePdu _ => .LinearObjectStatePdu
  | .CreateEntityPdu _ => .CreateEntityPdu
  | .IntercomSignalPdu _ => .IntercomSignalPdu
  | .RemoveEntityPdu _ => .RemoveEntityPdu
  | .ResupplyReceivedPdu _ => .ResupplyReceivedPdu
  | .CollisionElasticPdu _ => .CollisionElasticPdu
  | .ActionRequestPdu _ => .ActionRequestPdu
  | .AcknowledgePdu _ => .AcknowledgePdu
  | .ActionRequestReliablePdu _ => .ActionRequestReliablePdu
  | .DesignatorPdu _ => .DesignatorPdu
  | .StopFreezePdu _ => .StopFreezePdu
  | .EntityStatePdu _ => .EntityStatePdu
  | .StartResumePdu _ => .StartResumePdu
  | .TransmitterPdu _ => .TransmitterPdu
  | .ElectromagneticEmissionsPdu _ => .ElectromagneticEmissionsPdu
  | .ResupplyOfferPdu _ => .ResupplyOfferPdu
  | .SetDataReliablePdu _ => .SetDataReliablePdu
  | .EventReportPdu _ => .EventReportPdu
  | .PointObjectStatePdu _ => .PointObjectStatePdu
  | .DataPdu _ => .DataPdu
  | .FastEntityStatePdu _ => .FastEntityStatePdu
  | .AcknowledgeReliablePdu _ => .AcknowledgeReliablePdu
  | .StartResumeReliablePdu _ => .StartResumeReliablePdu
  | .ArealObjectStatePdu _ => .ArealObjectStatePdu
  | .DataQueryReliablePdu _ => .DataQueryReliablePdu
  | .MinefieldStatePdu _ => .MinefieldStatePdu
  | .DataReliablePdu _ => .DataReliablePdu
  | .CommentPdu _ => .CommentPdu
  | .CommentReliablePdu _ => .CommentReliablePdu
  | .DirectedEnergyFirePdu _ => .DirectedEnergyFirePdu
  | .DetonationPdu _ => .DetonationPdu
  | .SetDataPdu _ => .SetDataPdu
  | .RecordQueryReliablePdu _ => .RecordQueryReliablePdu
  | .ActionResponsePdu _ => .ActionResponsePdu
  | .EntityDamageStatusPdu _ => .EntityDamageStatusPdu
  | .FirePdu _ => .FirePdu
  | .ReceiverPdu _ => .ReceiverPdu
  | .UaPdu _ => .UaPdu
  | .IntercomControlPdu _ => .IntercomControlPdu
  | .SignalPdu _ => .SignalPdu
  | .RemoveEntityReliablePdu _ => .RemoveEntityReliablePdu
  | .SeesPdu _ => .SeesPdu
  | .CreateEntityReliablePdu _ => .CreateEntityReliablePdu
  | .StopFreezeReliablePdu _ => .StopFreezeReliablePdu
  | .EventReportReliablePdu _ => .EventReportReliablePdu
  | .MinefieldResponseNackPdu _ => .MinefieldResponseNackPdu
  | .ActionResponseReliablePdu _ => .ActionResponseReliablePdu
  | .IsPartOfPdu _ => .IsPartOfPdu
  | .AggregateStatePdu _ => .AggregateStatePdu

/-- `pdu.serialize(outputStream)`, dispatched on the class (lines in /repo/opendis/dis7.py beside
each). -/
def AnyPdu.serialize : AnyPdu → W Unit
  | .EntityStateUpdatePdu p => p.serialize  -- /repo/opendis/dis7.py:3794-3805
  | .ServiceRequestPdu p => p.serialize  -- /repo/opendis/dis7.py:3850-3859
  | .RepairCompletePdu p => p.serialize  -- /repo/opendis/dis7.py:3896-3902
  | .CollisionPdu p => p.serialize  -- /repo/opendis/dis7.py:3965-3975
  | .RepairResponsePdu p => p.serialize  -- /repo/opendis/dis7.py:4011-4018
  | .DataQueryPdu p => p.serialize  -- /repo/opendis/dis7.py:4095-4100
  | .LinearObjectStatePdu p => p.serialize  -- /repo/opendis/dis7.py:4147-4159
  | .CreateEntityPdu p => p.serialize  -- /repo/opendis/dis7.py:4190-4193
  | .IntercomSignalPdu p => p.serialize  -- /repo/opendis/dis7.py:4252-4263
  | .RemoveEntityPdu p => p.serialize  -- /repo/opendis/dis7.py:4297-4300
  | .ResupplyReceivedPdu p => p.serialize  -- /repo/opendis/dis7.py:4333-4342
  | .CollisionElasticPdu p => p.serialize  -- /repo/opendis/dis7.py:4438-4455
  | .ActionRequestPdu p => p.serialize  -- /repo/opendis/dis7.py:4515-4520
  | .AcknowledgePdu p => p.serialize  -- /repo/opendis/dis7.py:4550-4555
  | .ActionRequestReliablePdu p => p.serialize  -- /repo/opendis/dis7.py:4655-4664
  | .DesignatorPdu p => p.serialize  -- /repo/opendis/dis7.py:4723-4737
  | .StopFreezePdu p => p.serialize  -- /repo/opendis/dis7.py:4779-4786
  | .EntityStatePdu p => p.serialize  -- /repo/opendis/dis7.py:4851-4867
  | .StartResumePdu p => p.serialize  -- /repo/opendis/dis7.py:4928-4933
  | .TransmitterPdu p => p.serialize  -- /repo/opendis/dis7.py:5016-5050
  | .ElectromagneticEmissionsPdu p => p.serialize  -- /repo/opendis/dis7.py:5146-5155
  | .ResupplyOfferPdu p => p.serialize  -- /repo/opendis/dis7.py:5305-5314
  | .SetDataReliablePdu p => p.serialize  -- /repo/opendis/dis7.py:5452-5459
  | .EventReportPdu p => p.serialize  -- /repo/opendis/dis7.py:5490-5495
  | .PointObjectStatePdu p => p.serialize  -- /repo/opendis/dis7.py:5552-5566
  | .DataPdu p => p.serialize  -- /repo/opendis/dis7.py:5621-5626
  | .FastEntityStatePdu p => p.serialize  -- /repo/opendis/dis7.py:5764-5811
  | .AcknowledgeReliablePdu p => p.serialize  -- /repo/opendis/dis7.py:5890-5895
  | .StartResumeReliablePdu p => p.serialize  -- /repo/opendis/dis7.py:5928-5936
  | .ArealObjectStatePdu p => p.serialize  -- /repo/opendis/dis7.py:5991-6006
  | .DataQueryReliablePdu p => p.serialize  -- /repo/opendis/dis7.py:6069-6077
  | .MinefieldStatePdu p => p.serialize  -- /repo/opendis/dis7.py:6132-6149
  | .DataReliablePdu p => p.serialize  -- /repo/opendis/dis7.py:6214-6221
  | .CommentPdu p => p.serialize  -- /repo/opendis/dis7.py:6264-6267
  | .CommentReliablePdu p => p.serialize  -- /repo/opendis/dis7.py:6307-6310
  | .DirectedEnergyFirePdu p => p.serialize  -- /repo/opendis/dis7.py:6361-6379
  | .DetonationPdu p => p.serialize  -- /repo/opendis/dis7.py:6445-6458
  | .SetDataPdu p => p.serialize  -- /repo/opendis/dis7.py:6512-6517
  | .RecordQueryReliablePdu p => p.serialize  -- /repo/opendis/dis7.py:6555-6566
  | .ActionResponsePdu p => p.serialize  -- /repo/opendis/dis7.py:6620-6625
  | .EntityDamageStatusPdu p => p.serialize  -- /repo/opendis/dis7.py:6657-6664
  | .FirePdu p => p.serialize  -- /repo/opendis/dis7.py:6713-6722
  | .ReceiverPdu p => p.serialize  -- /repo/opendis/dis7.py:6759-6766
  | .UaPdu p => p.serialize  -- /repo/opendis/dis7.py:6828-6845
  | .IntercomControlPdu p => p.serialize  -- /repo/opendis/dis7.py:6922-6937
  | .SignalPdu p => p.serialize  -- /repo/opendis/dis7.py:6990-7001
  | .RemoveEntityReliablePdu p => p.serialize  -- /repo/opendis/dis7.py:7035-7041
  | .SeesPdu p => p.serialize  -- /repo/opendis/dis7.py:7082-7097
  | .CreateEntityReliablePdu p => p.serialize  -- /repo/opendis/dis7.py:7139-7145
  | .StopFreezeReliablePdu p => p.serialize  -- /repo/opendis/dis7.py:7181-7189
  | .EventReportReliablePdu p => p.serialize  -- /repo/opendis/dis7.py:7238-7243
  | .MinefieldResponseNackPdu p => p.serialize  -- /repo/opendis/dis7.py:7278-7286
  | .ActionResponseReliablePdu p => p.serialize  -- /repo/opendis/dis7.py:7337-7342
  | .IsPartOfPdu p => p.serialize  -- /repo/opendis/dis7.py:7379-7387
  | .AggregateStatePdu p => p.serialize  -- /repo/opendis/dis7.py:7471-7498

/-- The attributes shared by all PDUs (those of the classes `PduSuperclass` and `Pdu`,
/repo/opendis/dis7.py:3424-3478 and :3698-3718). -/
def AnyPdu.toPdu : AnyPdu → Pdu
  | .EntityStateUpdatePdu p => p.toPdu
  | .ServiceRequestPdu p => p.toPdu
  | .RepairCompletePdu p => p.toPdu
  | .CollisionPdu p => p.toPdu
  | .RepairResponsePdu p => p.toPdu
  | .DataQueryPdu p => p.toPdu
  | .LinearObjectStatePdu p => p.toPdu
  | .CreateEntityPdu p => p.toPdu
  | .IntercomSignalPdu p => p.toPdu
  | .RemoveEntityPdu p => p.toPdu
  | .ResupplyReceivedPdu p => p.toPdu
  | .CollisionElasticPdu p => p.toPdu
  | .ActionRequestPdu p => p.toPdu
  | .AcknowledgePdu p => p.toPdu
  | .ActionRequestReliablePdu p => p.toPdu
  | .DesignatorPdu p => p.toPdu
  | .StopFreezePdu p => p.toPdu
  | .EntityStatePdu p => p.toPdu
  | .StartResumePdu p => p.toPdu
  | .TransmitterPdu p => p.toPdu
  | .ElectromagneticEmissionsPdu p => p.toPdu
  | .ResupplyOfferPdu p => p.toPdu
  | .SetDataReliablePdu p => p.toPdu
  | .EventReportPdu p => p.toPdu
  | .PointObjectStatePdu p => p.toPdu
  | .DataPdu p => p.toPdu
  | .FastEntityStatePdu p => p.toPdu
  | .AcknowledgeReliablePdu p => p.toPdu
  | .StartResumeReliablePdu p => p.toPdu
  | .ArealObjectStatePdu p => p.toPdu
  | .DataQueryReliablePdu p => p.toPdu
  | .MinefieldStatePdu p => p.toPdu
  | .DataReliablePdu p => p.toPdu
  | .CommentPdu p => p.toPdu
  | .CommentReliablePdu p => p.toPdu
  | .DirectedEnergyFirePdu p => p.toPdu
  | .DetonationPdu p => p.toPdu
  | .SetDataPdu p => p.toPdu
  | .RecordQueryReliablePdu p => p.toPdu
  | .ActionResponsePdu p => p.toPdu
  | .EntityDamageStatusPdu p => p.toPdu
  | .FirePdu p => p.toPdu
  | .ReceiverPdu p => p.toPdu
  | .UaPdu p => p.toPdu
  | .IntercomControlPdu p => p.toPdu
  | .SignalPdu p => p.toPdu
  | .RemoveEntityReliablePdu p => p.toPdu
  | .SeesPdu p => p.toPdu
  | .CreateEntityReliablePdu p => p.toPdu
  | .StopFreezeReliablePdu p => p.toPdu
  | .EventReportReliablePdu p => p.toPdu
  | .MinefieldResponseNackPdu p => p.toPdu
  | .ActionResponseReliablePdu p => p.toPdu
  | .IsPartOfPdu p => p.toPdu
  | .AggregateStatePdu p => p.toPdu

/-- `pdu = Decoder(); pdu.parse(inputStream)`, /repo/opendis/PduFactory.py:73-75, dispatched on the
class (lines of the `parse` methods in /repo/opendis/dis7.py beside each). -/
def PduClass.decode : PduClass → R AnyPdu
  | .EntityStateUpdatePdu => do  -- /repo/opendis/dis7.py:3807-3820
    let pdu ← EntityStateUpdatePdu.parse EntityStateUpdatePdu.init
    return .EntityStateUpdatePdu pdu
  | .ServiceRequestPdu => do  -- /repo/opendis/dis7.py:3861-3872
    let pdu ← ServiceRequestPdu.parse ServiceRequestPdu.init
    return .ServiceRequestPdu pdu
  | .RepairCompletePdu => do  -- /repo/opendis/dis7.py:3904-3910
    let pdu ← RepairCompletePdu.parse RepairCompletePdu.init
    return .RepairCompletePdu pdu
  | .CollisionPdu => do  -- /repo/opendis/dis7.py:3977-3987
    let pdu ← CollisionPdu.parse CollisionPdu.init
    return .CollisionPdu pdu
  | .RepairResponsePdu => do  -- /repo/opendis/dis7.py:4020-4027
    let pdu ← RepairResponsePdu.parse RepairResponsePdu.init
    return .RepairResponsePdu pdu
  | .DataQueryPdu => do  -- /repo/opendis/dis7.py:4102-4107
    let pdu ← DataQueryPdu.parse DataQueryPdu.init
    return .DataQueryPdu pdu
  | .LinearObjectStatePdu => do  -- /repo/opendis/dis7.py:4119-4141, 4161-4175
    let pdu ← R.ofExcept LinearObjectStatePdu.init
    let pdu ← LinearObjectStatePdu.parse pdu
    return .LinearObjectStatePdu pdu
  | .CreateEntityPdu => do  -- /repo/opendis/dis7.py:4195-4198
    let pdu ← CreateEntityPdu.parse CreateEntityPdu.init
    return .CreateEntityPdu pdu
  | .IntercomSignalPdu => do  -- /repo/opendis/dis7.py:4265-4280
    let pdu ← IntercomSignalPdu.parse IntercomSignalPdu.init
    return .IntercomSignalPdu pdu
  | .RemoveEntityPdu => do  -- /repo/opendis/dis7.py:4302-4305
    let pdu ← RemoveEntityPdu.parse RemoveEntityPdu.init
    return .RemoveEntityPdu pdu
  | .ResupplyReceivedPdu => do  -- /repo/opendis/dis7.py:4344-4355
    let pdu ← ResupplyReceivedPdu.parse ResupplyReceivedPdu.init
    return .ResupplyReceivedPdu pdu
  | .CollisionElasticPdu => do  -- /repo/opendis/dis7.py:4457-4474
    let pdu ← CollisionElasticPdu.parse CollisionElasticPdu.init
    return .CollisionElasticPdu pdu
  | .ActionRequestPdu => do  -- /repo/opendis/dis7.py:4522-4527
    let pdu ← ActionRequestPdu.parse ActionRequestPdu.init
    return .ActionRequestPdu pdu
  | .AcknowledgePdu => do  -- /repo/opendis/dis7.py:4557-4562
    let pdu ← AcknowledgePdu.parse AcknowledgePdu.init
    return .AcknowledgePdu pdu
  | .ActionRequestReliablePdu => do  -- /repo/opendis/dis7.py:4666-4675
    let pdu ← ActionRequestReliablePdu.parse ActionRequestReliablePdu.init
    return .ActionRequestReliablePdu pdu
  | .DesignatorPdu => do  -- /repo/opendis/dis7.py:4739-4753
    let pdu ← DesignatorPdu.parse DesignatorPdu.init
    return .DesignatorPdu pdu
  | .StopFreezePdu => do  -- /repo/opendis/dis7.py:4788-4795
    let pdu ← StopFreezePdu.parse StopFreezePdu.init
    return .StopFreezePdu pdu
  | .EntityStatePdu => do  -- /repo/opendis/dis7.py:4869-4887
    let pdu ← EntityStatePdu.parse EntityStatePdu.init
    return .EntityStatePdu pdu
  | .StartResumePdu => do  -- /repo/opendis/dis7.py:4935-4940
    let pdu ← StartResumePdu.parse StartResumePdu.init
    return .StartResumePdu pdu
  | .TransmitterPdu => do  -- /repo/opendis/dis7.py:5052-5116
    let pdu ← TransmitterPdu.parse TransmitterPdu.init
    return .TransmitterPdu pdu
  | .ElectromagneticEmissionsPdu => do  -- /repo/opendis/dis7.py:5157-5169
    let pdu ← ElectromagneticEmissionsPdu.parse ElectromagneticEmissionsPdu.init
    return .ElectromagneticEmissionsPdu pdu
  | .ResupplyOfferPdu => do  -- /repo/opendis/dis7.py:5316-5327
    let pdu ← ResupplyOfferPdu.parse ResupplyOfferPdu.init
    return .ResupplyOfferPdu pdu
  | .SetDataReliablePdu => do  -- /repo/opendis/dis7.py:5461-5468
    let pdu ← SetDataReliablePdu.parse SetDataReliablePdu.init
    return .SetDataReliablePdu pdu
  | .EventReportPdu => do  -- /repo/opendis/dis7.py:5497-5502
    let pdu ← EventReportPdu.parse EventReportPdu.init
    return .EventReportPdu pdu
  | .PointObjectStatePdu => do  -- /repo/opendis/dis7.py:5568-5582
    let pdu ← PointObjectStatePdu.parse PointObjectStatePdu.init
    return .PointObjectStatePdu pdu
  | .DataPdu => do  -- /repo/opendis/dis7.py:5628-5634
    let pdu ← DataPdu.parse DataPdu.init
    return .DataPdu pdu
  | .FastEntityStatePdu => do  -- /repo/opendis/dis7.py:5813-5868
    let pdu ← FastEntityStatePdu.parse FastEntityStatePdu.init
    return .FastEntityStatePdu pdu
  | .AcknowledgeReliablePdu => do  -- /repo/opendis/dis7.py:5897-5902
    let pdu ← AcknowledgeReliablePdu.parse AcknowledgeReliablePdu.init
    return .AcknowledgeReliablePdu pdu
  | .StartResumeReliablePdu => do  -- /repo/opendis/dis7.py:5938-5946
    let pdu ← StartResumeReliablePdu.parse StartResumeReliablePdu.init
    return .StartResumeReliablePdu pdu
  | .ArealObjectStatePdu => do  -- /repo/opendis/dis7.py:6008-6025
    let pdu ← ArealObjectStatePdu.parse ArealObjectStatePdu.init
    return .ArealObjectStatePdu pdu
  | .DataQueryReliablePdu => do  -- /repo/opendis/dis7.py:6079-6087
    let pdu ← DataQueryReliablePdu.parse DataQueryReliablePdu.init
    return .DataQueryReliablePdu pdu
  | .MinefieldStatePdu => do  -- /repo/opendis/dis7.py:6151-6172
    let pdu ← MinefieldStatePdu.parse MinefieldStatePdu.init
    return .MinefieldStatePdu pdu
  | .DataReliablePdu => do  -- /repo/opendis/dis7.py:6223-6230
    let pdu ← DataReliablePdu.parse DataReliablePdu.init
    return .DataReliablePdu pdu
  | .CommentPdu => do  -- /repo/opendis/dis7.py:6269-6272
    let pdu ← CommentPdu.parse CommentPdu.init
    return .CommentPdu pdu
  | .CommentReliablePdu => do  -- /repo/opendis/dis7.py:6312-6315
    let pdu ← CommentReliablePdu.parse CommentReliablePdu.init
    return .CommentReliablePdu pdu
  | .DirectedEnergyFirePdu => do  -- /repo/opendis/dis7.py:6381-6403
    let pdu ← DirectedEnergyFirePdu.parse DirectedEnergyFirePdu.init
    return .DirectedEnergyFirePdu pdu
  | .DetonationPdu => do  -- /repo/opendis/dis7.py:6460-6475
    let pdu ← DetonationPdu.parse DetonationPdu.init
    return .DetonationPdu pdu
  | .SetDataPdu => do  -- /repo/opendis/dis7.py:6519-6524
    let pdu ← SetDataPdu.parse SetDataPdu.init
    return .SetDataPdu pdu
  | .RecordQueryReliablePdu => do  -- /repo/opendis/dis7.py:6568-6581
    let pdu ← RecordQueryReliablePdu.parse RecordQueryReliablePdu.init
    return .RecordQueryReliablePdu pdu
  | .ActionResponsePdu => do  -- /repo/opendis/dis7.py:6627-6632
    let pdu ← ActionResponsePdu.parse ActionResponsePdu.init
    return .ActionResponsePdu pdu
  | .EntityDamageStatusPdu => do  -- /repo/opendis/dis7.py:6666-6677
    let pdu ← EntityDamageStatusPdu.parse EntityDamageStatusPdu.init
    return .EntityDamageStatusPdu pdu
  | .FirePdu => do  -- /repo/opendis/dis7.py:6724-6733
    let pdu ← FirePdu.parse FirePdu.init
    return .FirePdu pdu
  | .ReceiverPdu => do  -- /repo/opendis/dis7.py:6768-6775
    let pdu ← ReceiverPdu.parse ReceiverPdu.init
    return .ReceiverPdu pdu
  | .UaPdu => do  -- /repo/opendis/dis7.py:6847-6870
    let pdu ← UaPdu.parse UaPdu.init
    return .UaPdu pdu
  | .IntercomControlPdu => do  -- /repo/opendis/dis7.py:6939-6954
    let pdu ← IntercomControlPdu.parse IntercomControlPdu.init
    return .IntercomControlPdu pdu
  | .SignalPdu => do  -- /repo/opendis/dis7.py:7003-7015
    let pdu ← SignalPdu.parse SignalPdu.init
    return .SignalPdu pdu
  | .RemoveEntityReliablePdu => do  -- /repo/opendis/dis7.py:7043-7049
    let pdu ← RemoveEntityReliablePdu.parse RemoveEntityReliablePdu.init
    return .RemoveEntityReliablePdu pdu
  | .SeesPdu => do  -- /repo/opendis/dis7.py:7099-7119
    let pdu ← SeesPdu.parse SeesPdu.init
    return .SeesPdu pdu
  | .CreateEntityReliablePdu => do  -- /repo/opendis/dis7.py:7147-7153
    let pdu ← CreateEntityReliablePdu.parse CreateEntityReliablePdu.init
    return .CreateEntityReliablePdu pdu
  | .StopFreezeReliablePdu => do  -- /repo/opendis/dis7.py:7191-7199
    let pdu ← StopFreezeReliablePdu.parse StopFreezeReliablePdu.init
    return .StopFreezeReliablePdu pdu
  | .EventReportReliablePdu => do  -- /repo/opendis/dis7.py:7245-7250
    let pdu ← EventReportReliablePdu.parse EventReportReliablePdu.init
    return .EventReportReliablePdu pdu
  | .MinefieldResponseNackPdu => do  -- /repo/opendis/dis7.py:7288-7299
    let pdu ← MinefieldResponseNackPdu.parse MinefieldResponseNackPdu.init
    return .MinefieldResponseNackPdu pdu
  | .ActionResponseReliablePdu => do  -- /repo/opendis/dis7.py:7344-7349
    let pdu ← ActionResponseReliablePdu.parse ActionResponseReliablePdu.init
    return .ActionResponseReliablePdu pdu
  | .IsPartOfPdu => do  -- /repo/opendis/dis7.py:7389-7397
    let pdu ← IsPartOfPdu.parse IsPartOfPdu.init
    return .IsPartOfPdu pdu
  | .AggregateStatePdu => do  -- /repo/opendis/dis7.py:7500-7537
    let pdu ← AggregateStatePdu.parse AggregateStatePdu.init
    return .AggregateStatePdu pdu

/-- The dictionary `PduTypeDecoders`, /repo/opendis/PduFactory.py:11-64. -/
def PduTypeDecoders : List (Int × PduClass) := [
  (1, .EntityStatePdu),  -- :12
  (2, .FirePdu),  -- :13
  (3, .DetonationPdu),  -- :14
  (4, .CollisionPdu),  -- :15
  (5, .ServiceRequestPdu),  -- :16
  (6, .CollisionElasticPdu),  -- :17
  (7, .ResupplyReceivedPdu),  -- :18
  (9, .RepairCompletePdu),  -- :19
  (10, .RepairResponsePdu),  -- :20
  (11, .CreateEntityPdu),  -- :21
  (12, .RemoveEntityPdu),  -- :22
  (13, .StartResumePdu),  -- :23
  (14, .StopFreezePdu),  -- :24
  (15, .AcknowledgePdu),  -- :25
  (16, .ActionRequestPdu),  -- :26
  (17, .ActionResponsePdu),  -- :27
  (18, .DataQueryPdu),  -- :28
  (19, .SetDataPdu),  -- :29
  (20, .DataPdu),  -- :30
  (21, .EventReportPdu),  -- :31
  (22, .CommentPdu),  -- :32
  (23, .ElectromagneticEmissionsPdu),  -- :33
  (24, .DesignatorPdu),  -- :34
  (25, .TransmitterPdu),  -- :35
  (26, .SignalPdu),  -- :36
  (27, .ReceiverPdu),  -- :37
  (29, .UaPdu),  -- :38
  (31, .IntercomSignalPdu),  -- :39
  (32, .IntercomControlPdu),  -- :40
  (33, .AggregateStatePdu),  -- :41
  (36, .IsPartOfPdu),  -- :42
  (37, .MinefieldStatePdu),  -- :43
  (40, .MinefieldResponseNackPdu),  -- :44
  (41, .PointObjectStatePdu),  -- :45
  (43, .PointObjectStatePdu),  -- :46
  (44, .LinearObjectStatePdu),  -- :47
  (45, .ArealObjectStatePdu),  -- :48
  (51, .CreateEntityReliablePdu),  -- :49
  (52, .RemoveEntityReliablePdu),  -- :50
  (54, .StopFreezeReliablePdu),  -- :51
  (55, .AcknowledgeReliablePdu),  -- :52
  (56, .ActionRequestReliablePdu),  -- :53
  (57, .ActionResponseReliablePdu),  -- :54
  (58, .DataQueryReliablePdu),  -- :55
  (59, .SetDataReliablePdu),  -- :56
  (60, .DataReliablePdu),  -- :57
  (61, .EventReportReliablePdu),  -- :58
  (62, .CommentReliablePdu),  -- :59
  (63, .RecordQueryReliablePdu),  -- :60
  (66, .CollisionElasticPdu),  -- :61
  (67, .EntityStateUpdatePdu),  -- :62
  (69, .EntityDamageStatusPdu)]  -- :63

/-- `getPdu`, /repo/opendis/PduFactory.py:67-81; `none` is Python's `None`. -/
def getPdu : R (Option AnyPdu) := do
  R.seek 2
  let pduType ← read_byte
  R.seek 0
  match PduTypeDecoders.lookup pduType with
  | some decoder => do
    let pdu ← decoder.decode
    return some pdu
  | none => return none

/-- `createPdu`, /repo/opendis/PduFactory.py:84-92: the outcome of `getPdu` on a new stream. -/
def createPdu (data : Bytes) : Except PyErr (Option AnyPdu) := (getPdu ⟨data, 0⟩).1

/-- `createPduFromFilePath`, /repo/opendis/PduFactory.py:95-100, for a file that can be opened and
has the given contents; the file object is modelled like an in-memory stream. -/
def createPduFromFile (contents : Bytes) : Except PyErr (Option AnyPdu) := (getPdu ⟨contents, 0⟩).1

end Dis
