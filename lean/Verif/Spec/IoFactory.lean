import Verif.Spec.Io
import Verif.Spec.SourceCatalog
import Verif.Source.EncodeRadio
import Verif.Model.Factory

/-!
# The PDUs of the factory as Python objects (C79)

Written by `tools/geniofactory.py`.
-/

namespace Dis.Io

open Src

/-- The name of a class (the classes of /repo/opendis/dis7.py that /repo/opendis/PduFactory.py:11-64 can name). -/
def ident : PduClass → Ident
  | .EntityStateUpdatePdu => I.EntityStateUpdatePdu  -- /repo/opendis/dis7.py:3760-3820
  | .ServiceRequestPdu => I.ServiceRequestPdu  -- /repo/opendis/dis7.py:3823-3872
  | .RepairCompletePdu => I.RepairCompletePdu  -- /repo/opendis/dis7.py:3875-3910
  | .CollisionPdu => I.CollisionPdu  -- /repo/opendis/dis7.py:3932-3987
  | .RepairResponsePdu => I.RepairResponsePdu  -- /repo/opendis/dis7.py:3990-4027
  | .DataQueryPdu => I.DataQueryPdu  -- /repo/opendis/dis7.py:4059-4107
  | .LinearObjectStatePdu => I.LinearObjectStatePdu  -- /repo/opendis/dis7.py:4110-4175
  | .CreateEntityPdu => I.CreateEntityPdu  -- /repo/opendis/dis7.py:4178-4198
  | .IntercomSignalPdu => I.IntercomSignalPdu  -- /repo/opendis/dis7.py:4220-4280
  | .RemoveEntityPdu => I.RemoveEntityPdu  -- /repo/opendis/dis7.py:4283-4305
  | .ResupplyReceivedPdu => I.ResupplyReceivedPdu  -- /repo/opendis/dis7.py:4308-4355
  | .CollisionElasticPdu => I.CollisionElasticPdu  -- /repo/opendis/dis7.py:4388-4474
  | .ActionRequestPdu => I.ActionRequestPdu  -- /repo/opendis/dis7.py:4477-4527
  | .AcknowledgePdu => I.AcknowledgePdu  -- /repo/opendis/dis7.py:4530-4562
  | .ActionRequestReliablePdu => I.ActionRequestReliablePdu  -- /repo/opendis/dis7.py:4613-4675
  | .DesignatorPdu => I.DesignatorPdu  -- /repo/opendis/dis7.py:4678-4753
  | .StopFreezePdu => I.StopFreezePdu  -- /repo/opendis/dis7.py:4756-4795
  | .EntityStatePdu => I.EntityStatePdu  -- /repo/opendis/dis7.py:4798-4887
  | .StartResumePdu => I.StartResumePdu  -- /repo/opendis/dis7.py:4909-4940
  | .TransmitterPdu => I.TransmitterPdu  -- /repo/opendis/dis7.py:4943-5116
  | .ElectromagneticEmissionsPdu => I.ElectromagneticEmissionsPdu  -- /repo/opendis/dis7.py:5119-5169
  | .ResupplyOfferPdu => I.ResupplyOfferPdu  -- /repo/opendis/dis7.py:5279-5327
  | .SetDataReliablePdu => I.SetDataReliablePdu  -- /repo/opendis/dis7.py:5413-5468
  | .EventReportPdu => I.EventReportPdu  -- /repo/opendis/dis7.py:5471-5502
  | .PointObjectStatePdu => I.PointObjectStatePdu  -- /repo/opendis/dis7.py:5505-5582
  | .DataPdu => I.DataPdu  -- /repo/opendis/dis7.py:5585-5634
  | .FastEntityStatePdu => I.FastEntityStatePdu  -- /repo/opendis/dis7.py:5637-5868
  | .AcknowledgeReliablePdu => I.AcknowledgeReliablePdu  -- /repo/opendis/dis7.py:5871-5902
  | .StartResumeReliablePdu => I.StartResumeReliablePdu  -- /repo/opendis/dis7.py:5905-5946
  | .ArealObjectStatePdu => I.ArealObjectStatePdu  -- /repo/opendis/dis7.py:5949-6025
  | .DataQueryReliablePdu => I.DataQueryReliablePdu  -- /repo/opendis/dis7.py:6028-6087
  | .MinefieldStatePdu => I.MinefieldStatePdu  -- /repo/opendis/dis7.py:6090-6172
  | .DataReliablePdu => I.DataReliablePdu  -- /repo/opendis/dis7.py:6175-6230
  | .CommentPdu => I.CommentPdu  -- /repo/opendis/dis7.py:6233-6272
  | .CommentReliablePdu => I.CommentReliablePdu  -- /repo/opendis/dis7.py:6275-6315
  | .DirectedEnergyFirePdu => I.DirectedEnergyFirePdu  -- /repo/opendis/dis7.py:6318-6403
  | .DetonationPdu => I.DetonationPdu  -- /repo/opendis/dis7.py:6406-6475
  | .SetDataPdu => I.SetDataPdu  -- /repo/opendis/dis7.py:6478-6524
  | .RecordQueryReliablePdu => I.RecordQueryReliablePdu  -- /repo/opendis/dis7.py:6527-6581
  | .ActionResponsePdu => I.ActionResponsePdu  -- /repo/opendis/dis7.py:6584-6632
  | .EntityDamageStatusPdu => I.EntityDamageStatusPdu  -- /repo/opendis/dis7.py:6635-6677
  | .FirePdu => I.FirePdu  -- /repo/opendis/dis7.py:6680-6733
  | .ReceiverPdu => I.ReceiverPdu  -- /repo/opendis/dis7.py:6736-6775
  | .UaPdu => I.UaPdu  -- /repo/opendis/dis7.py:6778-6870
  | .IntercomControlPdu => I.IntercomControlPdu  -- /repo/opendis/dis7.py:6873-6954
  | .SignalPdu => I.SignalPdu  -- /repo/opendis/dis7.py:6957-7015
  | .RemoveEntityReliablePdu => I.RemoveEntityReliablePdu  -- /repo/opendis/dis7.py:7018-7049
  | .SeesPdu => I.SeesPdu  -- /repo/opendis/dis7.py:7052-7119
  | .CreateEntityReliablePdu => I.CreateEntityReliablePdu  -- /repo/opendis/dis7.py:7122-7153
  | .StopFreezeReliablePdu => I.StopFreezeReliablePdu  -- /repo/opendis/dis7.py:7156-7199
  | .EventReportReliablePdu => I.EventReportReliablePdu  -- /repo/opendis/dis7.py:7202-7250
  | .MinefieldResponseNackPdu => I.MinefieldResponseNackPdu  -- /repo/opendis/dis7.py:7253-7299
  | .ActionResponseReliablePdu => I.ActionResponseReliablePdu  -- /repo/opendis/dis7.py:7302-7349
  | .IsPartOfPdu => I.IsPartOfPdu  -- /repo/opendis/dis7.py:7352-7397
  | .AggregateStatePdu => I.AggregateStatePdu  -- /repo/opendis/dis7.py:7400-7537

/-- The Python object that a PDU of the model stands for (see /repo/opendis/PduFactory.py:73-76); there is none for
`LinearObjectStatePdu`, whose constructor raises (C77). -/
def value : AnyPdu → Option Src.Val
  | .EntityStateUpdatePdu p => some (.obj I.EntityStateUpdatePdu (EntityStateUpdatePdu.fields p))  -- /repo/opendis/dis7.py:3760-3820
  | .ServiceRequestPdu p => some (.obj I.ServiceRequestPdu (ServiceRequestPdu.fields p))  -- /repo/opendis/dis7.py:3823-3872
  | .RepairCompletePdu p => some (.obj I.RepairCompletePdu (RepairCompletePdu.fields p))  -- /repo/opendis/dis7.py:3875-3910
  | .CollisionPdu p => some (.obj I.CollisionPdu (CollisionPdu.fields p))  -- /repo/opendis/dis7.py:3932-3987
  | .RepairResponsePdu p => some (.obj I.RepairResponsePdu (RepairResponsePdu.fields p))  -- /repo/opendis/dis7.py:3990-4027
  | .DataQueryPdu p => some (.obj I.DataQueryPdu (DataQueryPdu.fields p))  -- /repo/opendis/dis7.py:4059-4107
  | .CreateEntityPdu p => some (.obj I.CreateEntityPdu (CreateEntityPdu.fields p))  -- /repo/opendis/dis7.py:4178-4198
  | .IntercomSignalPdu p => some (.obj I.IntercomSignalPdu (IntercomSignalPdu.fields p))  -- /repo/opendis/dis7.py:4220-4280
  | .RemoveEntityPdu p => some (.obj I.RemoveEntityPdu (RemoveEntityPdu.fields p))  -- /repo/opendis/dis7.py:4283-4305
  | .ResupplyReceivedPdu p => some (.obj I.ResupplyReceivedPdu (ResupplyReceivedPdu.fields p))  -- /repo/opendis/dis7.py:4308-4355
  | .CollisionElasticPdu p => some (.obj I.CollisionElasticPdu (CollisionElasticPdu.fields p))  -- /repo/opendis/dis7.py:4388-4474
  | .ActionRequestPdu p => some (.obj I.ActionRequestPdu (ActionRequestPdu.fields p))  -- /repo/opendis/dis7.py:4477-4527
  | .AcknowledgePdu p => some (.obj I.AcknowledgePdu (AcknowledgePdu.fields p))  -- /repo/opendis/dis7.py:4530-4562
  | .ActionRequestReliablePdu p => some (.obj I.ActionRequestReliablePdu (ActionRequestReliablePdu.fields p))  -- /repo/opendis/dis7.py:4613-4675
  | .DesignatorPdu p => some (.obj I.DesignatorPdu (DesignatorPdu.fields p))  -- /repo/opendis/dis7.py:4678-4753
  | .StopFreezePdu p => some (.obj I.StopFreezePdu (StopFreezePdu.fields p))  -- /repo/opendis/dis7.py:4756-4795
  | .EntityStatePdu p => some (.obj I.EntityStatePdu (EntityStatePdu.fields p))  -- /repo/opendis/dis7.py:4798-4887
  | .StartResumePdu p => some (.obj I.StartResumePdu (StartResumePdu.fields p))  -- /repo/opendis/dis7.py:4909-4940
  | .TransmitterPdu p => some (.obj I.TransmitterPdu (TransmitterPdu.fields p))  -- /repo/opendis/dis7.py:4943-5116
  | .ElectromagneticEmissionsPdu p => some (.obj I.ElectromagneticEmissionsPdu (ElectromagneticEmissionsPdu.fields p))  -- /repo/opendis/dis7.py:5119-5169
  | .ResupplyOfferPdu p => some (.obj I.ResupplyOfferPdu (ResupplyOfferPdu.fields p))  -- /repo/opendis/dis7.py:5279-5327
  | .SetDataReliablePdu p => some (.obj I.SetDataReliablePdu (SetDataReliablePdu.fields p))  -- /repo/opendis/dis7.py:5413-5468
  | .EventReportPdu p => some (.obj I.EventReportPdu (EventReportPdu.fields p))  -- /repo/opendis/dis7.py:5471-5502
  | .PointObjectStatePdu p => some (.obj I.PointObjectStatePdu (PointObjectStatePdu.fields p))  -- /repo/opendis/dis7.py:5505-5582
  | .DataPdu p => some (.obj I.DataPdu (DataPdu.fields p))  -- /repo/opendis/dis7.py:5585-5634
  | .FastEntityStatePdu p => some (.obj I.FastEntityStatePdu (FastEntityStatePdu.fields p))  -- /repo/opendis/dis7.py:5637-5868
  | .AcknowledgeReliablePdu p => some (.obj I.AcknowledgeReliablePdu (AcknowledgeReliablePdu.fields p))  -- /repo/opendis/dis7.py:5871-5902
  | .StartResumeReliablePdu p => some (.obj I.StartResumeReliablePdu (StartResumeReliablePdu.fields p))  -- /repo/opendis/dis7.py:5905-5946
  | .ArealObjectStatePdu p => some (.obj I.ArealObjectStatePdu (ArealObjectStatePdu.fields p))  -- /repo/opendis/dis7.py:5949-6025
  | .DataQueryReliablePdu p => some (.obj I.DataQueryReliablePdu (DataQueryReliablePdu.fields p))  -- /repo/opendis/dis7.py:6028-6087
  | .MinefieldStatePdu p => some (.obj I.MinefieldStatePdu (MinefieldStatePdu.fields p))  -- /repo/opendis/dis7.py:6090-6172
  | .DataReliablePdu p => some (.obj I.DataReliablePdu (DataReliablePdu.fields p))  -- /repo/opendis/dis7.py:6175-6230
  | .CommentPdu p => some (.obj I.CommentPdu (CommentPdu.fields p))  -- /repo/opendis/dis7.py:6233-6272
  | .CommentReliablePdu p => some (.obj I.CommentReliablePdu (CommentReliablePdu.fields p))  -- /repo/opendis/dis7.py:6275-6315
  | .DirectedEnergyFirePdu p => some (.obj I.DirectedEnergyFirePdu (DirectedEnergyFirePdu.fields p))  -- /repo/opendis/dis7.py:6318-6403
  | .DetonationPdu p => some (.obj I.DetonationPdu (DetonationPdu.fields p))  -- /repo/opendis/dis7.py:6406-6475
  | .SetDataPdu p => some (.obj I.SetDataPdu (SetDataPdu.fields p))  -- /repo/opendis/dis7.py:6478-6524
  | .RecordQueryReliablePdu p => some (.obj I.RecordQueryReliablePdu (RecordQueryReliablePdu.fields p))  -- /repo/opendis/dis7.py:6527-6581
  | .ActionResponsePdu p => some (.obj I.ActionResponsePdu (ActionResponsePdu.fields p))  -- /repo/opendis/dis7.py:6584-6632
  | .EntityDamageStatusPdu p => some (.obj I.EntityDamageStatusPdu (EntityDamageStatusPdu.fields p))  -- /repo/opendis/dis7.py:6635-6677
  | .FirePdu p => some (.obj I.FirePdu (FirePdu.fields p))  -- /repo/opendis/dis7.py:6680-6733
  | .ReceiverPdu p => some (.obj I.ReceiverPdu (ReceiverPdu.fields p))  -- /repo/opendis/dis7.py:6736-6775
  | .UaPdu p => some (.obj I.UaPdu (UaPdu.fields p))  -- /repo/opendis/dis7.py:6778-6870
  | .IntercomControlPdu p => some (.obj I.IntercomControlPdu (IntercomControlPdu.fields p))  -- /repo/opendis/dis7.py:6873-6954
  | .SignalPdu p => some (.obj I.SignalPdu (SignalPdu.fields p))  -- /repo/opendis/dis7.py:6957-7015
  | .RemoveEntityReliablePdu p => some (.obj I.RemoveEntityReliablePdu (RemoveEntityReliablePdu.fields p))  -- /repo/opendis/dis7.py:7018-7049
  | .SeesPdu p => some (.obj I.SeesPdu (SeesPdu.fields p))  -- /repo/opendis/dis7.py:7052-7119
  | .CreateEntityReliablePdu p => some (.obj I.CreateEntityReliablePdu (CreateEntityReliablePdu.fields p))  -- /repo/opendis/dis7.py:7122-7153
  | .StopFreezeReliablePdu p => some (.obj I.StopFreezeReliablePdu (StopFreezeReliablePdu.fields p))  -- /repo/opendis/dis7.py:7156-7199
  | .EventReportReliablePdu p => some (.obj I.EventReportReliablePdu (EventReportReliablePdu.fields p))  -- /repo/opendis/dis7.py:7202-7250
  | .MinefieldResponseNackPdu p => some (.obj I.MinefieldResponseNackPdu (MinefieldResponseNackPdu.fields p))  -- /repo/opendis/dis7.py:7253-7299
  | .ActionResponseReliablePdu p => some (.obj I.ActionResponseReliablePdu (ActionResponseReliablePdu.fields p))  -- /repo/opendis/dis7.py:7302-7349
  | .IsPartOfPdu p => some (.obj I.IsPartOfPdu (IsPartOfPdu.fields p))  -- /repo/opendis/dis7.py:7352-7397
  | .AggregateStatePdu p => some (.obj I.AggregateStatePdu (AggregateStatePdu.fields p))  -- /repo/opendis/dis7.py:7400-7537
  | .LinearObjectStatePdu _ => .none  -- /repo/opendis/dis7.py:4110-4175

/-- Objects of the records and PDUs as the trees of their classes say (C77), reading and writing as the trees of the streams
say, with calls nested at most `n + 8` deep; `file` gives the contents of files (/repo/opendis/PduFactory.py:74-75, :97). -/
def world (file : Val → Except PyErr Bytes) (n : Nat) : World where
  call := methods program words treeStreams (n + 8)
  make c io := match construct program words (methods program words treeStreams (n + 8)) c [] [] ⟨[], io⟩ with
    | (r, st) => (r, st.io)
  file := file

end Dis.Io
