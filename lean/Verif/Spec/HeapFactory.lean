import Verif.Spec.HeapFieldsSpecial
import Verif.Model.Factory

/-!
# The attributes of a PDU by name

Generated by `tools/genheap.py` from the list of classes in `Verif.Model.Factory`.
-/

namespace Dis

/-- The attributes of a PDU by name (lines of the classes beside each). -/
def AnyPdu.members : AnyPdu → List (String × Tree)
  | .EntityStateUpdatePdu p => p.members  -- /repo/opendis/dis7.py:3760-3820
  | .ServiceRequestPdu p => p.members  -- /repo/opendis/dis7.py:3823-3872
  | .RepairCompletePdu p => p.members  -- /repo/opendis/dis7.py:3875-3910
  | .CollisionPdu p => p.members  -- /repo/opendis/dis7.py:3932-3987
  | .RepairResponsePdu p => p.members  -- /repo/opendis/dis7.py:3990-4027
  | .DataQueryPdu p => p.members  -- /repo/opendis/dis7.py:4059-4107
  | .LinearObjectStatePdu p => p.members  -- /repo/opendis/dis7.py:4110-4175
  | .CreateEntityPdu p => p.members  -- /repo/opendis/dis7.py:4178-4198
  | .IntercomSignalPdu p => p.members  -- /repo/opendis/dis7.py:4220-4280
  | .RemoveEntityPdu p => p.members  -- /repo/opendis/dis7.py:4283-4305
  | .ResupplyReceivedPdu p => p.members  -- /repo/opendis/dis7.py:4308-4355
  | .CollisionElasticPdu p => p.members  -- /repo/opendis/dis7.py:4388-4474
  | .ActionRequestPdu p => p.members  -- /repo/opendis/dis7.py:4477-4527
  | .AcknowledgePdu p => p.members  -- /repo/opendis/dis7.py:4530-4562
  | .ActionRequestReliablePdu p => p.members  -- /repo/opendis/dis7.py:4613-4675
  | .DesignatorPdu p => p.members  -- /repo/opendis/dis7.py:4678-4753
  | .StopFreezePdu p => p.members  -- /repo/opendis/dis7.py:4756-4795
  | .EntityStatePdu p => p.members  -- /repo/opendis/dis7.py:4798-4887
  | .StartResumePdu p => p.members  -- /repo/opendis/dis7.py:4909-4940
  | .TransmitterPdu p => p.members  -- /repo/opendis/dis7.py:4943-5116
  | .ElectromagneticEmissionsPdu p => p.members  -- /repo/opendis/dis7.py:5119-5169
  | .ResupplyOfferPdu p => p.members  -- /repo/opendis/dis7.py:5279-5327
  | .SetDataReliablePdu p => p.members  -- /repo/opendis/dis7.py:5413-5468
  | .EventReportPdu p => p.members  -- /repo/opendis/dis7.py:5471-5502
  | .PointObjectStatePdu p => p.members  -- /repo/opendis/dis7.py:5505-5582
  | .DataPdu p => p.members  -- /repo/opendis/dis7.py:5585-5634
  | .FastEntityStatePdu p => p.members  -- /repo/opendis/dis7.py:5637-5868
  | .AcknowledgeReliablePdu p => p.members  -- /repo/opendis/dis7.py:5871-5902
  | .StartResumeReliablePdu p => p.members  -- /repo/opendis/dis7.py:5905-5946
  | .ArealObjectStatePdu p => p.members  -- /repo/opendis/dis7.py:5949-6025
  | .DataQueryReliablePdu p => p.members  -- /repo/opendis/dis7.py:6028-6087
  | .MinefieldStatePdu p => p.members  -- /repo/opendis/dis7.py:6090-6172
  | .DataReliablePdu p => p.members  -- /repo/opendis/dis7.py:6175-6230
  | .CommentPdu p => p.members  -- /repo/opendis/dis7.py:6233-6272
  | .CommentReliablePdu p => p.members  -- /repo/opendis/dis7.py:6275-6315
  | .DirectedEnergyFirePdu p => p.members  -- /repo/opendis/dis7.py:6318-6403
  | .DetonationPdu p => p.members  -- /repo/opendis/dis7.py:6406-6475
  | .SetDataPdu p => p.members  -- /repo/opendis/dis7.py:6478-6524
  | .RecordQueryReliablePdu p => p.members  -- /repo/opendis/dis7.py:6527-6581
  | .ActionResponsePdu p => p.members  -- /repo/opendis/dis7.py:6584-6632
  | .EntityDamageStatusPdu p => p.members  -- /repo/opendis/dis7.py:6635-6677
  | .FirePdu p => p.members  -- /repo/opendis/dis7.py:6680-6733
  | .ReceiverPdu p => p.members  -- /repo/opendis/dis7.py:6736-6775
  | .UaPdu p => p.members  -- /repo/opendis/dis7.py:6778-6870
  | .IntercomControlPdu p => p.members  -- /repo/opendis/dis7.py:6873-6954
  | .SignalPdu p => p.members  -- /repo/opendis/dis7.py:6957-7015
  | .RemoveEntityReliablePdu p => p.members  -- /repo/opendis/dis7.py:7018-7049
  | .SeesPdu p => p.members  -- /repo/opendis/dis7.py:7052-7119
  | .CreateEntityReliablePdu p => p.members  -- /repo/opendis/dis7.py:7122-7153
  | .StopFreezeReliablePdu p => p.members  -- /repo/opendis/dis7.py:7156-7199
  | .EventReportReliablePdu p => p.members  -- /repo/opendis/dis7.py:7202-7250
  | .MinefieldResponseNackPdu p => p.members  -- /repo/opendis/dis7.py:7253-7299
  | .ActionResponseReliablePdu p => p.members  -- /repo/opendis/dis7.py:7302-7349
  | .IsPartOfPdu p => p.members  -- /repo/opendis/dis7.py:7352-7397
  | .AggregateStatePdu p => p.members  -- /repo/opendis/dis7.py:7400-7537

end Dis
