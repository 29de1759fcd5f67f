import Verif.Model.HeapSpecial
import Verif.Model.Factory

/-!
# `opendis/PduFactory.py` on a memory of objects

Generated by `tools/genheap.py` from the list of classes in `Verif.Model.Factory`.
-/

namespace Dis

/-- `LinearObjectStatePdu.__init__`, /repo/opendis/dis7.py:4119-4141, statement by statement up to line 4136,
which raises: `numberOfSegments` is not a parameter. Without the arguments that are not used before. -/
def LinearObjectStatePdu.initHeap (self : Ref) (objectID : Val := .sc .none) (referencedObjectID : Val := .sc .none)
    (updateNumber : Val := .sc (.int 0)) (forceID : Val := .sc (.int 0)) : H Unit := do
  SyntheticEnvironmentFamilyPdu.initHeap self
  H.setOr self "objectID" objectID EntityIdentifier.newHeap
  H.setOr self "referencedObjectID" referencedObjectID EntityIdentifier.newHeap
  H.setAttr self "updateNumber" updateNumber
  H.setAttr self "forceID" forceID
  H.throw .nameError

/-- `LinearObjectStatePdu(...)`, /repo/opendis/dis7.py:4119-4141. -/
def LinearObjectStatePdu.newHeap (objectID : Val := .sc .none) (referencedObjectID : Val := .sc .none)
    (updateNumber : Val := .sc (.int 0)) (forceID : Val := .sc (.int 0)) : H Ref :=
  H.new LinearObjectStatePdu.attrs fun self =>
    LinearObjectStatePdu.initHeap self objectID referencedObjectID updateNumber forceID

/-- `AttributePdu.__init__`, /repo/opendis/dis7.py:5342-5365. Only its first statement: the constructor of the
superclasses raises (/repo/opendis/dis7.py:3444-3445), as the class has no `pduType`. -/
def AttributePdu.initHeap (self : Ref) : H Unit := do
  EntityInformationFamilyPdu.initHeap self

/-- `AttributePdu(...)`, /repo/opendis/dis7.py:5342-5365. -/
def AttributePdu.newHeap : H Ref :=
  H.new AttributePdu.attrs fun self => AttributePdu.initHeap self

/-- `pdu = Decoder(); pdu.parse(inputStream); return pdu`, /repo/opendis/PduFactory.py:73-76, dispatched on the
class (lines of the classes beside each). -/
def PduClass.decodeHeap : PduClass → H Ref
  | .EntityStateUpdatePdu => H.load EntityStateUpdatePdu.newHeap EntityStateUpdatePdu.parseHeap  -- /repo/opendis/dis7.py:3760-3820
  | .ServiceRequestPdu => H.load ServiceRequestPdu.newHeap ServiceRequestPdu.parseHeap  -- /repo/opendis/dis7.py:3823-3872
  | .RepairCompletePdu => H.load RepairCompletePdu.newHeap RepairCompletePdu.parseHeap  -- /repo/opendis/dis7.py:3875-3910
  | .CollisionPdu => H.load CollisionPdu.newHeap CollisionPdu.parseHeap  -- /repo/opendis/dis7.py:3932-3987
  | .RepairResponsePdu => H.load RepairResponsePdu.newHeap RepairResponsePdu.parseHeap  -- /repo/opendis/dis7.py:3990-4027
  | .DataQueryPdu => H.load DataQueryPdu.newHeap DataQueryPdu.parseHeap  -- /repo/opendis/dis7.py:4059-4107
  | .LinearObjectStatePdu => H.load LinearObjectStatePdu.newHeap LinearObjectStatePdu.parseHeap  -- /repo/opendis/dis7.py:4110-4175
  | .CreateEntityPdu => H.load CreateEntityPdu.newHeap CreateEntityPdu.parseHeap  -- /repo/opendis/dis7.py:4178-4198
  | .IntercomSignalPdu => H.load IntercomSignalPdu.newHeap IntercomSignalPdu.parseHeap  -- /repo/opendis/dis7.py:4220-4280
  | .RemoveEntityPdu => H.load RemoveEntityPdu.newHeap RemoveEntityPdu.parseHeap  -- /repo/opendis/dis7.py:4283-4305
  | .ResupplyReceivedPdu => H.load ResupplyReceivedPdu.newHeap ResupplyReceivedPdu.parseHeap  -- /repo/opendis/dis7.py:4308-4355
  | .CollisionElasticPdu => H.load CollisionElasticPdu.newHeap CollisionElasticPdu.parseHeap  -- /repo/opendis/dis7.py:4388-4474
  | .ActionRequestPdu => H.load ActionRequestPdu.newHeap ActionRequestPdu.parseHeap  -- /repo/opendis/dis7.py:4477-4527
  | .AcknowledgePdu => H.load AcknowledgePdu.newHeap AcknowledgePdu.parseHeap  -- /repo/opendis/dis7.py:4530-4562
  | .ActionRequestReliablePdu => H.load ActionRequestReliablePdu.newHeap ActionRequestReliablePdu.parseHeap  -- /repo/opendis/dis7.py:4613-4675
  | .DesignatorPdu => H.load DesignatorPdu.newHeap DesignatorPdu.parseHeap  -- /repo/opendis/dis7.py:4678-4753
  | .StopFreezePdu => H.load StopFreezePdu.newHeap StopFreezePdu.parseHeap  -- /repo/opendis/dis7.py:4756-4795
  | .EntityStatePdu => H.load EntityStatePdu.newHeap EntityStatePdu.parseHeap  -- /repo/opendis/dis7.py:4798-4887
  | .StartResumePdu => H.load StartResumePdu.newHeap StartResumePdu.parseHeap  -- /repo/opendis/dis7.py:4909-4940
  | .TransmitterPdu => H.load TransmitterPdu.newHeap TransmitterPdu.parseHeap  -- /repo/opendis/dis7.py:4943-5116
  | .ElectromagneticEmissionsPdu => H.load ElectromagneticEmissionsPdu.newHeap ElectromagneticEmissionsPdu.parseHeap  -- /repo/opendis/dis7.py:5119-5169
  | .ResupplyOfferPdu => H.load ResupplyOfferPdu.newHeap ResupplyOfferPdu.parseHeap  -- /repo/opendis/dis7.py:5279-5327
  | .SetDataReliablePdu => H.load SetDataReliablePdu.newHeap SetDataReliablePdu.parseHeap  -- /repo/opendis/dis7.py:5413-5468
  | .EventReportPdu => H.load EventReportPdu.newHeap EventReportPdu.parseHeap  -- /repo/opendis/dis7.py:5471-5502
  | .PointObjectStatePdu => H.load PointObjectStatePdu.newHeap PointObjectStatePdu.parseHeap  -- /repo/opendis/dis7.py:5505-5582
  | .DataPdu => H.load DataPdu.newHeap DataPdu.parseHeap  -- /repo/opendis/dis7.py:5585-5634
  | .FastEntityStatePdu => H.load FastEntityStatePdu.newHeap FastEntityStatePdu.parseHeap  -- /repo/opendis/dis7.py:5637-5868
  | .AcknowledgeReliablePdu => H.load AcknowledgeReliablePdu.newHeap AcknowledgeReliablePdu.parseHeap  -- /repo/opendis/dis7.py:5871-5902
  | .StartResumeReliablePdu => H.load StartResumeReliablePdu.newHeap StartResumeReliablePdu.parseHeap  -- /repo/opendis/dis7.py:5905-5946
  | .ArealObjectStatePdu => H.load ArealObjectStatePdu.newHeap ArealObjectStatePdu.parseHeap  -- /repo/opendis/dis7.py:5949-6025
  | .DataQueryReliablePdu => H.load DataQueryReliablePdu.newHeap DataQueryReliablePdu.parseHeap  -- /repo/opendis/dis7.py:6028-6087
  | .MinefieldStatePdu => H.load MinefieldStatePdu.newHeap MinefieldStatePdu.parseHeap  -- /repo/opendis/dis7.py:6090-6172
  | .DataReliablePdu => H.load DataReliablePdu.newHeap DataReliablePdu.parseHeap  -- /repo/opendis/dis7.py:6175-6230
  | .CommentPdu => H.load CommentPdu.newHeap CommentPdu.parseHeap  -- /repo/opendis/dis7.py:6233-6272
  | .CommentReliablePdu => H.load CommentReliablePdu.newHeap CommentReliablePdu.parseHeap  -- /repo/opendis/dis7.py:6275-6315
  | .DirectedEnergyFirePdu => H.load DirectedEnergyFirePdu.newHeap DirectedEnergyFirePdu.parseHeap  -- /repo/opendis/dis7.py:6318-6403
  | .DetonationPdu => H.load DetonationPdu.newHeap DetonationPdu.parseHeap  -- /repo/opendis/dis7.py:6406-6475
  | .SetDataPdu => H.load SetDataPdu.newHeap SetDataPdu.parseHeap  -- /repo/opendis/dis7.py:6478-6524
  | .RecordQueryReliablePdu => H.load RecordQueryReliablePdu.newHeap RecordQueryReliablePdu.parseHeap  -- /repo/opendis/dis7.py:6527-6581
  | .ActionResponsePdu => H.load ActionResponsePdu.newHeap ActionResponsePdu.parseHeap  -- /repo/opendis/dis7.py:6584-6632
  | .EntityDamageStatusPdu => H.load EntityDamageStatusPdu.newHeap EntityDamageStatusPdu.parseHeap  -- /repo/opendis/dis7.py:6635-6677
  | .FirePdu => H.load FirePdu.newHeap FirePdu.parseHeap  -- /repo/opendis/dis7.py:6680-6733
  | .ReceiverPdu => H.load ReceiverPdu.newHeap ReceiverPdu.parseHeap  -- /repo/opendis/dis7.py:6736-6775
  | .UaPdu => H.load UaPdu.newHeap UaPdu.parseHeap  -- /repo/opendis/dis7.py:6778-6870
  | .IntercomControlPdu => H.load IntercomControlPdu.newHeap IntercomControlPdu.parseHeap  -- /repo/opendis/dis7.py:6873-6954
  | .SignalPdu => H.load SignalPdu.newHeap SignalPdu.parseHeap  -- /repo/opendis/dis7.py:6957-7015
  | .RemoveEntityReliablePdu => H.load RemoveEntityReliablePdu.newHeap RemoveEntityReliablePdu.parseHeap  -- /repo/opendis/dis7.py:7018-7049
  | .SeesPdu => H.load SeesPdu.newHeap SeesPdu.parseHeap  -- /repo/opendis/dis7.py:7052-7119
  | .CreateEntityReliablePdu => H.load CreateEntityReliablePdu.newHeap CreateEntityReliablePdu.parseHeap  -- /repo/opendis/dis7.py:7122-7153
  | .StopFreezeReliablePdu => H.load StopFreezeReliablePdu.newHeap StopFreezeReliablePdu.parseHeap  -- /repo/opendis/dis7.py:7156-7199
  | .EventReportReliablePdu => H.load EventReportReliablePdu.newHeap EventReportReliablePdu.parseHeap  -- /repo/opendis/dis7.py:7202-7250
  | .MinefieldResponseNackPdu => H.load MinefieldResponseNackPdu.newHeap MinefieldResponseNackPdu.parseHeap  -- /repo/opendis/dis7.py:7253-7299
  | .ActionResponseReliablePdu => H.load ActionResponseReliablePdu.newHeap ActionResponseReliablePdu.parseHeap  -- /repo/opendis/dis7.py:7302-7349
  | .IsPartOfPdu => H.load IsPartOfPdu.newHeap IsPartOfPdu.parseHeap  -- /repo/opendis/dis7.py:7352-7397
  | .AggregateStatePdu => H.load AggregateStatePdu.newHeap AggregateStatePdu.parseHeap  -- /repo/opendis/dis7.py:7400-7537

/-- `pdu.serialize(outputStream)`, dispatched on the class (lines of the classes beside each). -/
def PduClass.serializeHeap : PduClass → Ref → S Unit
  | .EntityStateUpdatePdu => EntityStateUpdatePdu.serializeHeap  -- /repo/opendis/dis7.py:3760-3820
  | .ServiceRequestPdu => ServiceRequestPdu.serializeHeap  -- /repo/opendis/dis7.py:3823-3872
  | .RepairCompletePdu => RepairCompletePdu.serializeHeap  -- /repo/opendis/dis7.py:3875-3910
  | .CollisionPdu => CollisionPdu.serializeHeap  -- /repo/opendis/dis7.py:3932-3987
  | .RepairResponsePdu => RepairResponsePdu.serializeHeap  -- /repo/opendis/dis7.py:3990-4027
  | .DataQueryPdu => DataQueryPdu.serializeHeap  -- /repo/opendis/dis7.py:4059-4107
  | .LinearObjectStatePdu => LinearObjectStatePdu.serializeHeap  -- /repo/opendis/dis7.py:4110-4175
  | .CreateEntityPdu => CreateEntityPdu.serializeHeap  -- /repo/opendis/dis7.py:4178-4198
  | .IntercomSignalPdu => IntercomSignalPdu.serializeHeap  -- /repo/opendis/dis7.py:4220-4280
  | .RemoveEntityPdu => RemoveEntityPdu.serializeHeap  -- /repo/opendis/dis7.py:4283-4305
  | .ResupplyReceivedPdu => ResupplyReceivedPdu.serializeHeap  -- /repo/opendis/dis7.py:4308-4355
  | .CollisionElasticPdu => CollisionElasticPdu.serializeHeap  -- /repo/opendis/dis7.py:4388-4474
  | .ActionRequestPdu => ActionRequestPdu.serializeHeap  -- /repo/opendis/dis7.py:4477-4527
  | .AcknowledgePdu => AcknowledgePdu.serializeHeap  -- /repo/opendis/dis7.py:4530-4562
  | .ActionRequestReliablePdu => ActionRequestReliablePdu.serializeHeap  -- /repo/opendis/dis7.py:4613-4675
  | .DesignatorPdu => DesignatorPdu.serializeHeap  -- /repo/opendis/dis7.py:4678-4753
  | .StopFreezePdu => StopFreezePdu.serializeHeap  -- /repo/opendis/dis7.py:4756-4795
  | .EntityStatePdu => EntityStatePdu.serializeHeap  -- /repo/opendis/dis7.py:4798-4887
  | .StartResumePdu => StartResumePdu.serializeHeap  -- /repo/opendis/dis7.py:4909-4940
  | .TransmitterPdu => TransmitterPdu.serializeHeap  -- /repo/opendis/dis7.py:4943-5116
  | .ElectromagneticEmissionsPdu => ElectromagneticEmissionsPdu.serializeHeap  -- /repo/opendis/dis7.py:5119-5169
  | .ResupplyOfferPdu => ResupplyOfferPdu.serializeHeap  -- /repo/opendis/dis7.py:5279-5327
  | .SetDataReliablePdu => SetDataReliablePdu.serializeHeap  -- /repo/opendis/dis7.py:5413-5468
  | .EventReportPdu => EventReportPdu.serializeHeap  -- /repo/opendis/dis7.py:5471-5502
  | .PointObjectStatePdu => PointObjectStatePdu.serializeHeap  -- /repo/opendis/dis7.py:5505-5582
  | .DataPdu => DataPdu.serializeHeap  -- /repo/opendis/dis7.py:5585-5634
  | .FastEntityStatePdu => FastEntityStatePdu.serializeHeap  -- /repo/opendis/dis7.py:5637-5868
  | .AcknowledgeReliablePdu => AcknowledgeReliablePdu.serializeHeap  -- /repo/opendis/dis7.py:5871-5902
  | .StartResumeReliablePdu => StartResumeReliablePdu.serializeHeap  -- /repo/opendis/dis7.py:5905-5946
  | .ArealObjectStatePdu => ArealObjectStatePdu.serializeHeap  -- /repo/opendis/dis7.py:5949-6025
  | .DataQueryReliablePdu => DataQueryReliablePdu.serializeHeap  -- /repo/opendis/dis7.py:6028-6087
  | .MinefieldStatePdu => MinefieldStatePdu.serializeHeap  -- /repo/opendis/dis7.py:6090-6172
  | .DataReliablePdu => DataReliablePdu.serializeHeap  -- /repo/opendis/dis7.py:6175-6230
  | .CommentPdu => CommentPdu.serializeHeap  -- /repo/opendis/dis7.py:6233-6272
  | .CommentReliablePdu => CommentReliablePdu.serializeHeap  -- /repo/opendis/dis7.py:6275-6315
  | .DirectedEnergyFirePdu => DirectedEnergyFirePdu.serializeHeap  -- /repo/opendis/dis7.py:6318-6403
  | .DetonationPdu => DetonationPdu.serializeHeap  -- /repo/opendis/dis7.py:6406-6475
  | .SetDataPdu => SetDataPdu.serializeHeap  -- /repo/opendis/dis7.py:6478-6524
  | .RecordQueryReliablePdu => RecordQueryReliablePdu.serializeHeap  -- /repo/opendis/dis7.py:6527-6581
  | .ActionResponsePdu => ActionResponsePdu.serializeHeap  -- /repo/opendis/dis7.py:6584-6632
  | .EntityDamageStatusPdu => EntityDamageStatusPdu.serializeHeap  -- /repo/opendis/dis7.py:6635-6677
  | .FirePdu => FirePdu.serializeHeap  -- /repo/opendis/dis7.py:6680-6733
  | .ReceiverPdu => ReceiverPdu.serializeHeap  -- /repo/opendis/dis7.py:6736-6775
  | .UaPdu => UaPdu.serializeHeap  -- /repo/opendis/dis7.py:6778-6870
  | .IntercomControlPdu => IntercomControlPdu.serializeHeap  -- /repo/opendis/dis7.py:6873-6954
  | .SignalPdu => SignalPdu.serializeHeap  -- /repo/opendis/dis7.py:6957-7015
  | .RemoveEntityReliablePdu => RemoveEntityReliablePdu.serializeHeap  -- /repo/opendis/dis7.py:7018-7049
  | .SeesPdu => SeesPdu.serializeHeap  -- /repo/opendis/dis7.py:7052-7119
  | .CreateEntityReliablePdu => CreateEntityReliablePdu.serializeHeap  -- /repo/opendis/dis7.py:7122-7153
  | .StopFreezeReliablePdu => StopFreezeReliablePdu.serializeHeap  -- /repo/opendis/dis7.py:7156-7199
  | .EventReportReliablePdu => EventReportReliablePdu.serializeHeap  -- /repo/opendis/dis7.py:7202-7250
  | .MinefieldResponseNackPdu => MinefieldResponseNackPdu.serializeHeap  -- /repo/opendis/dis7.py:7253-7299
  | .ActionResponseReliablePdu => ActionResponseReliablePdu.serializeHeap  -- /repo/opendis/dis7.py:7302-7349
  | .IsPartOfPdu => IsPartOfPdu.serializeHeap  -- /repo/opendis/dis7.py:7352-7397
  | .AggregateStatePdu => AggregateStatePdu.serializeHeap  -- /repo/opendis/dis7.py:7400-7537

/-- `getPdu`, /repo/opendis/PduFactory.py:67-81; `none` is Python's `None`. -/
def getPduHeap : H (Option Ref) := do
  H.read (R.seek 2)
  let pduType ← H.read read_byte
  H.read (R.seek 0)
  match PduTypeDecoders.lookup pduType with
  | some decoder => do
    let pdu ← decoder.decodeHeap
    return some pdu
  | none => return none

/-- `createPdu`, /repo/opendis/PduFactory.py:84-92: `getPdu` on a stream of its own. -/
def createPduHeap (data : Bytes) : H (Option Ref) := fun h s =>
  match getPduHeap h ⟨data, 0⟩ with
  | (x, h', _) => (x, h', s)

end Dis
