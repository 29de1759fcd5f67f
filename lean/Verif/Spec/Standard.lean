import Verif.Model.Factory

/-! # The type numbers of the standard -/

namespace Dis

/-- PDU type of each message in IEEE 1278.1-2012 (SISO-REF-010, UID 4), for the message the class is named
after (classes of /repo/opendis/dis7.py:3760-7537); the standard has no message for
`FastEntityStatePdu`. -/
def PduClass.standardType : PduClass → Option Int
  | .EntityStateUpdatePdu => some 67
  | .ServiceRequestPdu => some 5
  | .RepairCompletePdu => some 9
  | .CollisionPdu => some 4
  | .RepairResponsePdu => some 10
  | .DataQueryPdu => some 18
  | .LinearObjectStatePdu => some 44
  | .CreateEntityPdu => some 11
  | .IntercomSignalPdu => some 31
  | .RemoveEntityPdu => some 12
  | .ResupplyReceivedPdu => some 7
  | .CollisionElasticPdu => some 66
  | .ActionRequestPdu => some 16
  | .AcknowledgePdu => some 15
  | .ActionRequestReliablePdu => some 56
  | .DesignatorPdu => some 24
  | .StopFreezePdu => some 14
  | .EntityStatePdu => some 1
  | .StartResumePdu => some 13
  | .TransmitterPdu => some 25
  | .ElectromagneticEmissionsPdu => some 23
  | .ResupplyOfferPdu => some 6
  | .SetDataReliablePdu => some 59
  | .EventReportPdu => some 21
  | .PointObjectStatePdu => some 43
  | .DataPdu => some 20
  | .FastEntityStatePdu => none
  | .AcknowledgeReliablePdu => some 55
  | .StartResumeReliablePdu => some 53
  | .ArealObjectStatePdu => some 45
  | .DataQueryReliablePdu => some 58
  | .MinefieldStatePdu => some 37
  | .DataReliablePdu => some 60
  | .CommentPdu => some 22
  | .CommentReliablePdu => some 62
  | .DirectedEnergyFirePdu => some 68
  | .DetonationPdu => some 3
  | .SetDataPdu => some 19
  | .RecordQueryReliablePdu => some 65
  | .ActionResponsePdu => some 17
  | .EntityDamageStatusPdu => some 69
  | .FirePdu => some 2
  | .ReceiverPdu => some 27
  | .UaPdu => some 29
  | .IntercomControlPdu => some 32
  | .SignalPdu => some 26
  | .RemoveEntityReliablePdu => some 52
  | .SeesPdu => some 30
  | .CreateEntityReliablePdu => some 51
  | .StopFreezeReliablePdu => some 54
  | .EventReportReliablePdu => some 61
  | .MinefieldResponseNackPdu => some 40
  | .ActionResponseReliablePdu => some 57
  | .IsPartOfPdu => some 36
  | .AggregateStatePdu => some 33

end Dis
