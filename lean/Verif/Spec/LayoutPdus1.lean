import Verif.Model.Pdus1
import Verif.Spec.LayoutRecords5

/-!
# Wire layouts of the classes of `Verif.Model.Pdus1`

Generated by `tools/genlayout.py`.
-/

set_option linter.unusedVariables false

namespace Dis

/-- Layout of `PduSuperclass` on the wire (/repo/opendis/dis7.py:3462-3469). -/
def PduSuperclass.wire (o : PduSuperclass) : List Slot :=
  [[.u8 o.protocolVersion],
   [.u8 o.exerciseID],
   [.u8 o.pduType],
   [.u8 o.protocolFamily],
   [.u32 o.timestamp],
   [.u16 (o.length : Int)]].flatten

/-- Layout of `LiveEntityPdu` on the wire (/repo/opendis/dis7.py:3685-3689). -/
def LiveEntityPdu.wire (o : LiveEntityPdu) : List Slot :=
  [PduSuperclass.wire o.toPduSuperclass,
   [.u16 o.subprotocolNumber],
   [.u8 o.padding]].flatten

/-- Layout of `Pdu` on the wire (/repo/opendis/dis7.py:3708-3712). -/
def Pdu.wire (o : Pdu) : List Slot :=
  [PduSuperclass.wire o.toPduSuperclass,
   [.u8 o.pduStatus],
   [.u8 o.padding]].flatten

/-- Layout of `EntityInformationFamilyPdu` on the wire (/repo/opendis/dis7.py:3732-3734). -/
def EntityInformationFamilyPdu.wire (o : EntityInformationFamilyPdu) : List Slot :=
  Pdu.wire o.toPdu

/-- Layout of `LogisticsFamilyPdu` on the wire (/repo/opendis/dis7.py:3751-3753). -/
def LogisticsFamilyPdu.wire (o : LogisticsFamilyPdu) : List Slot :=
  Pdu.wire o.toPdu

/-- Layout of `EntityStateUpdatePdu` on the wire (/repo/opendis/dis7.py:3794-3805). -/
def EntityStateUpdatePdu.wire (o : EntityStateUpdatePdu) : List Slot :=
  [EntityInformationFamilyPdu.wire o.toEntityInformationFamilyPdu,
   EntityIdentifier.wire o.entityID,
   [.s8 o.padding1],
   [.u8 (o.variableParameters.length : Int)],
   Vector3Float.wire o.entityLinearVelocity,
   WorldCoordinates.wire o.entityLocation,
   EulerAngles.wire o.entityOrientation,
   [.u32 o.entityAppearance],
   o.variableParameters.flatMap VariableParameter.wire].flatten

/-- Layout of `ServiceRequestPdu` on the wire (/repo/opendis/dis7.py:3850-3859). -/
def ServiceRequestPdu.wire (o : ServiceRequestPdu) : List Slot :=
  [LogisticsFamilyPdu.wire o.toLogisticsFamilyPdu,
   EntityIdentifier.wire o.requestingEntityID,
   EntityIdentifier.wire o.servicingEntityID,
   [.u8 o.serviceTypeRequested],
   [.u8 (o.supplies.length : Int)],
   [.s16 o.serviceRequestPadding],
   o.supplies.flatMap SupplyQuantity.wire].flatten

/-- Layout of `RepairCompletePdu` on the wire (/repo/opendis/dis7.py:3896-3902). -/
def RepairCompletePdu.wire (o : RepairCompletePdu) : List Slot :=
  [LogisticsFamilyPdu.wire o.toLogisticsFamilyPdu,
   EntityIdentifier.wire o.receivingEntityID,
   EntityIdentifier.wire o.repairingEntityID,
   [.u16 o.repair],
   [.s16 o.padding4]].flatten

/-- Layout of `SyntheticEnvironmentFamilyPdu` on the wire (/repo/opendis/dis7.py:3923-3925). -/
def SyntheticEnvironmentFamilyPdu.wire (o : SyntheticEnvironmentFamilyPdu) : List Slot :=
  Pdu.wire o.toPdu

/-- Layout of `CollisionPdu` on the wire (/repo/opendis/dis7.py:3965-3975). -/
def CollisionPdu.wire (o : CollisionPdu) : List Slot :=
  [EntityInformationFamilyPdu.wire o.toEntityInformationFamilyPdu,
   EntityIdentifier.wire o.issuingEntityID,
   EntityIdentifier.wire o.collidingEntityID,
   EventIdentifier.wire o.eventID,
   [.u8 o.collisionType],
   [.s8 o.pad],
   Vector3Float.wire o.velocity,
   [.f32 o.mass],
   Vector3Float.wire o.location].flatten

/-- Layout of `RepairResponsePdu` on the wire (/repo/opendis/dis7.py:4011-4018). -/
def RepairResponsePdu.wire (o : RepairResponsePdu) : List Slot :=
  [LogisticsFamilyPdu.wire o.toLogisticsFamilyPdu,
   EntityIdentifier.wire o.receivingEntityID,
   EntityIdentifier.wire o.repairingEntityID,
   [.u8 o.repairResult],
   [.s16 o.padding1],
   [.s8 o.padding2]].flatten

/-- Layout of `SimulationManagementFamilyPdu` on the wire (/repo/opendis/dis7.py:4046-4050). -/
def SimulationManagementFamilyPdu.wire (o : SimulationManagementFamilyPdu) : List Slot :=
  [Pdu.wire o.toPdu,
   EntityIdentifier.wire o.originatingEntityID,
   EntityIdentifier.wire o.receivingEntityID].flatten

/-- Layout of `DataQueryPdu` on the wire (/repo/opendis/dis7.py:4095-4100). -/
def DataQueryPdu.wire (o : DataQueryPdu) : List Slot :=
  [SimulationManagementFamilyPdu.wire o.toSimulationManagementFamilyPdu,
   [.u32 o.requestID],
   [.u32 o.timeInterval],
   DataQueryDatumSpecification.wire o._dataQuery].flatten

end Dis
