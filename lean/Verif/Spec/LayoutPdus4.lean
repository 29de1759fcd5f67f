import Verif.Model.Pdus4
import Verif.Spec.LayoutPdus3

/-!
# Wire layouts of the classes of `Verif.Model.Pdus4`

Generated by `tools/genlayout.py`.
-/

set_option linter.unusedVariables false

namespace Dis

/-- Layout of `FastEntityStatePdu` on the wire (/repo/opendis/dis7.py:5764-5811). -/
def FastEntityStatePdu.wire (o : FastEntityStatePdu) : List Slot :=
  [EntityInformationFamilyPdu.wire o.toEntityInformationFamilyPdu,
   [.u16 o.site],
   [.u16 o.application],
   [.u16 o.entity],
   [.u8 o.forceId],
   [.s8 (o.variableParameters.length : Int)],
   [.u8 o.entityKind],
   [.u8 o.domain],
   [.u16 o.country],
   [.u8 o.category],
   [.u8 o.subcategory],
   [.u8 o.specific],
   [.u8 o.extra],
   [.u8 o.altEntityKind],
   [.u8 o.altDomain],
   [.u16 o.altCountry],
   [.u8 o.altCategory],
   [.u8 o.altSubcategory],
   [.u8 o.altSpecific],
   [.u8 o.altExtra],
   [.f32 o.xVelocity],
   [.f32 o.yVelocity],
   [.f32 o.zVelocity],
   [.f64 o.xLocation],
   [.f64 o.yLocation],
   [.f64 o.zLocation],
   [.f32 o.psi],
   [.f32 o.theta],
   [.f32 o.phi],
   [.s32 o.entityAppearance],
   [.u8 o.deadReckoningAlgorithm],
   (List.range 15).map fun i => Slot.orFail .indexError Slot.s8 o.otherParameters[i]?,
   [.f32 o.xAcceleration],
   [.f32 o.yAcceleration],
   [.f32 o.zAcceleration],
   [.f32 o.xAngularVelocity],
   [.f32 o.yAngularVelocity],
   [.f32 o.zAngularVelocity],
   (List.range 12).map fun i => Slot.orFail .indexError Slot.s8 o.marking[i]?,
   [.s32 o.capabilities],
   o.variableParameters.flatMap VariableParameter.wire].flatten

/-- Layout of `AcknowledgeReliablePdu` on the wire (/repo/opendis/dis7.py:5890-5895). -/
def AcknowledgeReliablePdu.wire (o : AcknowledgeReliablePdu) : List Slot :=
  [SimulationManagementWithReliabilityFamilyPdu.wire o.toSimulationManagementWithReliabilityFamilyPdu,
   [.u16 o.acknowledgeFlag],
   [.u16 o.responseFlag],
   [.u32 o.requestID]].flatten

/-- Layout of `StartResumeReliablePdu` on the wire (/repo/opendis/dis7.py:5928-5936). -/
def StartResumeReliablePdu.wire (o : StartResumeReliablePdu) : List Slot :=
  [SimulationManagementWithReliabilityFamilyPdu.wire o.toSimulationManagementWithReliabilityFamilyPdu,
   ClockTime.wire o.realWorldTime,
   ClockTime.wire o.simulationTime,
   [.u8 o.requiredReliabilityService],
   [.u16 o.pad1],
   [.u8 o.pad2],
   [.u32 o.requestID]].flatten

/-- Layout of `ArealObjectStatePdu` on the wire (/repo/opendis/dis7.py:5991-6006). -/
def ArealObjectStatePdu.wire (o : ArealObjectStatePdu) : List Slot :=
  [SyntheticEnvironmentFamilyPdu.wire o.toSyntheticEnvironmentFamilyPdu,
   EntityIdentifier.wire o.objectID,
   EntityIdentifier.wire o.referencedObjectID,
   [.u16 o.updateNumber],
   [.u8 o.forceID],
   [.u8 o.modifications],
   ObjectType.wire o.objectType,
   [.u32 o.specificObjectAppearance],
   [.u16 o.generalObjectAppearance],
   [.u16 (o.objectLocation.length : Int)],
   SimulationAddress.wire o.requesterID,
   SimulationAddress.wire o.receivingID,
   o.objectLocation.flatMap WorldCoordinates.wire].flatten

/-- Layout of `DataQueryReliablePdu` on the wire (/repo/opendis/dis7.py:6069-6077). -/
def DataQueryReliablePdu.wire (o : DataQueryReliablePdu) : List Slot :=
  [SimulationManagementWithReliabilityFamilyPdu.wire o.toSimulationManagementWithReliabilityFamilyPdu,
   [.u8 o.requiredReliabilityService],
   [.u16 o.pad1],
   [.u8 o.pad2],
   [.u32 o.requestID],
   [.u32 o.timeInterval],
   DataQueryDatumSpecification.wire o._dataQuery].flatten

/-- Layout of `MinefieldStatePdu` on the wire (/repo/opendis/dis7.py:6132-6149). -/
def MinefieldStatePdu.wire (o : MinefieldStatePdu) : List Slot :=
  [MinefieldFamilyPdu.wire o.toMinefieldFamilyPdu,
   MinefieldIdentifier.wire o.minefieldID,
   [.u16 o.minefieldSequence],
   [.u8 o.forceID],
   [.u8 (o.perimeterPoints.length : Int)],
   EntityType.wire o.minefieldType,
   [.u16 (o.mineTypes.length : Int)],
   WorldCoordinates.wire o.minefieldLocation,
   EulerAngles.wire o.minefieldOrientation,
   [.u16 o.appearance],
   [.u16 o.protocolMode],
   o.perimeterPoints.flatMap Vector2Float.wire,
   o.mineTypes.flatMap EntityType.wire].flatten

/-- Layout of `DataReliablePdu` on the wire (/repo/opendis/dis7.py:6214-6221). -/
def DataReliablePdu.wire (o : DataReliablePdu) : List Slot :=
  [SimulationManagementWithReliabilityFamilyPdu.wire o.toSimulationManagementWithReliabilityFamilyPdu,
   [.u32 o.requestID],
   [.u8 o.requiredReliabilityService],
   [.u16 o.pad1],
   [.u8 o.pad2],
   DatumSpecification.wire o._datums].flatten

/-- Layout of `CommentPdu` on the wire (/repo/opendis/dis7.py:6264-6267). -/
def CommentPdu.wire (o : CommentPdu) : List Slot :=
  [SimulationManagementFamilyPdu.wire o.toSimulationManagementFamilyPdu,
   DatumSpecification.wire o._datums].flatten

/-- Layout of `CommentReliablePdu` on the wire (/repo/opendis/dis7.py:6307-6310). -/
def CommentReliablePdu.wire (o : CommentReliablePdu) : List Slot :=
  [SimulationManagementWithReliabilityFamilyPdu.wire o.toSimulationManagementWithReliabilityFamilyPdu,
   DatumSpecification.wire o._datums].flatten

/-- Layout of `DetonationPdu` on the wire (/repo/opendis/dis7.py:6445-6458). -/
def DetonationPdu.wire (o : DetonationPdu) : List Slot :=
  [WarfareFamilyPdu.wire o.toWarfareFamilyPdu,
   EntityIdentifier.wire o.explodingEntityID,
   EventIdentifier.wire o.eventID,
   Vector3Float.wire o.velocity,
   WorldCoordinates.wire o.location,
   MunitionDescriptor.wire o.descriptor,
   Vector3Float.wire o.locationInEntityCoordinates,
   [.u8 o.detonationResult],
   [.u8 (o.variableParameters.length : Int)],
   [.u16 o.pad],
   o.variableParameters.flatMap VariableParameter.wire].flatten

/-- Layout of `SetDataPdu` on the wire (/repo/opendis/dis7.py:6512-6517). -/
def SetDataPdu.wire (o : SetDataPdu) : List Slot :=
  [SimulationManagementFamilyPdu.wire o.toSimulationManagementFamilyPdu,
   [.u32 o.requestID],
   [.u32 o.padding1],
   DatumSpecification.wire o._datums].flatten

/-- Layout of `RecordQueryReliablePdu` on the wire (/repo/opendis/dis7.py:6555-6566). -/
def RecordQueryReliablePdu.wire (o : RecordQueryReliablePdu) : List Slot :=
  [SimulationManagementWithReliabilityFamilyPdu.wire o.toSimulationManagementWithReliabilityFamilyPdu,
   [.u32 o.requestID],
   [.u8 o.requiredReliabilityService],
   [.u16 o.pad1],
   [.u8 o.pad2],
   [.u16 o.eventType],
   [.u32 o.time],
   [.u32 (o.recordIDs.length : Int)],
   o.recordIDs.map fun _ => .fail .attributeError].flatten

/-- Layout of `ActionResponsePdu` on the wire (/repo/opendis/dis7.py:6620-6625). -/
def ActionResponsePdu.wire (o : ActionResponsePdu) : List Slot :=
  [SimulationManagementFamilyPdu.wire o.toSimulationManagementFamilyPdu,
   [.u32 o.requestID],
   [.u32 o.requestStatus],
   DatumSpecification.wire o._datums].flatten

end Dis
