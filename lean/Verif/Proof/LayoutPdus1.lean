import Verif.Spec.LayoutPdus1
import Verif.Proof.LayoutRecords5

/-!
# `serialize` writes the layout: classes of `Verif.Model.Pdus1`

Generated by `tools/genlayout.py`.
-/

set_option linter.unusedVariables false

namespace Dis

theorem PduSuperclass.lay (o : PduSuperclass) : Lay o.serialize o.wire := by
  unfold PduSuperclass.serialize PduSuperclass.wire
  exact Lay.bind (lay_unsigned_byte _) <|
    Lay.bind (lay_unsigned_byte _) <|
    Lay.bind (lay_unsigned_byte _) <|
    Lay.bind (lay_unsigned_byte _) <|
    Lay.bind (lay_unsigned_int _) <|
    Lay.last (lay_unsigned_short _)

theorem LiveEntityPdu.lay (o : LiveEntityPdu) : Lay o.serialize o.wire := by
  unfold LiveEntityPdu.serialize LiveEntityPdu.wire
  exact Lay.bind (PduSuperclass.lay _) <|
    Lay.bind (lay_unsigned_short _) <|
    Lay.last (lay_unsigned_byte _)

theorem Pdu.lay (o : Pdu) : Lay o.serialize o.wire := by
  unfold Pdu.serialize Pdu.wire
  exact Lay.bind (PduSuperclass.lay _) <|
    Lay.bind (lay_unsigned_byte _) <|
    Lay.last (lay_unsigned_byte _)

theorem EntityInformationFamilyPdu.lay (o : EntityInformationFamilyPdu) : Lay o.serialize o.wire := by
  unfold EntityInformationFamilyPdu.serialize EntityInformationFamilyPdu.wire
  exact Pdu.lay _

theorem LogisticsFamilyPdu.lay (o : LogisticsFamilyPdu) : Lay o.serialize o.wire := by
  unfold LogisticsFamilyPdu.serialize LogisticsFamilyPdu.wire
  exact Pdu.lay _

theorem EntityStateUpdatePdu.lay (o : EntityStateUpdatePdu) : Lay o.serialize o.wire := by
  unfold EntityStateUpdatePdu.serialize EntityStateUpdatePdu.wire
  exact Lay.bind (EntityInformationFamilyPdu.lay _) <|
    Lay.bind (EntityIdentifier.lay _) <|
    Lay.bind (lay_byte _) <|
    Lay.bind (lay_unsigned_byte _) <|
    Lay.bind (Vector3Float.lay _) <|
    Lay.bind (WorldCoordinates.lay _) <|
    Lay.bind (EulerAngles.lay _) <|
    Lay.bind (lay_unsigned_int _) <|
    Lay.last (Lay.forEach VariableParameter.lay)

theorem ServiceRequestPdu.lay (o : ServiceRequestPdu) : Lay o.serialize o.wire := by
  unfold ServiceRequestPdu.serialize ServiceRequestPdu.wire
  exact Lay.bind (LogisticsFamilyPdu.lay _) <|
    Lay.bind (EntityIdentifier.lay _) <|
    Lay.bind (EntityIdentifier.lay _) <|
    Lay.bind (lay_unsigned_byte _) <|
    Lay.bind (lay_unsigned_byte _) <|
    Lay.bind (lay_short _) <|
    Lay.last (Lay.forEach SupplyQuantity.lay)

theorem RepairCompletePdu.lay (o : RepairCompletePdu) : Lay o.serialize o.wire := by
  unfold RepairCompletePdu.serialize RepairCompletePdu.wire
  exact Lay.bind (LogisticsFamilyPdu.lay _) <|
    Lay.bind (EntityIdentifier.lay _) <|
    Lay.bind (EntityIdentifier.lay _) <|
    Lay.bind (lay_unsigned_short _) <|
    Lay.last (lay_short _)

theorem SyntheticEnvironmentFamilyPdu.lay (o : SyntheticEnvironmentFamilyPdu) : Lay o.serialize o.wire := by
  unfold SyntheticEnvironmentFamilyPdu.serialize SyntheticEnvironmentFamilyPdu.wire
  exact Pdu.lay _

theorem CollisionPdu.lay (o : CollisionPdu) : Lay o.serialize o.wire := by
  unfold CollisionPdu.serialize CollisionPdu.wire
  exact Lay.bind (EntityInformationFamilyPdu.lay _) <|
    Lay.bind (EntityIdentifier.lay _) <|
    Lay.bind (EntityIdentifier.lay _) <|
    Lay.bind (EventIdentifier.lay _) <|
    Lay.bind (lay_unsigned_byte _) <|
    Lay.bind (lay_byte _) <|
    Lay.bind (Vector3Float.lay _) <|
    Lay.bind (lay_float _) <|
    Lay.last (Vector3Float.lay _)

theorem RepairResponsePdu.lay (o : RepairResponsePdu) : Lay o.serialize o.wire := by
  unfold RepairResponsePdu.serialize RepairResponsePdu.wire
  exact Lay.bind (LogisticsFamilyPdu.lay _) <|
    Lay.bind (EntityIdentifier.lay _) <|
    Lay.bind (EntityIdentifier.lay _) <|
    Lay.bind (lay_unsigned_byte _) <|
    Lay.bind (lay_short _) <|
    Lay.last (lay_byte _)

theorem SimulationManagementFamilyPdu.lay (o : SimulationManagementFamilyPdu) : Lay o.serialize o.wire := by
  unfold SimulationManagementFamilyPdu.serialize SimulationManagementFamilyPdu.wire
  exact Lay.bind (Pdu.lay _) <|
    Lay.bind (EntityIdentifier.lay _) <|
    Lay.last (EntityIdentifier.lay _)

theorem DataQueryPdu.lay (o : DataQueryPdu) : Lay o.serialize o.wire := by
  unfold DataQueryPdu.serialize DataQueryPdu.wire
  exact Lay.bind (SimulationManagementFamilyPdu.lay _) <|
    Lay.bind (lay_unsigned_int _) <|
    Lay.bind (lay_unsigned_int _) <|
    Lay.last (DataQueryDatumSpecification.lay _)

end Dis
