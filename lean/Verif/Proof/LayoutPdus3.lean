import Verif.Spec.LayoutPdus3
import Verif.Proof.LayoutPdus2

/-!
# `serialize` writes the layout: classes of `Verif.Model.Pdus3`

Generated by `tools/genlayout.py`.
-/

set_option linter.unusedVariables false

namespace Dis

theorem DesignatorPdu.lay (o : DesignatorPdu) : Lay o.serialize o.wire := by
  unfold DesignatorPdu.serialize DesignatorPdu.wire
  exact Lay.bind (DistributedEmissionsFamilyPdu.lay _) <|
    Lay.bind (EntityIdentifier.lay _) <|
    Lay.bind (lay_unsigned_short _) <|
    Lay.bind (EntityIdentifier.lay _) <|
    Lay.bind (lay_unsigned_short _) <|
    Lay.bind (lay_float _) <|
    Lay.bind (lay_float _) <|
    Lay.bind (Vector3Float.lay _) <|
    Lay.bind (WorldCoordinates.lay _) <|
    Lay.bind (lay_byte _) <|
    Lay.bind (lay_unsigned_short _) <|
    Lay.bind (lay_byte _) <|
    Lay.last (Vector3Float.lay _)

theorem StopFreezePdu.lay (o : StopFreezePdu) : Lay o.serialize o.wire := by
  unfold StopFreezePdu.serialize StopFreezePdu.wire
  exact Lay.bind (SimulationManagementFamilyPdu.lay _) <|
    Lay.bind (ClockTime.lay _) <|
    Lay.bind (lay_unsigned_byte _) <|
    Lay.bind (lay_unsigned_byte _) <|
    Lay.bind (lay_short _) <|
    Lay.last (lay_unsigned_int _)

theorem EntityStatePdu.lay (o : EntityStatePdu) : Lay o.serialize o.wire := by
  unfold EntityStatePdu.serialize EntityStatePdu.wire
  exact Lay.bind (EntityInformationFamilyPdu.lay _) <|
    Lay.bind (EntityIdentifier.lay _) <|
    Lay.bind (lay_unsigned_byte _) <|
    Lay.bind (lay_unsigned_byte _) <|
    Lay.bind (EntityType.lay _) <|
    Lay.bind (EntityType.lay _) <|
    Lay.bind (Vector3Float.lay _) <|
    Lay.bind (WorldCoordinates.lay _) <|
    Lay.bind (EulerAngles.lay _) <|
    Lay.bind (lay_unsigned_int _) <|
    Lay.bind (DeadReckoningParameters.lay _) <|
    Lay.bind (EntityMarking.lay _) <|
    Lay.bind (lay_unsigned_int _) <|
    Lay.last (Lay.forEach VariableParameter.lay)

theorem EntityManagementFamilyPdu.lay (o : EntityManagementFamilyPdu) : Lay o.serialize o.wire := by
  unfold EntityManagementFamilyPdu.serialize EntityManagementFamilyPdu.wire
  exact Pdu.lay _

theorem StartResumePdu.lay (o : StartResumePdu) : Lay o.serialize o.wire := by
  unfold StartResumePdu.serialize StartResumePdu.wire
  exact Lay.bind (SimulationManagementFamilyPdu.lay _) <|
    Lay.bind (ClockTime.lay _) <|
    Lay.bind (ClockTime.lay _) <|
    Lay.last (lay_unsigned_int _)

theorem ElectromagneticEmissionsPdu.lay (o : ElectromagneticEmissionsPdu) : Lay o.serialize o.wire := by
  unfold ElectromagneticEmissionsPdu.serialize ElectromagneticEmissionsPdu.wire
  exact Lay.bind (DistributedEmissionsFamilyPdu.lay _) <|
    Lay.bind (EntityIdentifier.lay _) <|
    Lay.bind (EventIdentifier.lay _) <|
    Lay.bind (lay_unsigned_byte _) <|
    Lay.bind (lay_unsigned_byte _) <|
    Lay.bind (lay_unsigned_short _) <|
    Lay.last (Lay.forEach EmissionSystemRecord.lay)

theorem ResupplyOfferPdu.lay (o : ResupplyOfferPdu) : Lay o.serialize o.wire := by
  unfold ResupplyOfferPdu.serialize ResupplyOfferPdu.wire
  exact Lay.bind (LogisticsFamilyPdu.lay _) <|
    Lay.bind (EntityIdentifier.lay _) <|
    Lay.bind (EntityIdentifier.lay _) <|
    Lay.bind (lay_unsigned_byte _) <|
    Lay.bind (lay_byte _) <|
    Lay.bind (lay_short _) <|
    Lay.last (Lay.forEach SupplyQuantity.lay)

theorem AttributePdu.lay (o : AttributePdu) : Lay o.serialize o.wire := by
  unfold AttributePdu.serialize AttributePdu.wire
  exact Lay.bind (EntityInformationFamilyPdu.lay _) <|
    Lay.bind (SimulationAddress.lay _) <|
    Lay.bind (lay_int _) <|
    Lay.bind (lay_short _) <|
    Lay.bind (lay_unsigned_byte _) <|
    Lay.bind (lay_unsigned_byte _) <|
    Lay.bind (lay_unsigned_int _) <|
    Lay.bind (lay_unsigned_byte _) <|
    Lay.bind (lay_byte _) <|
    Lay.last (lay_unsigned_short _)

theorem MinefieldFamilyPdu.lay (o : MinefieldFamilyPdu) : Lay o.serialize o.wire := by
  unfold MinefieldFamilyPdu.serialize MinefieldFamilyPdu.wire
  exact Pdu.lay _

theorem SetDataReliablePdu.lay (o : SetDataReliablePdu) : Lay o.serialize o.wire := by
  unfold SetDataReliablePdu.serialize SetDataReliablePdu.wire
  exact Lay.bind (SimulationManagementWithReliabilityFamilyPdu.lay _) <|
    Lay.bind (lay_unsigned_byte _) <|
    Lay.bind (lay_unsigned_short _) <|
    Lay.bind (lay_unsigned_byte _) <|
    Lay.bind (lay_unsigned_int _) <|
    Lay.last (DatumSpecification.lay _)

theorem EventReportPdu.lay (o : EventReportPdu) : Lay o.serialize o.wire := by
  unfold EventReportPdu.serialize EventReportPdu.wire
  exact Lay.bind (SimulationManagementFamilyPdu.lay _) <|
    Lay.bind (lay_unsigned_int _) <|
    Lay.bind (lay_unsigned_int _) <|
    Lay.last (DatumSpecification.lay _)

theorem PointObjectStatePdu.lay (o : PointObjectStatePdu) : Lay o.serialize o.wire := by
  unfold PointObjectStatePdu.serialize PointObjectStatePdu.wire
  exact Lay.bind (SyntheticEnvironmentFamilyPdu.lay _) <|
    Lay.bind (EntityIdentifier.lay _) <|
    Lay.bind (EntityIdentifier.lay _) <|
    Lay.bind (lay_unsigned_short _) <|
    Lay.bind (lay_unsigned_byte _) <|
    Lay.bind (lay_unsigned_byte _) <|
    Lay.bind (ObjectType.lay _) <|
    Lay.bind (WorldCoordinates.lay _) <|
    Lay.bind (EulerAngles.lay _) <|
    Lay.bind (lay_double _) <|
    Lay.bind (SimulationAddress.lay _) <|
    Lay.bind (SimulationAddress.lay _) <|
    Lay.last (lay_unsigned_int _)

theorem DataPdu.lay (o : DataPdu) : Lay o.serialize o.wire := by
  unfold DataPdu.serialize DataPdu.wire
  exact Lay.bind (SimulationManagementFamilyPdu.lay _) <|
    Lay.bind (lay_unsigned_int _) <|
    Lay.bind (lay_unsigned_int _) <|
    Lay.last (DatumSpecification.lay _)

end Dis
