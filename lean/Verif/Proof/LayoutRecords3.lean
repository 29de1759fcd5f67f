import Verif.Spec.LayoutRecords3
import Verif.Proof.LayoutRecords2

/-!
# `serialize` writes the layout: classes of `Verif.Model.Records3`

Generated by `tools/genlayout.py`.
-/

set_option linter.unusedVariables false

namespace Dis

theorem EEFundamentalParameterData.lay (o : EEFundamentalParameterData) : Lay o.serialize o.wire := by
  unfold EEFundamentalParameterData.serialize EEFundamentalParameterData.wire
  exact Lay.bind (lay_float _) <|
    Lay.bind (lay_float _) <|
    Lay.bind (lay_float _) <|
    Lay.bind (lay_float _) <|
    Lay.bind (lay_float _) <|
    Lay.bind (lay_float _) <|
    Lay.bind (lay_float _) <|
    Lay.bind (lay_float _) <|
    Lay.bind (lay_float _) <|
    Lay.last (lay_float _)

theorem JammingTechnique.lay (o : JammingTechnique) : Lay o.serialize o.wire := by
  unfold JammingTechnique.serialize JammingTechnique.wire
  exact Lay.bind (lay_unsigned_byte _) <|
    Lay.bind (lay_unsigned_byte _) <|
    Lay.bind (lay_unsigned_byte _) <|
    Lay.last (lay_unsigned_byte _)

theorem VariableDatum.lay (o : VariableDatum) : Lay o.serialize o.wire := by
  unfold VariableDatum.serialize VariableDatum.wire
  exact Lay.bind (lay_unsigned_int _) <|
    Lay.bind (lay_unsigned_int _) <|
    Lay.bind (Lay.range (fun i => Lay.index lay_unsigned_byte _ i) _) <|
    Lay.last (Lay.range (fun _ => lay_unsigned_byte _) _)

theorem DatumSpecification.lay (o : DatumSpecification) : Lay o.serialize o.wire := by
  unfold DatumSpecification.serialize DatumSpecification.wire
  exact Lay.bind (lay_unsigned_int _) <|
    Lay.bind (lay_unsigned_int _) <|
    Lay.bind (Lay.forEach FixedDatum.lay) <|
    Lay.last (Lay.forEach VariableDatum.lay)

theorem Expendable.lay (o : Expendable) : Lay o.serialize o.wire := by
  unfold Expendable.serialize Expendable.wire
  exact Lay.bind (EntityType.lay _) <|
    Lay.bind (lay_unsigned_int _) <|
    Lay.bind (lay_unsigned_short _) <|
    Lay.bind (lay_unsigned_byte _) <|
    Lay.last (lay_unsigned_byte _)

theorem CommunicationsNodeID.lay (o : CommunicationsNodeID) : Lay o.serialize o.wire := by
  unfold CommunicationsNodeID.serialize CommunicationsNodeID.wire
  exact Lay.bind (EntityIdentifier.lay _) <|
    Lay.last (lay_unsigned_short _)

theorem IOCommunicationsNode.lay (o : IOCommunicationsNode) : Lay o.serialize o.wire := by
  unfold IOCommunicationsNode.serialize IOCommunicationsNode.wire
  exact Lay.bind (lay_unsigned_int _) <|
    Lay.bind (lay_unsigned_short _) <|
    Lay.bind (lay_unsigned_byte _) <|
    Lay.bind (lay_unsigned_byte _) <|
    Lay.last (CommunicationsNodeID.lay _)

theorem LinearSegmentParameter.lay (o : LinearSegmentParameter) : Lay o.serialize o.wire := by
  unfold LinearSegmentParameter.serialize LinearSegmentParameter.wire
  exact Lay.bind (lay_unsigned_byte _) <|
    Lay.bind (lay_unsigned_byte _) <|
    Lay.bind (lay_unsigned_short _) <|
    Lay.bind (lay_unsigned_int _) <|
    Lay.bind (WorldCoordinates.lay _) <|
    Lay.bind (EulerAngles.lay _) <|
    Lay.bind (lay_float _) <|
    Lay.bind (lay_float _) <|
    Lay.bind (lay_float _) <|
    Lay.bind (lay_float _) <|
    Lay.last (lay_unsigned_int _)

theorem SystemIdentifier.lay (o : SystemIdentifier) : Lay o.serialize o.wire := by
  unfold SystemIdentifier.serialize SystemIdentifier.wire
  exact Lay.bind (lay_unsigned_short _) <|
    Lay.bind (lay_unsigned_short _) <|
    Lay.bind (lay_unsigned_short _) <|
    Lay.last (ChangeOptions.lay _)

theorem TrackJamData.lay (o : TrackJamData) : Lay o.serialize o.wire := by
  unfold TrackJamData.serialize TrackJamData.wire
  exact Lay.bind (EntityIdentifier.lay _) <|
    Lay.bind (lay_unsigned_byte _) <|
    Lay.last (lay_unsigned_byte _)

theorem AggregateType.lay (o : AggregateType) : Lay o.serialize o.wire := by
  unfold AggregateType.serialize AggregateType.wire
  exact Lay.bind (lay_unsigned_byte _) <|
    Lay.bind (lay_unsigned_byte _) <|
    Lay.bind (lay_unsigned_short _) <|
    Lay.bind (lay_unsigned_byte _) <|
    Lay.bind (lay_unsigned_byte _) <|
    Lay.bind (lay_unsigned_byte _) <|
    Lay.last (lay_unsigned_byte _)

theorem SimulationIdentifier.lay (o : SimulationIdentifier) : Lay o.serialize o.wire := by
  unfold SimulationIdentifier.serialize SimulationIdentifier.wire
  exact Lay.bind (SimulationAddress.lay _) <|
    Lay.last (lay_unsigned_short _)

theorem PduHeader.lay (o : PduHeader) : Lay o.serialize o.wire := by
  unfold PduHeader.serialize PduHeader.wire
  exact Lay.bind (lay_unsigned_byte _) <|
    Lay.bind (lay_unsigned_byte _) <|
    Lay.bind (lay_unsigned_byte _) <|
    Lay.bind (lay_unsigned_byte _) <|
    Lay.bind (lay_unsigned_int _) <|
    Lay.bind (lay_unsigned_byte _) <|
    Lay.bind (lay_unsigned_short _) <|
    Lay.last (lay_unsigned_byte _)

theorem SimulationManagementPduHeader.lay (o : SimulationManagementPduHeader) : Lay o.serialize o.wire := by
  unfold SimulationManagementPduHeader.serialize SimulationManagementPduHeader.wire
  exact Lay.bind (PduHeader.lay _) <|
    Lay.bind (SimulationIdentifier.lay _) <|
    Lay.last (SimulationIdentifier.lay _)

theorem BeamData.lay (o : BeamData) : Lay o.serialize o.wire := by
  unfold BeamData.serialize BeamData.wire
  exact Lay.bind (lay_float _) <|
    Lay.bind (lay_float _) <|
    Lay.bind (lay_float _) <|
    Lay.bind (lay_float _) <|
    Lay.last (lay_float _)

theorem EngineFuel.lay (o : EngineFuel) : Lay o.serialize o.wire := by
  unfold EngineFuel.serialize EngineFuel.wire
  exact Lay.bind (lay_unsigned_int _) <|
    Lay.bind (lay_unsigned_byte _) <|
    Lay.bind (lay_unsigned_byte _) <|
    Lay.bind (lay_unsigned_byte _) <|
    Lay.last (lay_unsigned_byte _)

theorem IOEffect.lay (o : IOEffect) : Lay o.serialize o.wire := by
  unfold IOEffect.serialize IOEffect.wire
  exact Lay.bind (lay_unsigned_int _) <|
    Lay.bind (lay_unsigned_short _) <|
    Lay.bind (lay_unsigned_byte _) <|
    Lay.bind (lay_unsigned_byte _) <|
    Lay.bind (lay_unsigned_byte _) <|
    Lay.bind (lay_unsigned_byte _) <|
    Lay.bind (lay_unsigned_short _) <|
    Lay.bind (lay_unsigned_short _) <|
    Lay.last (lay_unsigned_short _)

theorem GridAxisDescriptorVariable.lay (o : GridAxisDescriptorVariable) : Lay o.serialize o.wire := by
  unfold GridAxisDescriptorVariable.serialize GridAxisDescriptorVariable.wire
  exact Lay.bind (lay_double _) <|
    Lay.bind (lay_double _) <|
    Lay.bind (lay_unsigned_short _) <|
    Lay.bind (lay_unsigned_byte _) <|
    Lay.bind (lay_unsigned_byte _) <|
    Lay.bind (lay_unsigned_short _) <|
    Lay.bind (lay_unsigned_short _) <|
    Lay.bind (lay_double _) <|
    Lay.bind (lay_double _) <|
    Lay.last (Lay.map fun _ => Lay.throw _)

theorem SupplyQuantity.lay (o : SupplyQuantity) : Lay o.serialize o.wire := by
  unfold SupplyQuantity.serialize SupplyQuantity.wire
  exact Lay.bind (EntityType.lay _) <|
    Lay.last (lay_float _)

theorem SilentEntitySystem.lay (o : SilentEntitySystem) : Lay o.serialize o.wire := by
  unfold SilentEntitySystem.serialize SilentEntitySystem.wire
  exact Lay.bind (lay_unsigned_short _) <|
    Lay.bind (lay_unsigned_short _) <|
    Lay.bind (EntityType.lay _) <|
    Lay.last (Lay.map fun _ => Lay.throw _)

theorem SilentAggregateSystem.lay (o : SilentAggregateSystem) : Lay o.serialize o.wire := by
  unfold SilentAggregateSystem.serialize SilentAggregateSystem.wire
  exact Lay.bind (lay_unsigned_short _) <|
    Lay.last (Lay.attrAll AggregateType.lay _)

theorem BlankingSector.lay (o : BlankingSector) : Lay o.serialize o.wire := by
  unfold BlankingSector.serialize BlankingSector.wire
  exact Lay.bind (lay_int _) <|
    Lay.bind (lay_unsigned_short _) <|
    Lay.bind (lay_unsigned_short _) <|
    Lay.bind (lay_unsigned_byte _) <|
    Lay.bind (lay_unsigned_byte _) <|
    Lay.bind (lay_unsigned_byte _) <|
    Lay.bind (lay_unsigned_byte _) <|
    Lay.bind (lay_float _) <|
    Lay.bind (lay_float _) <|
    Lay.bind (lay_float _) <|
    Lay.bind (lay_float _) <|
    Lay.bind (lay_float _) <|
    Lay.bind (lay_int _) <|
    Lay.last (lay_int _)

end Dis
