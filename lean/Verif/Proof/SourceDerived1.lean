import Verif.Spec.SourceDerived
import Verif.Proof.Source8
import Verif.Source.EncodeHand

/-!
# The derived attributes of the objects have their values, written by tools/gensourceprop.py (C80)
-/

namespace Dis.Src

/-- The attribute is a property, and reading it gives its value and leaves the object and the streams as they are. -/
structure Derived.Lawful (d : Derived) : Prop where
  prop : isProperty program d.cls.cls d.name = true
  reads : ∀ (n : Nat) (x : d.cls.entry.codec.Obj) (io : Streams),
    run (n + 8) d.cls.cls d.name (.obj d.cls.cls (d.cls.fields x)) [] [] io
      = (.ok (d.value x), .obj d.cls.cls (d.cls.fields x), io)

theorem DataQueryDatumSpecification.numberOfFixedDatumIDs_value {n : Nat} (x : Dis.DataQueryDatumSpecification) (io : Streams) :
    run (n + 1) I.DataQueryDatumSpecification I.numberOfFixedDatumIDs (DataQueryDatumSpecification.enc x) [] [] io = (.ok (.int x.fixedDatumIDs.length), DataQueryDatumSpecification.enc x, io) :=
  property_of (n := n + 0) (d := I.DataQueryDatumSpecification) (f := DataQueryDatumSpecification.numberOfFixedDatumIDs) rfl rfl rfl
    (gives_len_map (gives_attr (gives_name rfl) (by decide +kernel) rfl)) io

theorem DataQueryDatumSpecification.numberOfVariableDatumIDs_value {n : Nat} (x : Dis.DataQueryDatumSpecification) (io : Streams) :
    run (n + 1) I.DataQueryDatumSpecification I.numberOfVariableDatumIDs (DataQueryDatumSpecification.enc x) [] [] io = (.ok (.int x.variableDatumIDs.length), DataQueryDatumSpecification.enc x, io) :=
  property_of (n := n + 0) (d := I.DataQueryDatumSpecification) (f := DataQueryDatumSpecification.numberOfVariableDatumIDs) rfl rfl rfl
    (gives_len_map (gives_attr (gives_name rfl) (by decide +kernel) rfl)) io

theorem IFFDataSpecification.numberOfIFFDataRecords_value {n : Nat} (x : Dis.IFFDataSpecification) (io : Streams) :
    run (n + 1) I.IFFDataSpecification I.numberOfIFFDataRecords (IFFDataSpecification.enc x) [] [] io = (.ok (.int x.iffDataRecords.length), IFFDataSpecification.enc x, io) :=
  property_of (n := n + 0) (d := I.IFFDataSpecification) (f := IFFDataSpecification.numberOfIFFDataRecords) rfl rfl rfl
    (gives_len_map (gives_attr (gives_name rfl) (by decide +kernel) rfl)) io

theorem RecordQuerySpecification.numberOfRecords_value {n : Nat} (x : Dis.RecordQuerySpecification) (io : Streams) :
    run (n + 1) I.RecordQuerySpecification I.numberOfRecords (RecordQuerySpecification.enc x) [] [] io = (.ok (.int x.recordIDs.length), RecordQuerySpecification.enc x, io) :=
  property_of (n := n + 0) (d := I.RecordQuerySpecification) (f := RecordQuerySpecification.numberOfRecords) rfl rfl rfl
    (gives_len_map (gives_attr (gives_name rfl) (by decide +kernel) rfl)) io

theorem DatumSpecification.numberOfFixedDatumRecords_value {n : Nat} (x : Dis.DatumSpecification) (io : Streams) :
    run (n + 1) I.DatumSpecification I.numberOfFixedDatumRecords (DatumSpecification.enc x) [] [] io = (.ok (.int x.fixedDatumRecords.length), DatumSpecification.enc x, io) :=
  property_of (n := n + 0) (d := I.DatumSpecification) (f := DatumSpecification.numberOfFixedDatumRecords) rfl rfl rfl
    (gives_len_map (gives_attr (gives_name rfl) (by decide +kernel) rfl)) io

theorem DatumSpecification.numberOfVariableDatumRecords_value {n : Nat} (x : Dis.DatumSpecification) (io : Streams) :
    run (n + 1) I.DatumSpecification I.numberOfVariableDatumRecords (DatumSpecification.enc x) [] [] io = (.ok (.int x.variableDatumRecords.length), DatumSpecification.enc x, io) :=
  property_of (n := n + 0) (d := I.DatumSpecification) (f := DatumSpecification.numberOfVariableDatumRecords) rfl rfl rfl
    (gives_len_map (gives_attr (gives_name rfl) (by decide +kernel) rfl)) io

theorem SilentEntitySystem.numberOfAppearanceRecords_value {n : Nat} (x : Dis.SilentEntitySystem) (io : Streams) :
    run (n + 1) I.SilentEntitySystem I.numberOfAppearanceRecords (SilentEntitySystem.enc x) [] [] io = (.ok (.int x.appearanceRecordList.length), SilentEntitySystem.enc x, io) :=
  property_of (n := n + 0) (d := I.SilentEntitySystem) (f := SilentEntitySystem.numberOfAppearanceRecords) rfl rfl rfl
    (gives_len_map (gives_attr (gives_name rfl) (by decide +kernel) rfl)) io

theorem StandardVariableSpecification.numberOfStandardVariableRecords_value {n : Nat} (x : Dis.StandardVariableSpecification) (io : Streams) :
    run (n + 1) I.StandardVariableSpecification I.numberOfStandardVariableRecords (StandardVariableSpecification.enc x) [] [] io = (.ok (.int x.standardVariables.length), StandardVariableSpecification.enc x, io) :=
  property_of (n := n + 0) (d := I.StandardVariableSpecification) (f := StandardVariableSpecification.numberOfStandardVariableRecords) rfl rfl rfl
    (gives_len_map (gives_attr (gives_name rfl) (by decide +kernel) rfl)) io

theorem RecordSpecification.numberOfRecordSets_value {n : Nat} (x : Dis.RecordSpecification) (io : Streams) :
    run (n + 1) I.RecordSpecification I.numberOfRecordSets (RecordSpecification.enc x) [] [] io = (.ok (.int x.recordSets.length), RecordSpecification.enc x, io) :=
  property_of (n := n + 0) (d := I.RecordSpecification) (f := RecordSpecification.numberOfRecordSets) rfl rfl rfl
    (gives_len_map (gives_attr (gives_name rfl) (by decide +kernel) rfl)) io

theorem EntityStateUpdatePdu.numberOfVariableParameters_value {n : Nat} (x : Dis.EntityStateUpdatePdu) (io : Streams) :
    run (n + 1) I.EntityStateUpdatePdu I.numberOfVariableParameters (EntityStateUpdatePdu.enc x) [] [] io = (.ok (.int x.variableParameters.length), EntityStateUpdatePdu.enc x, io) :=
  property_of (n := n + 0) (d := I.EntityStateUpdatePdu) (f := EntityStateUpdatePdu.numberOfVariableParameters) rfl rfl rfl
    (gives_len_map (gives_attr (gives_name rfl) (by decide +kernel) rfl)) io

theorem ServiceRequestPdu.numberOfSupplyTypes_value {n : Nat} (x : Dis.ServiceRequestPdu) (io : Streams) :
    run (n + 1) I.ServiceRequestPdu I.numberOfSupplyTypes (ServiceRequestPdu.enc x) [] [] io = (.ok (.int x.supplies.length), ServiceRequestPdu.enc x, io) :=
  property_of (n := n + 0) (d := I.ServiceRequestPdu) (f := ServiceRequestPdu.numberOfSupplyTypes) rfl rfl rfl
    (gives_len_map (gives_attr (gives_name rfl) (by decide +kernel) rfl)) io

theorem DataQueryPdu.fixedDatumIDs_value {n : Nat} (x : Dis.DataQueryPdu) (io : Streams) :
    run (n + 1) I.DataQueryPdu I.fixedDatumIDs (DataQueryPdu.enc x) [] [] io = (.ok (.list (x._dataQuery.fixedDatumIDs.map .int)), DataQueryPdu.enc x, io) :=
  property_of (n := n + 0) (d := I.DataQueryPdu) (f := DataQueryPdu.fixedDatumIDs) rfl rfl rfl
    (gives_attr (gives_attr (gives_name rfl) (by decide +kernel) rfl) (by decide +kernel) rfl) io

theorem DataQueryPdu.variableDatumIDs_value {n : Nat} (x : Dis.DataQueryPdu) (io : Streams) :
    run (n + 1) I.DataQueryPdu I.variableDatumIDs (DataQueryPdu.enc x) [] [] io = (.ok (.list (x._dataQuery.variableDatumIDs.map .int)), DataQueryPdu.enc x, io) :=
  property_of (n := n + 0) (d := I.DataQueryPdu) (f := DataQueryPdu.variableDatumIDs) rfl rfl rfl
    (gives_attr (gives_attr (gives_name rfl) (by decide +kernel) rfl) (by decide +kernel) rfl) io

theorem IntercomSignalPdu.dataLength_value {n : Nat} (x : Dis.IntercomSignalPdu) (io : Streams) :
    run (n + 1) I.IntercomSignalPdu I.dataLength (IntercomSignalPdu.enc x) [] [] io = (.ok (.int (x.data.length * 8)), IntercomSignalPdu.enc x, io) :=
  property_of (n := n + 0) (d := I.IntercomSignalPdu) (f := IntercomSignalPdu.dataLength) rfl rfl rfl
    (gives_bin (gives_len_map (gives_attr (gives_name rfl) (by decide +kernel) rfl)) gives_int fun _ => rfl) io

theorem ResupplyReceivedPdu.numberOfSupplyTypes_value {n : Nat} (x : Dis.ResupplyReceivedPdu) (io : Streams) :
    run (n + 1) I.ResupplyReceivedPdu I.numberOfSupplyTypes (ResupplyReceivedPdu.enc x) [] [] io = (.ok (.int x.supplies.length), ResupplyReceivedPdu.enc x, io) :=
  property_of (n := n + 0) (d := I.ResupplyReceivedPdu) (f := ResupplyReceivedPdu.numberOfSupplyTypes) rfl rfl rfl
    (gives_len_map (gives_attr (gives_name rfl) (by decide +kernel) rfl)) io

theorem ActionRequestPdu.fixedDatumRecords_value {n : Nat} (x : Dis.ActionRequestPdu) (io : Streams) :
    run (n + 1) I.ActionRequestPdu I.fixedDatumRecords (ActionRequestPdu.enc x) [] [] io = (.ok (.list (x._datums.fixedDatumRecords.map FixedDatum.enc)), ActionRequestPdu.enc x, io) :=
  property_of (n := n + 0) (d := I.ActionRequestPdu) (f := ActionRequestPdu.fixedDatumRecords) rfl rfl rfl
    (gives_attr (gives_attr (gives_name rfl) (by decide +kernel) rfl) (by decide +kernel) rfl) io

theorem ActionRequestPdu.variableDatumRecords_value {n : Nat} (x : Dis.ActionRequestPdu) (io : Streams) :
    run (n + 1) I.ActionRequestPdu I.variableDatumRecords (ActionRequestPdu.enc x) [] [] io = (.ok (.list (x._datums.variableDatumRecords.map VariableDatum.enc)), ActionRequestPdu.enc x, io) :=
  property_of (n := n + 0) (d := I.ActionRequestPdu) (f := ActionRequestPdu.variableDatumRecords) rfl rfl rfl
    (gives_attr (gives_attr (gives_name rfl) (by decide +kernel) rfl) (by decide +kernel) rfl) io

theorem ActionRequestReliablePdu.fixedDatumRecords_value {n : Nat} (x : Dis.ActionRequestReliablePdu) (io : Streams) :
    run (n + 1) I.ActionRequestReliablePdu I.fixedDatumRecords (ActionRequestReliablePdu.enc x) [] [] io = (.ok (.list (x._datums.fixedDatumRecords.map FixedDatum.enc)), ActionRequestReliablePdu.enc x, io) :=
  property_of (n := n + 0) (d := I.ActionRequestReliablePdu) (f := ActionRequestReliablePdu.fixedDatumRecords) rfl rfl rfl
    (gives_attr (gives_attr (gives_name rfl) (by decide +kernel) rfl) (by decide +kernel) rfl) io

theorem ActionRequestReliablePdu.variableDatumRecords_value {n : Nat} (x : Dis.ActionRequestReliablePdu) (io : Streams) :
    run (n + 1) I.ActionRequestReliablePdu I.variableDatumRecords (ActionRequestReliablePdu.enc x) [] [] io = (.ok (.list (x._datums.variableDatumRecords.map VariableDatum.enc)), ActionRequestReliablePdu.enc x, io) :=
  property_of (n := n + 0) (d := I.ActionRequestReliablePdu) (f := ActionRequestReliablePdu.variableDatumRecords) rfl rfl rfl
    (gives_attr (gives_attr (gives_name rfl) (by decide +kernel) rfl) (by decide +kernel) rfl) io

theorem EntityStatePdu.numberOfVariableParameters_value {n : Nat} (x : Dis.EntityStatePdu) (io : Streams) :
    run (n + 1) I.EntityStatePdu I.numberOfVariableParameters (EntityStatePdu.enc x) [] [] io = (.ok (.int x.variableParameters.length), EntityStatePdu.enc x, io) :=
  property_of (n := n + 0) (d := I.EntityStatePdu) (f := EntityStatePdu.numberOfVariableParameters) rfl rfl rfl
    (gives_len_map (gives_attr (gives_name rfl) (by decide +kernel) rfl)) io

theorem ElectromagneticEmissionsPdu.numberOfSystems_value {n : Nat} (x : Dis.ElectromagneticEmissionsPdu) (io : Streams) :
    run (n + 1) I.ElectromagneticEmissionsPdu I.numberOfSystems (ElectromagneticEmissionsPdu.enc x) [] [] io = (.ok (.int x.systems.length), ElectromagneticEmissionsPdu.enc x, io) :=
  property_of (n := n + 0) (d := I.ElectromagneticEmissionsPdu) (f := ElectromagneticEmissionsPdu.numberOfSystems) rfl rfl rfl
    (gives_len_map (gives_attr (gives_name rfl) (by decide +kernel) rfl)) io

theorem EmissionSystemBeamRecord.numberOfTargetsInTrackJam_value {n : Nat} (x : Dis.EmissionSystemBeamRecord) (io : Streams) :
    run (n + 1) I.EmissionSystemBeamRecord I.numberOfTargetsInTrackJam (EmissionSystemBeamRecord.enc x) [] [] io = (.ok (.int x.trackJamRecords.length), EmissionSystemBeamRecord.enc x, io) :=
  property_of (n := n + 0) (d := I.EmissionSystemBeamRecord) (f := EmissionSystemBeamRecord.numberOfTargetsInTrackJam) rfl rfl rfl
    (gives_len_map (gives_attr (gives_name rfl) (by decide +kernel) rfl)) io

theorem EmissionSystemRecord.numberOfBeams_value {n : Nat} (x : Dis.EmissionSystemRecord) (io : Streams) :
    run (n + 1) I.EmissionSystemRecord I.numberOfBeams (EmissionSystemRecord.enc x) [] [] io = (.ok (.int x.beamRecords.length), EmissionSystemRecord.enc x, io) :=
  property_of (n := n + 0) (d := I.EmissionSystemRecord) (f := EmissionSystemRecord.numberOfBeams) rfl rfl rfl
    (gives_len_map (gives_attr (gives_name rfl) (by decide +kernel) rfl)) io

theorem ResupplyOfferPdu.numberOfSupplyTypes_value {n : Nat} (x : Dis.ResupplyOfferPdu) (io : Streams) :
    run (n + 1) I.ResupplyOfferPdu I.numberOfSupplyTypes (ResupplyOfferPdu.enc x) [] [] io = (.ok (.int x.supplies.length), ResupplyOfferPdu.enc x, io) :=
  property_of (n := n + 0) (d := I.ResupplyOfferPdu) (f := ResupplyOfferPdu.numberOfSupplyTypes) rfl rfl rfl
    (gives_len_map (gives_attr (gives_name rfl) (by decide +kernel) rfl)) io

theorem SetDataReliablePdu.fixedDatumRecords_value {n : Nat} (x : Dis.SetDataReliablePdu) (io : Streams) :
    run (n + 1) I.SetDataReliablePdu I.fixedDatumRecords (SetDataReliablePdu.enc x) [] [] io = (.ok (.list (x._datums.fixedDatumRecords.map FixedDatum.enc)), SetDataReliablePdu.enc x, io) :=
  property_of (n := n + 0) (d := I.SetDataReliablePdu) (f := SetDataReliablePdu.fixedDatumRecords) rfl rfl rfl
    (gives_attr (gives_attr (gives_name rfl) (by decide +kernel) rfl) (by decide +kernel) rfl) io

theorem SetDataReliablePdu.variableDatumRecords_value {n : Nat} (x : Dis.SetDataReliablePdu) (io : Streams) :
    run (n + 1) I.SetDataReliablePdu I.variableDatumRecords (SetDataReliablePdu.enc x) [] [] io = (.ok (.list (x._datums.variableDatumRecords.map VariableDatum.enc)), SetDataReliablePdu.enc x, io) :=
  property_of (n := n + 0) (d := I.SetDataReliablePdu) (f := SetDataReliablePdu.variableDatumRecords) rfl rfl rfl
    (gives_attr (gives_attr (gives_name rfl) (by decide +kernel) rfl) (by decide +kernel) rfl) io

theorem DataPdu.fixedDatumRecords_value {n : Nat} (x : Dis.DataPdu) (io : Streams) :
    run (n + 1) I.DataPdu I.fixedDatumRecords (DataPdu.enc x) [] [] io = (.ok (.list (x._datums.fixedDatumRecords.map FixedDatum.enc)), DataPdu.enc x, io) :=
  property_of (n := n + 0) (d := I.DataPdu) (f := DataPdu.fixedDatumRecords) rfl rfl rfl
    (gives_attr (gives_attr (gives_name rfl) (by decide +kernel) rfl) (by decide +kernel) rfl) io

theorem DataPdu.variableDatumRecords_value {n : Nat} (x : Dis.DataPdu) (io : Streams) :
    run (n + 1) I.DataPdu I.variableDatumRecords (DataPdu.enc x) [] [] io = (.ok (.list (x._datums.variableDatumRecords.map VariableDatum.enc)), DataPdu.enc x, io) :=
  property_of (n := n + 0) (d := I.DataPdu) (f := DataPdu.variableDatumRecords) rfl rfl rfl
    (gives_attr (gives_attr (gives_name rfl) (by decide +kernel) rfl) (by decide +kernel) rfl) io

theorem ArealObjectStatePdu.numberOfPoints_value {n : Nat} (x : Dis.ArealObjectStatePdu) (io : Streams) :
    run (n + 1) I.ArealObjectStatePdu I.numberOfPoints (ArealObjectStatePdu.enc x) [] [] io = (.ok (.int x.objectLocation.length), ArealObjectStatePdu.enc x, io) :=
  property_of (n := n + 0) (d := I.ArealObjectStatePdu) (f := ArealObjectStatePdu.numberOfPoints) rfl rfl rfl
    (gives_len_map (gives_attr (gives_name rfl) (by decide +kernel) rfl)) io

theorem DataQueryReliablePdu.fixedDatumIDs_value {n : Nat} (x : Dis.DataQueryReliablePdu) (io : Streams) :
    run (n + 1) I.DataQueryReliablePdu I.fixedDatumIDs (DataQueryReliablePdu.enc x) [] [] io = (.ok (.list (x._dataQuery.fixedDatumIDs.map .int)), DataQueryReliablePdu.enc x, io) :=
  property_of (n := n + 0) (d := I.DataQueryReliablePdu) (f := DataQueryReliablePdu.fixedDatumIDs) rfl rfl rfl
    (gives_attr (gives_attr (gives_name rfl) (by decide +kernel) rfl) (by decide +kernel) rfl) io

theorem DataQueryReliablePdu.variableDatumIDs_value {n : Nat} (x : Dis.DataQueryReliablePdu) (io : Streams) :
    run (n + 1) I.DataQueryReliablePdu I.variableDatumIDs (DataQueryReliablePdu.enc x) [] [] io = (.ok (.list (x._dataQuery.variableDatumIDs.map .int)), DataQueryReliablePdu.enc x, io) :=
  property_of (n := n + 0) (d := I.DataQueryReliablePdu) (f := DataQueryReliablePdu.variableDatumIDs) rfl rfl rfl
    (gives_attr (gives_attr (gives_name rfl) (by decide +kernel) rfl) (by decide +kernel) rfl) io

theorem MinefieldStatePdu.numberOfPerimeterPoints_value {n : Nat} (x : Dis.MinefieldStatePdu) (io : Streams) :
    run (n + 1) I.MinefieldStatePdu I.numberOfPerimeterPoints (MinefieldStatePdu.enc x) [] [] io = (.ok (.int x.perimeterPoints.length), MinefieldStatePdu.enc x, io) :=
  property_of (n := n + 0) (d := I.MinefieldStatePdu) (f := MinefieldStatePdu.numberOfPerimeterPoints) rfl rfl rfl
    (gives_len_map (gives_attr (gives_name rfl) (by decide +kernel) rfl)) io

theorem MinefieldStatePdu.numberOfMineTypes_value {n : Nat} (x : Dis.MinefieldStatePdu) (io : Streams) :
    run (n + 1) I.MinefieldStatePdu I.numberOfMineTypes (MinefieldStatePdu.enc x) [] [] io = (.ok (.int x.mineTypes.length), MinefieldStatePdu.enc x, io) :=
  property_of (n := n + 0) (d := I.MinefieldStatePdu) (f := MinefieldStatePdu.numberOfMineTypes) rfl rfl rfl
    (gives_len_map (gives_attr (gives_name rfl) (by decide +kernel) rfl)) io

theorem DataReliablePdu.fixedDatumRecords_value {n : Nat} (x : Dis.DataReliablePdu) (io : Streams) :
    run (n + 1) I.DataReliablePdu I.fixedDatumRecords (DataReliablePdu.enc x) [] [] io = (.ok (.list (x._datums.fixedDatumRecords.map FixedDatum.enc)), DataReliablePdu.enc x, io) :=
  property_of (n := n + 0) (d := I.DataReliablePdu) (f := DataReliablePdu.fixedDatumRecords) rfl rfl rfl
    (gives_attr (gives_attr (gives_name rfl) (by decide +kernel) rfl) (by decide +kernel) rfl) io

theorem DataReliablePdu.variableDatumRecords_value {n : Nat} (x : Dis.DataReliablePdu) (io : Streams) :
    run (n + 1) I.DataReliablePdu I.variableDatumRecords (DataReliablePdu.enc x) [] [] io = (.ok (.list (x._datums.variableDatumRecords.map VariableDatum.enc)), DataReliablePdu.enc x, io) :=
  property_of (n := n + 0) (d := I.DataReliablePdu) (f := DataReliablePdu.variableDatumRecords) rfl rfl rfl
    (gives_attr (gives_attr (gives_name rfl) (by decide +kernel) rfl) (by decide +kernel) rfl) io

theorem CommentPdu.fixedDatumRecords_value {n : Nat} (x : Dis.CommentPdu) (io : Streams) :
    run (n + 1) I.CommentPdu I.fixedDatumRecords (CommentPdu.enc x) [] [] io = (.ok (.list (x._datums.fixedDatumRecords.map FixedDatum.enc)), CommentPdu.enc x, io) :=
  property_of (n := n + 0) (d := I.CommentPdu) (f := CommentPdu.fixedDatumRecords) rfl rfl rfl
    (gives_attr (gives_attr (gives_name rfl) (by decide +kernel) rfl) (by decide +kernel) rfl) io

theorem CommentPdu.variableDatumRecords_value {n : Nat} (x : Dis.CommentPdu) (io : Streams) :
    run (n + 1) I.CommentPdu I.variableDatumRecords (CommentPdu.enc x) [] [] io = (.ok (.list (x._datums.variableDatumRecords.map VariableDatum.enc)), CommentPdu.enc x, io) :=
  property_of (n := n + 0) (d := I.CommentPdu) (f := CommentPdu.variableDatumRecords) rfl rfl rfl
    (gives_attr (gives_attr (gives_name rfl) (by decide +kernel) rfl) (by decide +kernel) rfl) io

theorem CommentReliablePdu.fixedDatumRecords_value {n : Nat} (x : Dis.CommentReliablePdu) (io : Streams) :
    run (n + 1) I.CommentReliablePdu I.fixedDatumRecords (CommentReliablePdu.enc x) [] [] io = (.ok (.list (x._datums.fixedDatumRecords.map FixedDatum.enc)), CommentReliablePdu.enc x, io) :=
  property_of (n := n + 0) (d := I.CommentReliablePdu) (f := CommentReliablePdu.fixedDatumRecords) rfl rfl rfl
    (gives_attr (gives_attr (gives_name rfl) (by decide +kernel) rfl) (by decide +kernel) rfl) io

theorem CommentReliablePdu.variableDatumRecords_value {n : Nat} (x : Dis.CommentReliablePdu) (io : Streams) :
    run (n + 1) I.CommentReliablePdu I.variableDatumRecords (CommentReliablePdu.enc x) [] [] io = (.ok (.list (x._datums.variableDatumRecords.map VariableDatum.enc)), CommentReliablePdu.enc x, io) :=
  property_of (n := n + 0) (d := I.CommentReliablePdu) (f := CommentReliablePdu.variableDatumRecords) rfl rfl rfl
    (gives_attr (gives_attr (gives_name rfl) (by decide +kernel) rfl) (by decide +kernel) rfl) io

theorem DirectedEnergyFirePdu.numberOfDERecords_value {n : Nat} (x : Dis.DirectedEnergyFirePdu) (io : Streams) :
    run (n + 1) I.DirectedEnergyFirePdu I.numberOfDERecords (DirectedEnergyFirePdu.enc x) [] [] io = (.ok (.int x.dERecords.length), DirectedEnergyFirePdu.enc x, io) :=
  property_of (n := n + 0) (d := I.DirectedEnergyFirePdu) (f := DirectedEnergyFirePdu.numberOfDERecords) rfl rfl rfl
    (gives_len_map (gives_attr (gives_name rfl) (by decide +kernel) rfl)) io

theorem DetonationPdu.numberOfVariableParameters_value {n : Nat} (x : Dis.DetonationPdu) (io : Streams) :
    run (n + 1) I.DetonationPdu I.numberOfVariableParameters (DetonationPdu.enc x) [] [] io = (.ok (.int x.variableParameters.length), DetonationPdu.enc x, io) :=
  property_of (n := n + 0) (d := I.DetonationPdu) (f := DetonationPdu.numberOfVariableParameters) rfl rfl rfl
    (gives_len_map (gives_attr (gives_name rfl) (by decide +kernel) rfl)) io

theorem SetDataPdu.fixedDatumRecords_value {n : Nat} (x : Dis.SetDataPdu) (io : Streams) :
    run (n + 1) I.SetDataPdu I.fixedDatumRecords (SetDataPdu.enc x) [] [] io = (.ok (.list (x._datums.fixedDatumRecords.map FixedDatum.enc)), SetDataPdu.enc x, io) :=
  property_of (n := n + 0) (d := I.SetDataPdu) (f := SetDataPdu.fixedDatumRecords) rfl rfl rfl
    (gives_attr (gives_attr (gives_name rfl) (by decide +kernel) rfl) (by decide +kernel) rfl) io

theorem SetDataPdu.variableDatumRecords_value {n : Nat} (x : Dis.SetDataPdu) (io : Streams) :
    run (n + 1) I.SetDataPdu I.variableDatumRecords (SetDataPdu.enc x) [] [] io = (.ok (.list (x._datums.variableDatumRecords.map VariableDatum.enc)), SetDataPdu.enc x, io) :=
  property_of (n := n + 0) (d := I.SetDataPdu) (f := SetDataPdu.variableDatumRecords) rfl rfl rfl
    (gives_attr (gives_attr (gives_name rfl) (by decide +kernel) rfl) (by decide +kernel) rfl) io

theorem RecordQueryReliablePdu.numberOfRecords_value {n : Nat} (x : Dis.RecordQueryReliablePdu) (io : Streams) :
    run (n + 1) I.RecordQueryReliablePdu I.numberOfRecords (RecordQueryReliablePdu.enc x) [] [] io = (.ok (.int x.recordIDs.length), RecordQueryReliablePdu.enc x, io) :=
  property_of (n := n + 0) (d := I.RecordQueryReliablePdu) (f := RecordQueryReliablePdu.numberOfRecords) rfl rfl rfl
    (gives_len_map (gives_attr (gives_name rfl) (by decide +kernel) rfl)) io

theorem ActionResponsePdu.fixedDatumRecords_value {n : Nat} (x : Dis.ActionResponsePdu) (io : Streams) :
    run (n + 1) I.ActionResponsePdu I.fixedDatumRecords (ActionResponsePdu.enc x) [] [] io = (.ok (.list (x._datums.fixedDatumRecords.map FixedDatum.enc)), ActionResponsePdu.enc x, io) :=
  property_of (n := n + 0) (d := I.ActionResponsePdu) (f := ActionResponsePdu.fixedDatumRecords) rfl rfl rfl
    (gives_attr (gives_attr (gives_name rfl) (by decide +kernel) rfl) (by decide +kernel) rfl) io

theorem ActionResponsePdu.variableDatumRecords_value {n : Nat} (x : Dis.ActionResponsePdu) (io : Streams) :
    run (n + 1) I.ActionResponsePdu I.variableDatumRecords (ActionResponsePdu.enc x) [] [] io = (.ok (.list (x._datums.variableDatumRecords.map VariableDatum.enc)), ActionResponsePdu.enc x, io) :=
  property_of (n := n + 0) (d := I.ActionResponsePdu) (f := ActionResponsePdu.variableDatumRecords) rfl rfl rfl
    (gives_attr (gives_attr (gives_name rfl) (by decide +kernel) rfl) (by decide +kernel) rfl) io

theorem EntityDamageStatusPdu.damageDescriptionCount_value {n : Nat} (x : Dis.EntityDamageStatusPdu) (io : Streams) :
    run (n + 1) I.EntityDamageStatusPdu I.damageDescriptionCount (EntityDamageStatusPdu.enc x) [] [] io = (.ok (.int x.damageDescriptions.length), EntityDamageStatusPdu.enc x, io) :=
  property_of (n := n + 0) (d := I.EntityDamageStatusPdu) (f := EntityDamageStatusPdu.damageDescriptionCount) rfl rfl rfl
    (gives_len_map (gives_attr (gives_name rfl) (by decide +kernel) rfl)) io

theorem UaPdu.numberOfShafts_value {n : Nat} (x : Dis.UaPdu) (io : Streams) :
    run (n + 1) I.UaPdu I.numberOfShafts (UaPdu.enc x) [] [] io = (.ok (.int x.shaftRPMs.length), UaPdu.enc x, io) :=
  property_of (n := n + 0) (d := I.UaPdu) (f := UaPdu.numberOfShafts) rfl rfl rfl
    (gives_len_map (gives_attr (gives_name rfl) (by decide +kernel) rfl)) io

theorem UaPdu.numberOfAPAs_value {n : Nat} (x : Dis.UaPdu) (io : Streams) :
    run (n + 1) I.UaPdu I.numberOfAPAs (UaPdu.enc x) [] [] io = (.ok (.int x.apaData.length), UaPdu.enc x, io) :=
  property_of (n := n + 0) (d := I.UaPdu) (f := UaPdu.numberOfAPAs) rfl rfl rfl
    (gives_len_map (gives_attr (gives_name rfl) (by decide +kernel) rfl)) io

theorem UaPdu.numberOfUAEmitterSystems_value {n : Nat} (x : Dis.UaPdu) (io : Streams) :
    run (n + 1) I.UaPdu I.numberOfUAEmitterSystems (UaPdu.enc x) [] [] io = (.ok (.int x.emitterSystems.length), UaPdu.enc x, io) :=
  property_of (n := n + 0) (d := I.UaPdu) (f := UaPdu.numberOfUAEmitterSystems) rfl rfl rfl
    (gives_len_map (gives_attr (gives_name rfl) (by decide +kernel) rfl)) io

theorem SignalPdu.dataLength_value {n : Nat} (x : Dis.SignalPdu) (io : Streams) :
    run (n + 1) I.SignalPdu I.dataLength (SignalPdu.enc x) [] [] io = (.ok (.int (x.data.length * 8)), SignalPdu.enc x, io) :=
  property_of (n := n + 0) (d := I.SignalPdu) (f := SignalPdu.dataLength) rfl rfl rfl
    (gives_bin (gives_len_map (gives_attr (gives_name rfl) (by decide +kernel) rfl)) gives_int fun _ => rfl) io

theorem SeesPdu.numberOfPropulsionSystems_value {n : Nat} (x : Dis.SeesPdu) (io : Streams) :
    run (n + 1) I.SeesPdu I.numberOfPropulsionSystems (SeesPdu.enc x) [] [] io = (.ok (.int x.propulsionSystemData.length), SeesPdu.enc x, io) :=
  property_of (n := n + 0) (d := I.SeesPdu) (f := SeesPdu.numberOfPropulsionSystems) rfl rfl rfl
    (gives_len_map (gives_attr (gives_name rfl) (by decide +kernel) rfl)) io

theorem SeesPdu.numberOfVectoringNozzleSystems_value {n : Nat} (x : Dis.SeesPdu) (io : Streams) :
    run (n + 1) I.SeesPdu I.numberOfVectoringNozzleSystems (SeesPdu.enc x) [] [] io = (.ok (.int x.vectoringSystemData.length), SeesPdu.enc x, io) :=
  property_of (n := n + 0) (d := I.SeesPdu) (f := SeesPdu.numberOfVectoringNozzleSystems) rfl rfl rfl
    (gives_len_map (gives_attr (gives_name rfl) (by decide +kernel) rfl)) io

theorem EventReportReliablePdu.fixedDatumRecords_value {n : Nat} (x : Dis.EventReportReliablePdu) (io : Streams) :
    run (n + 1) I.EventReportReliablePdu I.fixedDatumRecords (EventReportReliablePdu.enc x) [] [] io = (.ok (.list (x._datums.fixedDatumRecords.map FixedDatum.enc)), EventReportReliablePdu.enc x, io) :=
  property_of (n := n + 0) (d := I.EventReportReliablePdu) (f := EventReportReliablePdu.fixedDatumRecords) rfl rfl rfl
    (gives_attr (gives_attr (gives_name rfl) (by decide +kernel) rfl) (by decide +kernel) rfl) io

theorem EventReportReliablePdu.variableDatumRecords_value {n : Nat} (x : Dis.EventReportReliablePdu) (io : Streams) :
    run (n + 1) I.EventReportReliablePdu I.variableDatumRecords (EventReportReliablePdu.enc x) [] [] io = (.ok (.list (x._datums.variableDatumRecords.map VariableDatum.enc)), EventReportReliablePdu.enc x, io) :=
  property_of (n := n + 0) (d := I.EventReportReliablePdu) (f := EventReportReliablePdu.variableDatumRecords) rfl rfl rfl
    (gives_attr (gives_attr (gives_name rfl) (by decide +kernel) rfl) (by decide +kernel) rfl) io

theorem MinefieldResponseNackPdu.numberOfMissingPdus_value {n : Nat} (x : Dis.MinefieldResponseNackPdu) (io : Streams) :
    run (n + 1) I.MinefieldResponseNackPdu I.numberOfMissingPdus (MinefieldResponseNackPdu.enc x) [] [] io = (.ok (.int x.missingPduSequenceNumbers.length), MinefieldResponseNackPdu.enc x, io) :=
  property_of (n := n + 0) (d := I.MinefieldResponseNackPdu) (f := MinefieldResponseNackPdu.numberOfMissingPdus) rfl rfl rfl
    (gives_len_map (gives_attr (gives_name rfl) (by decide +kernel) rfl)) io

theorem ActionResponseReliablePdu.fixedDatumRecords_value {n : Nat} (x : Dis.ActionResponseReliablePdu) (io : Streams) :
    run (n + 1) I.ActionResponseReliablePdu I.fixedDatumRecords (ActionResponseReliablePdu.enc x) [] [] io = (.ok (.list (x._datums.fixedDatumRecords.map FixedDatum.enc)), ActionResponseReliablePdu.enc x, io) :=
  property_of (n := n + 0) (d := I.ActionResponseReliablePdu) (f := ActionResponseReliablePdu.fixedDatumRecords) rfl rfl rfl
    (gives_attr (gives_attr (gives_name rfl) (by decide +kernel) rfl) (by decide +kernel) rfl) io

theorem ActionResponseReliablePdu.variableDatumRecords_value {n : Nat} (x : Dis.ActionResponseReliablePdu) (io : Streams) :
    run (n + 1) I.ActionResponseReliablePdu I.variableDatumRecords (ActionResponseReliablePdu.enc x) [] [] io = (.ok (.list (x._datums.variableDatumRecords.map VariableDatum.enc)), ActionResponseReliablePdu.enc x, io) :=
  property_of (n := n + 0) (d := I.ActionResponseReliablePdu) (f := ActionResponseReliablePdu.variableDatumRecords) rfl rfl rfl
    (gives_attr (gives_attr (gives_name rfl) (by decide +kernel) rfl) (by decide +kernel) rfl) io

theorem AggregateStatePdu.numberOfAggregateIDs_value {n : Nat} (x : Dis.AggregateStatePdu) (io : Streams) :
    run (n + 1) I.AggregateStatePdu I.numberOfAggregateIDs (AggregateStatePdu.enc x) [] [] io = (.ok (.int x.aggregateIDs.length), AggregateStatePdu.enc x, io) :=
  property_of (n := n + 0) (d := I.AggregateStatePdu) (f := AggregateStatePdu.numberOfAggregateIDs) rfl rfl rfl
    (gives_len_map (gives_attr (gives_name rfl) (by decide +kernel) rfl)) io

theorem AggregateStatePdu.numberOfEntityIDs_value {n : Nat} (x : Dis.AggregateStatePdu) (io : Streams) :
    run (n + 1) I.AggregateStatePdu I.numberOfEntityIDs (AggregateStatePdu.enc x) [] [] io = (.ok (.int x.entityIDs.length), AggregateStatePdu.enc x, io) :=
  property_of (n := n + 0) (d := I.AggregateStatePdu) (f := AggregateStatePdu.numberOfEntityIDs) rfl rfl rfl
    (gives_len_map (gives_attr (gives_name rfl) (by decide +kernel) rfl)) io

theorem AggregateStatePdu.numberOfSilentAggregateSystems_value {n : Nat} (x : Dis.AggregateStatePdu) (io : Streams) :
    run (n + 1) I.AggregateStatePdu I.numberOfSilentAggregateSystems (AggregateStatePdu.enc x) [] [] io = (.ok (.int x.silentAggregateSystems.length), AggregateStatePdu.enc x, io) :=
  property_of (n := n + 0) (d := I.AggregateStatePdu) (f := AggregateStatePdu.numberOfSilentAggregateSystems) rfl rfl rfl
    (gives_len_map (gives_attr (gives_name rfl) (by decide +kernel) rfl)) io

theorem AggregateStatePdu.numberOfSilentEntitySystems_value {n : Nat} (x : Dis.AggregateStatePdu) (io : Streams) :
    run (n + 1) I.AggregateStatePdu I.numberOfSilentEntitySystems (AggregateStatePdu.enc x) [] [] io = (.ok (.int x.silentEntitySystems.length), AggregateStatePdu.enc x, io) :=
  property_of (n := n + 0) (d := I.AggregateStatePdu) (f := AggregateStatePdu.numberOfSilentEntitySystems) rfl rfl rfl
    (gives_len_map (gives_attr (gives_name rfl) (by decide +kernel) rfl)) io

theorem AggregateStatePdu.numberOfVariableDatumRecords_value {n : Nat} (x : Dis.AggregateStatePdu) (io : Streams) :
    run (n + 1) I.AggregateStatePdu I.numberOfVariableDatumRecords (AggregateStatePdu.enc x) [] [] io = (.ok (.int x.variableDatumRecords.length), AggregateStatePdu.enc x, io) :=
  property_of (n := n + 0) (d := I.AggregateStatePdu) (f := AggregateStatePdu.numberOfVariableDatumRecords) rfl rfl rfl
    (gives_len_map (gives_attr (gives_name rfl) (by decide +kernel) rfl)) io

theorem DataQueryPdu.numberOfFixedDatumIDs_value {n : Nat} (x : Dis.DataQueryPdu) (io : Streams) :
    run (n + 8) I.DataQueryPdu I.numberOfFixedDatumIDs (DataQueryPdu.enc x) [] [] io = (.ok (.int x._dataQuery.fixedDatumIDs.length), DataQueryPdu.enc x, io) :=
  property_of (n := n + 7) (d := I.DataQueryPdu) (f := DataQueryPdu.numberOfFixedDatumIDs) rfl rfl rfl
    (gives_property (gives_attr (gives_name rfl) (by decide +kernel) rfl) (by decide +kernel) (DataQueryDatumSpecification.numberOfFixedDatumIDs_value (n := n + 6) x._dataQuery)) io

theorem DataQueryPdu.numberOfVariableDatumIDs_value {n : Nat} (x : Dis.DataQueryPdu) (io : Streams) :
    run (n + 8) I.DataQueryPdu I.numberOfVariableDatumIDs (DataQueryPdu.enc x) [] [] io = (.ok (.int x._dataQuery.variableDatumIDs.length), DataQueryPdu.enc x, io) :=
  property_of (n := n + 7) (d := I.DataQueryPdu) (f := DataQueryPdu.numberOfVariableDatumIDs) rfl rfl rfl
    (gives_property (gives_attr (gives_name rfl) (by decide +kernel) rfl) (by decide +kernel) (DataQueryDatumSpecification.numberOfVariableDatumIDs_value (n := n + 6) x._dataQuery)) io

theorem ActionRequestPdu.numberOfFixedDatumRecords_value {n : Nat} (x : Dis.ActionRequestPdu) (io : Streams) :
    run (n + 8) I.ActionRequestPdu I.numberOfFixedDatumRecords (ActionRequestPdu.enc x) [] [] io = (.ok (.int x._datums.fixedDatumRecords.length), ActionRequestPdu.enc x, io) :=
  property_of (n := n + 7) (d := I.ActionRequestPdu) (f := ActionRequestPdu.numberOfFixedDatumRecords) rfl rfl rfl
    (gives_property (gives_attr (gives_name rfl) (by decide +kernel) rfl) (by decide +kernel) (DatumSpecification.numberOfFixedDatumRecords_value (n := n + 6) x._datums)) io

theorem ActionRequestPdu.numberOfVariableDatumRecords_value {n : Nat} (x : Dis.ActionRequestPdu) (io : Streams) :
    run (n + 8) I.ActionRequestPdu I.numberOfVariableDatumRecords (ActionRequestPdu.enc x) [] [] io = (.ok (.int x._datums.variableDatumRecords.length), ActionRequestPdu.enc x, io) :=
  property_of (n := n + 7) (d := I.ActionRequestPdu) (f := ActionRequestPdu.numberOfVariableDatumRecords) rfl rfl rfl
    (gives_property (gives_attr (gives_name rfl) (by decide +kernel) rfl) (by decide +kernel) (DatumSpecification.numberOfVariableDatumRecords_value (n := n + 6) x._datums)) io

theorem ActionRequestReliablePdu.numberOfFixedDatumRecords_value {n : Nat} (x : Dis.ActionRequestReliablePdu) (io : Streams) :
    run (n + 8) I.ActionRequestReliablePdu I.numberOfFixedDatumRecords (ActionRequestReliablePdu.enc x) [] [] io = (.ok (.int x._datums.fixedDatumRecords.length), ActionRequestReliablePdu.enc x, io) :=
  property_of (n := n + 7) (d := I.ActionRequestReliablePdu) (f := ActionRequestReliablePdu.numberOfFixedDatumRecords) rfl rfl rfl
    (gives_property (gives_attr (gives_name rfl) (by decide +kernel) rfl) (by decide +kernel) (DatumSpecification.numberOfFixedDatumRecords_value (n := n + 6) x._datums)) io

theorem ActionRequestReliablePdu.numberOfVariableDatumRecords_value {n : Nat} (x : Dis.ActionRequestReliablePdu) (io : Streams) :
    run (n + 8) I.ActionRequestReliablePdu I.numberOfVariableDatumRecords (ActionRequestReliablePdu.enc x) [] [] io = (.ok (.int x._datums.variableDatumRecords.length), ActionRequestReliablePdu.enc x, io) :=
  property_of (n := n + 7) (d := I.ActionRequestReliablePdu) (f := ActionRequestReliablePdu.numberOfVariableDatumRecords) rfl rfl rfl
    (gives_property (gives_attr (gives_name rfl) (by decide +kernel) rfl) (by decide +kernel) (DatumSpecification.numberOfVariableDatumRecords_value (n := n + 6) x._datums)) io

theorem SetDataReliablePdu.numberOfFixedDatumRecords_value {n : Nat} (x : Dis.SetDataReliablePdu) (io : Streams) :
    run (n + 8) I.SetDataReliablePdu I.numberOfFixedDatumRecords (SetDataReliablePdu.enc x) [] [] io = (.ok (.int x._datums.fixedDatumRecords.length), SetDataReliablePdu.enc x, io) :=
  property_of (n := n + 7) (d := I.SetDataReliablePdu) (f := SetDataReliablePdu.numberOfFixedDatumRecords) rfl rfl rfl
    (gives_property (gives_attr (gives_name rfl) (by decide +kernel) rfl) (by decide +kernel) (DatumSpecification.numberOfFixedDatumRecords_value (n := n + 6) x._datums)) io

theorem SetDataReliablePdu.numberOfVariableDatumRecords_value {n : Nat} (x : Dis.SetDataReliablePdu) (io : Streams) :
    run (n + 8) I.SetDataReliablePdu I.numberOfVariableDatumRecords (SetDataReliablePdu.enc x) [] [] io = (.ok (.int x._datums.variableDatumRecords.length), SetDataReliablePdu.enc x, io) :=
  property_of (n := n + 7) (d := I.SetDataReliablePdu) (f := SetDataReliablePdu.numberOfVariableDatumRecords) rfl rfl rfl
    (gives_property (gives_attr (gives_name rfl) (by decide +kernel) rfl) (by decide +kernel) (DatumSpecification.numberOfVariableDatumRecords_value (n := n + 6) x._datums)) io

theorem DataPdu.numberOfFixedDatumRecords_value {n : Nat} (x : Dis.DataPdu) (io : Streams) :
    run (n + 8) I.DataPdu I.numberOfFixedDatumRecords (DataPdu.enc x) [] [] io = (.ok (.int x._datums.fixedDatumRecords.length), DataPdu.enc x, io) :=
  property_of (n := n + 7) (d := I.DataPdu) (f := DataPdu.numberOfFixedDatumRecords) rfl rfl rfl
    (gives_property (gives_attr (gives_name rfl) (by decide +kernel) rfl) (by decide +kernel) (DatumSpecification.numberOfFixedDatumRecords_value (n := n + 6) x._datums)) io

theorem DataPdu.numberOfVariableDatumRecords_value {n : Nat} (x : Dis.DataPdu) (io : Streams) :
    run (n + 8) I.DataPdu I.numberOfVariableDatumRecords (DataPdu.enc x) [] [] io = (.ok (.int x._datums.variableDatumRecords.length), DataPdu.enc x, io) :=
  property_of (n := n + 7) (d := I.DataPdu) (f := DataPdu.numberOfVariableDatumRecords) rfl rfl rfl
    (gives_property (gives_attr (gives_name rfl) (by decide +kernel) rfl) (by decide +kernel) (DatumSpecification.numberOfVariableDatumRecords_value (n := n + 6) x._datums)) io

theorem DataQueryReliablePdu.numberOfFixedDatumIDs_value {n : Nat} (x : Dis.DataQueryReliablePdu) (io : Streams) :
    run (n + 8) I.DataQueryReliablePdu I.numberOfFixedDatumIDs (DataQueryReliablePdu.enc x) [] [] io = (.ok (.int x._dataQuery.fixedDatumIDs.length), DataQueryReliablePdu.enc x, io) :=
  property_of (n := n + 7) (d := I.DataQueryReliablePdu) (f := DataQueryReliablePdu.numberOfFixedDatumIDs) rfl rfl rfl
    (gives_property (gives_attr (gives_name rfl) (by decide +kernel) rfl) (by decide +kernel) (DataQueryDatumSpecification.numberOfFixedDatumIDs_value (n := n + 6) x._dataQuery)) io

theorem DataQueryReliablePdu.numberOfVariableDatumIDs_value {n : Nat} (x : Dis.DataQueryReliablePdu) (io : Streams) :
    run (n + 8) I.DataQueryReliablePdu I.numberOfVariableDatumIDs (DataQueryReliablePdu.enc x) [] [] io = (.ok (.int x._dataQuery.variableDatumIDs.length), DataQueryReliablePdu.enc x, io) :=
  property_of (n := n + 7) (d := I.DataQueryReliablePdu) (f := DataQueryReliablePdu.numberOfVariableDatumIDs) rfl rfl rfl
    (gives_property (gives_attr (gives_name rfl) (by decide +kernel) rfl) (by decide +kernel) (DataQueryDatumSpecification.numberOfVariableDatumIDs_value (n := n + 6) x._dataQuery)) io

theorem DataReliablePdu.numberOfFixedDatumRecords_value {n : Nat} (x : Dis.DataReliablePdu) (io : Streams) :
    run (n + 8) I.DataReliablePdu I.numberOfFixedDatumRecords (DataReliablePdu.enc x) [] [] io = (.ok (.int x._datums.fixedDatumRecords.length), DataReliablePdu.enc x, io) :=
  property_of (n := n + 7) (d := I.DataReliablePdu) (f := DataReliablePdu.numberOfFixedDatumRecords) rfl rfl rfl
    (gives_property (gives_attr (gives_name rfl) (by decide +kernel) rfl) (by decide +kernel) (DatumSpecification.numberOfFixedDatumRecords_value (n := n + 6) x._datums)) io

theorem DataReliablePdu.numberOfVariableDatumRecords_value {n : Nat} (x : Dis.DataReliablePdu) (io : Streams) :
    run (n + 8) I.DataReliablePdu I.numberOfVariableDatumRecords (DataReliablePdu.enc x) [] [] io = (.ok (.int x._datums.variableDatumRecords.length), DataReliablePdu.enc x, io) :=
  property_of (n := n + 7) (d := I.DataReliablePdu) (f := DataReliablePdu.numberOfVariableDatumRecords) rfl rfl rfl
    (gives_property (gives_attr (gives_name rfl) (by decide +kernel) rfl) (by decide +kernel) (DatumSpecification.numberOfVariableDatumRecords_value (n := n + 6) x._datums)) io

theorem CommentPdu.numberOfFixedDatumRecords_value {n : Nat} (x : Dis.CommentPdu) (io : Streams) :
    run (n + 8) I.CommentPdu I.numberOfFixedDatumRecords (CommentPdu.enc x) [] [] io = (.ok (.int x._datums.fixedDatumRecords.length), CommentPdu.enc x, io) :=
  property_of (n := n + 7) (d := I.CommentPdu) (f := CommentPdu.numberOfFixedDatumRecords) rfl rfl rfl
    (gives_property (gives_attr (gives_name rfl) (by decide +kernel) rfl) (by decide +kernel) (DatumSpecification.numberOfFixedDatumRecords_value (n := n + 6) x._datums)) io

theorem CommentPdu.numberOfVariableDatumRecords_value {n : Nat} (x : Dis.CommentPdu) (io : Streams) :
    run (n + 8) I.CommentPdu I.numberOfVariableDatumRecords (CommentPdu.enc x) [] [] io = (.ok (.int x._datums.variableDatumRecords.length), CommentPdu.enc x, io) :=
  property_of (n := n + 7) (d := I.CommentPdu) (f := CommentPdu.numberOfVariableDatumRecords) rfl rfl rfl
    (gives_property (gives_attr (gives_name rfl) (by decide +kernel) rfl) (by decide +kernel) (DatumSpecification.numberOfVariableDatumRecords_value (n := n + 6) x._datums)) io

theorem CommentReliablePdu.numberOfFixedDatumRecords_value {n : Nat} (x : Dis.CommentReliablePdu) (io : Streams) :
    run (n + 8) I.CommentReliablePdu I.numberOfFixedDatumRecords (CommentReliablePdu.enc x) [] [] io = (.ok (.int x._datums.fixedDatumRecords.length), CommentReliablePdu.enc x, io) :=
  property_of (n := n + 7) (d := I.CommentReliablePdu) (f := CommentReliablePdu.numberOfFixedDatumRecords) rfl rfl rfl
    (gives_property (gives_attr (gives_name rfl) (by decide +kernel) rfl) (by decide +kernel) (DatumSpecification.numberOfFixedDatumRecords_value (n := n + 6) x._datums)) io

theorem CommentReliablePdu.numberOfVariableDatumRecords_value {n : Nat} (x : Dis.CommentReliablePdu) (io : Streams) :
    run (n + 8) I.CommentReliablePdu I.numberOfVariableDatumRecords (CommentReliablePdu.enc x) [] [] io = (.ok (.int x._datums.variableDatumRecords.length), CommentReliablePdu.enc x, io) :=
  property_of (n := n + 7) (d := I.CommentReliablePdu) (f := CommentReliablePdu.numberOfVariableDatumRecords) rfl rfl rfl
    (gives_property (gives_attr (gives_name rfl) (by decide +kernel) rfl) (by decide +kernel) (DatumSpecification.numberOfVariableDatumRecords_value (n := n + 6) x._datums)) io

theorem SetDataPdu.numberOfFixedDatumRecords_value {n : Nat} (x : Dis.SetDataPdu) (io : Streams) :
    run (n + 8) I.SetDataPdu I.numberOfFixedDatumRecords (SetDataPdu.enc x) [] [] io = (.ok (.int x._datums.fixedDatumRecords.length), SetDataPdu.enc x, io) :=
  property_of (n := n + 7) (d := I.SetDataPdu) (f := SetDataPdu.numberOfFixedDatumRecords) rfl rfl rfl
    (gives_property (gives_attr (gives_name rfl) (by decide +kernel) rfl) (by decide +kernel) (DatumSpecification.numberOfFixedDatumRecords_value (n := n + 6) x._datums)) io

theorem SetDataPdu.numberOfVariableDatumRecords_value {n : Nat} (x : Dis.SetDataPdu) (io : Streams) :
    run (n + 8) I.SetDataPdu I.numberOfVariableDatumRecords (SetDataPdu.enc x) [] [] io = (.ok (.int x._datums.variableDatumRecords.length), SetDataPdu.enc x, io) :=
  property_of (n := n + 7) (d := I.SetDataPdu) (f := SetDataPdu.numberOfVariableDatumRecords) rfl rfl rfl
    (gives_property (gives_attr (gives_name rfl) (by decide +kernel) rfl) (by decide +kernel) (DatumSpecification.numberOfVariableDatumRecords_value (n := n + 6) x._datums)) io

theorem ActionResponsePdu.numberOfFixedDatumRecords_value {n : Nat} (x : Dis.ActionResponsePdu) (io : Streams) :
    run (n + 8) I.ActionResponsePdu I.numberOfFixedDatumRecords (ActionResponsePdu.enc x) [] [] io = (.ok (.int x._datums.fixedDatumRecords.length), ActionResponsePdu.enc x, io) :=
  property_of (n := n + 7) (d := I.ActionResponsePdu) (f := ActionResponsePdu.numberOfFixedDatumRecords) rfl rfl rfl
    (gives_property (gives_attr (gives_name rfl) (by decide +kernel) rfl) (by decide +kernel) (DatumSpecification.numberOfFixedDatumRecords_value (n := n + 6) x._datums)) io

theorem ActionResponsePdu.numberOfVariableDatumRecords_value {n : Nat} (x : Dis.ActionResponsePdu) (io : Streams) :
    run (n + 8) I.ActionResponsePdu I.numberOfVariableDatumRecords (ActionResponsePdu.enc x) [] [] io = (.ok (.int x._datums.variableDatumRecords.length), ActionResponsePdu.enc x, io) :=
  property_of (n := n + 7) (d := I.ActionResponsePdu) (f := ActionResponsePdu.numberOfVariableDatumRecords) rfl rfl rfl
    (gives_property (gives_attr (gives_name rfl) (by decide +kernel) rfl) (by decide +kernel) (DatumSpecification.numberOfVariableDatumRecords_value (n := n + 6) x._datums)) io

theorem EventReportReliablePdu.numberOfFixedDatumRecords_value {n : Nat} (x : Dis.EventReportReliablePdu) (io : Streams) :
    run (n + 8) I.EventReportReliablePdu I.numberOfFixedDatumRecords (EventReportReliablePdu.enc x) [] [] io = (.ok (.int x._datums.fixedDatumRecords.length), EventReportReliablePdu.enc x, io) :=
  property_of (n := n + 7) (d := I.EventReportReliablePdu) (f := EventReportReliablePdu.numberOfFixedDatumRecords) rfl rfl rfl
    (gives_property (gives_attr (gives_name rfl) (by decide +kernel) rfl) (by decide +kernel) (DatumSpecification.numberOfFixedDatumRecords_value (n := n + 6) x._datums)) io

theorem EventReportReliablePdu.numberOfVariableDatumRecords_value {n : Nat} (x : Dis.EventReportReliablePdu) (io : Streams) :
    run (n + 8) I.EventReportReliablePdu I.numberOfVariableDatumRecords (EventReportReliablePdu.enc x) [] [] io = (.ok (.int x._datums.variableDatumRecords.length), EventReportReliablePdu.enc x, io) :=
  property_of (n := n + 7) (d := I.EventReportReliablePdu) (f := EventReportReliablePdu.numberOfVariableDatumRecords) rfl rfl rfl
    (gives_property (gives_attr (gives_name rfl) (by decide +kernel) rfl) (by decide +kernel) (DatumSpecification.numberOfVariableDatumRecords_value (n := n + 6) x._datums)) io

theorem ActionResponseReliablePdu.numberOfFixedDatumRecords_value {n : Nat} (x : Dis.ActionResponseReliablePdu) (io : Streams) :
    run (n + 8) I.ActionResponseReliablePdu I.numberOfFixedDatumRecords (ActionResponseReliablePdu.enc x) [] [] io = (.ok (.int x._datums.fixedDatumRecords.length), ActionResponseReliablePdu.enc x, io) :=
  property_of (n := n + 7) (d := I.ActionResponseReliablePdu) (f := ActionResponseReliablePdu.numberOfFixedDatumRecords) rfl rfl rfl
    (gives_property (gives_attr (gives_name rfl) (by decide +kernel) rfl) (by decide +kernel) (DatumSpecification.numberOfFixedDatumRecords_value (n := n + 6) x._datums)) io

theorem ActionResponseReliablePdu.numberOfVariableDatumRecords_value {n : Nat} (x : Dis.ActionResponseReliablePdu) (io : Streams) :
    run (n + 8) I.ActionResponseReliablePdu I.numberOfVariableDatumRecords (ActionResponseReliablePdu.enc x) [] [] io = (.ok (.int x._datums.variableDatumRecords.length), ActionResponseReliablePdu.enc x, io) :=
  property_of (n := n + 7) (d := I.ActionResponseReliablePdu) (f := ActionResponseReliablePdu.numberOfVariableDatumRecords) rfl rfl rfl
    (gives_property (gives_attr (gives_name rfl) (by decide +kernel) rfl) (by decide +kernel) (DatumSpecification.numberOfVariableDatumRecords_value (n := n + 6) x._datums)) io

theorem Derived.DataQueryDatumSpecification.numberOfFixedDatumIDs.lawful : Derived.DataQueryDatumSpecification.numberOfFixedDatumIDs.Lawful where
  prop := by decide +kernel
  reads := fun n x io => DataQueryDatumSpecification.numberOfFixedDatumIDs_value (n := n + 7) x io

theorem Derived.DataQueryDatumSpecification.numberOfVariableDatumIDs.lawful : Derived.DataQueryDatumSpecification.numberOfVariableDatumIDs.Lawful where
  prop := by decide +kernel
  reads := fun n x io => DataQueryDatumSpecification.numberOfVariableDatumIDs_value (n := n + 7) x io

theorem Derived.IFFDataSpecification.numberOfIFFDataRecords.lawful : Derived.IFFDataSpecification.numberOfIFFDataRecords.Lawful where
  prop := by decide +kernel
  reads := fun n x io => IFFDataSpecification.numberOfIFFDataRecords_value (n := n + 7) x io

theorem Derived.RecordQuerySpecification.numberOfRecords.lawful : Derived.RecordQuerySpecification.numberOfRecords.Lawful where
  prop := by decide +kernel
  reads := fun n x io => RecordQuerySpecification.numberOfRecords_value (n := n + 7) x io

theorem Derived.DatumSpecification.numberOfFixedDatumRecords.lawful : Derived.DatumSpecification.numberOfFixedDatumRecords.Lawful where
  prop := by decide +kernel
  reads := fun n x io => DatumSpecification.numberOfFixedDatumRecords_value (n := n + 7) x io

theorem Derived.DatumSpecification.numberOfVariableDatumRecords.lawful : Derived.DatumSpecification.numberOfVariableDatumRecords.Lawful where
  prop := by decide +kernel
  reads := fun n x io => DatumSpecification.numberOfVariableDatumRecords_value (n := n + 7) x io

theorem Derived.SilentEntitySystem.numberOfAppearanceRecords.lawful : Derived.SilentEntitySystem.numberOfAppearanceRecords.Lawful where
  prop := by decide +kernel
  reads := fun n x io => SilentEntitySystem.numberOfAppearanceRecords_value (n := n + 7) x io

theorem Derived.StandardVariableSpecification.numberOfStandardVariableRecords.lawful : Derived.StandardVariableSpecification.numberOfStandardVariableRecords.Lawful where
  prop := by decide +kernel
  reads := fun n x io => StandardVariableSpecification.numberOfStandardVariableRecords_value (n := n + 7) x io

theorem Derived.RecordSpecification.numberOfRecordSets.lawful : Derived.RecordSpecification.numberOfRecordSets.Lawful where
  prop := by decide +kernel
  reads := fun n x io => RecordSpecification.numberOfRecordSets_value (n := n + 7) x io

theorem Derived.EntityStateUpdatePdu.numberOfVariableParameters.lawful : Derived.EntityStateUpdatePdu.numberOfVariableParameters.Lawful where
  prop := by decide +kernel
  reads := fun n x io => EntityStateUpdatePdu.numberOfVariableParameters_value (n := n + 7) x io

theorem Derived.ServiceRequestPdu.numberOfSupplyTypes.lawful : Derived.ServiceRequestPdu.numberOfSupplyTypes.Lawful where
  prop := by decide +kernel
  reads := fun n x io => ServiceRequestPdu.numberOfSupplyTypes_value (n := n + 7) x io

theorem Derived.DataQueryPdu.numberOfFixedDatumIDs.lawful : Derived.DataQueryPdu.numberOfFixedDatumIDs.Lawful where
  prop := by decide +kernel
  reads := fun n x io => DataQueryPdu.numberOfFixedDatumIDs_value (n := n) x io

theorem Derived.DataQueryPdu.numberOfVariableDatumIDs.lawful : Derived.DataQueryPdu.numberOfVariableDatumIDs.Lawful where
  prop := by decide +kernel
  reads := fun n x io => DataQueryPdu.numberOfVariableDatumIDs_value (n := n) x io

theorem Derived.DataQueryPdu.fixedDatumIDs.lawful : Derived.DataQueryPdu.fixedDatumIDs.Lawful where
  prop := by decide +kernel
  reads := fun n x io => DataQueryPdu.fixedDatumIDs_value (n := n + 7) x io

theorem Derived.DataQueryPdu.variableDatumIDs.lawful : Derived.DataQueryPdu.variableDatumIDs.Lawful where
  prop := by decide +kernel
  reads := fun n x io => DataQueryPdu.variableDatumIDs_value (n := n + 7) x io

theorem Derived.IntercomSignalPdu.dataLength.lawful : Derived.IntercomSignalPdu.dataLength.Lawful where
  prop := by decide +kernel
  reads := fun n x io => IntercomSignalPdu.dataLength_value (n := n + 7) x io

theorem Derived.ResupplyReceivedPdu.numberOfSupplyTypes.lawful : Derived.ResupplyReceivedPdu.numberOfSupplyTypes.Lawful where
  prop := by decide +kernel
  reads := fun n x io => ResupplyReceivedPdu.numberOfSupplyTypes_value (n := n + 7) x io

theorem Derived.ActionRequestPdu.numberOfFixedDatumRecords.lawful : Derived.ActionRequestPdu.numberOfFixedDatumRecords.Lawful where
  prop := by decide +kernel
  reads := fun n x io => ActionRequestPdu.numberOfFixedDatumRecords_value (n := n) x io

theorem Derived.ActionRequestPdu.numberOfVariableDatumRecords.lawful : Derived.ActionRequestPdu.numberOfVariableDatumRecords.Lawful where
  prop := by decide +kernel
  reads := fun n x io => ActionRequestPdu.numberOfVariableDatumRecords_value (n := n) x io

theorem Derived.ActionRequestPdu.fixedDatumRecords.lawful : Derived.ActionRequestPdu.fixedDatumRecords.Lawful where
  prop := by decide +kernel
  reads := fun n x io => ActionRequestPdu.fixedDatumRecords_value (n := n + 7) x io

theorem Derived.ActionRequestPdu.variableDatumRecords.lawful : Derived.ActionRequestPdu.variableDatumRecords.Lawful where
  prop := by decide +kernel
  reads := fun n x io => ActionRequestPdu.variableDatumRecords_value (n := n + 7) x io

theorem Derived.ActionRequestReliablePdu.numberOfFixedDatumRecords.lawful : Derived.ActionRequestReliablePdu.numberOfFixedDatumRecords.Lawful where
  prop := by decide +kernel
  reads := fun n x io => ActionRequestReliablePdu.numberOfFixedDatumRecords_value (n := n) x io

theorem Derived.ActionRequestReliablePdu.numberOfVariableDatumRecords.lawful : Derived.ActionRequestReliablePdu.numberOfVariableDatumRecords.Lawful where
  prop := by decide +kernel
  reads := fun n x io => ActionRequestReliablePdu.numberOfVariableDatumRecords_value (n := n) x io

theorem Derived.ActionRequestReliablePdu.fixedDatumRecords.lawful : Derived.ActionRequestReliablePdu.fixedDatumRecords.Lawful where
  prop := by decide +kernel
  reads := fun n x io => ActionRequestReliablePdu.fixedDatumRecords_value (n := n + 7) x io

theorem Derived.ActionRequestReliablePdu.variableDatumRecords.lawful : Derived.ActionRequestReliablePdu.variableDatumRecords.Lawful where
  prop := by decide +kernel
  reads := fun n x io => ActionRequestReliablePdu.variableDatumRecords_value (n := n + 7) x io

theorem Derived.EntityStatePdu.numberOfVariableParameters.lawful : Derived.EntityStatePdu.numberOfVariableParameters.Lawful where
  prop := by decide +kernel
  reads := fun n x io => EntityStatePdu.numberOfVariableParameters_value (n := n + 7) x io

theorem Derived.ElectromagneticEmissionsPdu.numberOfSystems.lawful : Derived.ElectromagneticEmissionsPdu.numberOfSystems.Lawful where
  prop := by decide +kernel
  reads := fun n x io => ElectromagneticEmissionsPdu.numberOfSystems_value (n := n + 7) x io

theorem Derived.EmissionSystemBeamRecord.numberOfTargetsInTrackJam.lawful : Derived.EmissionSystemBeamRecord.numberOfTargetsInTrackJam.Lawful where
  prop := by decide +kernel
  reads := fun n x io => EmissionSystemBeamRecord.numberOfTargetsInTrackJam_value (n := n + 7) x io

theorem Derived.EmissionSystemRecord.numberOfBeams.lawful : Derived.EmissionSystemRecord.numberOfBeams.Lawful where
  prop := by decide +kernel
  reads := fun n x io => EmissionSystemRecord.numberOfBeams_value (n := n + 7) x io

theorem Derived.ResupplyOfferPdu.numberOfSupplyTypes.lawful : Derived.ResupplyOfferPdu.numberOfSupplyTypes.Lawful where
  prop := by decide +kernel
  reads := fun n x io => ResupplyOfferPdu.numberOfSupplyTypes_value (n := n + 7) x io

theorem Derived.SetDataReliablePdu.numberOfFixedDatumRecords.lawful : Derived.SetDataReliablePdu.numberOfFixedDatumRecords.Lawful where
  prop := by decide +kernel
  reads := fun n x io => SetDataReliablePdu.numberOfFixedDatumRecords_value (n := n) x io

theorem Derived.SetDataReliablePdu.numberOfVariableDatumRecords.lawful : Derived.SetDataReliablePdu.numberOfVariableDatumRecords.Lawful where
  prop := by decide +kernel
  reads := fun n x io => SetDataReliablePdu.numberOfVariableDatumRecords_value (n := n) x io

theorem Derived.SetDataReliablePdu.fixedDatumRecords.lawful : Derived.SetDataReliablePdu.fixedDatumRecords.Lawful where
  prop := by decide +kernel
  reads := fun n x io => SetDataReliablePdu.fixedDatumRecords_value (n := n + 7) x io

theorem Derived.SetDataReliablePdu.variableDatumRecords.lawful : Derived.SetDataReliablePdu.variableDatumRecords.Lawful where
  prop := by decide +kernel
  reads := fun n x io => SetDataReliablePdu.variableDatumRecords_value (n := n + 7) x io

theorem Derived.DataPdu.numberOfFixedDatumRecords.lawful : Derived.DataPdu.numberOfFixedDatumRecords.Lawful where
  prop := by decide +kernel
  reads := fun n x io => DataPdu.numberOfFixedDatumRecords_value (n := n) x io

theorem Derived.DataPdu.numberOfVariableDatumRecords.lawful : Derived.DataPdu.numberOfVariableDatumRecords.Lawful where
  prop := by decide +kernel
  reads := fun n x io => DataPdu.numberOfVariableDatumRecords_value (n := n) x io

theorem Derived.DataPdu.fixedDatumRecords.lawful : Derived.DataPdu.fixedDatumRecords.Lawful where
  prop := by decide +kernel
  reads := fun n x io => DataPdu.fixedDatumRecords_value (n := n + 7) x io

theorem Derived.DataPdu.variableDatumRecords.lawful : Derived.DataPdu.variableDatumRecords.Lawful where
  prop := by decide +kernel
  reads := fun n x io => DataPdu.variableDatumRecords_value (n := n + 7) x io

theorem Derived.ArealObjectStatePdu.numberOfPoints.lawful : Derived.ArealObjectStatePdu.numberOfPoints.Lawful where
  prop := by decide +kernel
  reads := fun n x io => ArealObjectStatePdu.numberOfPoints_value (n := n + 7) x io

theorem Derived.DataQueryReliablePdu.numberOfFixedDatumIDs.lawful : Derived.DataQueryReliablePdu.numberOfFixedDatumIDs.Lawful where
  prop := by decide +kernel
  reads := fun n x io => DataQueryReliablePdu.numberOfFixedDatumIDs_value (n := n) x io

theorem Derived.DataQueryReliablePdu.numberOfVariableDatumIDs.lawful : Derived.DataQueryReliablePdu.numberOfVariableDatumIDs.Lawful where
  prop := by decide +kernel
  reads := fun n x io => DataQueryReliablePdu.numberOfVariableDatumIDs_value (n := n) x io

theorem Derived.DataQueryReliablePdu.fixedDatumIDs.lawful : Derived.DataQueryReliablePdu.fixedDatumIDs.Lawful where
  prop := by decide +kernel
  reads := fun n x io => DataQueryReliablePdu.fixedDatumIDs_value (n := n + 7) x io

theorem Derived.DataQueryReliablePdu.variableDatumIDs.lawful : Derived.DataQueryReliablePdu.variableDatumIDs.Lawful where
  prop := by decide +kernel
  reads := fun n x io => DataQueryReliablePdu.variableDatumIDs_value (n := n + 7) x io

theorem Derived.MinefieldStatePdu.numberOfPerimeterPoints.lawful : Derived.MinefieldStatePdu.numberOfPerimeterPoints.Lawful where
  prop := by decide +kernel
  reads := fun n x io => MinefieldStatePdu.numberOfPerimeterPoints_value (n := n + 7) x io

theorem Derived.MinefieldStatePdu.numberOfMineTypes.lawful : Derived.MinefieldStatePdu.numberOfMineTypes.Lawful where
  prop := by decide +kernel
  reads := fun n x io => MinefieldStatePdu.numberOfMineTypes_value (n := n + 7) x io

theorem Derived.DataReliablePdu.numberOfFixedDatumRecords.lawful : Derived.DataReliablePdu.numberOfFixedDatumRecords.Lawful where
  prop := by decide +kernel
  reads := fun n x io => DataReliablePdu.numberOfFixedDatumRecords_value (n := n) x io

theorem Derived.DataReliablePdu.numberOfVariableDatumRecords.lawful : Derived.DataReliablePdu.numberOfVariableDatumRecords.Lawful where
  prop := by decide +kernel
  reads := fun n x io => DataReliablePdu.numberOfVariableDatumRecords_value (n := n) x io

theorem Derived.DataReliablePdu.fixedDatumRecords.lawful : Derived.DataReliablePdu.fixedDatumRecords.Lawful where
  prop := by decide +kernel
  reads := fun n x io => DataReliablePdu.fixedDatumRecords_value (n := n + 7) x io

theorem Derived.DataReliablePdu.variableDatumRecords.lawful : Derived.DataReliablePdu.variableDatumRecords.Lawful where
  prop := by decide +kernel
  reads := fun n x io => DataReliablePdu.variableDatumRecords_value (n := n + 7) x io

theorem Derived.CommentPdu.numberOfFixedDatumRecords.lawful : Derived.CommentPdu.numberOfFixedDatumRecords.Lawful where
  prop := by decide +kernel
  reads := fun n x io => CommentPdu.numberOfFixedDatumRecords_value (n := n) x io

theorem Derived.CommentPdu.numberOfVariableDatumRecords.lawful : Derived.CommentPdu.numberOfVariableDatumRecords.Lawful where
  prop := by decide +kernel
  reads := fun n x io => CommentPdu.numberOfVariableDatumRecords_value (n := n) x io

theorem Derived.CommentPdu.fixedDatumRecords.lawful : Derived.CommentPdu.fixedDatumRecords.Lawful where
  prop := by decide +kernel
  reads := fun n x io => CommentPdu.fixedDatumRecords_value (n := n + 7) x io

theorem Derived.CommentPdu.variableDatumRecords.lawful : Derived.CommentPdu.variableDatumRecords.Lawful where
  prop := by decide +kernel
  reads := fun n x io => CommentPdu.variableDatumRecords_value (n := n + 7) x io

theorem Derived.CommentReliablePdu.numberOfFixedDatumRecords.lawful : Derived.CommentReliablePdu.numberOfFixedDatumRecords.Lawful where
  prop := by decide +kernel
  reads := fun n x io => CommentReliablePdu.numberOfFixedDatumRecords_value (n := n) x io

theorem Derived.CommentReliablePdu.numberOfVariableDatumRecords.lawful : Derived.CommentReliablePdu.numberOfVariableDatumRecords.Lawful where
  prop := by decide +kernel
  reads := fun n x io => CommentReliablePdu.numberOfVariableDatumRecords_value (n := n) x io

theorem Derived.CommentReliablePdu.fixedDatumRecords.lawful : Derived.CommentReliablePdu.fixedDatumRecords.Lawful where
  prop := by decide +kernel
  reads := fun n x io => CommentReliablePdu.fixedDatumRecords_value (n := n + 7) x io

theorem Derived.CommentReliablePdu.variableDatumRecords.lawful : Derived.CommentReliablePdu.variableDatumRecords.Lawful where
  prop := by decide +kernel
  reads := fun n x io => CommentReliablePdu.variableDatumRecords_value (n := n + 7) x io

theorem Derived.DirectedEnergyFirePdu.numberOfDERecords.lawful : Derived.DirectedEnergyFirePdu.numberOfDERecords.Lawful where
  prop := by decide +kernel
  reads := fun n x io => DirectedEnergyFirePdu.numberOfDERecords_value (n := n + 7) x io

theorem Derived.DetonationPdu.numberOfVariableParameters.lawful : Derived.DetonationPdu.numberOfVariableParameters.Lawful where
  prop := by decide +kernel
  reads := fun n x io => DetonationPdu.numberOfVariableParameters_value (n := n + 7) x io

theorem Derived.SetDataPdu.numberOfFixedDatumRecords.lawful : Derived.SetDataPdu.numberOfFixedDatumRecords.Lawful where
  prop := by decide +kernel
  reads := fun n x io => SetDataPdu.numberOfFixedDatumRecords_value (n := n) x io

theorem Derived.SetDataPdu.numberOfVariableDatumRecords.lawful : Derived.SetDataPdu.numberOfVariableDatumRecords.Lawful where
  prop := by decide +kernel
  reads := fun n x io => SetDataPdu.numberOfVariableDatumRecords_value (n := n) x io

theorem Derived.SetDataPdu.fixedDatumRecords.lawful : Derived.SetDataPdu.fixedDatumRecords.Lawful where
  prop := by decide +kernel
  reads := fun n x io => SetDataPdu.fixedDatumRecords_value (n := n + 7) x io

theorem Derived.SetDataPdu.variableDatumRecords.lawful : Derived.SetDataPdu.variableDatumRecords.Lawful where
  prop := by decide +kernel
  reads := fun n x io => SetDataPdu.variableDatumRecords_value (n := n + 7) x io

theorem Derived.RecordQueryReliablePdu.numberOfRecords.lawful : Derived.RecordQueryReliablePdu.numberOfRecords.Lawful where
  prop := by decide +kernel
  reads := fun n x io => RecordQueryReliablePdu.numberOfRecords_value (n := n + 7) x io

theorem Derived.ActionResponsePdu.numberOfFixedDatumRecords.lawful : Derived.ActionResponsePdu.numberOfFixedDatumRecords.Lawful where
  prop := by decide +kernel
  reads := fun n x io => ActionResponsePdu.numberOfFixedDatumRecords_value (n := n) x io

theorem Derived.ActionResponsePdu.numberOfVariableDatumRecords.lawful : Derived.ActionResponsePdu.numberOfVariableDatumRecords.Lawful where
  prop := by decide +kernel
  reads := fun n x io => ActionResponsePdu.numberOfVariableDatumRecords_value (n := n) x io

theorem Derived.ActionResponsePdu.fixedDatumRecords.lawful : Derived.ActionResponsePdu.fixedDatumRecords.Lawful where
  prop := by decide +kernel
  reads := fun n x io => ActionResponsePdu.fixedDatumRecords_value (n := n + 7) x io

theorem Derived.ActionResponsePdu.variableDatumRecords.lawful : Derived.ActionResponsePdu.variableDatumRecords.Lawful where
  prop := by decide +kernel
  reads := fun n x io => ActionResponsePdu.variableDatumRecords_value (n := n + 7) x io

theorem Derived.EntityDamageStatusPdu.damageDescriptionCount.lawful : Derived.EntityDamageStatusPdu.damageDescriptionCount.Lawful where
  prop := by decide +kernel
  reads := fun n x io => EntityDamageStatusPdu.damageDescriptionCount_value (n := n + 7) x io

theorem Derived.UaPdu.numberOfShafts.lawful : Derived.UaPdu.numberOfShafts.Lawful where
  prop := by decide +kernel
  reads := fun n x io => UaPdu.numberOfShafts_value (n := n + 7) x io

theorem Derived.UaPdu.numberOfAPAs.lawful : Derived.UaPdu.numberOfAPAs.Lawful where
  prop := by decide +kernel
  reads := fun n x io => UaPdu.numberOfAPAs_value (n := n + 7) x io

theorem Derived.UaPdu.numberOfUAEmitterSystems.lawful : Derived.UaPdu.numberOfUAEmitterSystems.Lawful where
  prop := by decide +kernel
  reads := fun n x io => UaPdu.numberOfUAEmitterSystems_value (n := n + 7) x io

theorem Derived.SignalPdu.dataLength.lawful : Derived.SignalPdu.dataLength.Lawful where
  prop := by decide +kernel
  reads := fun n x io => SignalPdu.dataLength_value (n := n + 7) x io

theorem Derived.SeesPdu.numberOfPropulsionSystems.lawful : Derived.SeesPdu.numberOfPropulsionSystems.Lawful where
  prop := by decide +kernel
  reads := fun n x io => SeesPdu.numberOfPropulsionSystems_value (n := n + 7) x io

theorem Derived.SeesPdu.numberOfVectoringNozzleSystems.lawful : Derived.SeesPdu.numberOfVectoringNozzleSystems.Lawful where
  prop := by decide +kernel
  reads := fun n x io => SeesPdu.numberOfVectoringNozzleSystems_value (n := n + 7) x io

theorem Derived.EventReportReliablePdu.numberOfFixedDatumRecords.lawful : Derived.EventReportReliablePdu.numberOfFixedDatumRecords.Lawful where
  prop := by decide +kernel
  reads := fun n x io => EventReportReliablePdu.numberOfFixedDatumRecords_value (n := n) x io

theorem Derived.EventReportReliablePdu.numberOfVariableDatumRecords.lawful : Derived.EventReportReliablePdu.numberOfVariableDatumRecords.Lawful where
  prop := by decide +kernel
  reads := fun n x io => EventReportReliablePdu.numberOfVariableDatumRecords_value (n := n) x io

theorem Derived.EventReportReliablePdu.fixedDatumRecords.lawful : Derived.EventReportReliablePdu.fixedDatumRecords.Lawful where
  prop := by decide +kernel
  reads := fun n x io => EventReportReliablePdu.fixedDatumRecords_value (n := n + 7) x io

theorem Derived.EventReportReliablePdu.variableDatumRecords.lawful : Derived.EventReportReliablePdu.variableDatumRecords.Lawful where
  prop := by decide +kernel
  reads := fun n x io => EventReportReliablePdu.variableDatumRecords_value (n := n + 7) x io

theorem Derived.MinefieldResponseNackPdu.numberOfMissingPdus.lawful : Derived.MinefieldResponseNackPdu.numberOfMissingPdus.Lawful where
  prop := by decide +kernel
  reads := fun n x io => MinefieldResponseNackPdu.numberOfMissingPdus_value (n := n + 7) x io

theorem Derived.ActionResponseReliablePdu.numberOfFixedDatumRecords.lawful : Derived.ActionResponseReliablePdu.numberOfFixedDatumRecords.Lawful where
  prop := by decide +kernel
  reads := fun n x io => ActionResponseReliablePdu.numberOfFixedDatumRecords_value (n := n) x io

theorem Derived.ActionResponseReliablePdu.numberOfVariableDatumRecords.lawful : Derived.ActionResponseReliablePdu.numberOfVariableDatumRecords.Lawful where
  prop := by decide +kernel
  reads := fun n x io => ActionResponseReliablePdu.numberOfVariableDatumRecords_value (n := n) x io

theorem Derived.ActionResponseReliablePdu.fixedDatumRecords.lawful : Derived.ActionResponseReliablePdu.fixedDatumRecords.Lawful where
  prop := by decide +kernel
  reads := fun n x io => ActionResponseReliablePdu.fixedDatumRecords_value (n := n + 7) x io

theorem Derived.ActionResponseReliablePdu.variableDatumRecords.lawful : Derived.ActionResponseReliablePdu.variableDatumRecords.Lawful where
  prop := by decide +kernel
  reads := fun n x io => ActionResponseReliablePdu.variableDatumRecords_value (n := n + 7) x io

theorem Derived.AggregateStatePdu.numberOfAggregateIDs.lawful : Derived.AggregateStatePdu.numberOfAggregateIDs.Lawful where
  prop := by decide +kernel
  reads := fun n x io => AggregateStatePdu.numberOfAggregateIDs_value (n := n + 7) x io

theorem Derived.AggregateStatePdu.numberOfEntityIDs.lawful : Derived.AggregateStatePdu.numberOfEntityIDs.Lawful where
  prop := by decide +kernel
  reads := fun n x io => AggregateStatePdu.numberOfEntityIDs_value (n := n + 7) x io

theorem Derived.AggregateStatePdu.numberOfSilentAggregateSystems.lawful : Derived.AggregateStatePdu.numberOfSilentAggregateSystems.Lawful where
  prop := by decide +kernel
  reads := fun n x io => AggregateStatePdu.numberOfSilentAggregateSystems_value (n := n + 7) x io

theorem Derived.AggregateStatePdu.numberOfSilentEntitySystems.lawful : Derived.AggregateStatePdu.numberOfSilentEntitySystems.Lawful where
  prop := by decide +kernel
  reads := fun n x io => AggregateStatePdu.numberOfSilentEntitySystems_value (n := n + 7) x io

theorem Derived.AggregateStatePdu.numberOfVariableDatumRecords.lawful : Derived.AggregateStatePdu.numberOfVariableDatumRecords.Lawful where
  prop := by decide +kernel
  reads := fun n x io => AggregateStatePdu.numberOfVariableDatumRecords_value (n := n + 7) x io

theorem derived_lawful : ∀ d ∈ derived, d.Lawful := by
  intro d hd
  unfold derived at hd
  simp only [List.mem_cons, List.not_mem_nil, or_false] at hd
  rcases hd with rfl | rfl | rfl | rfl | rfl | rfl | rfl | rfl | rfl | rfl | rfl | rfl | rfl | rfl | rfl | rfl | rfl | rfl | rfl | rfl | rfl | rfl | rfl | rfl | rfl | rfl | rfl | rfl | rfl | rfl | rfl | rfl | rfl | rfl | rfl | rfl | rfl | rfl | rfl | rfl | rfl | rfl | rfl | rfl | rfl | rfl | rfl | rfl | rfl | rfl | rfl | rfl | rfl | rfl | rfl | rfl | rfl | rfl | rfl | rfl | rfl | rfl | rfl | rfl | rfl | rfl | rfl | rfl | rfl | rfl | rfl | rfl | rfl | rfl | rfl | rfl | rfl | rfl | rfl | rfl | rfl | rfl | rfl | rfl | rfl | rfl | rfl | rfl | rfl
  · exact Derived.DataQueryDatumSpecification.numberOfFixedDatumIDs.lawful
  · exact Derived.DataQueryDatumSpecification.numberOfVariableDatumIDs.lawful
  · exact Derived.IFFDataSpecification.numberOfIFFDataRecords.lawful
  · exact Derived.RecordQuerySpecification.numberOfRecords.lawful
  · exact Derived.DatumSpecification.numberOfFixedDatumRecords.lawful
  · exact Derived.DatumSpecification.numberOfVariableDatumRecords.lawful
  · exact Derived.SilentEntitySystem.numberOfAppearanceRecords.lawful
  · exact Derived.StandardVariableSpecification.numberOfStandardVariableRecords.lawful
  · exact Derived.RecordSpecification.numberOfRecordSets.lawful
  · exact Derived.EntityStateUpdatePdu.numberOfVariableParameters.lawful
  · exact Derived.ServiceRequestPdu.numberOfSupplyTypes.lawful
  · exact Derived.DataQueryPdu.numberOfFixedDatumIDs.lawful
  · exact Derived.DataQueryPdu.numberOfVariableDatumIDs.lawful
  · exact Derived.DataQueryPdu.fixedDatumIDs.lawful
  · exact Derived.DataQueryPdu.variableDatumIDs.lawful
  · exact Derived.IntercomSignalPdu.dataLength.lawful
  · exact Derived.ResupplyReceivedPdu.numberOfSupplyTypes.lawful
  · exact Derived.ActionRequestPdu.numberOfFixedDatumRecords.lawful
  · exact Derived.ActionRequestPdu.numberOfVariableDatumRecords.lawful
  · exact Derived.ActionRequestPdu.fixedDatumRecords.lawful
  · exact Derived.ActionRequestPdu.variableDatumRecords.lawful
  · exact Derived.ActionRequestReliablePdu.numberOfFixedDatumRecords.lawful
  · exact Derived.ActionRequestReliablePdu.numberOfVariableDatumRecords.lawful
  · exact Derived.ActionRequestReliablePdu.fixedDatumRecords.lawful
  · exact Derived.ActionRequestReliablePdu.variableDatumRecords.lawful
  · exact Derived.EntityStatePdu.numberOfVariableParameters.lawful
  · exact Derived.ElectromagneticEmissionsPdu.numberOfSystems.lawful
  · exact Derived.EmissionSystemBeamRecord.numberOfTargetsInTrackJam.lawful
  · exact Derived.EmissionSystemRecord.numberOfBeams.lawful
  · exact Derived.ResupplyOfferPdu.numberOfSupplyTypes.lawful
  · exact Derived.SetDataReliablePdu.numberOfFixedDatumRecords.lawful
  · exact Derived.SetDataReliablePdu.numberOfVariableDatumRecords.lawful
  · exact Derived.SetDataReliablePdu.fixedDatumRecords.lawful
  · exact Derived.SetDataReliablePdu.variableDatumRecords.lawful
  · exact Derived.DataPdu.numberOfFixedDatumRecords.lawful
  · exact Derived.DataPdu.numberOfVariableDatumRecords.lawful
  · exact Derived.DataPdu.fixedDatumRecords.lawful
  · exact Derived.DataPdu.variableDatumRecords.lawful
  · exact Derived.ArealObjectStatePdu.numberOfPoints.lawful
  · exact Derived.DataQueryReliablePdu.numberOfFixedDatumIDs.lawful
  · exact Derived.DataQueryReliablePdu.numberOfVariableDatumIDs.lawful
  · exact Derived.DataQueryReliablePdu.fixedDatumIDs.lawful
  · exact Derived.DataQueryReliablePdu.variableDatumIDs.lawful
  · exact Derived.MinefieldStatePdu.numberOfPerimeterPoints.lawful
  · exact Derived.MinefieldStatePdu.numberOfMineTypes.lawful
  · exact Derived.DataReliablePdu.numberOfFixedDatumRecords.lawful
  · exact Derived.DataReliablePdu.numberOfVariableDatumRecords.lawful
  · exact Derived.DataReliablePdu.fixedDatumRecords.lawful
  · exact Derived.DataReliablePdu.variableDatumRecords.lawful
  · exact Derived.CommentPdu.numberOfFixedDatumRecords.lawful
  · exact Derived.CommentPdu.numberOfVariableDatumRecords.lawful
  · exact Derived.CommentPdu.fixedDatumRecords.lawful
  · exact Derived.CommentPdu.variableDatumRecords.lawful
  · exact Derived.CommentReliablePdu.numberOfFixedDatumRecords.lawful
  · exact Derived.CommentReliablePdu.numberOfVariableDatumRecords.lawful
  · exact Derived.CommentReliablePdu.fixedDatumRecords.lawful
  · exact Derived.CommentReliablePdu.variableDatumRecords.lawful
  · exact Derived.DirectedEnergyFirePdu.numberOfDERecords.lawful
  · exact Derived.DetonationPdu.numberOfVariableParameters.lawful
  · exact Derived.SetDataPdu.numberOfFixedDatumRecords.lawful
  · exact Derived.SetDataPdu.numberOfVariableDatumRecords.lawful
  · exact Derived.SetDataPdu.fixedDatumRecords.lawful
  · exact Derived.SetDataPdu.variableDatumRecords.lawful
  · exact Derived.RecordQueryReliablePdu.numberOfRecords.lawful
  · exact Derived.ActionResponsePdu.numberOfFixedDatumRecords.lawful
  · exact Derived.ActionResponsePdu.numberOfVariableDatumRecords.lawful
  · exact Derived.ActionResponsePdu.fixedDatumRecords.lawful
  · exact Derived.ActionResponsePdu.variableDatumRecords.lawful
  · exact Derived.EntityDamageStatusPdu.damageDescriptionCount.lawful
  · exact Derived.UaPdu.numberOfShafts.lawful
  · exact Derived.UaPdu.numberOfAPAs.lawful
  · exact Derived.UaPdu.numberOfUAEmitterSystems.lawful
  · exact Derived.SignalPdu.dataLength.lawful
  · exact Derived.SeesPdu.numberOfPropulsionSystems.lawful
  · exact Derived.SeesPdu.numberOfVectoringNozzleSystems.lawful
  · exact Derived.EventReportReliablePdu.numberOfFixedDatumRecords.lawful
  · exact Derived.EventReportReliablePdu.numberOfVariableDatumRecords.lawful
  · exact Derived.EventReportReliablePdu.fixedDatumRecords.lawful
  · exact Derived.EventReportReliablePdu.variableDatumRecords.lawful
  · exact Derived.MinefieldResponseNackPdu.numberOfMissingPdus.lawful
  · exact Derived.ActionResponseReliablePdu.numberOfFixedDatumRecords.lawful
  · exact Derived.ActionResponseReliablePdu.numberOfVariableDatumRecords.lawful
  · exact Derived.ActionResponseReliablePdu.fixedDatumRecords.lawful
  · exact Derived.ActionResponseReliablePdu.variableDatumRecords.lawful
  · exact Derived.AggregateStatePdu.numberOfAggregateIDs.lawful
  · exact Derived.AggregateStatePdu.numberOfEntityIDs.lawful
  · exact Derived.AggregateStatePdu.numberOfSilentAggregateSystems.lawful
  · exact Derived.AggregateStatePdu.numberOfSilentEntitySystems.lawful
  · exact Derived.AggregateStatePdu.numberOfVariableDatumRecords.lawful

end Dis.Src
