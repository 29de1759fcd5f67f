import Verif.Spec.SourceCatalog
import Verif.Spec.SourceSpecial
import Verif.Spec.SourceDirected

/-!
# The derived attributes of the objects, written by tools/gensourceprop.py (C80)

A derived attribute is a method under `@property`: reading it calls the method. Its value is given here in the fields of the
model's object.
-/

namespace Dis.Src

/-- A derived attribute of a class of the catalogue. -/
structure Derived where
  /-- the class -/
  cls : Sourced
  /-- the name of the attribute (e.g. /repo/opendis/dis7.py:4500) -/
  name : Ident
  /-- its value, in the fields of the model's object -/
  value : cls.entry.codec.Obj → Val

namespace Derived

/-- `DataQueryDatumSpecification.numberOfFixedDatumIDs` (/repo/opendis/dis7.py:86-87). -/
def DataQueryDatumSpecification.numberOfFixedDatumIDs : Derived where
  cls := .DataQueryDatumSpecification
  name := I.numberOfFixedDatumIDs
  value := fun (x : Dis.DataQueryDatumSpecification) => .int x.fixedDatumIDs.length

/-- `DataQueryDatumSpecification.numberOfVariableDatumIDs` (/repo/opendis/dis7.py:90-91). -/
def DataQueryDatumSpecification.numberOfVariableDatumIDs : Derived where
  cls := .DataQueryDatumSpecification
  name := I.numberOfVariableDatumIDs
  value := fun (x : Dis.DataQueryDatumSpecification) => .int x.variableDatumIDs.length

/-- `IFFDataSpecification.numberOfIFFDataRecords` (/repo/opendis/dis7.py:730-731). -/
def IFFDataSpecification.numberOfIFFDataRecords : Derived where
  cls := .IFFDataSpecification
  name := I.numberOfIFFDataRecords
  value := fun (x : Dis.IFFDataSpecification) => .int x.iffDataRecords.length

/-- `RecordQuerySpecification.numberOfRecords` (/repo/opendis/dis7.py:854-855). -/
def RecordQuerySpecification.numberOfRecords : Derived where
  cls := .RecordQuerySpecification
  name := I.numberOfRecords
  value := fun (x : Dis.RecordQuerySpecification) => .int x.recordIDs.length

/-- `DatumSpecification.numberOfFixedDatumRecords` (/repo/opendis/dis7.py:1608-1609). -/
def DatumSpecification.numberOfFixedDatumRecords : Derived where
  cls := .DatumSpecification
  name := I.numberOfFixedDatumRecords
  value := fun (x : Dis.DatumSpecification) => .int x.fixedDatumRecords.length

/-- `DatumSpecification.numberOfVariableDatumRecords` (/repo/opendis/dis7.py:1612-1613). -/
def DatumSpecification.numberOfVariableDatumRecords : Derived where
  cls := .DatumSpecification
  name := I.numberOfVariableDatumRecords
  value := fun (x : Dis.DatumSpecification) => .int x.variableDatumRecords.length

/-- `SilentEntitySystem.numberOfAppearanceRecords` (/repo/opendis/dis7.py:2199-2200). -/
def SilentEntitySystem.numberOfAppearanceRecords : Derived where
  cls := .SilentEntitySystem
  name := I.numberOfAppearanceRecords
  value := fun (x : Dis.SilentEntitySystem) => .int x.appearanceRecordList.length

/-- `StandardVariableSpecification.numberOfStandardVariableRecords` (/repo/opendis/dis7.py:2599-2600). -/
def StandardVariableSpecification.numberOfStandardVariableRecords : Derived where
  cls := .StandardVariableSpecification
  name := I.numberOfStandardVariableRecords
  value := fun (x : Dis.StandardVariableSpecification) => .int x.standardVariables.length

/-- `RecordSpecification.numberOfRecordSets` (/repo/opendis/dis7.py:3275-3276). -/
def RecordSpecification.numberOfRecordSets : Derived where
  cls := .RecordSpecification
  name := I.numberOfRecordSets
  value := fun (x : Dis.RecordSpecification) => .int x.recordSets.length

/-- `EntityStateUpdatePdu.numberOfVariableParameters` (/repo/opendis/dis7.py:3791-3792). -/
def EntityStateUpdatePdu.numberOfVariableParameters : Derived where
  cls := .EntityStateUpdatePdu
  name := I.numberOfVariableParameters
  value := fun (x : Dis.EntityStateUpdatePdu) => .int x.variableParameters.length

/-- `ServiceRequestPdu.numberOfSupplyTypes` (/repo/opendis/dis7.py:3847-3848). -/
def ServiceRequestPdu.numberOfSupplyTypes : Derived where
  cls := .ServiceRequestPdu
  name := I.numberOfSupplyTypes
  value := fun (x : Dis.ServiceRequestPdu) => .int x.supplies.length

/-- `DataQueryPdu.numberOfFixedDatumIDs` (/repo/opendis/dis7.py:4080-4081). -/
def DataQueryPdu.numberOfFixedDatumIDs : Derived where
  cls := .DataQueryPdu
  name := I.numberOfFixedDatumIDs
  value := fun (x : Dis.DataQueryPdu) => .int x._dataQuery.fixedDatumIDs.length

/-- `DataQueryPdu.numberOfVariableDatumIDs` (/repo/opendis/dis7.py:4084-4085). -/
def DataQueryPdu.numberOfVariableDatumIDs : Derived where
  cls := .DataQueryPdu
  name := I.numberOfVariableDatumIDs
  value := fun (x : Dis.DataQueryPdu) => .int x._dataQuery.variableDatumIDs.length

/-- `DataQueryPdu.fixedDatumIDs` (/repo/opendis/dis7.py:4088-4089). -/
def DataQueryPdu.fixedDatumIDs : Derived where
  cls := .DataQueryPdu
  name := I.fixedDatumIDs
  value := fun (x : Dis.DataQueryPdu) => .list (x._dataQuery.fixedDatumIDs.map .int)

/-- `DataQueryPdu.variableDatumIDs` (/repo/opendis/dis7.py:4092-4093). -/
def DataQueryPdu.variableDatumIDs : Derived where
  cls := .DataQueryPdu
  name := I.variableDatumIDs
  value := fun (x : Dis.DataQueryPdu) => .list (x._dataQuery.variableDatumIDs.map .int)

/-- `IntercomSignalPdu.dataLength` (/repo/opendis/dis7.py:4248-4250). -/
def IntercomSignalPdu.dataLength : Derived where
  cls := .IntercomSignalPdu
  name := I.dataLength
  value := fun (x : Dis.IntercomSignalPdu) => .int (x.data.length * 8)

/-- `ResupplyReceivedPdu.numberOfSupplyTypes` (/repo/opendis/dis7.py:4330-4331). -/
def ResupplyReceivedPdu.numberOfSupplyTypes : Derived where
  cls := .ResupplyReceivedPdu
  name := I.numberOfSupplyTypes
  value := fun (x : Dis.ResupplyReceivedPdu) => .int x.supplies.length

/-- `ActionRequestPdu.numberOfFixedDatumRecords` (/repo/opendis/dis7.py:4500-4501). -/
def ActionRequestPdu.numberOfFixedDatumRecords : Derived where
  cls := .ActionRequestPdu
  name := I.numberOfFixedDatumRecords
  value := fun (x : Dis.ActionRequestPdu) => .int x._datums.fixedDatumRecords.length

/-- `ActionRequestPdu.numberOfVariableDatumRecords` (/repo/opendis/dis7.py:4504-4505). -/
def ActionRequestPdu.numberOfVariableDatumRecords : Derived where
  cls := .ActionRequestPdu
  name := I.numberOfVariableDatumRecords
  value := fun (x : Dis.ActionRequestPdu) => .int x._datums.variableDatumRecords.length

/-- `ActionRequestPdu.fixedDatumRecords` (/repo/opendis/dis7.py:4508-4509). -/
def ActionRequestPdu.fixedDatumRecords : Derived where
  cls := .ActionRequestPdu
  name := I.fixedDatumRecords
  value := fun (x : Dis.ActionRequestPdu) => .list (x._datums.fixedDatumRecords.map FixedDatum.enc)

/-- `ActionRequestPdu.variableDatumRecords` (/repo/opendis/dis7.py:4512-4513). -/
def ActionRequestPdu.variableDatumRecords : Derived where
  cls := .ActionRequestPdu
  name := I.variableDatumRecords
  value := fun (x : Dis.ActionRequestPdu) => .list (x._datums.variableDatumRecords.map VariableDatum.enc)

/-- `ActionRequestReliablePdu.numberOfFixedDatumRecords` (/repo/opendis/dis7.py:4640-4641). -/
def ActionRequestReliablePdu.numberOfFixedDatumRecords : Derived where
  cls := .ActionRequestReliablePdu
  name := I.numberOfFixedDatumRecords
  value := fun (x : Dis.ActionRequestReliablePdu) => .int x._datums.fixedDatumRecords.length

/-- `ActionRequestReliablePdu.numberOfVariableDatumRecords` (/repo/opendis/dis7.py:4644-4645). -/
def ActionRequestReliablePdu.numberOfVariableDatumRecords : Derived where
  cls := .ActionRequestReliablePdu
  name := I.numberOfVariableDatumRecords
  value := fun (x : Dis.ActionRequestReliablePdu) => .int x._datums.variableDatumRecords.length

/-- `ActionRequestReliablePdu.fixedDatumRecords` (/repo/opendis/dis7.py:4648-4649). -/
def ActionRequestReliablePdu.fixedDatumRecords : Derived where
  cls := .ActionRequestReliablePdu
  name := I.fixedDatumRecords
  value := fun (x : Dis.ActionRequestReliablePdu) => .list (x._datums.fixedDatumRecords.map FixedDatum.enc)

/-- `ActionRequestReliablePdu.variableDatumRecords` (/repo/opendis/dis7.py:4652-4653). -/
def ActionRequestReliablePdu.variableDatumRecords : Derived where
  cls := .ActionRequestReliablePdu
  name := I.variableDatumRecords
  value := fun (x : Dis.ActionRequestReliablePdu) => .list (x._datums.variableDatumRecords.map VariableDatum.enc)

/-- `EntityStatePdu.numberOfVariableParameters` (/repo/opendis/dis7.py:4845-4849). -/
def EntityStatePdu.numberOfVariableParameters : Derived where
  cls := .EntityStatePdu
  name := I.numberOfVariableParameters
  value := fun (x : Dis.EntityStatePdu) => .int x.variableParameters.length

/-- `ElectromagneticEmissionsPdu.numberOfSystems` (/repo/opendis/dis7.py:5143-5144). -/
def ElectromagneticEmissionsPdu.numberOfSystems : Derived where
  cls := .ElectromagneticEmissionsPdu
  name := I.numberOfSystems
  value := fun (x : Dis.ElectromagneticEmissionsPdu) => .int x.systems.length

/-- `EmissionSystemBeamRecord.numberOfTargetsInTrackJam` (/repo/opendis/dis7.py:5200-5201). -/
def EmissionSystemBeamRecord.numberOfTargetsInTrackJam : Derived where
  cls := .EmissionSystemBeamRecord
  name := I.numberOfTargetsInTrackJam
  value := fun (x : Dis.EmissionSystemBeamRecord) => .int x.trackJamRecords.length

/-- `EmissionSystemRecord.numberOfBeams` (/repo/opendis/dis7.py:5255-5256). -/
def EmissionSystemRecord.numberOfBeams : Derived where
  cls := .EmissionSystemRecord
  name := I.numberOfBeams
  value := fun (x : Dis.EmissionSystemRecord) => .int x.beamRecords.length

/-- `ResupplyOfferPdu.numberOfSupplyTypes` (/repo/opendis/dis7.py:5302-5303). -/
def ResupplyOfferPdu.numberOfSupplyTypes : Derived where
  cls := .ResupplyOfferPdu
  name := I.numberOfSupplyTypes
  value := fun (x : Dis.ResupplyOfferPdu) => .int x.supplies.length

/-- `SetDataReliablePdu.numberOfFixedDatumRecords` (/repo/opendis/dis7.py:5437-5438). -/
def SetDataReliablePdu.numberOfFixedDatumRecords : Derived where
  cls := .SetDataReliablePdu
  name := I.numberOfFixedDatumRecords
  value := fun (x : Dis.SetDataReliablePdu) => .int x._datums.fixedDatumRecords.length

/-- `SetDataReliablePdu.numberOfVariableDatumRecords` (/repo/opendis/dis7.py:5441-5442). -/
def SetDataReliablePdu.numberOfVariableDatumRecords : Derived where
  cls := .SetDataReliablePdu
  name := I.numberOfVariableDatumRecords
  value := fun (x : Dis.SetDataReliablePdu) => .int x._datums.variableDatumRecords.length

/-- `SetDataReliablePdu.fixedDatumRecords` (/repo/opendis/dis7.py:5445-5446). -/
def SetDataReliablePdu.fixedDatumRecords : Derived where
  cls := .SetDataReliablePdu
  name := I.fixedDatumRecords
  value := fun (x : Dis.SetDataReliablePdu) => .list (x._datums.fixedDatumRecords.map FixedDatum.enc)

/-- `SetDataReliablePdu.variableDatumRecords` (/repo/opendis/dis7.py:5449-5450). -/
def SetDataReliablePdu.variableDatumRecords : Derived where
  cls := .SetDataReliablePdu
  name := I.variableDatumRecords
  value := fun (x : Dis.SetDataReliablePdu) => .list (x._datums.variableDatumRecords.map VariableDatum.enc)

/-- `DataPdu.numberOfFixedDatumRecords` (/repo/opendis/dis7.py:5606-5607). -/
def DataPdu.numberOfFixedDatumRecords : Derived where
  cls := .DataPdu
  name := I.numberOfFixedDatumRecords
  value := fun (x : Dis.DataPdu) => .int x._datums.fixedDatumRecords.length

/-- `DataPdu.numberOfVariableDatumRecords` (/repo/opendis/dis7.py:5610-5611). -/
def DataPdu.numberOfVariableDatumRecords : Derived where
  cls := .DataPdu
  name := I.numberOfVariableDatumRecords
  value := fun (x : Dis.DataPdu) => .int x._datums.variableDatumRecords.length

/-- `DataPdu.fixedDatumRecords` (/repo/opendis/dis7.py:5614-5615). -/
def DataPdu.fixedDatumRecords : Derived where
  cls := .DataPdu
  name := I.fixedDatumRecords
  value := fun (x : Dis.DataPdu) => .list (x._datums.fixedDatumRecords.map FixedDatum.enc)

/-- `DataPdu.variableDatumRecords` (/repo/opendis/dis7.py:5618-5619). -/
def DataPdu.variableDatumRecords : Derived where
  cls := .DataPdu
  name := I.variableDatumRecords
  value := fun (x : Dis.DataPdu) => .list (x._datums.variableDatumRecords.map VariableDatum.enc)

/-- `ArealObjectStatePdu.numberOfPoints` (/repo/opendis/dis7.py:5988-5989). -/
def ArealObjectStatePdu.numberOfPoints : Derived where
  cls := .ArealObjectStatePdu
  name := I.numberOfPoints
  value := fun (x : Dis.ArealObjectStatePdu) => .int x.objectLocation.length

/-- `DataQueryReliablePdu.numberOfFixedDatumIDs` (/repo/opendis/dis7.py:6054-6055). -/
def DataQueryReliablePdu.numberOfFixedDatumIDs : Derived where
  cls := .DataQueryReliablePdu
  name := I.numberOfFixedDatumIDs
  value := fun (x : Dis.DataQueryReliablePdu) => .int x._dataQuery.fixedDatumIDs.length

/-- `DataQueryReliablePdu.numberOfVariableDatumIDs` (/repo/opendis/dis7.py:6058-6059). -/
def DataQueryReliablePdu.numberOfVariableDatumIDs : Derived where
  cls := .DataQueryReliablePdu
  name := I.numberOfVariableDatumIDs
  value := fun (x : Dis.DataQueryReliablePdu) => .int x._dataQuery.variableDatumIDs.length

/-- `DataQueryReliablePdu.fixedDatumIDs` (/repo/opendis/dis7.py:6062-6063). -/
def DataQueryReliablePdu.fixedDatumIDs : Derived where
  cls := .DataQueryReliablePdu
  name := I.fixedDatumIDs
  value := fun (x : Dis.DataQueryReliablePdu) => .list (x._dataQuery.fixedDatumIDs.map .int)

/-- `DataQueryReliablePdu.variableDatumIDs` (/repo/opendis/dis7.py:6066-6067). -/
def DataQueryReliablePdu.variableDatumIDs : Derived where
  cls := .DataQueryReliablePdu
  name := I.variableDatumIDs
  value := fun (x : Dis.DataQueryReliablePdu) => .list (x._dataQuery.variableDatumIDs.map .int)

/-- `MinefieldStatePdu.numberOfPerimeterPoints` (/repo/opendis/dis7.py:6125-6126). -/
def MinefieldStatePdu.numberOfPerimeterPoints : Derived where
  cls := .MinefieldStatePdu
  name := I.numberOfPerimeterPoints
  value := fun (x : Dis.MinefieldStatePdu) => .int x.perimeterPoints.length

/-- `MinefieldStatePdu.numberOfMineTypes` (/repo/opendis/dis7.py:6129-6130). -/
def MinefieldStatePdu.numberOfMineTypes : Derived where
  cls := .MinefieldStatePdu
  name := I.numberOfMineTypes
  value := fun (x : Dis.MinefieldStatePdu) => .int x.mineTypes.length

/-- `DataReliablePdu.numberOfFixedDatumRecords` (/repo/opendis/dis7.py:6199-6200). -/
def DataReliablePdu.numberOfFixedDatumRecords : Derived where
  cls := .DataReliablePdu
  name := I.numberOfFixedDatumRecords
  value := fun (x : Dis.DataReliablePdu) => .int x._datums.fixedDatumRecords.length

/-- `DataReliablePdu.numberOfVariableDatumRecords` (/repo/opendis/dis7.py:6203-6204). -/
def DataReliablePdu.numberOfVariableDatumRecords : Derived where
  cls := .DataReliablePdu
  name := I.numberOfVariableDatumRecords
  value := fun (x : Dis.DataReliablePdu) => .int x._datums.variableDatumRecords.length

/-- `DataReliablePdu.fixedDatumRecords` (/repo/opendis/dis7.py:6207-6208). -/
def DataReliablePdu.fixedDatumRecords : Derived where
  cls := .DataReliablePdu
  name := I.fixedDatumRecords
  value := fun (x : Dis.DataReliablePdu) => .list (x._datums.fixedDatumRecords.map FixedDatum.enc)

/-- `DataReliablePdu.variableDatumRecords` (/repo/opendis/dis7.py:6211-6212). -/
def DataReliablePdu.variableDatumRecords : Derived where
  cls := .DataReliablePdu
  name := I.variableDatumRecords
  value := fun (x : Dis.DataReliablePdu) => .list (x._datums.variableDatumRecords.map VariableDatum.enc)

/-- `CommentPdu.numberOfFixedDatumRecords` (/repo/opendis/dis7.py:6249-6250). -/
def CommentPdu.numberOfFixedDatumRecords : Derived where
  cls := .CommentPdu
  name := I.numberOfFixedDatumRecords
  value := fun (x : Dis.CommentPdu) => .int x._datums.fixedDatumRecords.length

/-- `CommentPdu.numberOfVariableDatumRecords` (/repo/opendis/dis7.py:6253-6254). -/
def CommentPdu.numberOfVariableDatumRecords : Derived where
  cls := .CommentPdu
  name := I.numberOfVariableDatumRecords
  value := fun (x : Dis.CommentPdu) => .int x._datums.variableDatumRecords.length

/-- `CommentPdu.fixedDatumRecords` (/repo/opendis/dis7.py:6257-6258). -/
def CommentPdu.fixedDatumRecords : Derived where
  cls := .CommentPdu
  name := I.fixedDatumRecords
  value := fun (x : Dis.CommentPdu) => .list (x._datums.fixedDatumRecords.map FixedDatum.enc)

/-- `CommentPdu.variableDatumRecords` (/repo/opendis/dis7.py:6261-6262). -/
def CommentPdu.variableDatumRecords : Derived where
  cls := .CommentPdu
  name := I.variableDatumRecords
  value := fun (x : Dis.CommentPdu) => .list (x._datums.variableDatumRecords.map VariableDatum.enc)

/-- `CommentReliablePdu.numberOfFixedDatumRecords` (/repo/opendis/dis7.py:6292-6293). -/
def CommentReliablePdu.numberOfFixedDatumRecords : Derived where
  cls := .CommentReliablePdu
  name := I.numberOfFixedDatumRecords
  value := fun (x : Dis.CommentReliablePdu) => .int x._datums.fixedDatumRecords.length

/-- `CommentReliablePdu.numberOfVariableDatumRecords` (/repo/opendis/dis7.py:6296-6297). -/
def CommentReliablePdu.numberOfVariableDatumRecords : Derived where
  cls := .CommentReliablePdu
  name := I.numberOfVariableDatumRecords
  value := fun (x : Dis.CommentReliablePdu) => .int x._datums.variableDatumRecords.length

/-- `CommentReliablePdu.fixedDatumRecords` (/repo/opendis/dis7.py:6300-6301). -/
def CommentReliablePdu.fixedDatumRecords : Derived where
  cls := .CommentReliablePdu
  name := I.fixedDatumRecords
  value := fun (x : Dis.CommentReliablePdu) => .list (x._datums.fixedDatumRecords.map FixedDatum.enc)

/-- `CommentReliablePdu.variableDatumRecords` (/repo/opendis/dis7.py:6304-6305). -/
def CommentReliablePdu.variableDatumRecords : Derived where
  cls := .CommentReliablePdu
  name := I.variableDatumRecords
  value := fun (x : Dis.CommentReliablePdu) => .list (x._datums.variableDatumRecords.map VariableDatum.enc)

/-- `DirectedEnergyFirePdu.numberOfDERecords` (/repo/opendis/dis7.py:6358-6359). -/
def DirectedEnergyFirePdu.numberOfDERecords : Derived where
  cls := .DirectedEnergyFirePdu
  name := I.numberOfDERecords
  value := fun (x : Dis.DirectedEnergyFirePdu) => .int x.dERecords.length

/-- `DetonationPdu.numberOfVariableParameters` (/repo/opendis/dis7.py:6442-6443). -/
def DetonationPdu.numberOfVariableParameters : Derived where
  cls := .DetonationPdu
  name := I.numberOfVariableParameters
  value := fun (x : Dis.DetonationPdu) => .int x.variableParameters.length

/-- `SetDataPdu.numberOfFixedDatumRecords` (/repo/opendis/dis7.py:6497-6498). -/
def SetDataPdu.numberOfFixedDatumRecords : Derived where
  cls := .SetDataPdu
  name := I.numberOfFixedDatumRecords
  value := fun (x : Dis.SetDataPdu) => .int x._datums.fixedDatumRecords.length

/-- `SetDataPdu.numberOfVariableDatumRecords` (/repo/opendis/dis7.py:6501-6502). -/
def SetDataPdu.numberOfVariableDatumRecords : Derived where
  cls := .SetDataPdu
  name := I.numberOfVariableDatumRecords
  value := fun (x : Dis.SetDataPdu) => .int x._datums.variableDatumRecords.length

/-- `SetDataPdu.fixedDatumRecords` (/repo/opendis/dis7.py:6505-6506). -/
def SetDataPdu.fixedDatumRecords : Derived where
  cls := .SetDataPdu
  name := I.fixedDatumRecords
  value := fun (x : Dis.SetDataPdu) => .list (x._datums.fixedDatumRecords.map FixedDatum.enc)

/-- `SetDataPdu.variableDatumRecords` (/repo/opendis/dis7.py:6509-6510). -/
def SetDataPdu.variableDatumRecords : Derived where
  cls := .SetDataPdu
  name := I.variableDatumRecords
  value := fun (x : Dis.SetDataPdu) => .list (x._datums.variableDatumRecords.map VariableDatum.enc)

/-- `RecordQueryReliablePdu.numberOfRecords` (/repo/opendis/dis7.py:6552-6553). -/
def RecordQueryReliablePdu.numberOfRecords : Derived where
  cls := .RecordQueryReliablePdu
  name := I.numberOfRecords
  value := fun (x : Dis.RecordQueryReliablePdu) => .int x.recordIDs.length

/-- `ActionResponsePdu.numberOfFixedDatumRecords` (/repo/opendis/dis7.py:6605-6606). -/
def ActionResponsePdu.numberOfFixedDatumRecords : Derived where
  cls := .ActionResponsePdu
  name := I.numberOfFixedDatumRecords
  value := fun (x : Dis.ActionResponsePdu) => .int x._datums.fixedDatumRecords.length

/-- `ActionResponsePdu.numberOfVariableDatumRecords` (/repo/opendis/dis7.py:6609-6610). -/
def ActionResponsePdu.numberOfVariableDatumRecords : Derived where
  cls := .ActionResponsePdu
  name := I.numberOfVariableDatumRecords
  value := fun (x : Dis.ActionResponsePdu) => .int x._datums.variableDatumRecords.length

/-- `ActionResponsePdu.fixedDatumRecords` (/repo/opendis/dis7.py:6613-6614). -/
def ActionResponsePdu.fixedDatumRecords : Derived where
  cls := .ActionResponsePdu
  name := I.fixedDatumRecords
  value := fun (x : Dis.ActionResponsePdu) => .list (x._datums.fixedDatumRecords.map FixedDatum.enc)

/-- `ActionResponsePdu.variableDatumRecords` (/repo/opendis/dis7.py:6617-6618). -/
def ActionResponsePdu.variableDatumRecords : Derived where
  cls := .ActionResponsePdu
  name := I.variableDatumRecords
  value := fun (x : Dis.ActionResponsePdu) => .list (x._datums.variableDatumRecords.map VariableDatum.enc)

/-- `EntityDamageStatusPdu.damageDescriptionCount` (/repo/opendis/dis7.py:6654-6655). -/
def EntityDamageStatusPdu.damageDescriptionCount : Derived where
  cls := .EntityDamageStatusPdu
  name := I.damageDescriptionCount
  value := fun (x : Dis.EntityDamageStatusPdu) => .int x.damageDescriptions.length

/-- `UaPdu.numberOfShafts` (/repo/opendis/dis7.py:6817-6818). -/
def UaPdu.numberOfShafts : Derived where
  cls := .UaPdu
  name := I.numberOfShafts
  value := fun (x : Dis.UaPdu) => .int x.shaftRPMs.length

/-- `UaPdu.numberOfAPAs` (/repo/opendis/dis7.py:6821-6822). -/
def UaPdu.numberOfAPAs : Derived where
  cls := .UaPdu
  name := I.numberOfAPAs
  value := fun (x : Dis.UaPdu) => .int x.apaData.length

/-- `UaPdu.numberOfUAEmitterSystems` (/repo/opendis/dis7.py:6825-6826). -/
def UaPdu.numberOfUAEmitterSystems : Derived where
  cls := .UaPdu
  name := I.numberOfUAEmitterSystems
  value := fun (x : Dis.UaPdu) => .int x.emitterSystems.length

/-- `SignalPdu.dataLength` (/repo/opendis/dis7.py:6986-6988). -/
def SignalPdu.dataLength : Derived where
  cls := .SignalPdu
  name := I.dataLength
  value := fun (x : Dis.SignalPdu) => .int (x.data.length * 8)

/-- `SeesPdu.numberOfPropulsionSystems` (/repo/opendis/dis7.py:7075-7076). -/
def SeesPdu.numberOfPropulsionSystems : Derived where
  cls := .SeesPdu
  name := I.numberOfPropulsionSystems
  value := fun (x : Dis.SeesPdu) => .int x.propulsionSystemData.length

/-- `SeesPdu.numberOfVectoringNozzleSystems` (/repo/opendis/dis7.py:7079-7080). -/
def SeesPdu.numberOfVectoringNozzleSystems : Derived where
  cls := .SeesPdu
  name := I.numberOfVectoringNozzleSystems
  value := fun (x : Dis.SeesPdu) => .int x.vectoringSystemData.length

/-- `EventReportReliablePdu.numberOfFixedDatumRecords` (/repo/opendis/dis7.py:7223-7224). -/
def EventReportReliablePdu.numberOfFixedDatumRecords : Derived where
  cls := .EventReportReliablePdu
  name := I.numberOfFixedDatumRecords
  value := fun (x : Dis.EventReportReliablePdu) => .int x._datums.fixedDatumRecords.length

/-- `EventReportReliablePdu.numberOfVariableDatumRecords` (/repo/opendis/dis7.py:7227-7228). -/
def EventReportReliablePdu.numberOfVariableDatumRecords : Derived where
  cls := .EventReportReliablePdu
  name := I.numberOfVariableDatumRecords
  value := fun (x : Dis.EventReportReliablePdu) => .int x._datums.variableDatumRecords.length

/-- `EventReportReliablePdu.fixedDatumRecords` (/repo/opendis/dis7.py:7231-7232). -/
def EventReportReliablePdu.fixedDatumRecords : Derived where
  cls := .EventReportReliablePdu
  name := I.fixedDatumRecords
  value := fun (x : Dis.EventReportReliablePdu) => .list (x._datums.fixedDatumRecords.map FixedDatum.enc)

/-- `EventReportReliablePdu.variableDatumRecords` (/repo/opendis/dis7.py:7235-7236). -/
def EventReportReliablePdu.variableDatumRecords : Derived where
  cls := .EventReportReliablePdu
  name := I.variableDatumRecords
  value := fun (x : Dis.EventReportReliablePdu) => .list (x._datums.variableDatumRecords.map VariableDatum.enc)

/-- `MinefieldResponseNackPdu.numberOfMissingPdus` (/repo/opendis/dis7.py:7275-7276). -/
def MinefieldResponseNackPdu.numberOfMissingPdus : Derived where
  cls := .MinefieldResponseNackPdu
  name := I.numberOfMissingPdus
  value := fun (x : Dis.MinefieldResponseNackPdu) => .int x.missingPduSequenceNumbers.length

/-- `ActionResponseReliablePdu.numberOfFixedDatumRecords` (/repo/opendis/dis7.py:7322-7323). -/
def ActionResponseReliablePdu.numberOfFixedDatumRecords : Derived where
  cls := .ActionResponseReliablePdu
  name := I.numberOfFixedDatumRecords
  value := fun (x : Dis.ActionResponseReliablePdu) => .int x._datums.fixedDatumRecords.length

/-- `ActionResponseReliablePdu.numberOfVariableDatumRecords` (/repo/opendis/dis7.py:7326-7327). -/
def ActionResponseReliablePdu.numberOfVariableDatumRecords : Derived where
  cls := .ActionResponseReliablePdu
  name := I.numberOfVariableDatumRecords
  value := fun (x : Dis.ActionResponseReliablePdu) => .int x._datums.variableDatumRecords.length

/-- `ActionResponseReliablePdu.fixedDatumRecords` (/repo/opendis/dis7.py:7330-7331). -/
def ActionResponseReliablePdu.fixedDatumRecords : Derived where
  cls := .ActionResponseReliablePdu
  name := I.fixedDatumRecords
  value := fun (x : Dis.ActionResponseReliablePdu) => .list (x._datums.fixedDatumRecords.map FixedDatum.enc)

/-- `ActionResponseReliablePdu.variableDatumRecords` (/repo/opendis/dis7.py:7334-7335). -/
def ActionResponseReliablePdu.variableDatumRecords : Derived where
  cls := .ActionResponseReliablePdu
  name := I.variableDatumRecords
  value := fun (x : Dis.ActionResponseReliablePdu) => .list (x._datums.variableDatumRecords.map VariableDatum.enc)

/-- `AggregateStatePdu.numberOfAggregateIDs` (/repo/opendis/dis7.py:7452-7453). -/
def AggregateStatePdu.numberOfAggregateIDs : Derived where
  cls := .AggregateStatePdu
  name := I.numberOfAggregateIDs
  value := fun (x : Dis.AggregateStatePdu) => .int x.aggregateIDs.length

/-- `AggregateStatePdu.numberOfEntityIDs` (/repo/opendis/dis7.py:7456-7457). -/
def AggregateStatePdu.numberOfEntityIDs : Derived where
  cls := .AggregateStatePdu
  name := I.numberOfEntityIDs
  value := fun (x : Dis.AggregateStatePdu) => .int x.entityIDs.length

/-- `AggregateStatePdu.numberOfSilentAggregateSystems` (/repo/opendis/dis7.py:7460-7461). -/
def AggregateStatePdu.numberOfSilentAggregateSystems : Derived where
  cls := .AggregateStatePdu
  name := I.numberOfSilentAggregateSystems
  value := fun (x : Dis.AggregateStatePdu) => .int x.silentAggregateSystems.length

/-- `AggregateStatePdu.numberOfSilentEntitySystems` (/repo/opendis/dis7.py:7464-7465). -/
def AggregateStatePdu.numberOfSilentEntitySystems : Derived where
  cls := .AggregateStatePdu
  name := I.numberOfSilentEntitySystems
  value := fun (x : Dis.AggregateStatePdu) => .int x.silentEntitySystems.length

/-- `AggregateStatePdu.numberOfVariableDatumRecords` (/repo/opendis/dis7.py:7468-7469). -/
def AggregateStatePdu.numberOfVariableDatumRecords : Derived where
  cls := .AggregateStatePdu
  name := I.numberOfVariableDatumRecords
  value := fun (x : Dis.AggregateStatePdu) => .int x.variableDatumRecords.length

end Derived

/-- The derived attributes of the classes of the catalogue (/repo/opendis/dis7.py). -/
def derived : List Derived :=
   [Derived.DataQueryDatumSpecification.numberOfFixedDatumIDs,
    Derived.DataQueryDatumSpecification.numberOfVariableDatumIDs,
    Derived.IFFDataSpecification.numberOfIFFDataRecords,
    Derived.RecordQuerySpecification.numberOfRecords,
    Derived.DatumSpecification.numberOfFixedDatumRecords,
    Derived.DatumSpecification.numberOfVariableDatumRecords,
    Derived.SilentEntitySystem.numberOfAppearanceRecords,
    Derived.StandardVariableSpecification.numberOfStandardVariableRecords,
    Derived.RecordSpecification.numberOfRecordSets,
    Derived.EntityStateUpdatePdu.numberOfVariableParameters,
    Derived.ServiceRequestPdu.numberOfSupplyTypes,
    Derived.DataQueryPdu.numberOfFixedDatumIDs,
    Derived.DataQueryPdu.numberOfVariableDatumIDs,
    Derived.DataQueryPdu.fixedDatumIDs,
    Derived.DataQueryPdu.variableDatumIDs,
    Derived.IntercomSignalPdu.dataLength,
    Derived.ResupplyReceivedPdu.numberOfSupplyTypes,
    Derived.ActionRequestPdu.numberOfFixedDatumRecords,
    Derived.ActionRequestPdu.numberOfVariableDatumRecords,
    Derived.ActionRequestPdu.fixedDatumRecords,
    Derived.ActionRequestPdu.variableDatumRecords,
    Derived.ActionRequestReliablePdu.numberOfFixedDatumRecords,
    Derived.ActionRequestReliablePdu.numberOfVariableDatumRecords,
    Derived.ActionRequestReliablePdu.fixedDatumRecords,
    Derived.ActionRequestReliablePdu.variableDatumRecords,
    Derived.EntityStatePdu.numberOfVariableParameters,
    Derived.ElectromagneticEmissionsPdu.numberOfSystems,
    Derived.EmissionSystemBeamRecord.numberOfTargetsInTrackJam,
    Derived.EmissionSystemRecord.numberOfBeams,
    Derived.ResupplyOfferPdu.numberOfSupplyTypes,
    Derived.SetDataReliablePdu.numberOfFixedDatumRecords,
    Derived.SetDataReliablePdu.numberOfVariableDatumRecords,
    Derived.SetDataReliablePdu.fixedDatumRecords,
    Derived.SetDataReliablePdu.variableDatumRecords,
    Derived.DataPdu.numberOfFixedDatumRecords,
    Derived.DataPdu.numberOfVariableDatumRecords,
    Derived.DataPdu.fixedDatumRecords,
    Derived.DataPdu.variableDatumRecords,
    Derived.ArealObjectStatePdu.numberOfPoints,
    Derived.DataQueryReliablePdu.numberOfFixedDatumIDs,
    Derived.DataQueryReliablePdu.numberOfVariableDatumIDs,
    Derived.DataQueryReliablePdu.fixedDatumIDs,
    Derived.DataQueryReliablePdu.variableDatumIDs,
    Derived.MinefieldStatePdu.numberOfPerimeterPoints,
    Derived.MinefieldStatePdu.numberOfMineTypes,
    Derived.DataReliablePdu.numberOfFixedDatumRecords,
    Derived.DataReliablePdu.numberOfVariableDatumRecords,
    Derived.DataReliablePdu.fixedDatumRecords,
    Derived.DataReliablePdu.variableDatumRecords,
    Derived.CommentPdu.numberOfFixedDatumRecords,
    Derived.CommentPdu.numberOfVariableDatumRecords,
    Derived.CommentPdu.fixedDatumRecords,
    Derived.CommentPdu.variableDatumRecords,
    Derived.CommentReliablePdu.numberOfFixedDatumRecords,
    Derived.CommentReliablePdu.numberOfVariableDatumRecords,
    Derived.CommentReliablePdu.fixedDatumRecords,
    Derived.CommentReliablePdu.variableDatumRecords,
    Derived.DirectedEnergyFirePdu.numberOfDERecords,
    Derived.DetonationPdu.numberOfVariableParameters,
    Derived.SetDataPdu.numberOfFixedDatumRecords,
    Derived.SetDataPdu.numberOfVariableDatumRecords,
    Derived.SetDataPdu.fixedDatumRecords,
    Derived.SetDataPdu.variableDatumRecords,
    Derived.RecordQueryReliablePdu.numberOfRecords,
    Derived.ActionResponsePdu.numberOfFixedDatumRecords,
    Derived.ActionResponsePdu.numberOfVariableDatumRecords,
    Derived.ActionResponsePdu.fixedDatumRecords,
    Derived.ActionResponsePdu.variableDatumRecords,
    Derived.EntityDamageStatusPdu.damageDescriptionCount,
    Derived.UaPdu.numberOfShafts,
    Derived.UaPdu.numberOfAPAs,
    Derived.UaPdu.numberOfUAEmitterSystems,
    Derived.SignalPdu.dataLength,
    Derived.SeesPdu.numberOfPropulsionSystems,
    Derived.SeesPdu.numberOfVectoringNozzleSystems,
    Derived.EventReportReliablePdu.numberOfFixedDatumRecords,
    Derived.EventReportReliablePdu.numberOfVariableDatumRecords,
    Derived.EventReportReliablePdu.fixedDatumRecords,
    Derived.EventReportReliablePdu.variableDatumRecords,
    Derived.MinefieldResponseNackPdu.numberOfMissingPdus,
    Derived.ActionResponseReliablePdu.numberOfFixedDatumRecords,
    Derived.ActionResponseReliablePdu.numberOfVariableDatumRecords,
    Derived.ActionResponseReliablePdu.fixedDatumRecords,
    Derived.ActionResponseReliablePdu.variableDatumRecords,
    Derived.AggregateStatePdu.numberOfAggregateIDs,
    Derived.AggregateStatePdu.numberOfEntityIDs,
    Derived.AggregateStatePdu.numberOfSilentAggregateSystems,
    Derived.AggregateStatePdu.numberOfSilentEntitySystems,
    Derived.AggregateStatePdu.numberOfVariableDatumRecords]

end Dis.Src
