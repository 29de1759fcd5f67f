import Verif.Model.Records3
import Verif.Spec.Records2

/-!
# Specification of: Records of `opendis/dis7.py`, part 3

Generated by `tools/genproof.py`.
-/

set_option linter.unusedVariables false
set_option linter.unusedSimpArgs false

namespace Dis

/-- The object `s` after it parsed what `o` serialized: fields of `o`, singles rounded, list elements
appended (/repo/opendis/dis7.py:1539-1550,1552-1563). -/
def EEFundamentalParameterData.after (s o : EEFundamentalParameterData) : EEFundamentalParameterData :=
  { s with
    frequency := quant o.frequency,
    frequencyRange := quant o.frequencyRange,
    effectiveRadiatedPower := quant o.effectiveRadiatedPower,
    pulseRepetitionFrequency := quant o.pulseRepetitionFrequency,
    pulseWidth := quant o.pulseWidth,
    beamAzimuthCenter := quant o.beamAzimuthCenter,
    beamAzimuthSweep := quant o.beamAzimuthSweep,
    beamElevationCenter := quant o.beamElevationCenter,
    beamElevationSweep := quant o.beamElevationSweep,
    beamSweepSync := quant o.beamSweepSync }

/-- Every field of `o` fits its wire type (/repo/opendis/dis7.py:1539-1550,1552-1563). -/
def EEFundamentalParameterData.WireOk (o : EEFundamentalParameterData) : Prop :=
  F32Fits o.frequency ∧
  F32Fits o.frequencyRange ∧
  F32Fits o.effectiveRadiatedPower ∧
  F32Fits o.pulseRepetitionFrequency ∧
  F32Fits o.pulseWidth ∧
  F32Fits o.beamAzimuthCenter ∧
  F32Fits o.beamAzimuthSweep ∧
  F32Fits o.beamElevationCenter ∧
  F32Fits o.beamElevationSweep ∧
  F32Fits o.beamSweepSync

/-- `o` is in the form a fresh `EEFundamentalParameterData` takes after parsing: singles exact, arrays of the fixed length,
attributes that are not on the wire at their initial value (/repo/opendis/dis7.py:1539-1550,1552-1563). -/
def EEFundamentalParameterData.Canon (o : EEFundamentalParameterData) : Prop :=
  quant o.frequency = o.frequency ∧
  quant o.frequencyRange = o.frequencyRange ∧
  quant o.effectiveRadiatedPower = o.effectiveRadiatedPower ∧
  quant o.pulseRepetitionFrequency = o.pulseRepetitionFrequency ∧
  quant o.pulseWidth = o.pulseWidth ∧
  quant o.beamAzimuthCenter = o.beamAzimuthCenter ∧
  quant o.beamAzimuthSweep = o.beamAzimuthSweep ∧
  quant o.beamElevationCenter = o.beamElevationCenter ∧
  quant o.beamElevationSweep = o.beamElevationSweep ∧
  quant o.beamSweepSync = o.beamSweepSync

/-- No single-precision field of `o` is a NaN (/repo/opendis/dis7.py:1539-1550,1552-1563). -/
def EEFundamentalParameterData.NoNaN (o : EEFundamentalParameterData) : Prop :=
  ¬ o.frequency.isNaN ∧
  ¬ o.frequencyRange.isNaN ∧
  ¬ o.effectiveRadiatedPower.isNaN ∧
  ¬ o.pulseRepetitionFrequency.isNaN ∧
  ¬ o.pulseWidth.isNaN ∧
  ¬ o.beamAzimuthCenter.isNaN ∧
  ¬ o.beamAzimuthSweep.isNaN ∧
  ¬ o.beamElevationCenter.isNaN ∧
  ¬ o.beamElevationSweep.isNaN ∧
  ¬ o.beamSweepSync.isNaN

/-- Number of bytes `serialize` writes (/repo/opendis/dis7.py:1539-1550,1552-1563). -/
def EEFundamentalParameterData.wireSize (o : EEFundamentalParameterData) : Nat := 40

/-- The object `s` after it parsed what `o` serialized: fields of `o`, singles rounded, list elements
appended (/repo/opendis/dis7.py:1578-1583,1585-1590). -/
def JammingTechnique.after (s o : JammingTechnique) : JammingTechnique :=
  { s with
    kind := o.kind,
    category := o.category,
    subcategory := o.subcategory,
    specific := o.specific }

/-- Every field of `o` fits its wire type (/repo/opendis/dis7.py:1578-1583,1585-1590). -/
def JammingTechnique.WireOk (o : JammingTechnique) : Prop :=
  U8 o.kind ∧
  U8 o.category ∧
  U8 o.subcategory ∧
  U8 o.specific

/-- `o` is in the form a fresh `JammingTechnique` takes after parsing: singles exact, arrays of the fixed length,
attributes that are not on the wire at their initial value (/repo/opendis/dis7.py:1578-1583,1585-1590). -/
def JammingTechnique.Canon (o : JammingTechnique) : Prop :=
  True

/-- No single-precision field of `o` is a NaN (/repo/opendis/dis7.py:1578-1583,1585-1590). -/
def JammingTechnique.NoNaN (o : JammingTechnique) : Prop :=
  True

/-- Number of bytes `serialize` writes (/repo/opendis/dis7.py:1578-1583,1585-1590). -/
def JammingTechnique.wireSize (o : JammingTechnique) : Nat := 4

/-- The object `s` after it parsed what `o` serialized: the first `length // 8` data bytes are appended
(/repo/opendis/dis7.py:3318-3327,3329-3339). -/
def VariableDatum.after (s o : VariableDatum) : VariableDatum :=
  { s with
    variableDatumID := o.variableDatumID,
    variableDatumLength := o.variableDatumLength,
    variableData := s.variableData ++ o.variableData.take (o.variableDatumLength / 8).toNat }

/-- Every field fits and there are at least as many data bytes as the bit length announces
(/repo/opendis/dis7.py:3318-3327). -/
def VariableDatum.WireOk (o : VariableDatum) : Prop :=
  U32 o.variableDatumID ∧ U32 o.variableDatumLength ∧
  (o.variableDatumLength / 8).toNat ≤ o.variableData.length ∧
  ∀ x ∈ o.variableData.take (o.variableDatumLength / 8).toNat, U8 x

/-- The data list has exactly the announced number of whole bytes
(/repo/opendis/dis7.py:3329-3339). -/
def VariableDatum.Canon (o : VariableDatum) : Prop :=
  o.variableData.length = (o.variableDatumLength / 8).toNat

/-- No single-precision fields (/repo/opendis/dis7.py:3318-3327). -/
def VariableDatum.NoNaN (_o : VariableDatum) : Prop := True

/-- Bytes written: id, length, whole data bytes, whole padding bytes up to the next multiple of 64
bits (/repo/opendis/dis7.py:3311-3327). -/
def VariableDatum.wireSize (o : VariableDatum) : Nat :=
  8 + (o.variableDatumLength / 8).toNat + ((-o.variableDatumLength) % 64 / 8).toNat

/-- The object `s` after it parsed what `o` serialized: fields of `o`, singles rounded, list elements
appended (/repo/opendis/dis7.py:1615-1623,1625-1637). -/
def DatumSpecification.after (s o : DatumSpecification) : DatumSpecification :=
  { s with
    fixedDatumRecords := s.fixedDatumRecords ++ o.fixedDatumRecords.map (FixedDatum.after FixedDatum.init),
    variableDatumRecords := s.variableDatumRecords ++ o.variableDatumRecords.map (VariableDatum.after VariableDatum.init) }

/-- Every field of `o` fits its wire type (/repo/opendis/dis7.py:1615-1623,1625-1637). -/
def DatumSpecification.WireOk (o : DatumSpecification) : Prop :=
  U32 ((o.fixedDatumRecords.length : Int)) ∧
  U32 ((o.variableDatumRecords.length : Int)) ∧
  (∀ x ∈ o.fixedDatumRecords, FixedDatum.WireOk x) ∧
  (∀ x ∈ o.variableDatumRecords, VariableDatum.WireOk x)

/-- `o` is in the form a fresh `DatumSpecification` takes after parsing: singles exact, arrays of the fixed length,
attributes that are not on the wire at their initial value (/repo/opendis/dis7.py:1615-1623,1625-1637). -/
def DatumSpecification.Canon (o : DatumSpecification) : Prop :=
  ∀ x ∈ o.variableDatumRecords, VariableDatum.Canon x

/-- No single-precision field of `o` is a NaN (/repo/opendis/dis7.py:1615-1623,1625-1637). -/
def DatumSpecification.NoNaN (o : DatumSpecification) : Prop :=
  True

/-- Number of bytes `serialize` writes (/repo/opendis/dis7.py:1615-1623,1625-1637). -/
def DatumSpecification.wireSize (o : DatumSpecification) : Nat := 8 + 8 * o.fixedDatumRecords.length + (o.variableDatumRecords.map VariableDatum.wireSize).sum

/-- The object `s` after it parsed what `o` serialized: fields of `o`, singles rounded, list elements
appended (/repo/opendis/dis7.py:1658-1664,1666-1672). -/
def Expendable.after (s o : Expendable) : Expendable :=
  { s with
    expendable := EntityType.after s.expendable o.expendable,
    station := o.station,
    quantity := o.quantity,
    expendableStatus := o.expendableStatus,
    padding := o.padding }

/-- Every field of `o` fits its wire type (/repo/opendis/dis7.py:1658-1664,1666-1672). -/
def Expendable.WireOk (o : Expendable) : Prop :=
  EntityType.WireOk o.expendable ∧
  U32 o.station ∧
  U16 o.quantity ∧
  U8 o.expendableStatus ∧
  U8 o.padding

/-- `o` is in the form a fresh `Expendable` takes after parsing: singles exact, arrays of the fixed length,
attributes that are not on the wire at their initial value (/repo/opendis/dis7.py:1658-1664,1666-1672). -/
def Expendable.Canon (o : Expendable) : Prop :=
  True

/-- No single-precision field of `o` is a NaN (/repo/opendis/dis7.py:1658-1664,1666-1672). -/
def Expendable.NoNaN (o : Expendable) : Prop :=
  True

/-- Number of bytes `serialize` writes (/repo/opendis/dis7.py:1658-1664,1666-1672). -/
def Expendable.wireSize (o : Expendable) : Nat := 16

/-- The object `s` after it parsed what `o` serialized: fields of `o`, singles rounded, list elements
appended (/repo/opendis/dis7.py:3493-3496,3498-3501). -/
def CommunicationsNodeID.after (s o : CommunicationsNodeID) : CommunicationsNodeID :=
  { s with
    entityID := EntityIdentifier.after s.entityID o.entityID,
    elementID := o.elementID }

/-- Every field of `o` fits its wire type (/repo/opendis/dis7.py:3493-3496,3498-3501). -/
def CommunicationsNodeID.WireOk (o : CommunicationsNodeID) : Prop :=
  EntityIdentifier.WireOk o.entityID ∧
  U16 o.elementID

/-- `o` is in the form a fresh `CommunicationsNodeID` takes after parsing: singles exact, arrays of the fixed length,
attributes that are not on the wire at their initial value (/repo/opendis/dis7.py:3493-3496,3498-3501). -/
def CommunicationsNodeID.Canon (o : CommunicationsNodeID) : Prop :=
  True

/-- No single-precision field of `o` is a NaN (/repo/opendis/dis7.py:3493-3496,3498-3501). -/
def CommunicationsNodeID.NoNaN (o : CommunicationsNodeID) : Prop :=
  True

/-- Number of bytes `serialize` writes (/repo/opendis/dis7.py:3493-3496,3498-3501). -/
def CommunicationsNodeID.wireSize (o : CommunicationsNodeID) : Nat := 8

/-- The object `s` after it parsed what `o` serialized: fields of `o`, singles rounded, list elements
appended (/repo/opendis/dis7.py:1691-1697,1699-1705). -/
def IOCommunicationsNode.after (s o : IOCommunicationsNode) : IOCommunicationsNode :=
  { s with
    recordType := o.recordType,
    recordLength := o.recordLength,
    communcationsNodeType := o.communcationsNodeType,
    padding := o.padding,
    communicationsNodeID := CommunicationsNodeID.after s.communicationsNodeID o.communicationsNodeID }

/-- Every field of `o` fits its wire type (/repo/opendis/dis7.py:1691-1697,1699-1705). -/
def IOCommunicationsNode.WireOk (o : IOCommunicationsNode) : Prop :=
  U32 o.recordType ∧
  U16 o.recordLength ∧
  U8 o.communcationsNodeType ∧
  U8 o.padding ∧
  CommunicationsNodeID.WireOk o.communicationsNodeID

/-- `o` is in the form a fresh `IOCommunicationsNode` takes after parsing: singles exact, arrays of the fixed length,
attributes that are not on the wire at their initial value (/repo/opendis/dis7.py:1691-1697,1699-1705). -/
def IOCommunicationsNode.Canon (o : IOCommunicationsNode) : Prop :=
  True

/-- No single-precision field of `o` is a NaN (/repo/opendis/dis7.py:1691-1697,1699-1705). -/
def IOCommunicationsNode.NoNaN (o : IOCommunicationsNode) : Prop :=
  True

/-- Number of bytes `serialize` writes (/repo/opendis/dis7.py:1691-1697,1699-1705). -/
def IOCommunicationsNode.wireSize (o : IOCommunicationsNode) : Nat := 16

/-- The object `s` after it parsed what `o` serialized: fields of `o`, singles rounded, list elements
appended (/repo/opendis/dis7.py:1748-1760,1762-1774). -/
def LinearSegmentParameter.after (s o : LinearSegmentParameter) : LinearSegmentParameter :=
  { s with
    segmentNumber := o.segmentNumber,
    segmentModification := o.segmentModification,
    generalSegmentAppearance := o.generalSegmentAppearance,
    specificSegmentAppearance := o.specificSegmentAppearance,
    segmentLocation := WorldCoordinates.after s.segmentLocation o.segmentLocation,
    segmentOrientation := EulerAngles.after s.segmentOrientation o.segmentOrientation,
    segmentLength := quant o.segmentLength,
    segmentWidth := quant o.segmentWidth,
    segmentHeight := quant o.segmentHeight,
    segmentDepth := quant o.segmentDepth,
    padding := o.padding }

/-- Every field of `o` fits its wire type (/repo/opendis/dis7.py:1748-1760,1762-1774). -/
def LinearSegmentParameter.WireOk (o : LinearSegmentParameter) : Prop :=
  U8 o.segmentNumber ∧
  U8 o.segmentModification ∧
  U16 o.generalSegmentAppearance ∧
  U32 o.specificSegmentAppearance ∧
  EulerAngles.WireOk o.segmentOrientation ∧
  F32Fits o.segmentLength ∧
  F32Fits o.segmentWidth ∧
  F32Fits o.segmentHeight ∧
  F32Fits o.segmentDepth ∧
  U32 o.padding

/-- `o` is in the form a fresh `LinearSegmentParameter` takes after parsing: singles exact, arrays of the fixed length,
attributes that are not on the wire at their initial value (/repo/opendis/dis7.py:1748-1760,1762-1774). -/
def LinearSegmentParameter.Canon (o : LinearSegmentParameter) : Prop :=
  EulerAngles.Canon o.segmentOrientation ∧
  quant o.segmentLength = o.segmentLength ∧
  quant o.segmentWidth = o.segmentWidth ∧
  quant o.segmentHeight = o.segmentHeight ∧
  quant o.segmentDepth = o.segmentDepth

/-- No single-precision field of `o` is a NaN (/repo/opendis/dis7.py:1748-1760,1762-1774). -/
def LinearSegmentParameter.NoNaN (o : LinearSegmentParameter) : Prop :=
  EulerAngles.NoNaN o.segmentOrientation ∧
  ¬ o.segmentLength.isNaN ∧
  ¬ o.segmentWidth.isNaN ∧
  ¬ o.segmentHeight.isNaN ∧
  ¬ o.segmentDepth.isNaN

/-- Number of bytes `serialize` writes (/repo/opendis/dis7.py:1748-1760,1762-1774). -/
def LinearSegmentParameter.wireSize (o : LinearSegmentParameter) : Nat := 64

/-- The object `s` after it parsed what `o` serialized: fields of `o`, singles rounded, list elements
appended (/repo/opendis/dis7.py:1797-1802,1804-1809). -/
def SystemIdentifier.after (s o : SystemIdentifier) : SystemIdentifier :=
  { s with
    systemType := o.systemType,
    systemName := o.systemName,
    systemMode := o.systemMode,
    changeOptions := ChangeOptions.after s.changeOptions o.changeOptions }

/-- Every field of `o` fits its wire type (/repo/opendis/dis7.py:1797-1802,1804-1809). -/
def SystemIdentifier.WireOk (o : SystemIdentifier) : Prop :=
  U16 o.systemType ∧
  U16 o.systemName ∧
  U16 o.systemMode

/-- `o` is in the form a fresh `SystemIdentifier` takes after parsing: singles exact, arrays of the fixed length,
attributes that are not on the wire at their initial value (/repo/opendis/dis7.py:1797-1802,1804-1809). -/
def SystemIdentifier.Canon (o : SystemIdentifier) : Prop :=
  True

/-- No single-precision field of `o` is a NaN (/repo/opendis/dis7.py:1797-1802,1804-1809). -/
def SystemIdentifier.NoNaN (o : SystemIdentifier) : Prop :=
  True

/-- Number of bytes `serialize` writes (/repo/opendis/dis7.py:1797-1802,1804-1809). -/
def SystemIdentifier.wireSize (o : SystemIdentifier) : Nat := 6

/-- The object `s` after it parsed what `o` serialized: fields of `o`, singles rounded, list elements
appended (/repo/opendis/dis7.py:1829-1833,1835-1839). -/
def TrackJamData.after (s o : TrackJamData) : TrackJamData :=
  { s with
    entityID := EntityIdentifier.after s.entityID o.entityID,
    emitterNumber := o.emitterNumber,
    beamNumber := o.beamNumber }

/-- Every field of `o` fits its wire type (/repo/opendis/dis7.py:1829-1833,1835-1839). -/
def TrackJamData.WireOk (o : TrackJamData) : Prop :=
  EntityIdentifier.WireOk o.entityID ∧
  U8 o.emitterNumber ∧
  U8 o.beamNumber

/-- `o` is in the form a fresh `TrackJamData` takes after parsing: singles exact, arrays of the fixed length,
attributes that are not on the wire at their initial value (/repo/opendis/dis7.py:1829-1833,1835-1839). -/
def TrackJamData.Canon (o : TrackJamData) : Prop :=
  True

/-- No single-precision field of `o` is a NaN (/repo/opendis/dis7.py:1829-1833,1835-1839). -/
def TrackJamData.NoNaN (o : TrackJamData) : Prop :=
  True

/-- Number of bytes `serialize` writes (/repo/opendis/dis7.py:1829-1833,1835-1839). -/
def TrackJamData.wireSize (o : TrackJamData) : Nat := 8

/-- The object `s` after it parsed what `o` serialized: fields of `o`, singles rounded, list elements
appended (/repo/opendis/dis7.py:1870-1878,1880-1888). -/
def AggregateType.after (s o : AggregateType) : AggregateType :=
  { s with
    aggregateKind := o.aggregateKind,
    domain := o.domain,
    country := o.country,
    category := o.category,
    subcategory := o.subcategory,
    specificInfo := o.specificInfo,
    extra := o.extra }

/-- Every field of `o` fits its wire type (/repo/opendis/dis7.py:1870-1878,1880-1888). -/
def AggregateType.WireOk (o : AggregateType) : Prop :=
  U8 o.aggregateKind ∧
  U8 o.domain ∧
  U16 o.country ∧
  U8 o.category ∧
  U8 o.subcategory ∧
  U8 o.specificInfo ∧
  U8 o.extra

/-- `o` is in the form a fresh `AggregateType` takes after parsing: singles exact, arrays of the fixed length,
attributes that are not on the wire at their initial value (/repo/opendis/dis7.py:1870-1878,1880-1888). -/
def AggregateType.Canon (o : AggregateType) : Prop :=
  True

/-- No single-precision field of `o` is a NaN (/repo/opendis/dis7.py:1870-1878,1880-1888). -/
def AggregateType.NoNaN (o : AggregateType) : Prop :=
  True

/-- Number of bytes `serialize` writes (/repo/opendis/dis7.py:1870-1878,1880-1888). -/
def AggregateType.wireSize (o : AggregateType) : Nat := 8

/-- The object `s` after it parsed what `o` serialized: fields of `o`, singles rounded, list elements
appended (/repo/opendis/dis7.py:2069-2072,2074-2077). -/
def SimulationIdentifier.after (s o : SimulationIdentifier) : SimulationIdentifier :=
  { s with
    simulationAddress := SimulationAddress.after s.simulationAddress o.simulationAddress,
    referenceNumber := o.referenceNumber }

/-- Every field of `o` fits its wire type (/repo/opendis/dis7.py:2069-2072,2074-2077). -/
def SimulationIdentifier.WireOk (o : SimulationIdentifier) : Prop :=
  SimulationAddress.WireOk o.simulationAddress ∧
  U16 o.referenceNumber

/-- `o` is in the form a fresh `SimulationIdentifier` takes after parsing: singles exact, arrays of the fixed length,
attributes that are not on the wire at their initial value (/repo/opendis/dis7.py:2069-2072,2074-2077). -/
def SimulationIdentifier.Canon (o : SimulationIdentifier) : Prop :=
  True

/-- No single-precision field of `o` is a NaN (/repo/opendis/dis7.py:2069-2072,2074-2077). -/
def SimulationIdentifier.NoNaN (o : SimulationIdentifier) : Prop :=
  True

/-- Number of bytes `serialize` writes (/repo/opendis/dis7.py:2069-2072,2074-2077). -/
def SimulationIdentifier.wireSize (o : SimulationIdentifier) : Nat := 6

/-- The object `s` after it parsed what `o` serialized: fields of `o`, singles rounded, list elements
appended (/repo/opendis/dis7.py:3401-3410,3412-3421). -/
def PduHeader.after (s o : PduHeader) : PduHeader :=
  { s with
    protocolVersion := o.protocolVersion,
    exerciseID := o.exerciseID,
    pduType := o.pduType,
    protocolFamily := o.protocolFamily,
    timestamp := o.timestamp,
    pduLength := o.pduLength,
    pduStatus := o.pduStatus,
    padding := o.padding }

/-- Every field of `o` fits its wire type (/repo/opendis/dis7.py:3401-3410,3412-3421). -/
def PduHeader.WireOk (o : PduHeader) : Prop :=
  U8 o.protocolVersion ∧
  U8 o.exerciseID ∧
  U8 o.pduType ∧
  U8 o.protocolFamily ∧
  U32 o.timestamp ∧
  U8 o.pduLength ∧
  U16 o.pduStatus ∧
  U8 o.padding

/-- `o` is in the form a fresh `PduHeader` takes after parsing: singles exact, arrays of the fixed length,
attributes that are not on the wire at their initial value (/repo/opendis/dis7.py:3401-3410,3412-3421). -/
def PduHeader.Canon (o : PduHeader) : Prop :=
  True

/-- No single-precision field of `o` is a NaN (/repo/opendis/dis7.py:3401-3410,3412-3421). -/
def PduHeader.NoNaN (o : PduHeader) : Prop :=
  True

/-- Number of bytes `serialize` writes (/repo/opendis/dis7.py:3401-3410,3412-3421). -/
def PduHeader.wireSize (o : PduHeader) : Nat := 12

/-- The object `s` after it parsed what `o` serialized: fields of `o`, singles rounded, list elements
appended (/repo/opendis/dis7.py:1909-1913,1915-1919). -/
def SimulationManagementPduHeader.after (s o : SimulationManagementPduHeader) : SimulationManagementPduHeader :=
  { s with
    pduHeader := PduHeader.after s.pduHeader o.pduHeader,
    originatingID := SimulationIdentifier.after s.originatingID o.originatingID,
    receivingID := SimulationIdentifier.after s.receivingID o.receivingID }

/-- Every field of `o` fits its wire type (/repo/opendis/dis7.py:1909-1913,1915-1919). -/
def SimulationManagementPduHeader.WireOk (o : SimulationManagementPduHeader) : Prop :=
  PduHeader.WireOk o.pduHeader ∧
  SimulationIdentifier.WireOk o.originatingID ∧
  SimulationIdentifier.WireOk o.receivingID

/-- `o` is in the form a fresh `SimulationManagementPduHeader` takes after parsing: singles exact, arrays of the fixed length,
attributes that are not on the wire at their initial value (/repo/opendis/dis7.py:1909-1913,1915-1919). -/
def SimulationManagementPduHeader.Canon (o : SimulationManagementPduHeader) : Prop :=
  True

/-- No single-precision field of `o` is a NaN (/repo/opendis/dis7.py:1909-1913,1915-1919). -/
def SimulationManagementPduHeader.NoNaN (o : SimulationManagementPduHeader) : Prop :=
  True

/-- Number of bytes `serialize` writes (/repo/opendis/dis7.py:1909-1913,1915-1919). -/
def SimulationManagementPduHeader.wireSize (o : SimulationManagementPduHeader) : Nat := 24

/-- The object `s` after it parsed what `o` serialized: fields of `o`, singles rounded, list elements
appended (/repo/opendis/dis7.py:1946-1952,1954-1960). -/
def BeamData.after (s o : BeamData) : BeamData :=
  { s with
    beamAzimuthCenter := quant o.beamAzimuthCenter,
    beamAzimuthSweep := quant o.beamAzimuthSweep,
    beamElevationCenter := quant o.beamElevationCenter,
    beamElevationSweep := quant o.beamElevationSweep,
    beamSweepSync := quant o.beamSweepSync }

/-- Every field of `o` fits its wire type (/repo/opendis/dis7.py:1946-1952,1954-1960). -/
def BeamData.WireOk (o : BeamData) : Prop :=
  F32Fits o.beamAzimuthCenter ∧
  F32Fits o.beamAzimuthSweep ∧
  F32Fits o.beamElevationCenter ∧
  F32Fits o.beamElevationSweep ∧
  F32Fits o.beamSweepSync

/-- `o` is in the form a fresh `BeamData` takes after parsing: singles exact, arrays of the fixed length,
attributes that are not on the wire at their initial value (/repo/opendis/dis7.py:1946-1952,1954-1960). -/
def BeamData.Canon (o : BeamData) : Prop :=
  quant o.beamAzimuthCenter = o.beamAzimuthCenter ∧
  quant o.beamAzimuthSweep = o.beamAzimuthSweep ∧
  quant o.beamElevationCenter = o.beamElevationCenter ∧
  quant o.beamElevationSweep = o.beamElevationSweep ∧
  quant o.beamSweepSync = o.beamSweepSync

/-- No single-precision field of `o` is a NaN (/repo/opendis/dis7.py:1946-1952,1954-1960). -/
def BeamData.NoNaN (o : BeamData) : Prop :=
  ¬ o.beamAzimuthCenter.isNaN ∧
  ¬ o.beamAzimuthSweep.isNaN ∧
  ¬ o.beamElevationCenter.isNaN ∧
  ¬ o.beamElevationSweep.isNaN ∧
  ¬ o.beamSweepSync.isNaN

/-- Number of bytes `serialize` writes (/repo/opendis/dis7.py:1946-1952,1954-1960). -/
def BeamData.wireSize (o : BeamData) : Nat := 20

/-- The object `s` after it parsed what `o` serialized: fields of `o`, singles rounded, list elements
appended (/repo/opendis/dis7.py:1984-1990,1992-1998). -/
def EngineFuel.after (s o : EngineFuel) : EngineFuel :=
  { s with
    fuelQuantity := o.fuelQuantity,
    fuelMeasurementUnits := o.fuelMeasurementUnits,
    fuelType := o.fuelType,
    fuelLocation := o.fuelLocation,
    padding := o.padding }

/-- Every field of `o` fits its wire type (/repo/opendis/dis7.py:1984-1990,1992-1998). -/
def EngineFuel.WireOk (o : EngineFuel) : Prop :=
  U32 o.fuelQuantity ∧
  U8 o.fuelMeasurementUnits ∧
  U8 o.fuelType ∧
  U8 o.fuelLocation ∧
  U8 o.padding

/-- `o` is in the form a fresh `EngineFuel` takes after parsing: singles exact, arrays of the fixed length,
attributes that are not on the wire at their initial value (/repo/opendis/dis7.py:1984-1990,1992-1998). -/
def EngineFuel.Canon (o : EngineFuel) : Prop :=
  True

/-- No single-precision field of `o` is a NaN (/repo/opendis/dis7.py:1984-1990,1992-1998). -/
def EngineFuel.NoNaN (o : EngineFuel) : Prop :=
  True

/-- Number of bytes `serialize` writes (/repo/opendis/dis7.py:1984-1990,1992-1998). -/
def EngineFuel.wireSize (o : EngineFuel) : Nat := 8

/-- The object `s` after it parsed what `o` serialized: fields of `o`, singles rounded, list elements
appended (/repo/opendis/dis7.py:2025-2035,2037-2047). -/
def IOEffect.after (s o : IOEffect) : IOEffect :=
  { s with
    recordType := o.recordType,
    recordLength := o.recordLength,
    ioStatus := o.ioStatus,
    ioLinkType := o.ioLinkType,
    ioEffect := o.ioEffect,
    ioEffectDutyCycle := o.ioEffectDutyCycle,
    ioEffectDuration := o.ioEffectDuration,
    ioProcess := o.ioProcess,
    padding := o.padding }

/-- Every field of `o` fits its wire type (/repo/opendis/dis7.py:2025-2035,2037-2047). -/
def IOEffect.WireOk (o : IOEffect) : Prop :=
  U32 o.recordType ∧
  U16 o.recordLength ∧
  U8 o.ioStatus ∧
  U8 o.ioLinkType ∧
  U8 o.ioEffect ∧
  U8 o.ioEffectDutyCycle ∧
  U16 o.ioEffectDuration ∧
  U16 o.ioProcess ∧
  U16 o.padding

/-- `o` is in the form a fresh `IOEffect` takes after parsing: singles exact, arrays of the fixed length,
attributes that are not on the wire at their initial value (/repo/opendis/dis7.py:2025-2035,2037-2047). -/
def IOEffect.Canon (o : IOEffect) : Prop :=
  True

/-- No single-precision field of `o` is a NaN (/repo/opendis/dis7.py:2025-2035,2037-2047). -/
def IOEffect.NoNaN (o : IOEffect) : Prop :=
  True

/-- Number of bytes `serialize` writes (/repo/opendis/dis7.py:2025-2035,2037-2047). -/
def IOEffect.wireSize (o : IOEffect) : Nat := 16

/-- The object `s` after it parsed what `o` serialized: fields of `o`, singles rounded, list elements
appended (/repo/opendis/dis7.py:2123-2137,2139-2155). -/
def GridAxisDescriptorVariable.after (s o : GridAxisDescriptorVariable) : GridAxisDescriptorVariable :=
  { s with
    domainInitialXi := o.domainInitialXi,
    domainFinalXi := o.domainFinalXi,
    domainPointsXi := o.domainPointsXi,
    interleafFactor := o.interleafFactor,
    axisType := o.axisType,
    numberOfPointsOnXiAxis := (o.xiValues.length : Int),
    initialIndex := o.initialIndex,
    coordinateScaleXi := o.coordinateScaleXi,
    coordinateOffsetXi := o.coordinateOffsetXi,
    xiValues := s.xiValues ++ [] }

/-- Every field of `o` fits its wire type (/repo/opendis/dis7.py:2123-2137,2139-2155). -/
def GridAxisDescriptorVariable.WireOk (o : GridAxisDescriptorVariable) : Prop :=
  U16 o.domainPointsXi ∧
  U8 o.interleafFactor ∧
  U8 o.axisType ∧
  U16 ((o.xiValues.length : Int)) ∧
  U16 o.initialIndex ∧
  o.xiValues = []

/-- `o` is in the form a fresh `GridAxisDescriptorVariable` takes after parsing: singles exact, arrays of the fixed length,
attributes that are not on the wire at their initial value (/repo/opendis/dis7.py:2123-2137,2139-2155). -/
def GridAxisDescriptorVariable.Canon (o : GridAxisDescriptorVariable) : Prop :=
  o.numberOfPointsOnXiAxis = (o.xiValues.length : Int) ∧
  o.xiValues = []

/-- No single-precision field of `o` is a NaN (/repo/opendis/dis7.py:2123-2137,2139-2155). -/
def GridAxisDescriptorVariable.NoNaN (o : GridAxisDescriptorVariable) : Prop :=
  True

/-- Number of bytes `serialize` writes (/repo/opendis/dis7.py:2123-2137,2139-2155). -/
def GridAxisDescriptorVariable.wireSize (o : GridAxisDescriptorVariable) : Nat := 40

/-- The object `s` after it parsed what `o` serialized: fields of `o`, singles rounded, list elements
appended (/repo/opendis/dis7.py:2171-2174,2176-2179). -/
def SupplyQuantity.after (s o : SupplyQuantity) : SupplyQuantity :=
  { s with
    supplyType := EntityType.after s.supplyType o.supplyType,
    quantity := quant o.quantity }

/-- Every field of `o` fits its wire type (/repo/opendis/dis7.py:2171-2174,2176-2179). -/
def SupplyQuantity.WireOk (o : SupplyQuantity) : Prop :=
  EntityType.WireOk o.supplyType ∧
  F32Fits o.quantity

/-- `o` is in the form a fresh `SupplyQuantity` takes after parsing: singles exact, arrays of the fixed length,
attributes that are not on the wire at their initial value (/repo/opendis/dis7.py:2171-2174,2176-2179). -/
def SupplyQuantity.Canon (o : SupplyQuantity) : Prop :=
  quant o.quantity = o.quantity

/-- No single-precision field of `o` is a NaN (/repo/opendis/dis7.py:2171-2174,2176-2179). -/
def SupplyQuantity.NoNaN (o : SupplyQuantity) : Prop :=
  ¬ o.quantity.isNaN

/-- Number of bytes `serialize` writes (/repo/opendis/dis7.py:2171-2174,2176-2179). -/
def SupplyQuantity.wireSize (o : SupplyQuantity) : Nat := 12

/-- The object `s` after it parsed what `o` serialized: fields of `o`, singles rounded, list elements
appended (/repo/opendis/dis7.py:2202-2208,2210-2218). -/
def SilentEntitySystem.after (s o : SilentEntitySystem) : SilentEntitySystem :=
  { s with
    numberOfEntities := o.numberOfEntities,
    entityType := EntityType.after s.entityType o.entityType,
    appearanceRecordList := s.appearanceRecordList ++ [] }

/-- Every field of `o` fits its wire type (/repo/opendis/dis7.py:2202-2208,2210-2218). -/
def SilentEntitySystem.WireOk (o : SilentEntitySystem) : Prop :=
  U16 o.numberOfEntities ∧
  U16 ((o.appearanceRecordList.length : Int)) ∧
  EntityType.WireOk o.entityType ∧
  o.appearanceRecordList = []

/-- `o` is in the form a fresh `SilentEntitySystem` takes after parsing: singles exact, arrays of the fixed length,
attributes that are not on the wire at their initial value (/repo/opendis/dis7.py:2202-2208,2210-2218). -/
def SilentEntitySystem.Canon (o : SilentEntitySystem) : Prop :=
  o.appearanceRecordList = []

/-- No single-precision field of `o` is a NaN (/repo/opendis/dis7.py:2202-2208,2210-2218). -/
def SilentEntitySystem.NoNaN (o : SilentEntitySystem) : Prop :=
  True

/-- Number of bytes `serialize` writes (/repo/opendis/dis7.py:2202-2208,2210-2218). -/
def SilentEntitySystem.wireSize (o : SilentEntitySystem) : Nat := 12

/-- The object `s` after it parsed what `o` serialized: `serialize` takes the type from `entityType`,
`parse` stores it in `aggregateType` (/repo/opendis/dis7.py:2234-2242). -/
def SilentAggregateSystem.after (s o : SilentAggregateSystem) : SilentAggregateSystem :=
  { s with
    numberOfAggregates := o.numberOfAggregates,
    aggregateType := AggregateType.after s.aggregateType (o.entityType.getD AggregateType.init) }

/-- `serialize` needs an attribute `entityType`, which no constructor creates
(/repo/opendis/dis7.py:2227-2237). -/
def SilentAggregateSystem.WireOk (o : SilentAggregateSystem) : Prop :=
  U16 o.numberOfAggregates ∧ ∃ t, o.entityType = some t ∧ AggregateType.WireOk t

/-- No object survives a round trip: `parse` never sets `entityType`
(/repo/opendis/dis7.py:2239-2242). -/
def SilentAggregateSystem.Canon (_o : SilentAggregateSystem) : Prop := False

/-- No single-precision fields (/repo/opendis/dis7.py:2234-2237). -/
def SilentAggregateSystem.NoNaN (_o : SilentAggregateSystem) : Prop := True

/-- No parsed object can be serialized again (/repo/opendis/dis7.py:2234-2242). -/
def SilentAggregateSystem.Live (_o : SilentAggregateSystem) : Prop := False

/-- Number of bytes `serialize` writes (/repo/opendis/dis7.py:2234-2237). -/
def SilentAggregateSystem.wireSize (_o : SilentAggregateSystem) : Nat := 10

/-- The object `s` after it parsed what `o` serialized: fields of `o`, singles rounded, list elements
appended (/repo/opendis/dis7.py:2277-2292,2294-2310). -/
def BlankingSector.after (s o : BlankingSector) : BlankingSector :=
  { s with
    recordType := o.recordType,
    recordLength := o.recordLength,
    padding := o.padding,
    emitterNumber := o.emitterNumber,
    beamNumber := o.beamNumber,
    stateIndicator := o.stateIndicator,
    padding2 := o.padding2,
    leftAzimuth := quant o.leftAzimuth,
    rightAzimuth := quant o.rightAzimuth,
    lowerElevation := quant o.lowerElevation,
    upperElevation := quant o.upperElevation,
    residualPower := quant o.residualPower,
    padding3 := o.padding3,
    padding4 := o.padding4 }

/-- Every field of `o` fits its wire type (/repo/opendis/dis7.py:2277-2292,2294-2310). -/
def BlankingSector.WireOk (o : BlankingSector) : Prop :=
  S32 o.recordType ∧
  U16 o.recordLength ∧
  U16 o.padding ∧
  U8 o.emitterNumber ∧
  U8 o.beamNumber ∧
  U8 o.stateIndicator ∧
  U8 o.padding2 ∧
  F32Fits o.leftAzimuth ∧
  F32Fits o.rightAzimuth ∧
  F32Fits o.lowerElevation ∧
  F32Fits o.upperElevation ∧
  F32Fits o.residualPower ∧
  S32 o.padding3 ∧
  S32 o.padding4

/-- `o` is in the form a fresh `BlankingSector` takes after parsing: singles exact, arrays of the fixed length,
attributes that are not on the wire at their initial value (/repo/opendis/dis7.py:2277-2292,2294-2310). -/
def BlankingSector.Canon (o : BlankingSector) : Prop :=
  quant o.leftAzimuth = o.leftAzimuth ∧
  quant o.rightAzimuth = o.rightAzimuth ∧
  quant o.lowerElevation = o.lowerElevation ∧
  quant o.upperElevation = o.upperElevation ∧
  quant o.residualPower = o.residualPower

/-- No single-precision field of `o` is a NaN (/repo/opendis/dis7.py:2277-2292,2294-2310). -/
def BlankingSector.NoNaN (o : BlankingSector) : Prop :=
  ¬ o.leftAzimuth.isNaN ∧
  ¬ o.rightAzimuth.isNaN ∧
  ¬ o.lowerElevation.isNaN ∧
  ¬ o.upperElevation.isNaN ∧
  ¬ o.residualPower.isNaN

/-- Number of bytes `serialize` writes (/repo/opendis/dis7.py:2277-2292,2294-2310). -/
def BlankingSector.wireSize (o : BlankingSector) : Nat := 40

end Dis
