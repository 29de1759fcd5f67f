import Verif.Model.Records2

/-!
# Records of `opendis/dis7.py`, part 3

Generated by `tools/gen.py` from the Python source; each definition cites the lines it transliterates.
-/

set_option linter.unusedVariables false

namespace Dis

/-- Attributes of a `EEFundamentalParameterData` object, /repo/opendis/dis7.py:1505-1563; default values are those of an
object made by `EEFundamentalParameterData()`, /repo/opendis/dis7.py:1512-1537. -/
structure EEFundamentalParameterData where
  frequency : F64 := 0x0000000000000000
  frequencyRange : F64 := 0x0000000000000000
  effectiveRadiatedPower : F64 := 0x0000000000000000
  pulseRepetitionFrequency : F64 := 0x0000000000000000
  pulseWidth : F64 := 0x0000000000000000
  beamAzimuthCenter : F64 := 0x0000000000000000
  beamAzimuthSweep : F64 := 0x0000000000000000
  beamElevationCenter : F64 := 0x0000000000000000
  beamElevationSweep : F64 := 0x0000000000000000
  beamSweepSync : F64 := 0x0000000000000000
  deriving DecidableEq

/-- Constructor `EEFundamentalParameterData(...)`, /repo/opendis/dis7.py:1512-1537. `x or T()` and `x or []` keep a given
value and replace `None` (absent) by a fresh one. -/
def EEFundamentalParameterData.init (frequency : F64 := 0x0000000000000000)
    (frequencyRange : F64 := 0x0000000000000000)
    (effectiveRadiatedPower : F64 := 0x0000000000000000)
    (pulseRepetitionFrequency : F64 := 0x0000000000000000)
    (pulseWidth : F64 := 0x0000000000000000) (beamAzimuthCenter : F64 := 0x0000000000000000)
    (beamAzimuthSweep : F64 := 0x0000000000000000)
    (beamElevationCenter : F64 := 0x0000000000000000)
    (beamElevationSweep : F64 := 0x0000000000000000) (beamSweepSync : F64 := 0x0000000000000000) : EEFundamentalParameterData :=
  { frequency := frequency,
    frequencyRange := frequencyRange,
    effectiveRadiatedPower := effectiveRadiatedPower,
    pulseRepetitionFrequency := pulseRepetitionFrequency,
    pulseWidth := pulseWidth,
    beamAzimuthCenter := beamAzimuthCenter,
    beamAzimuthSweep := beamAzimuthSweep,
    beamElevationCenter := beamElevationCenter,
    beamElevationSweep := beamElevationSweep,
    beamSweepSync := beamSweepSync }

/-- `EEFundamentalParameterData.serialize`, /repo/opendis/dis7.py:1539-1550. -/
def EEFundamentalParameterData.serialize (self : EEFundamentalParameterData) : W Unit := do
  write_float self.frequency
  write_float self.frequencyRange
  write_float self.effectiveRadiatedPower
  write_float self.pulseRepetitionFrequency
  write_float self.pulseWidth
  write_float self.beamAzimuthCenter
  write_float self.beamAzimuthSweep
  write_float self.beamElevationCenter
  write_float self.beamElevationSweep
  write_float self.beamSweepSync

/-- `EEFundamentalParameterData.parse`, /repo/opendis/dis7.py:1552-1563; returns the updated object. -/
def EEFundamentalParameterData.parse (self : EEFundamentalParameterData) : R EEFundamentalParameterData := do
  let frequency ← read_float
  let frequencyRange ← read_float
  let effectiveRadiatedPower ← read_float
  let pulseRepetitionFrequency ← read_float
  let pulseWidth ← read_float
  let beamAzimuthCenter ← read_float
  let beamAzimuthSweep ← read_float
  let beamElevationCenter ← read_float
  let beamElevationSweep ← read_float
  let beamSweepSync ← read_float
  return { self with
    frequency := frequency,
    frequencyRange := frequencyRange,
    effectiveRadiatedPower := effectiveRadiatedPower,
    pulseRepetitionFrequency := pulseRepetitionFrequency,
    pulseWidth := pulseWidth,
    beamAzimuthCenter := beamAzimuthCenter,
    beamAzimuthSweep := beamAzimuthSweep,
    beamElevationCenter := beamElevationCenter,
    beamElevationSweep := beamElevationSweep,
    beamSweepSync := beamSweepSync }

/-- Attributes of a `JammingTechnique` object, /repo/opendis/dis7.py:1566-1590; default values are those of an
object made by `JammingTechnique()`, /repo/opendis/dis7.py:1572-1576. -/
structure JammingTechnique where
  kind : Int := 0
  category : Int := 0
  subcategory : Int := 0
  specific : Int := 0
  deriving DecidableEq

/-- Constructor `JammingTechnique(...)`, /repo/opendis/dis7.py:1572-1576. `x or T()` and `x or []` keep a given
value and replace `None` (absent) by a fresh one. -/
def JammingTechnique.init (kind : Int := 0) (category : Int := 0) (subcategory : Int := 0)
    (specific : Int := 0) : JammingTechnique :=
  { kind := kind,
    category := category,
    subcategory := subcategory,
    specific := specific }

/-- `JammingTechnique.serialize`, /repo/opendis/dis7.py:1578-1583. -/
def JammingTechnique.serialize (self : JammingTechnique) : W Unit := do
  write_unsigned_byte self.kind
  write_unsigned_byte self.category
  write_unsigned_byte self.subcategory
  write_unsigned_byte self.specific

/-- `JammingTechnique.parse`, /repo/opendis/dis7.py:1585-1590; returns the updated object. -/
def JammingTechnique.parse (self : JammingTechnique) : R JammingTechnique := do
  let kind ← read_unsigned_byte
  let category ← read_unsigned_byte
  let subcategory ← read_unsigned_byte
  let specific ← read_unsigned_byte
  return { self with
    kind := kind,
    category := category,
    subcategory := subcategory,
    specific := specific }

/-- Attributes of a `VariableDatum` object, /repo/opendis/dis7.py:3293-3339; default values are those of an
object made by `VariableDatum()`, /repo/opendis/dis7.py:3300-3309. -/
structure VariableDatum where
  variableDatumID : Int := 0
  variableDatumLength : Int := 0
  variableData : List Int := []
  deriving DecidableEq

/-- Constructor `VariableDatum(...)`, /repo/opendis/dis7.py:3300-3309. `x or T()` and `x or []` keep a given
value and replace `None` (absent) by a fresh one. -/
def VariableDatum.init (variableDatumID : Int := 0) (variableDatumLength : Int := 0)
    (variableData : List Int := []) : VariableDatum :=
  { variableDatumID := variableDatumID,
    variableDatumLength := variableDatumLength,
    variableData := variableData }

/-- `datumPaddingSizeInBits`, /repo/opendis/dis7.py:3311-3316. -/
def VariableDatum.datumPaddingSizeInBits (self : VariableDatum) : Int :=
  if self.variableDatumLength % 64 ≠ 0 then 64 - self.variableDatumLength % 64 else 0

/-- `VariableDatum.serialize`, /repo/opendis/dis7.py:3318-3327. -/
def VariableDatum.serialize (self : VariableDatum) : W Unit := do
  write_unsigned_int self.variableDatumID
  write_unsigned_int self.variableDatumLength
  W.forRange 0 (self.variableDatumLength / 8).toNat fun x => W.using (index self.variableData x) write_unsigned_byte
  W.forRange 0 (self.datumPaddingSizeInBits / 8).toNat fun _ => write_unsigned_byte 0

/-- `VariableDatum.parse`, /repo/opendis/dis7.py:3329-3339; returns the updated object. -/
def VariableDatum.parse (self : VariableDatum) : R VariableDatum := do
  let variableDatumID ← read_unsigned_int
  let variableDatumLength ← read_unsigned_int
  let variableData ← R.times (variableDatumLength / 8).toNat read_unsigned_byte
  let _ ← R.times ({ self with variableDatumLength : VariableDatum }.datumPaddingSizeInBits / 8).toNat read_unsigned_byte
  return { self with
    variableDatumID := variableDatumID,
    variableDatumLength := variableDatumLength,
    variableData := self.variableData ++ variableData }

/-- Attributes of a `DatumSpecification` object, /repo/opendis/dis7.py:1593-1637; default values are those of an
object made by `DatumSpecification()`, /repo/opendis/dis7.py:1599-1605. -/
structure DatumSpecification where
  fixedDatumRecords : List FixedDatum := []
  variableDatumRecords : List VariableDatum := []
  deriving DecidableEq

/-- Constructor `DatumSpecification(...)`, /repo/opendis/dis7.py:1599-1605. `x or T()` and `x or []` keep a given
value and replace `None` (absent) by a fresh one. -/
def DatumSpecification.init (fixedDatumRecords : List FixedDatum := [])
    (variableDatumRecords : List VariableDatum := []) : DatumSpecification :=
  { fixedDatumRecords := fixedDatumRecords,
    variableDatumRecords := variableDatumRecords }

/-- `DatumSpecification.serialize`, /repo/opendis/dis7.py:1615-1623. -/
def DatumSpecification.serialize (self : DatumSpecification) : W Unit := do
  write_unsigned_int (self.fixedDatumRecords.length : Int)
  write_unsigned_int (self.variableDatumRecords.length : Int)
  W.forEach self.fixedDatumRecords FixedDatum.serialize
  W.forEach self.variableDatumRecords VariableDatum.serialize

/-- `DatumSpecification.parse`, /repo/opendis/dis7.py:1625-1637; returns the updated object. -/
def DatumSpecification.parse (self : DatumSpecification) : R DatumSpecification := do
  let numberOfFixedDatumRecords ← read_unsigned_int
  let numberOfVariableDatumRecords ← read_unsigned_int
  let fixedDatumRecords ← R.times numberOfFixedDatumRecords.toNat (FixedDatum.parse FixedDatum.init)
  let variableDatumRecords ← R.times numberOfVariableDatumRecords.toNat (VariableDatum.parse VariableDatum.init)
  return { self with
    fixedDatumRecords := self.fixedDatumRecords ++ fixedDatumRecords,
    variableDatumRecords := self.variableDatumRecords ++ variableDatumRecords }

/-- Attributes of a `Expendable` object, /repo/opendis/dis7.py:1640-1672; default values are those of an
object made by `Expendable()`, /repo/opendis/dis7.py:1646-1656. -/
structure Expendable where
  expendable : EntityType := EntityType.init
  station : Int := 0
  quantity : Int := 0
  expendableStatus : Int := 0
  padding : Int := 0
  deriving DecidableEq

/-- Constructor `Expendable(...)`, /repo/opendis/dis7.py:1646-1656. `x or T()` and `x or []` keep a given
value and replace `None` (absent) by a fresh one. -/
def Expendable.init (expendable : Option EntityType := none) (station : Int := 0)
    (quantity : Int := 0) (expendableStatus : Int := 0) : Expendable :=
  { expendable := expendable.getD EntityType.init,
    station := station,
    quantity := quantity,
    expendableStatus := expendableStatus,
    padding := 0 }

/-- `Expendable.serialize`, /repo/opendis/dis7.py:1658-1664. -/
def Expendable.serialize (self : Expendable) : W Unit := do
  EntityType.serialize self.expendable
  write_unsigned_int self.station
  write_unsigned_short self.quantity
  write_unsigned_byte self.expendableStatus
  write_unsigned_byte self.padding

/-- `Expendable.parse`, /repo/opendis/dis7.py:1666-1672; returns the updated object. -/
def Expendable.parse (self : Expendable) : R Expendable := do
  let expendable ← EntityType.parse self.expendable
  let station ← read_unsigned_int
  let quantity ← read_unsigned_short
  let expendableStatus ← read_unsigned_byte
  let padding ← read_unsigned_byte
  return { self with
    expendable := expendable,
    station := station,
    quantity := quantity,
    expendableStatus := expendableStatus,
    padding := padding }

/-- Attributes of a `CommunicationsNodeID` object, /repo/opendis/dis7.py:3481-3501; default values are those of an
object made by `CommunicationsNodeID()`, /repo/opendis/dis7.py:3487-3491. -/
structure CommunicationsNodeID where
  entityID : EntityIdentifier := EntityIdentifier.init
  elementID : Int := 0
  deriving DecidableEq

/-- Constructor `CommunicationsNodeID(...)`, /repo/opendis/dis7.py:3487-3491. `x or T()` and `x or []` keep a given
value and replace `None` (absent) by a fresh one. -/
def CommunicationsNodeID.init (entityID : Option EntityIdentifier := none) (elementID : Int := 0) : CommunicationsNodeID :=
  { entityID := entityID.getD EntityIdentifier.init,
    elementID := elementID }

/-- `CommunicationsNodeID.serialize`, /repo/opendis/dis7.py:3493-3496. -/
def CommunicationsNodeID.serialize (self : CommunicationsNodeID) : W Unit := do
  EntityIdentifier.serialize self.entityID
  write_unsigned_short self.elementID

/-- `CommunicationsNodeID.parse`, /repo/opendis/dis7.py:3498-3501; returns the updated object. -/
def CommunicationsNodeID.parse (self : CommunicationsNodeID) : R CommunicationsNodeID := do
  let entityID ← EntityIdentifier.parse self.entityID
  let elementID ← read_unsigned_short
  return { self with entityID := entityID, elementID := elementID }

/-- Attributes of a `IOCommunicationsNode` object, /repo/opendis/dis7.py:1675-1705; default values are those of an
object made by `IOCommunicationsNode()`, /repo/opendis/dis7.py:1683-1689. -/
structure IOCommunicationsNode where
  recordType : Int := 5501
  recordLength : Int := 16
  communcationsNodeType : Int := 0
  padding : Int := 0
  communicationsNodeID : CommunicationsNodeID := CommunicationsNodeID.init
  deriving DecidableEq

/-- Constructor `IOCommunicationsNode(...)`, /repo/opendis/dis7.py:1683-1689. `x or T()` and `x or []` keep a given
value and replace `None` (absent) by a fresh one. -/
def IOCommunicationsNode.init (communicationsNodeType : Int := 0)
    (communicationsNodeID : Option CommunicationsNodeID := none) : IOCommunicationsNode :=
  { communcationsNodeType := communicationsNodeType,
    padding := 0,
    communicationsNodeID := communicationsNodeID.getD CommunicationsNodeID.init }

/-- `IOCommunicationsNode.serialize`, /repo/opendis/dis7.py:1691-1697. -/
def IOCommunicationsNode.serialize (self : IOCommunicationsNode) : W Unit := do
  write_unsigned_int self.recordType
  write_unsigned_short self.recordLength
  write_unsigned_byte self.communcationsNodeType
  write_unsigned_byte self.padding
  CommunicationsNodeID.serialize self.communicationsNodeID

/-- `IOCommunicationsNode.parse`, /repo/opendis/dis7.py:1699-1705; returns the updated object. -/
def IOCommunicationsNode.parse (self : IOCommunicationsNode) : R IOCommunicationsNode := do
  let recordType ← read_unsigned_int
  let recordLength ← read_unsigned_short
  let communcationsNodeType ← read_unsigned_byte
  let padding ← read_unsigned_byte
  let communicationsNodeID ← CommunicationsNodeID.parse self.communicationsNodeID
  return { self with
    recordType := recordType,
    recordLength := recordLength,
    communcationsNodeType := communcationsNodeType,
    padding := padding,
    communicationsNodeID := communicationsNodeID }

/-- Attributes of a `LinearSegmentParameter` object, /repo/opendis/dis7.py:1708-1774; default values are those of an
object made by `LinearSegmentParameter()`, /repo/opendis/dis7.py:1715-1746. -/
structure LinearSegmentParameter where
  segmentNumber : Int := 0
  segmentModification : Int := 0
  generalSegmentAppearance : Int := 0
  specificSegmentAppearance : Int := 0
  segmentLocation : WorldCoordinates := WorldCoordinates.init
  segmentOrientation : EulerAngles := EulerAngles.init
  segmentLength : F64 := 0x0000000000000000
  segmentWidth : F64 := 0x0000000000000000
  segmentHeight : F64 := 0x0000000000000000
  segmentDepth : F64 := 0x0000000000000000
  padding : Int := 0
  deriving DecidableEq

/-- Constructor `LinearSegmentParameter(...)`, /repo/opendis/dis7.py:1715-1746. `x or T()` and `x or []` keep a given
value and replace `None` (absent) by a fresh one. -/
def LinearSegmentParameter.init (segmentNumber : Int := 0) (segmentModification : Int := 0)
    (generalSegmentAppearance : Int := 0) (specificSegmentAppearance : Int := 0)
    (segmentLocation : Option WorldCoordinates := none)
    (segmentOrientation : Option EulerAngles := none) (segmentLength : F64 := 0x0000000000000000)
    (segmentWidth : F64 := 0x0000000000000000) (segmentHeight : F64 := 0x0000000000000000)
    (segmentDepth : F64 := 0x0000000000000000) : LinearSegmentParameter :=
  { segmentNumber := segmentNumber,
    segmentModification := segmentModification,
    generalSegmentAppearance := generalSegmentAppearance,
    specificSegmentAppearance := specificSegmentAppearance,
    segmentLocation := segmentLocation.getD WorldCoordinates.init,
    segmentOrientation := segmentOrientation.getD EulerAngles.init,
    segmentLength := segmentLength,
    segmentWidth := segmentWidth,
    segmentHeight := segmentHeight,
    segmentDepth := segmentDepth,
    padding := 0 }

/-- `LinearSegmentParameter.serialize`, /repo/opendis/dis7.py:1748-1760. -/
def LinearSegmentParameter.serialize (self : LinearSegmentParameter) : W Unit := do
  write_unsigned_byte self.segmentNumber
  write_unsigned_byte self.segmentModification
  write_unsigned_short self.generalSegmentAppearance
  write_unsigned_int self.specificSegmentAppearance
  WorldCoordinates.serialize self.segmentLocation
  EulerAngles.serialize self.segmentOrientation
  write_float self.segmentLength
  write_float self.segmentWidth
  write_float self.segmentHeight
  write_float self.segmentDepth
  write_unsigned_int self.padding

/-- `LinearSegmentParameter.parse`, /repo/opendis/dis7.py:1762-1774; returns the updated object. -/
def LinearSegmentParameter.parse (self : LinearSegmentParameter) : R LinearSegmentParameter := do
  let segmentNumber ← read_unsigned_byte
  let segmentModification ← read_unsigned_byte
  let generalSegmentAppearance ← read_unsigned_short
  let specificSegmentAppearance ← read_unsigned_int
  let segmentLocation ← WorldCoordinates.parse self.segmentLocation
  let segmentOrientation ← EulerAngles.parse self.segmentOrientation
  let segmentLength ← read_float
  let segmentWidth ← read_float
  let segmentHeight ← read_float
  let segmentDepth ← read_float
  let padding ← read_unsigned_int
  return { self with
    segmentNumber := segmentNumber,
    segmentModification := segmentModification,
    generalSegmentAppearance := generalSegmentAppearance,
    specificSegmentAppearance := specificSegmentAppearance,
    segmentLocation := segmentLocation,
    segmentOrientation := segmentOrientation,
    segmentLength := segmentLength,
    segmentWidth := segmentWidth,
    segmentHeight := segmentHeight,
    segmentDepth := segmentDepth,
    padding := padding }

/-- Attributes of a `SystemIdentifier` object, /repo/opendis/dis7.py:1777-1809; default values are those of an
object made by `SystemIdentifier()`, /repo/opendis/dis7.py:1783-1795. -/
structure SystemIdentifier where
  systemType : Int := 0
  systemName : Int := 0
  systemMode : Int := 0
  changeOptions : ChangeOptions := ChangeOptions.init
  deriving DecidableEq

/-- Constructor `SystemIdentifier(...)`, /repo/opendis/dis7.py:1783-1795. `x or T()` and `x or []` keep a given
value and replace `None` (absent) by a fresh one. -/
def SystemIdentifier.init (systemType : Int := 0) (systemName : Int := 0) (systemMode : Int := 0)
    (changeOptions : Option ChangeOptions := none) : SystemIdentifier :=
  { systemType := systemType,
    systemName := systemName,
    systemMode := systemMode,
    changeOptions := changeOptions.getD ChangeOptions.init }

/-- `SystemIdentifier.serialize`, /repo/opendis/dis7.py:1797-1802. -/
def SystemIdentifier.serialize (self : SystemIdentifier) : W Unit := do
  write_unsigned_short self.systemType
  write_unsigned_short self.systemName
  write_unsigned_short self.systemMode
  ChangeOptions.serialize self.changeOptions

/-- `SystemIdentifier.parse`, /repo/opendis/dis7.py:1804-1809; returns the updated object. -/
def SystemIdentifier.parse (self : SystemIdentifier) : R SystemIdentifier := do
  let systemType ← read_unsigned_short
  let systemName ← read_unsigned_short
  let systemMode ← read_unsigned_short
  let changeOptions ← ChangeOptions.parse self.changeOptions
  return { self with
    systemType := systemType,
    systemName := systemName,
    systemMode := systemMode,
    changeOptions := changeOptions }

/-- Attributes of a `TrackJamData` object, /repo/opendis/dis7.py:1812-1839; default values are those of an
object made by `TrackJamData()`, /repo/opendis/dis7.py:1818-1827. -/
structure TrackJamData where
  entityID : EntityIdentifier := EntityIdentifier.init
  emitterNumber : Int := 0
  beamNumber : Int := 0
  deriving DecidableEq

/-- Constructor `TrackJamData(...)`, /repo/opendis/dis7.py:1818-1827. `x or T()` and `x or []` keep a given
value and replace `None` (absent) by a fresh one. -/
def TrackJamData.init (entityID : Option EntityIdentifier := none) (emitterNumber : Int := 0)
    (beamNumber : Int := 0) : TrackJamData :=
  { entityID := entityID.getD EntityIdentifier.init,
    emitterNumber := emitterNumber,
    beamNumber := beamNumber }

/-- `TrackJamData.serialize`, /repo/opendis/dis7.py:1829-1833. -/
def TrackJamData.serialize (self : TrackJamData) : W Unit := do
  EntityIdentifier.serialize self.entityID
  write_unsigned_byte self.emitterNumber
  write_unsigned_byte self.beamNumber

/-- `TrackJamData.parse`, /repo/opendis/dis7.py:1835-1839; returns the updated object. -/
def TrackJamData.parse (self : TrackJamData) : R TrackJamData := do
  let entityID ← EntityIdentifier.parse self.entityID
  let emitterNumber ← read_unsigned_byte
  let beamNumber ← read_unsigned_byte
  return { self with
    entityID := entityID,
    emitterNumber := emitterNumber,
    beamNumber := beamNumber }

/-- Attributes of a `AggregateType` object, /repo/opendis/dis7.py:1842-1888; default values are those of an
object made by `AggregateType()`, /repo/opendis/dis7.py:1848-1868. -/
structure AggregateType where
  aggregateKind : Int := 0
  domain : Int := 0
  country : Int := 0
  category : Int := 0
  subcategory : Int := 0
  specificInfo : Int := 0
  extra : Int := 0
  deriving DecidableEq

/-- Constructor `AggregateType(...)`, /repo/opendis/dis7.py:1848-1868. `x or T()` and `x or []` keep a given
value and replace `None` (absent) by a fresh one. -/
def AggregateType.init (aggregateKind : Int := 0) (domain : Int := 0) (country : Int := 0)
    (category : Int := 0) (subcategory : Int := 0) (specificInfo : Int := 0) (extra : Int := 0) : AggregateType :=
  { aggregateKind := aggregateKind,
    domain := domain,
    country := country,
    category := category,
    subcategory := subcategory,
    specificInfo := specificInfo,
    extra := extra }

/-- `AggregateType.serialize`, /repo/opendis/dis7.py:1870-1878. -/
def AggregateType.serialize (self : AggregateType) : W Unit := do
  write_unsigned_byte self.aggregateKind
  write_unsigned_byte self.domain
  write_unsigned_short self.country
  write_unsigned_byte self.category
  write_unsigned_byte self.subcategory
  write_unsigned_byte self.specificInfo
  write_unsigned_byte self.extra

/-- `AggregateType.parse`, /repo/opendis/dis7.py:1880-1888; returns the updated object. -/
def AggregateType.parse (self : AggregateType) : R AggregateType := do
  let aggregateKind ← read_unsigned_byte
  let domain ← read_unsigned_byte
  let country ← read_unsigned_short
  let category ← read_unsigned_byte
  let subcategory ← read_unsigned_byte
  let specificInfo ← read_unsigned_byte
  let extra ← read_unsigned_byte
  return { self with
    aggregateKind := aggregateKind,
    domain := domain,
    country := country,
    category := category,
    subcategory := subcategory,
    specificInfo := specificInfo,
    extra := extra }

/-- Attributes of a `SimulationIdentifier` object, /repo/opendis/dis7.py:2050-2077; default values are those of an
object made by `SimulationIdentifier()`, /repo/opendis/dis7.py:2061-2067. -/
structure SimulationIdentifier where
  simulationAddress : SimulationAddress := SimulationAddress.init
  referenceNumber : Int := 0
  deriving DecidableEq

/-- Constructor `SimulationIdentifier(...)`, /repo/opendis/dis7.py:2061-2067. `x or T()` and `x or []` keep a given
value and replace `None` (absent) by a fresh one. -/
def SimulationIdentifier.init (simulationAddress : Option SimulationAddress := none)
    (referenceNumber : Int := 0) : SimulationIdentifier :=
  { simulationAddress := simulationAddress.getD SimulationAddress.init,
    referenceNumber := referenceNumber }

/-- `SimulationIdentifier.serialize`, /repo/opendis/dis7.py:2069-2072. -/
def SimulationIdentifier.serialize (self : SimulationIdentifier) : W Unit := do
  SimulationAddress.serialize self.simulationAddress
  write_unsigned_short self.referenceNumber

/-- `SimulationIdentifier.parse`, /repo/opendis/dis7.py:2074-2077; returns the updated object. -/
def SimulationIdentifier.parse (self : SimulationIdentifier) : R SimulationIdentifier := do
  let simulationAddress ← SimulationAddress.parse self.simulationAddress
  let referenceNumber ← read_unsigned_short
  return { self with simulationAddress := simulationAddress, referenceNumber := referenceNumber }

/-- Attributes of a `PduHeader` object, /repo/opendis/dis7.py:3370-3421; default values are those of an
object made by `PduHeader()`, /repo/opendis/dis7.py:3377-3399. -/
structure PduHeader where
  protocolVersion : Int := 7
  exerciseID : Int := 0
  pduType : Int := 0
  protocolFamily : Int := 0
  timestamp : Int := 0
  pduLength : Int := 0
  pduStatus : Int := 0
  padding : Int := 0
  deriving DecidableEq

/-- Constructor `PduHeader(...)`, /repo/opendis/dis7.py:3377-3399. `x or T()` and `x or []` keep a given
value and replace `None` (absent) by a fresh one. -/
def PduHeader.init (protocolVersion : Int := 7) (exerciseID : Int := 0) (pduType : Int := 0)
    (protocolFamily : Int := 0) (timestamp : Int := 0) (pduLength : Int := 0)
    (pduStatus : Int := 0) : PduHeader :=
  { protocolVersion := protocolVersion,
    exerciseID := exerciseID,
    pduType := pduType,
    protocolFamily := protocolFamily,
    timestamp := timestamp,
    pduLength := pduLength,
    pduStatus := pduStatus,
    padding := 0 }

/-- `PduHeader.serialize`, /repo/opendis/dis7.py:3401-3410. -/
def PduHeader.serialize (self : PduHeader) : W Unit := do
  write_unsigned_byte self.protocolVersion
  write_unsigned_byte self.exerciseID
  write_unsigned_byte self.pduType
  write_unsigned_byte self.protocolFamily
  write_unsigned_int self.timestamp
  write_unsigned_byte self.pduLength
  write_unsigned_short self.pduStatus
  write_unsigned_byte self.padding

/-- `PduHeader.parse`, /repo/opendis/dis7.py:3412-3421; returns the updated object. -/
def PduHeader.parse (self : PduHeader) : R PduHeader := do
  let protocolVersion ← read_unsigned_byte
  let exerciseID ← read_unsigned_byte
  let pduType ← read_unsigned_byte
  let protocolFamily ← read_unsigned_byte
  let timestamp ← read_unsigned_int
  let pduLength ← read_unsigned_byte
  let pduStatus ← read_unsigned_short
  let padding ← read_unsigned_byte
  return { self with
    protocolVersion := protocolVersion,
    exerciseID := exerciseID,
    pduType := pduType,
    protocolFamily := protocolFamily,
    timestamp := timestamp,
    pduLength := pduLength,
    pduStatus := pduStatus,
    padding := padding }

/-- Attributes of a `SimulationManagementPduHeader` object, /repo/opendis/dis7.py:1891-1919; default values are those of an
object made by `SimulationManagementPduHeader()`, /repo/opendis/dis7.py:1898-1907. -/
structure SimulationManagementPduHeader where
  pduHeader : PduHeader := PduHeader.init
  originatingID : SimulationIdentifier := SimulationIdentifier.init
  receivingID : SimulationIdentifier := SimulationIdentifier.init
  deriving DecidableEq

/-- Constructor `SimulationManagementPduHeader(...)`, /repo/opendis/dis7.py:1898-1907. `x or T()` and `x or []` keep a given
value and replace `None` (absent) by a fresh one. -/
def SimulationManagementPduHeader.init (pduHeader : Option PduHeader := none)
    (originatingID : Option SimulationIdentifier := none)
    (receivingID : Option SimulationIdentifier := none) : SimulationManagementPduHeader :=
  { pduHeader := pduHeader.getD PduHeader.init,
    originatingID := originatingID.getD SimulationIdentifier.init,
    receivingID := receivingID.getD SimulationIdentifier.init }

/-- `SimulationManagementPduHeader.serialize`, /repo/opendis/dis7.py:1909-1913. -/
def SimulationManagementPduHeader.serialize (self : SimulationManagementPduHeader) : W Unit := do
  PduHeader.serialize self.pduHeader
  SimulationIdentifier.serialize self.originatingID
  SimulationIdentifier.serialize self.receivingID

/-- `SimulationManagementPduHeader.parse`, /repo/opendis/dis7.py:1915-1919; returns the updated object. -/
def SimulationManagementPduHeader.parse (self : SimulationManagementPduHeader) : R SimulationManagementPduHeader := do
  let pduHeader ← PduHeader.parse self.pduHeader
  let originatingID ← SimulationIdentifier.parse self.originatingID
  let receivingID ← SimulationIdentifier.parse self.receivingID
  return { self with
    pduHeader := pduHeader,
    originatingID := originatingID,
    receivingID := receivingID }

/-- Attributes of a `BeamData` object, /repo/opendis/dis7.py:1922-1960; default values are those of an
object made by `BeamData()`, /repo/opendis/dis7.py:1928-1944. -/
structure BeamData where
  beamAzimuthCenter : F64 := 0x0000000000000000
  beamAzimuthSweep : F64 := 0x0000000000000000
  beamElevationCenter : F64 := 0x0000000000000000
  beamElevationSweep : F64 := 0x0000000000000000
  beamSweepSync : F64 := 0x0000000000000000
  deriving DecidableEq

/-- Constructor `BeamData(...)`, /repo/opendis/dis7.py:1928-1944. `x or T()` and `x or []` keep a given
value and replace `None` (absent) by a fresh one. -/
def BeamData.init (beamAzimuthCenter : F64 := 0x0000000000000000)
    (beamAzimuthSweep : F64 := 0x0000000000000000)
    (beamElevationCenter : F64 := 0x0000000000000000)
    (beamElevationSweep : F64 := 0x0000000000000000) (beamSweepSync : F64 := 0x0000000000000000) : BeamData :=
  { beamAzimuthCenter := beamAzimuthCenter,
    beamAzimuthSweep := beamAzimuthSweep,
    beamElevationCenter := beamElevationCenter,
    beamElevationSweep := beamElevationSweep,
    beamSweepSync := beamSweepSync }

/-- `BeamData.serialize`, /repo/opendis/dis7.py:1946-1952. -/
def BeamData.serialize (self : BeamData) : W Unit := do
  write_float self.beamAzimuthCenter
  write_float self.beamAzimuthSweep
  write_float self.beamElevationCenter
  write_float self.beamElevationSweep
  write_float self.beamSweepSync

/-- `BeamData.parse`, /repo/opendis/dis7.py:1954-1960; returns the updated object. -/
def BeamData.parse (self : BeamData) : R BeamData := do
  let beamAzimuthCenter ← read_float
  let beamAzimuthSweep ← read_float
  let beamElevationCenter ← read_float
  let beamElevationSweep ← read_float
  let beamSweepSync ← read_float
  return { self with
    beamAzimuthCenter := beamAzimuthCenter,
    beamAzimuthSweep := beamAzimuthSweep,
    beamElevationCenter := beamElevationCenter,
    beamElevationSweep := beamElevationSweep,
    beamSweepSync := beamSweepSync }

/-- Attributes of a `EngineFuel` object, /repo/opendis/dis7.py:1963-1998; default values are those of an
object made by `EngineFuel()`, /repo/opendis/dis7.py:1969-1982. -/
structure EngineFuel where
  fuelQuantity : Int := 0
  fuelMeasurementUnits : Int := 0
  fuelType : Int := 0
  fuelLocation : Int := 0
  padding : Int := 0
  deriving DecidableEq

/-- Constructor `EngineFuel(...)`, /repo/opendis/dis7.py:1969-1982. `x or T()` and `x or []` keep a given
value and replace `None` (absent) by a fresh one. -/
def EngineFuel.init (_fuelQuantity : Int := 0) (_fuelMeasurementUnits : Int := 0)
    (_fuelType : Int := 0) (_fuelLocation : Int := 0) : EngineFuel :=
  { fuelQuantity := 0,
    fuelMeasurementUnits := 0,
    fuelType := 0,
    fuelLocation := 0,
    padding := 0 }

/-- `EngineFuel.serialize`, /repo/opendis/dis7.py:1984-1990. -/
def EngineFuel.serialize (self : EngineFuel) : W Unit := do
  write_unsigned_int self.fuelQuantity
  write_unsigned_byte self.fuelMeasurementUnits
  write_unsigned_byte self.fuelType
  write_unsigned_byte self.fuelLocation
  write_unsigned_byte self.padding

/-- `EngineFuel.parse`, /repo/opendis/dis7.py:1992-1998; returns the updated object. -/
def EngineFuel.parse (self : EngineFuel) : R EngineFuel := do
  let fuelQuantity ← read_unsigned_int
  let fuelMeasurementUnits ← read_unsigned_byte
  let fuelType ← read_unsigned_byte
  let fuelLocation ← read_unsigned_byte
  let padding ← read_unsigned_byte
  return { self with
    fuelQuantity := fuelQuantity,
    fuelMeasurementUnits := fuelMeasurementUnits,
    fuelType := fuelType,
    fuelLocation := fuelLocation,
    padding := padding }

/-- Attributes of a `IOEffect` object, /repo/opendis/dis7.py:2001-2047; default values are those of an
object made by `IOEffect()`, /repo/opendis/dis7.py:2009-2023. -/
structure IOEffect where
  recordType : Int := 5500
  recordLength : Int := 16
  ioStatus : Int := 0
  ioLinkType : Int := 0
  ioEffect : Int := 0
  ioEffectDutyCycle : Int := 0
  ioEffectDuration : Int := 0
  ioProcess : Int := 0
  padding : Int := 0
  deriving DecidableEq

/-- Constructor `IOEffect(...)`, /repo/opendis/dis7.py:2009-2023. `x or T()` and `x or []` keep a given
value and replace `None` (absent) by a fresh one. -/
def IOEffect.init (ioStatus : Int := 0) (ioLinkType : Int := 0) (ioEffect : Int := 0)
    (ioEffectDutyCycle : Int := 0) (ioEffectDuration : Int := 0) (ioProcess : Int := 0) : IOEffect :=
  { ioStatus := ioStatus,
    ioLinkType := ioLinkType,
    ioEffect := ioEffect,
    ioEffectDutyCycle := ioEffectDutyCycle,
    ioEffectDuration := ioEffectDuration,
    ioProcess := ioProcess,
    padding := 0 }

/-- `IOEffect.serialize`, /repo/opendis/dis7.py:2025-2035. -/
def IOEffect.serialize (self : IOEffect) : W Unit := do
  write_unsigned_int self.recordType
  write_unsigned_short self.recordLength
  write_unsigned_byte self.ioStatus
  write_unsigned_byte self.ioLinkType
  write_unsigned_byte self.ioEffect
  write_unsigned_byte self.ioEffectDutyCycle
  write_unsigned_short self.ioEffectDuration
  write_unsigned_short self.ioProcess
  write_unsigned_short self.padding

/-- `IOEffect.parse`, /repo/opendis/dis7.py:2037-2047; returns the updated object. -/
def IOEffect.parse (self : IOEffect) : R IOEffect := do
  let recordType ← read_unsigned_int
  let recordLength ← read_unsigned_short
  let ioStatus ← read_unsigned_byte
  let ioLinkType ← read_unsigned_byte
  let ioEffect ← read_unsigned_byte
  let ioEffectDutyCycle ← read_unsigned_byte
  let ioEffectDuration ← read_unsigned_short
  let ioProcess ← read_unsigned_short
  let padding ← read_unsigned_short
  return { self with
    recordType := recordType,
    recordLength := recordLength,
    ioStatus := ioStatus,
    ioLinkType := ioLinkType,
    ioEffect := ioEffect,
    ioEffectDutyCycle := ioEffectDutyCycle,
    ioEffectDuration := ioEffectDuration,
    ioProcess := ioProcess,
    padding := padding }

/-- Attributes of a `GridAxisDescriptorVariable` object, /repo/opendis/dis7.py:2080-2155; default values are those of an
object made by `GridAxisDescriptorVariable()`, /repo/opendis/dis7.py:2087-2120. -/
structure GridAxisDescriptorVariable where
  domainInitialXi : F64 := 0x0000000000000000
  domainFinalXi : F64 := 0x0000000000000000
  domainPointsXi : Int := 0
  interleafFactor : Int := 0
  axisType : Int := 0
  numberOfPointsOnXiAxis : Int := 0
  initialIndex : Int := 0
  coordinateScaleXi : F64 := 0x0000000000000000
  coordinateOffsetXi : F64 := 0x0000000000000000
  xiValues : List Int := []
  deriving DecidableEq

/-- Constructor `GridAxisDescriptorVariable(...)`, /repo/opendis/dis7.py:2087-2120. `x or T()` and `x or []` keep a given
value and replace `None` (absent) by a fresh one. -/
def GridAxisDescriptorVariable.init (domainInitialXi : F64 := 0x0000000000000000)
    (domainFinalXi : F64 := 0x0000000000000000) (domainPointsXi : Int := 0)
    (interleafFactor : Int := 0) (axisType : Int := 0) (numberOfPointsOnXiAxis : Int := 0)
    (initialIndex : Int := 0) (coordinateScaleXi : F64 := 0x0000000000000000)
    (coordinateOffsetXi : F64 := 0x0000000000000000) (xiValues : List Int := []) : GridAxisDescriptorVariable :=
  { domainInitialXi := domainInitialXi,
    domainFinalXi := domainFinalXi,
    domainPointsXi := domainPointsXi,
    interleafFactor := interleafFactor,
    axisType := axisType,
    numberOfPointsOnXiAxis := numberOfPointsOnXiAxis,
    initialIndex := initialIndex,
    coordinateScaleXi := coordinateScaleXi,
    coordinateOffsetXi := coordinateOffsetXi,
    xiValues := xiValues }

/-- `GridAxisDescriptorVariable.serialize`, /repo/opendis/dis7.py:2123-2137. -/
def GridAxisDescriptorVariable.serialize (self : GridAxisDescriptorVariable) : W Unit := do
  write_double self.domainInitialXi
  write_double self.domainFinalXi
  write_unsigned_short self.domainPointsXi
  write_unsigned_byte self.interleafFactor
  write_unsigned_byte self.axisType
  write_unsigned_short (self.xiValues.length : Int)
  write_unsigned_short self.initialIndex
  write_double self.coordinateScaleXi
  write_double self.coordinateOffsetXi
  W.forEach self.xiValues fun _ => W.throw .attributeError

/-- `GridAxisDescriptorVariable.parse`, /repo/opendis/dis7.py:2139-2155; returns the updated object. -/
def GridAxisDescriptorVariable.parse (self : GridAxisDescriptorVariable) : R GridAxisDescriptorVariable := do
  let domainInitialXi ← read_double
  let domainFinalXi ← read_double
  let domainPointsXi ← read_unsigned_short
  let interleafFactor ← read_unsigned_byte
  let axisType ← read_unsigned_byte
  let numberOfPointsOnXiAxis ← read_unsigned_short
  let initialIndex ← read_unsigned_short
  let coordinateScaleXi ← read_double
  let coordinateOffsetXi ← read_double
  let xiValues ← R.times numberOfPointsOnXiAxis.toNat (R.throw .nameError : R Int)
  return { self with
    domainInitialXi := domainInitialXi,
    domainFinalXi := domainFinalXi,
    domainPointsXi := domainPointsXi,
    interleafFactor := interleafFactor,
    axisType := axisType,
    numberOfPointsOnXiAxis := numberOfPointsOnXiAxis,
    initialIndex := initialIndex,
    coordinateScaleXi := coordinateScaleXi,
    coordinateOffsetXi := coordinateOffsetXi,
    xiValues := self.xiValues ++ xiValues }

/-- Attributes of a `SupplyQuantity` object, /repo/opendis/dis7.py:2158-2179; default values are those of an
object made by `SupplyQuantity()`, /repo/opendis/dis7.py:2164-2169. -/
structure SupplyQuantity where
  supplyType : EntityType := EntityType.init
  quantity : F64 := 0x0000000000000000
  deriving DecidableEq

/-- Constructor `SupplyQuantity(...)`, /repo/opendis/dis7.py:2164-2169. `x or T()` and `x or []` keep a given
value and replace `None` (absent) by a fresh one. -/
def SupplyQuantity.init (supplyType : Option EntityType := none)
    (quantity : F64 := 0x0000000000000000) : SupplyQuantity :=
  { supplyType := supplyType.getD EntityType.init,
    quantity := quantity }

/-- `SupplyQuantity.serialize`, /repo/opendis/dis7.py:2171-2174. -/
def SupplyQuantity.serialize (self : SupplyQuantity) : W Unit := do
  EntityType.serialize self.supplyType
  write_float self.quantity

/-- `SupplyQuantity.parse`, /repo/opendis/dis7.py:2176-2179; returns the updated object. -/
def SupplyQuantity.parse (self : SupplyQuantity) : R SupplyQuantity := do
  let supplyType ← EntityType.parse self.supplyType
  let quantity ← read_float
  return { self with supplyType := supplyType, quantity := quantity }

/-- Attributes of a `SilentEntitySystem` object, /repo/opendis/dis7.py:2182-2218; default values are those of an
object made by `SilentEntitySystem()`, /repo/opendis/dis7.py:2188-2196. -/
structure SilentEntitySystem where
  numberOfEntities : Int := 0
  entityType : EntityType := EntityType.init
  appearanceRecordList : List Int := []
  deriving DecidableEq

/-- Constructor `SilentEntitySystem(...)`, /repo/opendis/dis7.py:2188-2196. `x or T()` and `x or []` keep a given
value and replace `None` (absent) by a fresh one. -/
def SilentEntitySystem.init (numberOfEntities : Int := 0)
    (entityType : Option EntityType := none) (appearanceRecordList : List Int := []) : SilentEntitySystem :=
  { numberOfEntities := numberOfEntities,
    entityType := entityType.getD EntityType.init,
    appearanceRecordList := appearanceRecordList }

/-- `SilentEntitySystem.serialize`, /repo/opendis/dis7.py:2202-2208. -/
def SilentEntitySystem.serialize (self : SilentEntitySystem) : W Unit := do
  write_unsigned_short self.numberOfEntities
  write_unsigned_short (self.appearanceRecordList.length : Int)
  EntityType.serialize self.entityType
  W.forEach self.appearanceRecordList fun _ => W.throw .attributeError

/-- `SilentEntitySystem.parse`, /repo/opendis/dis7.py:2210-2218; returns the updated object. -/
def SilentEntitySystem.parse (self : SilentEntitySystem) : R SilentEntitySystem := do
  let numberOfEntities ← read_unsigned_short
  let numberOfAppearanceRecords ← read_unsigned_short
  let entityType ← EntityType.parse self.entityType
  let appearanceRecordList ← R.times numberOfAppearanceRecords.toNat (R.throw .nameError : R Int)
  return { self with
    numberOfEntities := numberOfEntities,
    entityType := entityType,
    appearanceRecordList := self.appearanceRecordList ++ appearanceRecordList }

/-- Attributes of a `SilentAggregateSystem` object, /repo/opendis/dis7.py:2221-2242; default values are those of an
object made by `SilentAggregateSystem()`, /repo/opendis/dis7.py:2227-2232. -/
structure SilentAggregateSystem where
  numberOfAggregates : Int := 0
  aggregateType : AggregateType := AggregateType.init
  entityType : Option AggregateType := none
  deriving DecidableEq

/-- Constructor `SilentAggregateSystem(...)`, /repo/opendis/dis7.py:2227-2232. `x or T()` and `x or []` keep a given
value and replace `None` (absent) by a fresh one. -/
def SilentAggregateSystem.init (numberOfAggregates : Int := 0)
    (aggregateType : Option AggregateType := none) : SilentAggregateSystem :=
  { numberOfAggregates := numberOfAggregates,
    aggregateType := aggregateType.getD AggregateType.init }

/-- `SilentAggregateSystem.serialize`, /repo/opendis/dis7.py:2234-2237. -/
def SilentAggregateSystem.serialize (self : SilentAggregateSystem) : W Unit := do
  write_unsigned_short self.numberOfAggregates
  W.using (attr self.entityType) AggregateType.serialize

/-- `SilentAggregateSystem.parse`, /repo/opendis/dis7.py:2239-2242; returns the updated object. -/
def SilentAggregateSystem.parse (self : SilentAggregateSystem) : R SilentAggregateSystem := do
  let numberOfAggregates ← read_unsigned_short
  let aggregateType ← AggregateType.parse self.aggregateType
  return { self with numberOfAggregates := numberOfAggregates, aggregateType := aggregateType }

/-- Attributes of a `BlankingSector` object, /repo/opendis/dis7.py:2245-2310; default values are those of an
object made by `BlankingSector()`, /repo/opendis/dis7.py:2254-2275. -/
structure BlankingSector where
  recordType : Int := 3500
  recordLength : Int := 40
  padding : Int := 0
  emitterNumber : Int := 0
  beamNumber : Int := 0
  stateIndicator : Int := 0
  padding2 : Int := 0
  leftAzimuth : F64 := 0x0000000000000000
  rightAzimuth : F64 := 0x0000000000000000
  lowerElevation : F64 := 0x0000000000000000
  upperElevation : F64 := 0x0000000000000000
  residualPower : F64 := 0x0000000000000000
  padding3 : Int := 0
  padding4 : Int := 0
  deriving DecidableEq

/-- Constructor `BlankingSector(...)`, /repo/opendis/dis7.py:2254-2275. `x or T()` and `x or []` keep a given
value and replace `None` (absent) by a fresh one. -/
def BlankingSector.init (emitterNumber : Int := 0) (beamNumber : Int := 0)
    (stateIndicator : Int := 0) (leftAzimuth : F64 := 0x0000000000000000)
    (rightAzimuth : F64 := 0x0000000000000000) (lowerElevation : F64 := 0x0000000000000000)
    (upperElevation : F64 := 0x0000000000000000) (residualPower : F64 := 0x0000000000000000) : BlankingSector :=
  { padding := 0,
    emitterNumber := emitterNumber,
    beamNumber := beamNumber,
    stateIndicator := stateIndicator,
    padding2 := 0,
    leftAzimuth := leftAzimuth,
    rightAzimuth := rightAzimuth,
    lowerElevation := lowerElevation,
    upperElevation := upperElevation,
    residualPower := residualPower,
    padding3 := 0,
    padding4 := 0 }

/-- `BlankingSector.serialize`, /repo/opendis/dis7.py:2277-2292. -/
def BlankingSector.serialize (self : BlankingSector) : W Unit := do
  write_int self.recordType
  write_unsigned_short self.recordLength
  write_unsigned_short self.padding
  write_unsigned_byte self.emitterNumber
  write_unsigned_byte self.beamNumber
  write_unsigned_byte self.stateIndicator
  write_unsigned_byte self.padding2
  write_float self.leftAzimuth
  write_float self.rightAzimuth
  write_float self.lowerElevation
  write_float self.upperElevation
  write_float self.residualPower
  write_int self.padding3
  write_int self.padding4

/-- `BlankingSector.parse`, /repo/opendis/dis7.py:2294-2310; returns the updated object. -/
def BlankingSector.parse (self : BlankingSector) : R BlankingSector := do
  let recordType ← read_int
  let recordLength ← read_unsigned_short
  let padding ← read_unsigned_short
  let emitterNumber ← read_unsigned_byte
  let beamNumber ← read_unsigned_byte
  let stateIndicator ← read_unsigned_byte
  let padding2 ← read_unsigned_byte
  let leftAzimuth ← read_float
  let rightAzimuth ← read_float
  let lowerElevation ← read_float
  let upperElevation ← read_float
  let residualPower ← read_float
  let padding3 ← read_int
  let padding4 ← read_int
  return { self with
    recordType := recordType,
    recordLength := recordLength,
    padding := padding,
    emitterNumber := emitterNumber,
    beamNumber := beamNumber,
    stateIndicator := stateIndicator,
    padding2 := padding2,
    leftAzimuth := leftAzimuth,
    rightAzimuth := rightAzimuth,
    lowerElevation := lowerElevation,
    upperElevation := upperElevation,
    residualPower := residualPower,
    padding3 := padding3,
    padding4 := padding4 }

end Dis
