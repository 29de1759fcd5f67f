import Verif.Source.Names

/-!
# `opendis/dis7.py` as syntax trees, part 4

Written by `tools/gensource.py` from the Python source.
-/

namespace Dis.Src

/-- `AttributePdu.__init__`, /repo/opendis/dis7.py:5342-5365. -/
def AttributePdu.__init__ : Method where
  params := [(I.originatingSimulationAddress, some (.none)), (I.attributeRecordPduType, some (.int 0)),
   (I.attributeRecordProtocolVersion, some (.int 0)), (I.masterAttributeRecordType, some (.int 0)),
   (I.actionCode, some (.int 0)), (I.numberOfAttributeRecordSets, some (.int 0))]
  property := false
  body :=
   [.expr (.super (some I.AttributePdu) I.__init__ [] []),
    .assign (.attr (.name I.self) I.originatingSimulationAddress) (.or (.name I.originatingSimulationAddress) (.call I.SimulationAddress [] [])),
    .assign (.attr (.name I.self) I.padding1) (.int 0),
    .assign (.attr (.name I.self) I.padding2) (.int 0),
    .assign (.attr (.name I.self) I.attributeRecordPduType) (.name I.attributeRecordPduType),
    .assign (.attr (.name I.self) I.attributeRecordProtocolVersion) (.name I.attributeRecordProtocolVersion),
    .assign (.attr (.name I.self) I.masterAttributeRecordType) (.name I.masterAttributeRecordType),
    .assign (.attr (.name I.self) I.actionCode) (.name I.actionCode),
    .assign (.attr (.name I.self) I.padding3) (.int 0),
    .assign (.attr (.name I.self) I.numberOfAttributeRecordSets) (.name I.numberOfAttributeRecordSets)]

/-- `AttributePdu.serialize`, /repo/opendis/dis7.py:5367-5378. -/
def AttributePdu.serialize : Method where
  params := [(I.outputStream, none)]
  property := false
  body :=
   [.expr (.super (some I.AttributePdu) I.serialize [.name I.outputStream] []),
    .expr (.method (.attr (.name I.self) I.originatingSimulationAddress) I.serialize [.name I.outputStream] []),
    .expr (.method (.name I.outputStream) I.write_int [.attr (.name I.self) I.padding1] []),
    .expr (.method (.name I.outputStream) I.write_short [.attr (.name I.self) I.padding2] []),
    .expr (.method (.name I.outputStream) I.write_unsigned_byte [.attr (.name I.self) I.attributeRecordPduType] []),
    .expr (.method (.name I.outputStream) I.write_unsigned_byte [.attr (.name I.self) I.attributeRecordProtocolVersion] []),
    .expr (.method (.name I.outputStream) I.write_unsigned_int [.attr (.name I.self) I.masterAttributeRecordType] []),
    .expr (.method (.name I.outputStream) I.write_unsigned_byte [.attr (.name I.self) I.actionCode] []),
    .expr (.method (.name I.outputStream) I.write_byte [.attr (.name I.self) I.padding3] []),
    .expr (.method (.name I.outputStream) I.write_unsigned_short [.attr (.name I.self) I.numberOfAttributeRecordSets] [])]

/-- `AttributePdu.parse`, /repo/opendis/dis7.py:5380-5391. -/
def AttributePdu.parse : Method where
  params := [(I.inputStream, none)]
  property := false
  body :=
   [.expr (.super (some I.AttributePdu) I.parse [.name I.inputStream] []),
    .expr (.method (.attr (.name I.self) I.originatingSimulationAddress) I.parse [.name I.inputStream] []),
    .assign (.attr (.name I.self) I.padding1) (.method (.name I.inputStream) I.read_int [] []),
    .assign (.attr (.name I.self) I.padding2) (.method (.name I.inputStream) I.read_short [] []),
    .assign (.attr (.name I.self) I.attributeRecordPduType) (.method (.name I.inputStream) I.read_unsigned_byte [] []),
    .assign (.attr (.name I.self) I.attributeRecordProtocolVersion) (.method (.name I.inputStream) I.read_unsigned_byte [] []),
    .assign (.attr (.name I.self) I.masterAttributeRecordType) (.method (.name I.inputStream) I.read_unsigned_int [] []),
    .assign (.attr (.name I.self) I.actionCode) (.method (.name I.inputStream) I.read_unsigned_byte [] []),
    .assign (.attr (.name I.self) I.padding3) (.method (.name I.inputStream) I.read_byte [] []),
    .assign (.attr (.name I.self) I.numberOfAttributeRecordSets) (.method (.name I.inputStream) I.read_unsigned_short [] [])]

/-- `class AttributePdu`, /repo/opendis/dis7.py:5330-5391. -/
def AttributePdu : Class where
  base := some I.EntityInformationFamilyPdu
  attrs := []
  methods :=
   [(I.__init__, AttributePdu.__init__),
    (I.serialize, AttributePdu.serialize),
    (I.parse, AttributePdu.parse)]

/-- `MinefieldFamilyPdu.__init__`, /repo/opendis/dis7.py:5400-5402. -/
def MinefieldFamilyPdu.__init__ : Method where
  params := []
  property := false
  body :=
   [.expr (.super (some I.MinefieldFamilyPdu) I.__init__ [] [])]

/-- `MinefieldFamilyPdu.serialize`, /repo/opendis/dis7.py:5404-5406. -/
def MinefieldFamilyPdu.serialize : Method where
  params := [(I.outputStream, none)]
  property := false
  body :=
   [.expr (.super (some I.MinefieldFamilyPdu) I.serialize [.name I.outputStream] [])]

/-- `MinefieldFamilyPdu.parse`, /repo/opendis/dis7.py:5408-5410. -/
def MinefieldFamilyPdu.parse : Method where
  params := [(I.inputStream, none)]
  property := false
  body :=
   [.expr (.super (some I.MinefieldFamilyPdu) I.parse [.name I.inputStream] [])]

/-- `class MinefieldFamilyPdu`, /repo/opendis/dis7.py:5394-5410. -/
def MinefieldFamilyPdu : Class where
  base := some I.Pdu
  attrs := [(I.protocolFamily, .int 8)]
  methods :=
   [(I.__init__, MinefieldFamilyPdu.__init__),
    (I.serialize, MinefieldFamilyPdu.serialize),
    (I.parse, MinefieldFamilyPdu.parse)]

/-- `SetDataReliablePdu.__init__`, /repo/opendis/dis7.py:5421-5434. -/
def SetDataReliablePdu.__init__ : Method where
  params := [(I.requiredReliabilityService, some (.int 0)), (I.requestID, some (.int 0)), (I.fixedDatumRecords, some
   (.none)), (I.variableDatumRecords, some (.none))]
  property := false
  body :=
   [.expr (.super (some I.SetDataReliablePdu) I.__init__ [] []),
    .assign (.attr (.name I.self) I.requiredReliabilityService) (.name I.requiredReliabilityService),
    .assign (.attr (.name I.self) I.pad1) (.int 0),
    .assign (.attr (.name I.self) I.pad2) (.int 0),
    .assign (.attr (.name I.self) I.requestID) (.name I.requestID),
    .assign (.attr (.name I.self) I._datums) (.call I.DatumSpecification [.or (.name I.fixedDatumRecords) (.list []), .or (.name I.variableDatumRecords) (.list [])] [])]

/-- `SetDataReliablePdu.numberOfFixedDatumRecords`, /repo/opendis/dis7.py:5437-5438. -/
def SetDataReliablePdu.numberOfFixedDatumRecords : Method where
  params := []
  property := true
  body :=
   [.ret (.attr (.attr (.name I.self) I._datums) I.numberOfFixedDatumRecords)]

/-- `SetDataReliablePdu.numberOfVariableDatumRecords`, /repo/opendis/dis7.py:5441-5442. -/
def SetDataReliablePdu.numberOfVariableDatumRecords : Method where
  params := []
  property := true
  body :=
   [.ret (.attr (.attr (.name I.self) I._datums) I.numberOfVariableDatumRecords)]

/-- `SetDataReliablePdu.fixedDatumRecords`, /repo/opendis/dis7.py:5445-5446. -/
def SetDataReliablePdu.fixedDatumRecords : Method where
  params := []
  property := true
  body :=
   [.ret (.attr (.attr (.name I.self) I._datums) I.fixedDatumRecords)]

/-- `SetDataReliablePdu.variableDatumRecords`, /repo/opendis/dis7.py:5449-5450. -/
def SetDataReliablePdu.variableDatumRecords : Method where
  params := []
  property := true
  body :=
   [.ret (.attr (.attr (.name I.self) I._datums) I.variableDatumRecords)]

/-- `SetDataReliablePdu.serialize`, /repo/opendis/dis7.py:5452-5459. -/
def SetDataReliablePdu.serialize : Method where
  params := [(I.outputStream, none)]
  property := false
  body :=
   [.expr (.super (some I.SetDataReliablePdu) I.serialize [.name I.outputStream] []),
    .expr (.method (.name I.outputStream) I.write_unsigned_byte [.attr (.name I.self) I.requiredReliabilityService] []),
    .expr (.method (.name I.outputStream) I.write_unsigned_short [.attr (.name I.self) I.pad1] []),
    .expr (.method (.name I.outputStream) I.write_unsigned_byte [.attr (.name I.self) I.pad2] []),
    .expr (.method (.name I.outputStream) I.write_unsigned_int [.attr (.name I.self) I.requestID] []),
    .expr (.method (.attr (.name I.self) I._datums) I.serialize [.name I.outputStream] [])]

/-- `SetDataReliablePdu.parse`, /repo/opendis/dis7.py:5461-5468. -/
def SetDataReliablePdu.parse : Method where
  params := [(I.inputStream, none)]
  property := false
  body :=
   [.expr (.super (some I.SetDataReliablePdu) I.parse [.name I.inputStream] []),
    .assign (.attr (.name I.self) I.requiredReliabilityService) (.method (.name I.inputStream) I.read_unsigned_byte [] []),
    .assign (.attr (.name I.self) I.pad1) (.method (.name I.inputStream) I.read_unsigned_short [] []),
    .assign (.attr (.name I.self) I.pad2) (.method (.name I.inputStream) I.read_unsigned_byte [] []),
    .assign (.attr (.name I.self) I.requestID) (.method (.name I.inputStream) I.read_unsigned_int [] []),
    .expr (.method (.attr (.name I.self) I._datums) I.parse [.name I.inputStream] [])]

/-- `class SetDataReliablePdu`, /repo/opendis/dis7.py:5413-5468. -/
def SetDataReliablePdu : Class where
  base := some I.SimulationManagementWithReliabilityFamilyPdu
  attrs := [(I.pduType, .int 59)]
  methods :=
   [(I.__init__, SetDataReliablePdu.__init__),
    (I.numberOfFixedDatumRecords, SetDataReliablePdu.numberOfFixedDatumRecords),
    (I.numberOfVariableDatumRecords, SetDataReliablePdu.numberOfVariableDatumRecords),
    (I.fixedDatumRecords, SetDataReliablePdu.fixedDatumRecords),
    (I.variableDatumRecords, SetDataReliablePdu.variableDatumRecords),
    (I.serialize, SetDataReliablePdu.serialize),
    (I.parse, SetDataReliablePdu.parse)]

/-- `EventReportPdu.__init__`, /repo/opendis/dis7.py:5479-5488. -/
def EventReportPdu.__init__ : Method where
  params := [(I.eventType, some (.int 0)), (I.fixedDatumRecords, some (.none)), (I.variableDatumRecords, some (.none))]
  property := false
  body :=
   [.expr (.super (some I.EventReportPdu) I.__init__ [] []),
    .assign (.attr (.name I.self) I.eventType) (.name I.eventType),
    .assign (.attr (.name I.self) I.padding1) (.int 0),
    .assign (.attr (.name I.self) I._datums) (.call I.DatumSpecification [.or (.name I.fixedDatumRecords) (.list []), .or (.name I.variableDatumRecords) (.list [])] [])]

/-- `EventReportPdu.serialize`, /repo/opendis/dis7.py:5490-5495. -/
def EventReportPdu.serialize : Method where
  params := [(I.outputStream, none)]
  property := false
  body :=
   [.expr (.super (some I.EventReportPdu) I.serialize [.name I.outputStream] []),
    .expr (.method (.name I.outputStream) I.write_unsigned_int [.attr (.name I.self) I.eventType] []),
    .expr (.method (.name I.outputStream) I.write_unsigned_int [.attr (.name I.self) I.padding1] []),
    .expr (.method (.attr (.name I.self) I._datums) I.serialize [.name I.outputStream] [])]

/-- `EventReportPdu.parse`, /repo/opendis/dis7.py:5497-5502. -/
def EventReportPdu.parse : Method where
  params := [(I.inputStream, none)]
  property := false
  body :=
   [.expr (.super (some I.EventReportPdu) I.parse [.name I.inputStream] []),
    .assign (.attr (.name I.self) I.eventType) (.method (.name I.inputStream) I.read_unsigned_int [] []),
    .assign (.attr (.name I.self) I.padding1) (.method (.name I.inputStream) I.read_unsigned_int [] []),
    .expr (.method (.attr (.name I.self) I._datums) I.parse [.name I.inputStream] [])]

/-- `class EventReportPdu`, /repo/opendis/dis7.py:5471-5502. -/
def EventReportPdu : Class where
  base := some I.SimulationManagementFamilyPdu
  attrs := [(I.pduType, .int 21)]
  methods :=
   [(I.__init__, EventReportPdu.__init__),
    (I.serialize, EventReportPdu.serialize),
    (I.parse, EventReportPdu.parse)]

/-- `PointObjectStatePdu.__init__`, /repo/opendis/dis7.py:5513-5550. -/
def PointObjectStatePdu.__init__ : Method where
  params := [(I.objectID, some (.none)), (I.referencedObjectID, some (.none)), (I.updateNumber, some (.int 0)),
   (I.forceID, some (.int 0)), (I.modifications, some (.int 0)), (I.objectType, some (.none)),
   (I.objectLocation, some (.none)), (I.objectOrientation, some (.none)), (I.objectAppearance, some (.int 0)),
   (I.requesterID, some (.none)), (I.receivingID, some (.none))]
  property := false
  body :=
   [.expr (.super (some I.PointObjectStatePdu) I.__init__ [] []),
    .assign (.attr (.name I.self) I.objectID) (.or (.name I.objectID) (.call I.EntityIdentifier [] [])),
    .assign (.attr (.name I.self) I.referencedObjectID) (.or (.name I.referencedObjectID) (.call I.EntityIdentifier [] [])),
    .assign (.attr (.name I.self) I.updateNumber) (.name I.updateNumber),
    .assign (.attr (.name I.self) I.forceID) (.name I.forceID),
    .assign (.attr (.name I.self) I.modifications) (.name I.modifications),
    .assign (.attr (.name I.self) I.objectType) (.or (.name I.objectType) (.call I.ObjectType [] [])),
    .assign (.attr (.name I.self) I.objectLocation) (.or (.name I.objectLocation) (.call I.WorldCoordinates [] [])),
    .assign (.attr (.name I.self) I.objectOrientation) (.or (.name I.objectOrientation) (.call I.EulerAngles [] [])),
    .assign (.attr (.name I.self) I.objectAppearance) (.name I.objectAppearance),
    .assign (.attr (.name I.self) I.pad1) (.int 0),
    .assign (.attr (.name I.self) I.requesterID) (.or (.name I.requesterID) (.call I.SimulationAddress [] [])),
    .assign (.attr (.name I.self) I.receivingID) (.or (.name I.receivingID) (.call I.SimulationAddress [] [])),
    .assign (.attr (.name I.self) I.pad2) (.int 0)]

/-- `PointObjectStatePdu.serialize`, /repo/opendis/dis7.py:5552-5566. -/
def PointObjectStatePdu.serialize : Method where
  params := [(I.outputStream, none)]
  property := false
  body :=
   [.expr (.super (some I.PointObjectStatePdu) I.serialize [.name I.outputStream] []),
    .expr (.method (.attr (.name I.self) I.objectID) I.serialize [.name I.outputStream] []),
    .expr (.method (.attr (.name I.self) I.referencedObjectID) I.serialize [.name I.outputStream] []),
    .expr (.method (.name I.outputStream) I.write_unsigned_short [.attr (.name I.self) I.updateNumber] []),
    .expr (.method (.name I.outputStream) I.write_unsigned_byte [.attr (.name I.self) I.forceID] []),
    .expr (.method (.name I.outputStream) I.write_unsigned_byte [.attr (.name I.self) I.modifications] []),
    .expr (.method (.attr (.name I.self) I.objectType) I.serialize [.name I.outputStream] []),
    .expr (.method (.attr (.name I.self) I.objectLocation) I.serialize [.name I.outputStream] []),
    .expr (.method (.attr (.name I.self) I.objectOrientation) I.serialize [.name I.outputStream] []),
    .expr (.method (.name I.outputStream) I.write_double [.attr (.name I.self) I.objectAppearance] []),
    .expr (.method (.attr (.name I.self) I.requesterID) I.serialize [.name I.outputStream] []),
    .expr (.method (.attr (.name I.self) I.receivingID) I.serialize [.name I.outputStream] []),
    .expr (.method (.name I.outputStream) I.write_unsigned_int [.attr (.name I.self) I.pad2] [])]

/-- `PointObjectStatePdu.parse`, /repo/opendis/dis7.py:5568-5582. -/
def PointObjectStatePdu.parse : Method where
  params := [(I.inputStream, none)]
  property := false
  body :=
   [.expr (.super (some I.PointObjectStatePdu) I.parse [.name I.inputStream] []),
    .expr (.method (.attr (.name I.self) I.objectID) I.parse [.name I.inputStream] []),
    .expr (.method (.attr (.name I.self) I.referencedObjectID) I.parse [.name I.inputStream] []),
    .assign (.attr (.name I.self) I.updateNumber) (.method (.name I.inputStream) I.read_unsigned_short [] []),
    .assign (.attr (.name I.self) I.forceID) (.method (.name I.inputStream) I.read_unsigned_byte [] []),
    .assign (.attr (.name I.self) I.modifications) (.method (.name I.inputStream) I.read_unsigned_byte [] []),
    .expr (.method (.attr (.name I.self) I.objectType) I.parse [.name I.inputStream] []),
    .expr (.method (.attr (.name I.self) I.objectLocation) I.parse [.name I.inputStream] []),
    .expr (.method (.attr (.name I.self) I.objectOrientation) I.parse [.name I.inputStream] []),
    .assign (.attr (.name I.self) I.objectAppearance) (.method (.name I.inputStream) I.read_double [] []),
    .expr (.method (.attr (.name I.self) I.requesterID) I.parse [.name I.inputStream] []),
    .expr (.method (.attr (.name I.self) I.receivingID) I.parse [.name I.inputStream] []),
    .assign (.attr (.name I.self) I.pad2) (.method (.name I.inputStream) I.read_unsigned_int [] [])]

/-- `class PointObjectStatePdu`, /repo/opendis/dis7.py:5505-5582. -/
def PointObjectStatePdu : Class where
  base := some I.SyntheticEnvironmentFamilyPdu
  attrs := [(I.pduType, .int 43)]
  methods :=
   [(I.__init__, PointObjectStatePdu.__init__),
    (I.serialize, PointObjectStatePdu.serialize),
    (I.parse, PointObjectStatePdu.parse)]

/-- `DataPdu.__init__`, /repo/opendis/dis7.py:5593-5603. -/
def DataPdu.__init__ : Method where
  params := [(I.requestID, some (.int 0)), (I.fixedDatumRecords, some (.none)), (I.variableDatumRecords, some (.none))]
  property := false
  body :=
   [.expr (.super (some I.DataPdu) I.__init__ [] []),
    .assign (.attr (.name I.self) I.requestID) (.name I.requestID),
    .assign (.attr (.name I.self) I.padding1) (.int 0),
    .assign (.attr (.name I.self) I._datums) (.call I.DatumSpecification [.or (.name I.fixedDatumRecords) (.list []), .or (.name I.variableDatumRecords) (.list [])] [])]

/-- `DataPdu.numberOfFixedDatumRecords`, /repo/opendis/dis7.py:5606-5607. -/
def DataPdu.numberOfFixedDatumRecords : Method where
  params := []
  property := true
  body :=
   [.ret (.attr (.attr (.name I.self) I._datums) I.numberOfFixedDatumRecords)]

/-- `DataPdu.numberOfVariableDatumRecords`, /repo/opendis/dis7.py:5610-5611. -/
def DataPdu.numberOfVariableDatumRecords : Method where
  params := []
  property := true
  body :=
   [.ret (.attr (.attr (.name I.self) I._datums) I.numberOfVariableDatumRecords)]

/-- `DataPdu.fixedDatumRecords`, /repo/opendis/dis7.py:5614-5615. -/
def DataPdu.fixedDatumRecords : Method where
  params := []
  property := true
  body :=
   [.ret (.attr (.attr (.name I.self) I._datums) I.fixedDatumRecords)]

/-- `DataPdu.variableDatumRecords`, /repo/opendis/dis7.py:5618-5619. -/
def DataPdu.variableDatumRecords : Method where
  params := []
  property := true
  body :=
   [.ret (.attr (.attr (.name I.self) I._datums) I.variableDatumRecords)]

/-- `DataPdu.serialize`, /repo/opendis/dis7.py:5621-5626. -/
def DataPdu.serialize : Method where
  params := [(I.outputStream, none)]
  property := false
  body :=
   [.expr (.super (some I.DataPdu) I.serialize [.name I.outputStream] []),
    .expr (.method (.name I.outputStream) I.write_unsigned_int [.attr (.name I.self) I.requestID] []),
    .expr (.method (.name I.outputStream) I.write_unsigned_int [.attr (.name I.self) I.padding1] []),
    .expr (.method (.attr (.name I.self) I._datums) I.serialize [.name I.outputStream] [])]

/-- `DataPdu.parse`, /repo/opendis/dis7.py:5628-5634. -/
def DataPdu.parse : Method where
  params := [(I.inputStream, none)]
  property := false
  body :=
   [.expr (.super (some I.DataPdu) I.parse [.name I.inputStream] []),
    .assign (.attr (.name I.self) I.requestID) (.method (.name I.inputStream) I.read_unsigned_int [] []),
    .assign (.attr (.name I.self) I.padding1) (.method (.name I.inputStream) I.read_unsigned_int [] []),
    .expr (.method (.attr (.name I.self) I._datums) I.parse [.name I.inputStream] [])]

/-- `class DataPdu`, /repo/opendis/dis7.py:5585-5634. -/
def DataPdu : Class where
  base := some I.SimulationManagementFamilyPdu
  attrs := [(I.pduType, .int 20)]
  methods :=
   [(I.__init__, DataPdu.__init__),
    (I.numberOfFixedDatumRecords, DataPdu.numberOfFixedDatumRecords),
    (I.numberOfVariableDatumRecords, DataPdu.numberOfVariableDatumRecords),
    (I.fixedDatumRecords, DataPdu.fixedDatumRecords),
    (I.variableDatumRecords, DataPdu.variableDatumRecords),
    (I.serialize, DataPdu.serialize),
    (I.parse, DataPdu.parse)]

/-- `FastEntityStatePdu.__init__`, /repo/opendis/dis7.py:5646-5762. -/
def FastEntityStatePdu.__init__ : Method where
  params := [(I.site, some (.int 0)), (I.application, some (.int 0)), (I.entity, some (.int 0)), (I.forceId, some (.int
   0)), (I.numberOfVariableParameters, some (.int 0)), (I.entityKind, some (.int 0)), (I.domain, some (.int
   0)), (I.country, some (.int 0)), (I.category, some (.int 0)), (I.subcategory, some (.int 0)), (I.specific,
   some (.int 0)), (I.extra, some (.int 0)), (I.altEntityKind, some (.int 0)), (I.altDomain, some (.int 0)),
   (I.altCountry, some (.int 0)), (I.altCategory, some (.int 0)), (I.altSubcategory, some (.int 0)),
   (I.altSpecific, some (.int 0)), (I.altExtra, some (.int 0)), (I.xVelocity, some (.int 0)), (I.yVelocity,
   some (.int 0)), (I.zVelocity, some (.int 0)), (I.xLocation, some (.int 0)), (I.yLocation, some (.int 0)),
   (I.zLocation, some (.int 0)), (I.psi, some (.int 0)), (I.theta, some (.int 0)), (I.phi, some (.int 0)),
   (I.entityAppearance, some (.int 0)), (I.deadReckoningAlgorithm, some (.int 0)), (I.otherParameters, some
   (.none)), (I.xAcceleration, some (.int 0)), (I.yAcceleration, some (.int 0)), (I.zAcceleration, some (.int
   0)), (I.xAngularVelocity, some (.int 0)), (I.yAngularVelocity, some (.int 0)), (I.zAngularVelocity, some
   (.int 0)), (I.marking, some (.none)), (I.capabilities, some (.int 0)), (I.variableParameters, some
   (.none))]
  property := false
  body :=
   [.expr (.super (some I.FastEntityStatePdu) I.__init__ [] []),
    .assign (.attr (.name I.self) I.site) (.name I.site),
    .assign (.attr (.name I.self) I.application) (.name I.application),
    .assign (.attr (.name I.self) I.entity) (.name I.entity),
    .assign (.attr (.name I.self) I.forceId) (.name I.forceId),
    .assign (.attr (.name I.self) I.numberOfVariableParameters) (.name I.numberOfVariableParameters),
    .assign (.attr (.name I.self) I.entityKind) (.name I.entityKind),
    .assign (.attr (.name I.self) I.domain) (.name I.domain),
    .assign (.attr (.name I.self) I.country) (.name I.country),
    .assign (.attr (.name I.self) I.category) (.name I.category),
    .assign (.attr (.name I.self) I.subcategory) (.name I.subcategory),
    .assign (.attr (.name I.self) I.specific) (.name I.specific),
    .assign (.attr (.name I.self) I.extra) (.name I.extra),
    .assign (.attr (.name I.self) I.altEntityKind) (.name I.altEntityKind),
    .assign (.attr (.name I.self) I.altDomain) (.name I.altDomain),
    .assign (.attr (.name I.self) I.altCountry) (.name I.altCountry),
    .assign (.attr (.name I.self) I.altCategory) (.name I.altCategory),
    .assign (.attr (.name I.self) I.altSubcategory) (.name I.altSubcategory),
    .assign (.attr (.name I.self) I.altSpecific) (.name I.altSpecific),
    .assign (.attr (.name I.self) I.altExtra) (.name I.altExtra),
    .assign (.attr (.name I.self) I.xVelocity) (.name I.xVelocity),
    .assign (.attr (.name I.self) I.yVelocity) (.name I.yVelocity),
    .assign (.attr (.name I.self) I.zVelocity) (.name I.zVelocity),
    .assign (.attr (.name I.self) I.xLocation) (.name I.xLocation),
    .assign (.attr (.name I.self) I.yLocation) (.name I.yLocation),
    .assign (.attr (.name I.self) I.zLocation) (.name I.zLocation),
    .assign (.attr (.name I.self) I.psi) (.name I.psi),
    .assign (.attr (.name I.self) I.theta) (.name I.theta),
    .assign (.attr (.name I.self) I.phi) (.name I.phi),
    .assign (.attr (.name I.self) I.entityAppearance) (.name I.entityAppearance),
    .assign (.attr (.name I.self) I.deadReckoningAlgorithm) (.name I.deadReckoningAlgorithm),
    .assign (.attr (.name I.self) I.otherParameters) (.or (.name I.otherParameters) (.bin .mul (.list [.int 0]) (.int 15))),
    .assign (.attr (.name I.self) I.xAcceleration) (.name I.xAcceleration),
    .assign (.attr (.name I.self) I.yAcceleration) (.name I.yAcceleration),
    .assign (.attr (.name I.self) I.zAcceleration) (.name I.zAcceleration),
    .assign (.attr (.name I.self) I.xAngularVelocity) (.name I.xAngularVelocity),
    .assign (.attr (.name I.self) I.yAngularVelocity) (.name I.yAngularVelocity),
    .assign (.attr (.name I.self) I.zAngularVelocity) (.name I.zAngularVelocity),
    .assign (.attr (.name I.self) I.marking) (.or (.name I.marking) (.bin .mul (.list [.int 0]) (.int 12))),
    .assign (.attr (.name I.self) I.capabilities) (.name I.capabilities),
    .assign (.attr (.name I.self) I.variableParameters) (.or (.name I.variableParameters) (.list []))]

/-- `FastEntityStatePdu.serialize`, /repo/opendis/dis7.py:5764-5811. -/
def FastEntityStatePdu.serialize : Method where
  params := [(I.outputStream, none)]
  property := false
  body :=
   [.expr (.super (some I.FastEntityStatePdu) I.serialize [.name I.outputStream] []),
    .expr (.method (.name I.outputStream) I.write_unsigned_short [.attr (.name I.self) I.site] []),
    .expr (.method (.name I.outputStream) I.write_unsigned_short [.attr (.name I.self) I.application] []),
    .expr (.method (.name I.outputStream) I.write_unsigned_short [.attr (.name I.self) I.entity] []),
    .expr (.method (.name I.outputStream) I.write_unsigned_byte [.attr (.name I.self) I.forceId] []),
    .expr (.method (.name I.outputStream) I.write_byte [.call I.len [.attr (.name I.self) I.variableParameters] []] []),
    .expr (.method (.name I.outputStream) I.write_unsigned_byte [.attr (.name I.self) I.entityKind] []),
    .expr (.method (.name I.outputStream) I.write_unsigned_byte [.attr (.name I.self) I.domain] []),
    .expr (.method (.name I.outputStream) I.write_unsigned_short [.attr (.name I.self) I.country] []),
    .expr (.method (.name I.outputStream) I.write_unsigned_byte [.attr (.name I.self) I.category] []),
    .expr (.method (.name I.outputStream) I.write_unsigned_byte [.attr (.name I.self) I.subcategory] []),
    .expr (.method (.name I.outputStream) I.write_unsigned_byte [.attr (.name I.self) I.specific] []),
    .expr (.method (.name I.outputStream) I.write_unsigned_byte [.attr (.name I.self) I.extra] []),
    .expr (.method (.name I.outputStream) I.write_unsigned_byte [.attr (.name I.self) I.altEntityKind] []),
    .expr (.method (.name I.outputStream) I.write_unsigned_byte [.attr (.name I.self) I.altDomain] []),
    .expr (.method (.name I.outputStream) I.write_unsigned_short [.attr (.name I.self) I.altCountry] []),
    .expr (.method (.name I.outputStream) I.write_unsigned_byte [.attr (.name I.self) I.altCategory] []),
    .expr (.method (.name I.outputStream) I.write_unsigned_byte [.attr (.name I.self) I.altSubcategory] []),
    .expr (.method (.name I.outputStream) I.write_unsigned_byte [.attr (.name I.self) I.altSpecific] []),
    .expr (.method (.name I.outputStream) I.write_unsigned_byte [.attr (.name I.self) I.altExtra] []),
    .expr (.method (.name I.outputStream) I.write_float [.attr (.name I.self) I.xVelocity] []),
    .expr (.method (.name I.outputStream) I.write_float [.attr (.name I.self) I.yVelocity] []),
    .expr (.method (.name I.outputStream) I.write_float [.attr (.name I.self) I.zVelocity] []),
    .expr (.method (.name I.outputStream) I.write_double [.attr (.name I.self) I.xLocation] []),
    .expr (.method (.name I.outputStream) I.write_double [.attr (.name I.self) I.yLocation] []),
    .expr (.method (.name I.outputStream) I.write_double [.attr (.name I.self) I.zLocation] []),
    .expr (.method (.name I.outputStream) I.write_float [.attr (.name I.self) I.psi] []),
    .expr (.method (.name I.outputStream) I.write_float [.attr (.name I.self) I.theta] []),
    .expr (.method (.name I.outputStream) I.write_float [.attr (.name I.self) I.phi] []),
    .expr (.method (.name I.outputStream) I.write_int [.attr (.name I.self) I.entityAppearance] []),
    .expr (.method (.name I.outputStream) I.write_unsigned_byte [.attr (.name I.self) I.deadReckoningAlgorithm] []),
    .for I.idx (.call I.range [.int 0, .int 15] [])
      [.expr (.method (.name I.outputStream) I.write_byte [.index (.attr (.name I.self) I.otherParameters) (.name I.idx)] [])],
    .expr (.method (.name I.outputStream) I.write_float [.attr (.name I.self) I.xAcceleration] []),
    .expr (.method (.name I.outputStream) I.write_float [.attr (.name I.self) I.yAcceleration] []),
    .expr (.method (.name I.outputStream) I.write_float [.attr (.name I.self) I.zAcceleration] []),
    .expr (.method (.name I.outputStream) I.write_float [.attr (.name I.self) I.xAngularVelocity] []),
    .expr (.method (.name I.outputStream) I.write_float [.attr (.name I.self) I.yAngularVelocity] []),
    .expr (.method (.name I.outputStream) I.write_float [.attr (.name I.self) I.zAngularVelocity] []),
    .for I.idx (.call I.range [.int 0, .int 12] [])
      [.expr (.method (.name I.outputStream) I.write_byte [.index (.attr (.name I.self) I.marking) (.name I.idx)] [])],
    .expr (.method (.name I.outputStream) I.write_int [.attr (.name I.self) I.capabilities] []),
    .for I.anObj (.attr (.name I.self) I.variableParameters)
      [.expr (.method (.name I.anObj) I.serialize [.name I.outputStream] [])]]

/-- `FastEntityStatePdu.parse`, /repo/opendis/dis7.py:5813-5868. -/
def FastEntityStatePdu.parse : Method where
  params := [(I.inputStream, none)]
  property := false
  body :=
   [.expr (.super (some I.FastEntityStatePdu) I.parse [.name I.inputStream] []),
    .assign (.attr (.name I.self) I.site) (.method (.name I.inputStream) I.read_unsigned_short [] []),
    .assign (.attr (.name I.self) I.application) (.method (.name I.inputStream) I.read_unsigned_short [] []),
    .assign (.attr (.name I.self) I.entity) (.method (.name I.inputStream) I.read_unsigned_short [] []),
    .assign (.attr (.name I.self) I.forceId) (.method (.name I.inputStream) I.read_unsigned_byte [] []),
    .assign (.attr (.name I.self) I.numberOfVariableParameters) (.method (.name I.inputStream) I.read_byte [] []),
    .assign (.attr (.name I.self) I.entityKind) (.method (.name I.inputStream) I.read_unsigned_byte [] []),
    .assign (.attr (.name I.self) I.domain) (.method (.name I.inputStream) I.read_unsigned_byte [] []),
    .assign (.attr (.name I.self) I.country) (.method (.name I.inputStream) I.read_unsigned_short [] []),
    .assign (.attr (.name I.self) I.category) (.method (.name I.inputStream) I.read_unsigned_byte [] []),
    .assign (.attr (.name I.self) I.subcategory) (.method (.name I.inputStream) I.read_unsigned_byte [] []),
    .assign (.attr (.name I.self) I.specific) (.method (.name I.inputStream) I.read_unsigned_byte [] []),
    .assign (.attr (.name I.self) I.extra) (.method (.name I.inputStream) I.read_unsigned_byte [] []),
    .assign (.attr (.name I.self) I.altEntityKind) (.method (.name I.inputStream) I.read_unsigned_byte [] []),
    .assign (.attr (.name I.self) I.altDomain) (.method (.name I.inputStream) I.read_unsigned_byte [] []),
    .assign (.attr (.name I.self) I.altCountry) (.method (.name I.inputStream) I.read_unsigned_short [] []),
    .assign (.attr (.name I.self) I.altCategory) (.method (.name I.inputStream) I.read_unsigned_byte [] []),
    .assign (.attr (.name I.self) I.altSubcategory) (.method (.name I.inputStream) I.read_unsigned_byte [] []),
    .assign (.attr (.name I.self) I.altSpecific) (.method (.name I.inputStream) I.read_unsigned_byte [] []),
    .assign (.attr (.name I.self) I.altExtra) (.method (.name I.inputStream) I.read_unsigned_byte [] []),
    .assign (.attr (.name I.self) I.xVelocity) (.method (.name I.inputStream) I.read_float [] []),
    .assign (.attr (.name I.self) I.yVelocity) (.method (.name I.inputStream) I.read_float [] []),
    .assign (.attr (.name I.self) I.zVelocity) (.method (.name I.inputStream) I.read_float [] []),
    .assign (.attr (.name I.self) I.xLocation) (.method (.name I.inputStream) I.read_double [] []),
    .assign (.attr (.name I.self) I.yLocation) (.method (.name I.inputStream) I.read_double [] []),
    .assign (.attr (.name I.self) I.zLocation) (.method (.name I.inputStream) I.read_double [] []),
    .assign (.attr (.name I.self) I.psi) (.method (.name I.inputStream) I.read_float [] []),
    .assign (.attr (.name I.self) I.theta) (.method (.name I.inputStream) I.read_float [] []),
    .assign (.attr (.name I.self) I.phi) (.method (.name I.inputStream) I.read_float [] []),
    .assign (.attr (.name I.self) I.entityAppearance) (.method (.name I.inputStream) I.read_int [] []),
    .assign (.attr (.name I.self) I.deadReckoningAlgorithm) (.method (.name I.inputStream) I.read_unsigned_byte [] []),
    .assign (.attr (.name I.self) I.otherParameters) (.bin .mul (.list [.int 0]) (.int 15)),
    .for I.idx (.call I.range [.int 0, .int 15] [])
      [.assign (.name I.val) (.method (.name I.inputStream) I.read_byte [] []),
       .assign (.index (.attr (.name I.self) I.otherParameters) (.name I.idx)) (.name I.val)],
    .assign (.attr (.name I.self) I.xAcceleration) (.method (.name I.inputStream) I.read_float [] []),
    .assign (.attr (.name I.self) I.yAcceleration) (.method (.name I.inputStream) I.read_float [] []),
    .assign (.attr (.name I.self) I.zAcceleration) (.method (.name I.inputStream) I.read_float [] []),
    .assign (.attr (.name I.self) I.xAngularVelocity) (.method (.name I.inputStream) I.read_float [] []),
    .assign (.attr (.name I.self) I.yAngularVelocity) (.method (.name I.inputStream) I.read_float [] []),
    .assign (.attr (.name I.self) I.zAngularVelocity) (.method (.name I.inputStream) I.read_float [] []),
    .assign (.attr (.name I.self) I.marking) (.bin .mul (.list [.int 0]) (.int 12)),
    .for I.idx (.call I.range [.int 0, .int 12] [])
      [.assign (.name I.val) (.method (.name I.inputStream) I.read_byte [] []),
       .assign (.index (.attr (.name I.self) I.marking) (.name I.idx)) (.name I.val)],
    .assign (.attr (.name I.self) I.capabilities) (.method (.name I.inputStream) I.read_int [] []),
    .for I.idx (.call I.range [.int 0, .attr (.name I.self) I.numberOfVariableParameters] [])
      [.assign (.name I.element) (.call I.VariableParameter [] []),
       .expr (.method (.name I.element) I.parse [.name I.inputStream] []),
       .expr (.method (.attr (.name I.self) I.variableParameters) I.append [.name I.element] [])]]

/-- `class FastEntityStatePdu`, /repo/opendis/dis7.py:5637-5868. -/
def FastEntityStatePdu : Class where
  base := some I.EntityInformationFamilyPdu
  attrs := [(I.pduType, .int 1)]
  methods :=
   [(I.__init__, FastEntityStatePdu.__init__),
    (I.serialize, FastEntityStatePdu.serialize),
    (I.parse, FastEntityStatePdu.parse)]

/-- `AcknowledgeReliablePdu.__init__`, /repo/opendis/dis7.py:5879-5888. -/
def AcknowledgeReliablePdu.__init__ : Method where
  params := [(I.acknowledgeFlag, some (.int 0)), (I.responseFlag, some (.int 0)), (I.requestID, some (.int 0))]
  property := false
  body :=
   [.expr (.super (some I.AcknowledgeReliablePdu) I.__init__ [] []),
    .assign (.attr (.name I.self) I.acknowledgeFlag) (.name I.acknowledgeFlag),
    .assign (.attr (.name I.self) I.responseFlag) (.name I.responseFlag),
    .assign (.attr (.name I.self) I.requestID) (.name I.requestID)]

/-- `AcknowledgeReliablePdu.serialize`, /repo/opendis/dis7.py:5890-5895. -/
def AcknowledgeReliablePdu.serialize : Method where
  params := [(I.outputStream, none)]
  property := false
  body :=
   [.expr (.super (some I.AcknowledgeReliablePdu) I.serialize [.name I.outputStream] []),
    .expr (.method (.name I.outputStream) I.write_unsigned_short [.attr (.name I.self) I.acknowledgeFlag] []),
    .expr (.method (.name I.outputStream) I.write_unsigned_short [.attr (.name I.self) I.responseFlag] []),
    .expr (.method (.name I.outputStream) I.write_unsigned_int [.attr (.name I.self) I.requestID] [])]

/-- `AcknowledgeReliablePdu.parse`, /repo/opendis/dis7.py:5897-5902. -/
def AcknowledgeReliablePdu.parse : Method where
  params := [(I.inputStream, none)]
  property := false
  body :=
   [.expr (.super (some I.AcknowledgeReliablePdu) I.parse [.name I.inputStream] []),
    .assign (.attr (.name I.self) I.acknowledgeFlag) (.method (.name I.inputStream) I.read_unsigned_short [] []),
    .assign (.attr (.name I.self) I.responseFlag) (.method (.name I.inputStream) I.read_unsigned_short [] []),
    .assign (.attr (.name I.self) I.requestID) (.method (.name I.inputStream) I.read_unsigned_int [] [])]

/-- `class AcknowledgeReliablePdu`, /repo/opendis/dis7.py:5871-5902. -/
def AcknowledgeReliablePdu : Class where
  base := some I.SimulationManagementWithReliabilityFamilyPdu
  attrs := [(I.pduType, .int 55)]
  methods :=
   [(I.__init__, AcknowledgeReliablePdu.__init__),
    (I.serialize, AcknowledgeReliablePdu.serialize),
    (I.parse, AcknowledgeReliablePdu.parse)]

/-- `StartResumeReliablePdu.__init__`, /repo/opendis/dis7.py:5912-5926. -/
def StartResumeReliablePdu.__init__ : Method where
  params := [(I.realWorldTime, some (.none)), (I.simulationTime, some (.none)), (I.requiredReliabilityService, some (.int
   0)), (I.requestID, some (.int 0))]
  property := false
  body :=
   [.expr (.super (some I.StartResumeReliablePdu) I.__init__ [] []),
    .assign (.attr (.name I.self) I.realWorldTime) (.or (.name I.realWorldTime) (.call I.ClockTime [] [])),
    .assign (.attr (.name I.self) I.simulationTime) (.or (.name I.simulationTime) (.call I.ClockTime [] [])),
    .assign (.attr (.name I.self) I.requiredReliabilityService) (.name I.requiredReliabilityService),
    .assign (.attr (.name I.self) I.pad1) (.int 0),
    .assign (.attr (.name I.self) I.pad2) (.int 0),
    .assign (.attr (.name I.self) I.requestID) (.name I.requestID)]

/-- `StartResumeReliablePdu.serialize`, /repo/opendis/dis7.py:5928-5936. -/
def StartResumeReliablePdu.serialize : Method where
  params := [(I.outputStream, none)]
  property := false
  body :=
   [.expr (.super (some I.StartResumeReliablePdu) I.serialize [.name I.outputStream] []),
    .expr (.method (.attr (.name I.self) I.realWorldTime) I.serialize [.name I.outputStream] []),
    .expr (.method (.attr (.name I.self) I.simulationTime) I.serialize [.name I.outputStream] []),
    .expr (.method (.name I.outputStream) I.write_unsigned_byte [.attr (.name I.self) I.requiredReliabilityService] []),
    .expr (.method (.name I.outputStream) I.write_unsigned_short [.attr (.name I.self) I.pad1] []),
    .expr (.method (.name I.outputStream) I.write_unsigned_byte [.attr (.name I.self) I.pad2] []),
    .expr (.method (.name I.outputStream) I.write_unsigned_int [.attr (.name I.self) I.requestID] [])]

/-- `StartResumeReliablePdu.parse`, /repo/opendis/dis7.py:5938-5946. -/
def StartResumeReliablePdu.parse : Method where
  params := [(I.inputStream, none)]
  property := false
  body :=
   [.expr (.super (some I.StartResumeReliablePdu) I.parse [.name I.inputStream] []),
    .expr (.method (.attr (.name I.self) I.realWorldTime) I.parse [.name I.inputStream] []),
    .expr (.method (.attr (.name I.self) I.simulationTime) I.parse [.name I.inputStream] []),
    .assign (.attr (.name I.self) I.requiredReliabilityService) (.method (.name I.inputStream) I.read_unsigned_byte [] []),
    .assign (.attr (.name I.self) I.pad1) (.method (.name I.inputStream) I.read_unsigned_short [] []),
    .assign (.attr (.name I.self) I.pad2) (.method (.name I.inputStream) I.read_unsigned_byte [] []),
    .assign (.attr (.name I.self) I.requestID) (.method (.name I.inputStream) I.read_unsigned_int [] [])]

/-- `class StartResumeReliablePdu`, /repo/opendis/dis7.py:5905-5946. -/
def StartResumeReliablePdu : Class where
  base := some I.SimulationManagementWithReliabilityFamilyPdu
  attrs := [(I.pduType, .int 53)]
  methods :=
   [(I.__init__, StartResumeReliablePdu.__init__),
    (I.serialize, StartResumeReliablePdu.serialize),
    (I.parse, StartResumeReliablePdu.parse)]

/-- `ArealObjectStatePdu.__init__`, /repo/opendis/dis7.py:5958-5985. -/
def ArealObjectStatePdu.__init__ : Method where
  params := [(I.objectID, some (.none)), (I.referencedObjectID, some (.none)), (I.updateNumber, some (.int 0)),
   (I.forceId, some (.int 0)), (I.modifications, some (.int 0)), (I.objectType, some (.none)),
   (I.specificObjectAppearance, some (.int 0)), (I.generalObjectAppearance, some (.int 0)), (I.requesterID,
   some (.none)), (I.receivingID, some (.none)), (I.objectLocation, some (.none))]
  property := false
  body :=
   [.expr (.super (some I.ArealObjectStatePdu) I.__init__ [] []),
    .assign (.attr (.name I.self) I.objectID) (.or (.name I.objectID) (.call I.EntityIdentifier [] [])),
    .assign (.attr (.name I.self) I.referencedObjectID) (.or (.name I.referencedObjectID) (.call I.EntityIdentifier [] [])),
    .assign (.attr (.name I.self) I.updateNumber) (.name I.updateNumber),
    .assign (.attr (.name I.self) I.forceID) (.name I.forceId),
    .assign (.attr (.name I.self) I.modifications) (.name I.modifications),
    .assign (.attr (.name I.self) I.objectType) (.or (.name I.objectType) (.call I.ObjectType [] [])),
    .assign (.attr (.name I.self) I.specificObjectAppearance) (.name I.specificObjectAppearance),
    .assign (.attr (.name I.self) I.generalObjectAppearance) (.name I.generalObjectAppearance),
    .assign (.attr (.name I.self) I.requesterID) (.or (.name I.requesterID) (.call I.SimulationAddress [] [])),
    .assign (.attr (.name I.self) I.receivingID) (.or (.name I.receivingID) (.call I.SimulationAddress [] [])),
    .assign (.attr (.name I.self) I.objectLocation) (.or (.name I.objectLocation) (.list []))]

/-- `ArealObjectStatePdu.numberOfPoints`, /repo/opendis/dis7.py:5988-5989. -/
def ArealObjectStatePdu.numberOfPoints : Method where
  params := []
  property := true
  body :=
   [.ret (.call I.len [.attr (.name I.self) I.objectLocation] [])]

/-- `ArealObjectStatePdu.serialize`, /repo/opendis/dis7.py:5991-6006. -/
def ArealObjectStatePdu.serialize : Method where
  params := [(I.outputStream, none)]
  property := false
  body :=
   [.expr (.super (some I.ArealObjectStatePdu) I.serialize [.name I.outputStream] []),
    .expr (.method (.attr (.name I.self) I.objectID) I.serialize [.name I.outputStream] []),
    .expr (.method (.attr (.name I.self) I.referencedObjectID) I.serialize [.name I.outputStream] []),
    .expr (.method (.name I.outputStream) I.write_unsigned_short [.attr (.name I.self) I.updateNumber] []),
    .expr (.method (.name I.outputStream) I.write_unsigned_byte [.attr (.name I.self) I.forceID] []),
    .expr (.method (.name I.outputStream) I.write_unsigned_byte [.attr (.name I.self) I.modifications] []),
    .expr (.method (.attr (.name I.self) I.objectType) I.serialize [.name I.outputStream] []),
    .expr (.method (.name I.outputStream) I.write_unsigned_int [.attr (.name I.self) I.specificObjectAppearance] []),
    .expr (.method (.name I.outputStream) I.write_unsigned_short [.attr (.name I.self) I.generalObjectAppearance] []),
    .expr (.method (.name I.outputStream) I.write_unsigned_short [.attr (.name I.self) I.numberOfPoints] []),
    .expr (.method (.attr (.name I.self) I.requesterID) I.serialize [.name I.outputStream] []),
    .expr (.method (.attr (.name I.self) I.receivingID) I.serialize [.name I.outputStream] []),
    .for I.anObj (.attr (.name I.self) I.objectLocation)
      [.expr (.method (.name I.anObj) I.serialize [.name I.outputStream] [])]]

/-- `ArealObjectStatePdu.parse`, /repo/opendis/dis7.py:6008-6025. -/
def ArealObjectStatePdu.parse : Method where
  params := [(I.inputStream, none)]
  property := false
  body :=
   [.expr (.super (some I.ArealObjectStatePdu) I.parse [.name I.inputStream] []),
    .expr (.method (.attr (.name I.self) I.objectID) I.parse [.name I.inputStream] []),
    .expr (.method (.attr (.name I.self) I.referencedObjectID) I.parse [.name I.inputStream] []),
    .assign (.attr (.name I.self) I.updateNumber) (.method (.name I.inputStream) I.read_unsigned_short [] []),
    .assign (.attr (.name I.self) I.forceID) (.method (.name I.inputStream) I.read_unsigned_byte [] []),
    .assign (.attr (.name I.self) I.modifications) (.method (.name I.inputStream) I.read_unsigned_byte [] []),
    .expr (.method (.attr (.name I.self) I.objectType) I.parse [.name I.inputStream] []),
    .assign (.attr (.name I.self) I.specificObjectAppearance) (.method (.name I.inputStream) I.read_unsigned_int [] []),
    .assign (.attr (.name I.self) I.generalObjectAppearance) (.method (.name I.inputStream) I.read_unsigned_short [] []),
    .assign (.name I.numberOfPoints) (.method (.name I.inputStream) I.read_unsigned_short [] []),
    .expr (.method (.attr (.name I.self) I.requesterID) I.parse [.name I.inputStream] []),
    .expr (.method (.attr (.name I.self) I.receivingID) I.parse [.name I.inputStream] []),
    .for I.idx (.call I.range [.int 0, .name I.numberOfPoints] [])
      [.assign (.name I.element) (.call I.WorldCoordinates [] []),
       .expr (.method (.name I.element) I.parse [.name I.inputStream] []),
       .expr (.method (.attr (.name I.self) I.objectLocation) I.append [.name I.element] [])]]

/-- `class ArealObjectStatePdu`, /repo/opendis/dis7.py:5949-6025. -/
def ArealObjectStatePdu : Class where
  base := some I.SyntheticEnvironmentFamilyPdu
  attrs := [(I.pduType, .int 45)]
  methods :=
   [(I.__init__, ArealObjectStatePdu.__init__),
    (I.numberOfPoints, ArealObjectStatePdu.numberOfPoints),
    (I.serialize, ArealObjectStatePdu.serialize),
    (I.parse, ArealObjectStatePdu.parse)]

/-- `DataQueryReliablePdu.__init__`, /repo/opendis/dis7.py:6035-6051. -/
def DataQueryReliablePdu.__init__ : Method where
  params := [(I.requiredReliabilityService, some (.int 0)), (I.requestID, some (.int 0)), (I.timeInterval, some (.int 0)),
   (I.fixedDatumIDs, some (.none)), (I.variableDatumIDs, some (.none))]
  property := false
  body :=
   [.expr (.super (some I.DataQueryReliablePdu) I.__init__ [] []),
    .assign (.attr (.name I.self) I.requiredReliabilityService) (.name I.requiredReliabilityService),
    .assign (.attr (.name I.self) I.pad1) (.int 0),
    .assign (.attr (.name I.self) I.pad2) (.int 0),
    .assign (.attr (.name I.self) I.requestID) (.name I.requestID),
    .assign (.attr (.name I.self) I.timeInterval) (.name I.timeInterval),
    .assign (.attr (.name I.self) I._dataQuery) (.call I.DataQueryDatumSpecification [.or (.name I.fixedDatumIDs) (.list []), .or (.name I.variableDatumIDs) (.list [])] [])]

/-- `DataQueryReliablePdu.numberOfFixedDatumIDs`, /repo/opendis/dis7.py:6054-6055. -/
def DataQueryReliablePdu.numberOfFixedDatumIDs : Method where
  params := []
  property := true
  body :=
   [.ret (.attr (.attr (.name I.self) I._dataQuery) I.numberOfFixedDatumIDs)]

/-- `DataQueryReliablePdu.numberOfVariableDatumIDs`, /repo/opendis/dis7.py:6058-6059. -/
def DataQueryReliablePdu.numberOfVariableDatumIDs : Method where
  params := []
  property := true
  body :=
   [.ret (.attr (.attr (.name I.self) I._dataQuery) I.numberOfVariableDatumIDs)]

/-- `DataQueryReliablePdu.fixedDatumIDs`, /repo/opendis/dis7.py:6062-6063. -/
def DataQueryReliablePdu.fixedDatumIDs : Method where
  params := []
  property := true
  body :=
   [.ret (.attr (.attr (.name I.self) I._dataQuery) I.fixedDatumIDs)]

/-- `DataQueryReliablePdu.variableDatumIDs`, /repo/opendis/dis7.py:6066-6067. -/
def DataQueryReliablePdu.variableDatumIDs : Method where
  params := []
  property := true
  body :=
   [.ret (.attr (.attr (.name I.self) I._dataQuery) I.variableDatumIDs)]

/-- `DataQueryReliablePdu.serialize`, /repo/opendis/dis7.py:6069-6077. -/
def DataQueryReliablePdu.serialize : Method where
  params := [(I.outputStream, none)]
  property := false
  body :=
   [.expr (.super (some I.DataQueryReliablePdu) I.serialize [.name I.outputStream] []),
    .expr (.method (.name I.outputStream) I.write_unsigned_byte [.attr (.name I.self) I.requiredReliabilityService] []),
    .expr (.method (.name I.outputStream) I.write_unsigned_short [.attr (.name I.self) I.pad1] []),
    .expr (.method (.name I.outputStream) I.write_unsigned_byte [.attr (.name I.self) I.pad2] []),
    .expr (.method (.name I.outputStream) I.write_unsigned_int [.attr (.name I.self) I.requestID] []),
    .expr (.method (.name I.outputStream) I.write_unsigned_int [.attr (.name I.self) I.timeInterval] []),
    .expr (.method (.attr (.name I.self) I._dataQuery) I.serialize [.name I.outputStream] [])]

/-- `DataQueryReliablePdu.parse`, /repo/opendis/dis7.py:6079-6087. -/
def DataQueryReliablePdu.parse : Method where
  params := [(I.inputStream, none)]
  property := false
  body :=
   [.expr (.super (some I.DataQueryReliablePdu) I.parse [.name I.inputStream] []),
    .assign (.attr (.name I.self) I.requiredReliabilityService) (.method (.name I.inputStream) I.read_unsigned_byte [] []),
    .assign (.attr (.name I.self) I.pad1) (.method (.name I.inputStream) I.read_unsigned_short [] []),
    .assign (.attr (.name I.self) I.pad2) (.method (.name I.inputStream) I.read_unsigned_byte [] []),
    .assign (.attr (.name I.self) I.requestID) (.method (.name I.inputStream) I.read_unsigned_int [] []),
    .assign (.attr (.name I.self) I.timeInterval) (.method (.name I.inputStream) I.read_unsigned_int [] []),
    .expr (.method (.attr (.name I.self) I._dataQuery) I.parse [.name I.inputStream] [])]

/-- `class DataQueryReliablePdu`, /repo/opendis/dis7.py:6028-6087. -/
def DataQueryReliablePdu : Class where
  base := some I.SimulationManagementWithReliabilityFamilyPdu
  attrs := [(I.pduType, .int 58)]
  methods :=
   [(I.__init__, DataQueryReliablePdu.__init__),
    (I.numberOfFixedDatumIDs, DataQueryReliablePdu.numberOfFixedDatumIDs),
    (I.numberOfVariableDatumIDs, DataQueryReliablePdu.numberOfVariableDatumIDs),
    (I.fixedDatumIDs, DataQueryReliablePdu.fixedDatumIDs),
    (I.variableDatumIDs, DataQueryReliablePdu.variableDatumIDs),
    (I.serialize, DataQueryReliablePdu.serialize),
    (I.parse, DataQueryReliablePdu.parse)]

/-- `MinefieldStatePdu.__init__`, /repo/opendis/dis7.py:6098-6122. -/
def MinefieldStatePdu.__init__ : Method where
  params := [(I.minefieldID, some (.none)), (I.minefieldSequence, some (.int 0)), (I.forceID, some (.int 0)),
   (I.minefieldType, some (.none)), (I.minefieldLocation, some (.none)), (I.minefieldOrientation, some
   (.none)), (I.appearance, some (.int 0)), (I.protocolMode, some (.int 0)), (I.perimeterPoints, some
   (.none)), (I.mineTypes, some (.none))]
  property := false
  body :=
   [.expr (.super (some I.MinefieldStatePdu) I.__init__ [] []),
    .assign (.attr (.name I.self) I.minefieldID) (.or (.name I.minefieldID) (.call I.MinefieldIdentifier [] [])),
    .assign (.attr (.name I.self) I.minefieldSequence) (.name I.minefieldSequence),
    .assign (.attr (.name I.self) I.forceID) (.name I.forceID),
    .assign (.attr (.name I.self) I.minefieldType) (.or (.name I.minefieldType) (.call I.EntityType [] [])),
    .assign (.attr (.name I.self) I.minefieldLocation) (.or (.name I.minefieldLocation) (.call I.WorldCoordinates [] [])),
    .assign (.attr (.name I.self) I.minefieldOrientation) (.or (.name I.minefieldOrientation) (.call I.EulerAngles [] [])),
    .assign (.attr (.name I.self) I.appearance) (.name I.appearance),
    .assign (.attr (.name I.self) I.protocolMode) (.name I.protocolMode),
    .assign (.attr (.name I.self) I.perimeterPoints) (.or (.name I.perimeterPoints) (.list [])),
    .assign (.attr (.name I.self) I.mineTypes) (.or (.name I.mineTypes) (.list []))]

/-- `MinefieldStatePdu.numberOfPerimeterPoints`, /repo/opendis/dis7.py:6125-6126. -/
def MinefieldStatePdu.numberOfPerimeterPoints : Method where
  params := []
  property := true
  body :=
   [.ret (.call I.len [.attr (.name I.self) I.perimeterPoints] [])]

/-- `MinefieldStatePdu.numberOfMineTypes`, /repo/opendis/dis7.py:6129-6130. -/
def MinefieldStatePdu.numberOfMineTypes : Method where
  params := []
  property := true
  body :=
   [.ret (.call I.len [.attr (.name I.self) I.mineTypes] [])]

/-- `MinefieldStatePdu.serialize`, /repo/opendis/dis7.py:6132-6149. -/
def MinefieldStatePdu.serialize : Method where
  params := [(I.outputStream, none)]
  property := false
  body :=
   [.expr (.super (some I.MinefieldStatePdu) I.serialize [.name I.outputStream] []),
    .expr (.method (.attr (.name I.self) I.minefieldID) I.serialize [.name I.outputStream] []),
    .expr (.method (.name I.outputStream) I.write_unsigned_short [.attr (.name I.self) I.minefieldSequence] []),
    .expr (.method (.name I.outputStream) I.write_unsigned_byte [.attr (.name I.self) I.forceID] []),
    .expr (.method (.name I.outputStream) I.write_unsigned_byte [.attr (.name I.self) I.numberOfPerimeterPoints] []),
    .expr (.method (.attr (.name I.self) I.minefieldType) I.serialize [.name I.outputStream] []),
    .expr (.method (.name I.outputStream) I.write_unsigned_short [.attr (.name I.self) I.numberOfMineTypes] []),
    .expr (.method (.attr (.name I.self) I.minefieldLocation) I.serialize [.name I.outputStream] []),
    .expr (.method (.attr (.name I.self) I.minefieldOrientation) I.serialize [.name I.outputStream] []),
    .expr (.method (.name I.outputStream) I.write_unsigned_short [.attr (.name I.self) I.appearance] []),
    .expr (.method (.name I.outputStream) I.write_unsigned_short [.attr (.name I.self) I.protocolMode] []),
    .for I.anObj (.attr (.name I.self) I.perimeterPoints)
      [.expr (.method (.name I.anObj) I.serialize [.name I.outputStream] [])],
    .for I.anObj (.attr (.name I.self) I.mineTypes)
      [.expr (.method (.name I.anObj) I.serialize [.name I.outputStream] [])]]

/-- `MinefieldStatePdu.parse`, /repo/opendis/dis7.py:6151-6172. -/
def MinefieldStatePdu.parse : Method where
  params := [(I.inputStream, none)]
  property := false
  body :=
   [.expr (.super (some I.MinefieldStatePdu) I.parse [.name I.inputStream] []),
    .expr (.method (.attr (.name I.self) I.minefieldID) I.parse [.name I.inputStream] []),
    .assign (.attr (.name I.self) I.minefieldSequence) (.method (.name I.inputStream) I.read_unsigned_short [] []),
    .assign (.attr (.name I.self) I.forceID) (.method (.name I.inputStream) I.read_unsigned_byte [] []),
    .assign (.name I.numberOfPerimeterPoints) (.method (.name I.inputStream) I.read_unsigned_byte [] []),
    .expr (.method (.attr (.name I.self) I.minefieldType) I.parse [.name I.inputStream] []),
    .assign (.name I.numberOfMineTypes) (.method (.name I.inputStream) I.read_unsigned_short [] []),
    .expr (.method (.attr (.name I.self) I.minefieldLocation) I.parse [.name I.inputStream] []),
    .expr (.method (.attr (.name I.self) I.minefieldOrientation) I.parse [.name I.inputStream] []),
    .assign (.attr (.name I.self) I.appearance) (.method (.name I.inputStream) I.read_unsigned_short [] []),
    .assign (.attr (.name I.self) I.protocolMode) (.method (.name I.inputStream) I.read_unsigned_short [] []),
    .for I.idx (.call I.range [.int 0, .name I.numberOfPerimeterPoints] [])
      [.assign (.name I.element) (.call I.Vector2Float [] []),
       .expr (.method (.name I.element) I.parse [.name I.inputStream] []),
       .expr (.method (.attr (.name I.self) I.perimeterPoints) I.append [.name I.element] [])],
    .for I.idx (.call I.range [.int 0, .name I.numberOfMineTypes] [])
      [.assign (.name I.element) (.call I.EntityType [] []),
       .expr (.method (.name I.element) I.parse [.name I.inputStream] []),
       .expr (.method (.attr (.name I.self) I.mineTypes) I.append [.name I.element] [])]]

/-- `class MinefieldStatePdu`, /repo/opendis/dis7.py:6090-6172. -/
def MinefieldStatePdu : Class where
  base := some I.MinefieldFamilyPdu
  attrs := [(I.pduType, .int 37)]
  methods :=
   [(I.__init__, MinefieldStatePdu.__init__),
    (I.numberOfPerimeterPoints, MinefieldStatePdu.numberOfPerimeterPoints),
    (I.numberOfMineTypes, MinefieldStatePdu.numberOfMineTypes),
    (I.serialize, MinefieldStatePdu.serialize),
    (I.parse, MinefieldStatePdu.parse)]

/-- `DataReliablePdu.__init__`, /repo/opendis/dis7.py:6183-6196. -/
def DataReliablePdu.__init__ : Method where
  params := [(I.requestID, some (.int 0)), (I.requiredReliabilityService, some (.int 0)), (I.fixedDatumRecords, some
   (.none)), (I.variableDatumRecords, some (.none))]
  property := false
  body :=
   [.expr (.super (some I.DataReliablePdu) I.__init__ [] []),
    .assign (.attr (.name I.self) I.requestID) (.name I.requestID),
    .assign (.attr (.name I.self) I.requiredReliabilityService) (.name I.requiredReliabilityService),
    .assign (.attr (.name I.self) I.pad1) (.int 0),
    .assign (.attr (.name I.self) I.pad2) (.int 0),
    .assign (.attr (.name I.self) I._datums) (.call I.DatumSpecification [.or (.name I.fixedDatumRecords) (.list []), .or (.name I.variableDatumRecords) (.list [])] [])]

/-- `DataReliablePdu.numberOfFixedDatumRecords`, /repo/opendis/dis7.py:6199-6200. -/
def DataReliablePdu.numberOfFixedDatumRecords : Method where
  params := []
  property := true
  body :=
   [.ret (.attr (.attr (.name I.self) I._datums) I.numberOfFixedDatumRecords)]

/-- `DataReliablePdu.numberOfVariableDatumRecords`, /repo/opendis/dis7.py:6203-6204. -/
def DataReliablePdu.numberOfVariableDatumRecords : Method where
  params := []
  property := true
  body :=
   [.ret (.attr (.attr (.name I.self) I._datums) I.numberOfVariableDatumRecords)]

/-- `DataReliablePdu.fixedDatumRecords`, /repo/opendis/dis7.py:6207-6208. -/
def DataReliablePdu.fixedDatumRecords : Method where
  params := []
  property := true
  body :=
   [.ret (.attr (.attr (.name I.self) I._datums) I.fixedDatumRecords)]

/-- `DataReliablePdu.variableDatumRecords`, /repo/opendis/dis7.py:6211-6212. -/
def DataReliablePdu.variableDatumRecords : Method where
  params := []
  property := true
  body :=
   [.ret (.attr (.attr (.name I.self) I._datums) I.variableDatumRecords)]

/-- `DataReliablePdu.serialize`, /repo/opendis/dis7.py:6214-6221. -/
def DataReliablePdu.serialize : Method where
  params := [(I.outputStream, none)]
  property := false
  body :=
   [.expr (.super (some I.DataReliablePdu) I.serialize [.name I.outputStream] []),
    .expr (.method (.name I.outputStream) I.write_unsigned_int [.attr (.name I.self) I.requestID] []),
    .expr (.method (.name I.outputStream) I.write_unsigned_byte [.attr (.name I.self) I.requiredReliabilityService] []),
    .expr (.method (.name I.outputStream) I.write_unsigned_short [.attr (.name I.self) I.pad1] []),
    .expr (.method (.name I.outputStream) I.write_unsigned_byte [.attr (.name I.self) I.pad2] []),
    .expr (.method (.attr (.name I.self) I._datums) I.serialize [.name I.outputStream] [])]

/-- `DataReliablePdu.parse`, /repo/opendis/dis7.py:6223-6230. -/
def DataReliablePdu.parse : Method where
  params := [(I.inputStream, none)]
  property := false
  body :=
   [.expr (.super (some I.DataReliablePdu) I.parse [.name I.inputStream] []),
    .assign (.attr (.name I.self) I.requestID) (.method (.name I.inputStream) I.read_unsigned_int [] []),
    .assign (.attr (.name I.self) I.requiredReliabilityService) (.method (.name I.inputStream) I.read_unsigned_byte [] []),
    .assign (.attr (.name I.self) I.pad1) (.method (.name I.inputStream) I.read_unsigned_short [] []),
    .assign (.attr (.name I.self) I.pad2) (.method (.name I.inputStream) I.read_unsigned_byte [] []),
    .expr (.method (.attr (.name I.self) I._datums) I.parse [.name I.inputStream] [])]

/-- `class DataReliablePdu`, /repo/opendis/dis7.py:6175-6230. -/
def DataReliablePdu : Class where
  base := some I.SimulationManagementWithReliabilityFamilyPdu
  attrs := [(I.pduType, .int 60)]
  methods :=
   [(I.__init__, DataReliablePdu.__init__),
    (I.numberOfFixedDatumRecords, DataReliablePdu.numberOfFixedDatumRecords),
    (I.numberOfVariableDatumRecords, DataReliablePdu.numberOfVariableDatumRecords),
    (I.fixedDatumRecords, DataReliablePdu.fixedDatumRecords),
    (I.variableDatumRecords, DataReliablePdu.variableDatumRecords),
    (I.serialize, DataReliablePdu.serialize),
    (I.parse, DataReliablePdu.parse)]

/-- `CommentPdu.__init__`, /repo/opendis/dis7.py:6240-6246. -/
def CommentPdu.__init__ : Method where
  params := [(I.fixedDatumRecords, some (.none)), (I.variableDatumRecords, some (.none))]
  property := false
  body :=
   [.expr (.super (some I.CommentPdu) I.__init__ [] []),
    .assign (.attr (.name I.self) I._datums) (.call I.DatumSpecification [.or (.name I.fixedDatumRecords) (.list []), .or (.name I.variableDatumRecords) (.list [])] [])]

/-- `CommentPdu.numberOfFixedDatumRecords`, /repo/opendis/dis7.py:6249-6250. -/
def CommentPdu.numberOfFixedDatumRecords : Method where
  params := []
  property := true
  body :=
   [.ret (.attr (.attr (.name I.self) I._datums) I.numberOfFixedDatumRecords)]

/-- `CommentPdu.numberOfVariableDatumRecords`, /repo/opendis/dis7.py:6253-6254. -/
def CommentPdu.numberOfVariableDatumRecords : Method where
  params := []
  property := true
  body :=
   [.ret (.attr (.attr (.name I.self) I._datums) I.numberOfVariableDatumRecords)]

/-- `CommentPdu.fixedDatumRecords`, /repo/opendis/dis7.py:6257-6258. -/
def CommentPdu.fixedDatumRecords : Method where
  params := []
  property := true
  body :=
   [.ret (.attr (.attr (.name I.self) I._datums) I.fixedDatumRecords)]

/-- `CommentPdu.variableDatumRecords`, /repo/opendis/dis7.py:6261-6262. -/
def CommentPdu.variableDatumRecords : Method where
  params := []
  property := true
  body :=
   [.ret (.attr (.attr (.name I.self) I._datums) I.variableDatumRecords)]

/-- `CommentPdu.serialize`, /repo/opendis/dis7.py:6264-6267. -/
def CommentPdu.serialize : Method where
  params := [(I.outputStream, none)]
  property := false
  body :=
   [.expr (.super (some I.CommentPdu) I.serialize [.name I.outputStream] []),
    .expr (.method (.attr (.name I.self) I._datums) I.serialize [.name I.outputStream] [])]

/-- `CommentPdu.parse`, /repo/opendis/dis7.py:6269-6272. -/
def CommentPdu.parse : Method where
  params := [(I.inputStream, none)]
  property := false
  body :=
   [.expr (.super (some I.CommentPdu) I.parse [.name I.inputStream] []),
    .expr (.method (.attr (.name I.self) I._datums) I.parse [.name I.inputStream] [])]

/-- `class CommentPdu`, /repo/opendis/dis7.py:6233-6272. -/
def CommentPdu : Class where
  base := some I.SimulationManagementFamilyPdu
  attrs := [(I.pduType, .int 22)]
  methods :=
   [(I.__init__, CommentPdu.__init__),
    (I.numberOfFixedDatumRecords, CommentPdu.numberOfFixedDatumRecords),
    (I.numberOfVariableDatumRecords, CommentPdu.numberOfVariableDatumRecords),
    (I.fixedDatumRecords, CommentPdu.fixedDatumRecords),
    (I.variableDatumRecords, CommentPdu.variableDatumRecords),
    (I.serialize, CommentPdu.serialize),
    (I.parse, CommentPdu.parse)]

/-- `CommentReliablePdu.__init__`, /repo/opendis/dis7.py:6283-6289. -/
def CommentReliablePdu.__init__ : Method where
  params := [(I.fixedDatumRecords, some (.none)), (I.variableDatumRecords, some (.none))]
  property := false
  body :=
   [.expr (.super (some I.CommentReliablePdu) I.__init__ [] []),
    .assign (.attr (.name I.self) I._datums) (.call I.DatumSpecification [.or (.name I.fixedDatumRecords) (.list []), .or (.name I.variableDatumRecords) (.list [])] [])]

/-- `CommentReliablePdu.numberOfFixedDatumRecords`, /repo/opendis/dis7.py:6292-6293. -/
def CommentReliablePdu.numberOfFixedDatumRecords : Method where
  params := []
  property := true
  body :=
   [.ret (.attr (.attr (.name I.self) I._datums) I.numberOfFixedDatumRecords)]

/-- `CommentReliablePdu.numberOfVariableDatumRecords`, /repo/opendis/dis7.py:6296-6297. -/
def CommentReliablePdu.numberOfVariableDatumRecords : Method where
  params := []
  property := true
  body :=
   [.ret (.attr (.attr (.name I.self) I._datums) I.numberOfVariableDatumRecords)]

/-- `CommentReliablePdu.fixedDatumRecords`, /repo/opendis/dis7.py:6300-6301. -/
def CommentReliablePdu.fixedDatumRecords : Method where
  params := []
  property := true
  body :=
   [.ret (.attr (.attr (.name I.self) I._datums) I.fixedDatumRecords)]

/-- `CommentReliablePdu.variableDatumRecords`, /repo/opendis/dis7.py:6304-6305. -/
def CommentReliablePdu.variableDatumRecords : Method where
  params := []
  property := true
  body :=
   [.ret (.attr (.attr (.name I.self) I._datums) I.variableDatumRecords)]

/-- `CommentReliablePdu.serialize`, /repo/opendis/dis7.py:6307-6310. -/
def CommentReliablePdu.serialize : Method where
  params := [(I.outputStream, none)]
  property := false
  body :=
   [.expr (.super (some I.CommentReliablePdu) I.serialize [.name I.outputStream] []),
    .expr (.method (.attr (.name I.self) I._datums) I.serialize [.name I.outputStream] [])]

/-- `CommentReliablePdu.parse`, /repo/opendis/dis7.py:6312-6315. -/
def CommentReliablePdu.parse : Method where
  params := [(I.inputStream, none)]
  property := false
  body :=
   [.expr (.super (some I.CommentReliablePdu) I.parse [.name I.inputStream] []),
    .expr (.method (.attr (.name I.self) I._datums) I.parse [.name I.inputStream] [])]

/-- `class CommentReliablePdu`, /repo/opendis/dis7.py:6275-6315. -/
def CommentReliablePdu : Class where
  base := some I.SimulationManagementWithReliabilityFamilyPdu
  attrs := [(I.pduType, .int 62)]
  methods :=
   [(I.__init__, CommentReliablePdu.__init__),
    (I.numberOfFixedDatumRecords, CommentReliablePdu.numberOfFixedDatumRecords),
    (I.numberOfVariableDatumRecords, CommentReliablePdu.numberOfVariableDatumRecords),
    (I.fixedDatumRecords, CommentReliablePdu.fixedDatumRecords),
    (I.variableDatumRecords, CommentReliablePdu.variableDatumRecords),
    (I.serialize, CommentReliablePdu.serialize),
    (I.parse, CommentReliablePdu.parse)]

/-- `DirectedEnergyFirePdu.__init__`, /repo/opendis/dis7.py:6326-6355. -/
def DirectedEnergyFirePdu.__init__ : Method where
  params := [(I.munitionType, some (.none)), (I.shotStartTime, some (.none)), (I.cumulativeShotTime, some (.float
   0x0000000000000000)), (I.apertureEmitterLocation, some (.none)), (I.apertureDiameter, some (.float
   0x0000000000000000)), (I.wavelength, some (.float 0x0000000000000000)), (I.pulseRepetitionFrequency, some
   (.float 0x0000000000000000)), (I.pulseWidth, some (.int 0)), (I.flags, some (.none)), (I.pulseShape, some
   (.int 0)), (I.dERecords, some (.none))]
  property := false
  body :=
   [.expr (.super (some I.DirectedEnergyFirePdu) I.__init__ [] []),
    .assign (.attr (.name I.self) I.munitionType) (.or (.name I.munitionType) (.call I.EntityType [] [])),
    .assign (.attr (.name I.self) I.shotStartTime) (.or (.name I.shotStartTime) (.call I.ClockTime [] [])),
    .assign (.attr (.name I.self) I.cumulativeShotTime) (.name I.cumulativeShotTime),
    .assign (.attr (.name I.self) I.apertureEmitterLocation) (.or (.name I.apertureEmitterLocation) (.call I.Vector3Float [] [])),
    .assign (.attr (.name I.self) I.apertureDiameter) (.name I.apertureDiameter),
    .assign (.attr (.name I.self) I.wavelength) (.name I.wavelength),
    .assign (.attr (.name I.self) I.padding1) (.int 0),
    .assign (.attr (.name I.self) I.pulseRepetitionFrequency) (.name I.pulseRepetitionFrequency),
    .assign (.attr (.name I.self) I.pulseWidth) (.name I.pulseWidth),
    .assign (.attr (.name I.self) I.flags) (.or (.name I.flags) (.call I.DEFireFlags [] [])),
    .assign (.attr (.name I.self) I.pulseShape) (.name I.pulseShape),
    .assign (.attr (.name I.self) I.padding2) (.int 0),
    .assign (.attr (.name I.self) I.padding3) (.int 0),
    .assign (.attr (.name I.self) I.padding4) (.int 0),
    .assign (.attr (.name I.self) I.dERecords) (.or (.name I.dERecords) (.list []))]

/-- `DirectedEnergyFirePdu.numberOfDERecords`, /repo/opendis/dis7.py:6358-6359. -/
def DirectedEnergyFirePdu.numberOfDERecords : Method where
  params := []
  property := true
  body :=
   [.ret (.call I.len [.attr (.name I.self) I.dERecords] [])]

/-- `DirectedEnergyFirePdu.serialize`, /repo/opendis/dis7.py:6361-6379. -/
def DirectedEnergyFirePdu.serialize : Method where
  params := [(I.outputStream, none)]
  property := false
  body :=
   [.expr (.super (some I.DirectedEnergyFirePdu) I.serialize [.name I.outputStream] []),
    .expr (.method (.attr (.name I.self) I.munitionType) I.serialize [.name I.outputStream] []),
    .expr (.method (.attr (.name I.self) I.shotStartTime) I.serialize [.name I.outputStream] []),
    .expr (.method (.name I.outputStream) I.write_float32 [.attr (.name I.self) I.commulativeShotTime] []),
    .expr (.method (.attr (.name I.self) I.apertureEmitterLocation) I.serialize [.name I.outputStream] []),
    .expr (.method (.name I.outputStream) I.write_float32 [.attr (.name I.self) I.apertureDiameter] []),
    .expr (.method (.name I.outputStream) I.write_float32 [.attr (.name I.self) I.wavelength] []),
    .expr (.method (.name I.outputStream) I.write_uint32 [.attr (.name I.self) I.padding1] []),
    .expr (.method (.name I.outputStream) I.write_float32 [.attr (.name I.self) I.pulseRepetitionFrequency] []),
    .expr (.method (.name I.outputStream) I.write_float32 [.attr (.name I.self) I.pulseWidth] []),
    .expr (.method (.attr (.name I.self) I.flags) I.serialize [.name I.outputStream] []),
    .expr (.method (.name I.outputStream) I.write_uint8 [.attr (.name I.self) I.pulseShape] []),
    .expr (.method (.name I.outputStream) I.write_uint8 [.attr (.name I.self) I.padding2] []),
    .expr (.method (.name I.outputStream) I.write_uint32 [.attr (.name I.self) I.padding3] []),
    .expr (.method (.name I.outputStream) I.write_uint16 [.attr (.name I.self) I.padding4] []),
    .expr (.method (.name I.outputStream) I.write_uint16 [.attr (.name I.self) I.numberOfDERecords] []),
    .for I.record (.attr (.name I.self) I.dERecords)
      [.expr (.method (.name I.record) I.serialize [.name I.outputStream] [])]]

/-- `DirectedEnergyFirePdu.parse`, /repo/opendis/dis7.py:6381-6403. -/
def DirectedEnergyFirePdu.parse : Method where
  params := [(I.inputStream, none)]
  property := false
  body :=
   [.expr (.super (some I.DirectedEnergyFirePdu) I.parse [.name I.inputStream] []),
    .expr (.method (.attr (.name I.self) I.munitionType) I.parse [.name I.inputStream] []),
    .expr (.method (.attr (.name I.self) I.shotStartTime) I.parse [.name I.inputStream] []),
    .assign (.attr (.name I.self) I.commulativeShotTime) (.method (.name I.inputStream) I.read_float32 [] []),
    .expr (.method (.attr (.name I.self) I.apertureEmitterLocation) I.parse [.name I.inputStream] []),
    .assign (.attr (.name I.self) I.apertureDiameter) (.method (.name I.inputStream) I.read_float32 [] []),
    .assign (.attr (.name I.self) I.wavelength) (.method (.name I.inputStream) I.read_float32 [] []),
    .assign (.attr (.name I.self) I.padding1) (.method (.name I.inputStream) I.read_uint32 [] []),
    .assign (.attr (.name I.self) I.pulseRepetitionFrequency) (.method (.name I.inputStream) I.read_float32 [] []),
    .assign (.attr (.name I.self) I.pulseWidth) (.method (.name I.inputStream) I.read_float32 [] []),
    .expr (.method (.attr (.name I.self) I.flags) I.parse [.name I.inputStream] []),
    .assign (.attr (.name I.self) I.pulseShape) (.method (.name I.inputStream) I.read_uint8 [] []),
    .assign (.attr (.name I.self) I.padding2) (.method (.name I.inputStream) I.read_uint8 [] []),
    .assign (.attr (.name I.self) I.padding3) (.method (.name I.inputStream) I.read_uint32 [] []),
    .assign (.attr (.name I.self) I.padding4) (.method (.name I.inputStream) I.read_uint16 [] []),
    .assign (.name I.numberOfDERecords) (.method (.name I.inputStream) I.read_uint16 [] []),
    .for I.«_» (.call I.range [.int 0, .name I.numberOfDERecords] [])
      [.assign (.name I.vtp) (.func I.parseStandardVariableRecord [.name I.inputStream, .name I.DamageDescriptionRecord] []),
       .expr (.method (.attr (.name I.self) I.dERecords) I.append [.name I.vtp] [])]]

/-- `class DirectedEnergyFirePdu`, /repo/opendis/dis7.py:6318-6403. -/
def DirectedEnergyFirePdu : Class where
  base := some I.WarfareFamilyPdu
  attrs := [(I.pduType, .int 68)]
  methods :=
   [(I.__init__, DirectedEnergyFirePdu.__init__),
    (I.numberOfDERecords, DirectedEnergyFirePdu.numberOfDERecords),
    (I.serialize, DirectedEnergyFirePdu.serialize),
    (I.parse, DirectedEnergyFirePdu.parse)]

/-- `DetonationPdu.__init__`, /repo/opendis/dis7.py:6415-6439. -/
def DetonationPdu.__init__ : Method where
  params := [(I.explodingEntityID, some (.none)), (I.eventID, some (.none)), (I.velocity, some (.none)), (I.location, some
   (.none)), (I.descriptor, some (.none)), (I.locationInEntityCoordinates, some (.none)), (I.detonationResult,
   some (.int 0)), (I.variableParameters, some (.none))]
  property := false
  body :=
   [.expr (.super (some I.DetonationPdu) I.__init__ [] []),
    .assign (.attr (.name I.self) I.explodingEntityID) (.or (.name I.explodingEntityID) (.call I.EntityIdentifier [] [])),
    .assign (.attr (.name I.self) I.eventID) (.or (.name I.eventID) (.call I.EventIdentifier [] [])),
    .assign (.attr (.name I.self) I.velocity) (.or (.name I.velocity) (.call I.Vector3Float [] [])),
    .assign (.attr (.name I.self) I.location) (.or (.name I.location) (.call I.WorldCoordinates [] [])),
    .assign (.attr (.name I.self) I.descriptor) (.or (.name I.descriptor) (.call I.MunitionDescriptor [] [])),
    .assign (.attr (.name I.self) I.locationInEntityCoordinates) (.or (.name I.locationInEntityCoordinates) (.call I.Vector3Float [] [])),
    .assign (.attr (.name I.self) I.detonationResult) (.name I.detonationResult),
    .assign (.attr (.name I.self) I.pad) (.int 0),
    .assign (.attr (.name I.self) I.variableParameters) (.or (.name I.variableParameters) (.list []))]

/-- `DetonationPdu.numberOfVariableParameters`, /repo/opendis/dis7.py:6442-6443. -/
def DetonationPdu.numberOfVariableParameters : Method where
  params := []
  property := true
  body :=
   [.ret (.call I.len [.attr (.name I.self) I.variableParameters] [])]

/-- `DetonationPdu.serialize`, /repo/opendis/dis7.py:6445-6458. -/
def DetonationPdu.serialize : Method where
  params := [(I.outputStream, none)]
  property := false
  body :=
   [.expr (.super (some I.DetonationPdu) I.serialize [.name I.outputStream] []),
    .expr (.method (.attr (.name I.self) I.explodingEntityID) I.serialize [.name I.outputStream] []),
    .expr (.method (.attr (.name I.self) I.eventID) I.serialize [.name I.outputStream] []),
    .expr (.method (.attr (.name I.self) I.velocity) I.serialize [.name I.outputStream] []),
    .expr (.method (.attr (.name I.self) I.location) I.serialize [.name I.outputStream] []),
    .expr (.method (.attr (.name I.self) I.descriptor) I.serialize [.name I.outputStream] []),
    .expr (.method (.attr (.name I.self) I.locationInEntityCoordinates) I.serialize [.name I.outputStream] []),
    .expr (.method (.name I.outputStream) I.write_unsigned_byte [.attr (.name I.self) I.detonationResult] []),
    .expr (.method (.name I.outputStream) I.write_unsigned_byte [.attr (.name I.self) I.numberOfVariableParameters] []),
    .expr (.method (.name I.outputStream) I.write_unsigned_short [.attr (.name I.self) I.pad] []),
    .for I.anObj (.attr (.name I.self) I.variableParameters)
      [.expr (.method (.name I.anObj) I.serialize [.name I.outputStream] [])]]

/-- `DetonationPdu.parse`, /repo/opendis/dis7.py:6460-6475. -/
def DetonationPdu.parse : Method where
  params := [(I.inputStream, none)]
  property := false
  body :=
   [.expr (.super (some I.DetonationPdu) I.parse [.name I.inputStream] []),
    .expr (.method (.attr (.name I.self) I.explodingEntityID) I.parse [.name I.inputStream] []),
    .expr (.method (.attr (.name I.self) I.eventID) I.parse [.name I.inputStream] []),
    .expr (.method (.attr (.name I.self) I.velocity) I.parse [.name I.inputStream] []),
    .expr (.method (.attr (.name I.self) I.location) I.parse [.name I.inputStream] []),
    .expr (.method (.attr (.name I.self) I.descriptor) I.parse [.name I.inputStream] []),
    .expr (.method (.attr (.name I.self) I.locationInEntityCoordinates) I.parse [.name I.inputStream] []),
    .assign (.attr (.name I.self) I.detonationResult) (.method (.name I.inputStream) I.read_unsigned_byte [] []),
    .assign (.name I.numberOfVariableParameters) (.method (.name I.inputStream) I.read_unsigned_byte [] []),
    .assign (.attr (.name I.self) I.pad) (.method (.name I.inputStream) I.read_unsigned_short [] []),
    .for I.idx (.call I.range [.int 0, .name I.numberOfVariableParameters] [])
      [.assign (.name I.element) (.call I.VariableParameter [] []),
       .expr (.method (.name I.element) I.parse [.name I.inputStream] []),
       .expr (.method (.attr (.name I.self) I.variableParameters) I.append [.name I.element] [])]]

/-- `class DetonationPdu`, /repo/opendis/dis7.py:6406-6475. -/
def DetonationPdu : Class where
  base := some I.WarfareFamilyPdu
  attrs := [(I.pduType, .int 3)]
  methods :=
   [(I.__init__, DetonationPdu.__init__),
    (I.numberOfVariableParameters, DetonationPdu.numberOfVariableParameters),
    (I.serialize, DetonationPdu.serialize),
    (I.parse, DetonationPdu.parse)]

/-- `SetDataPdu.__init__`, /repo/opendis/dis7.py:6485-6494. -/
def SetDataPdu.__init__ : Method where
  params := [(I.requestID, some (.int 0)), (I.fixedDatumRecords, some (.none)), (I.variableDatumRecords, some (.none))]
  property := false
  body :=
   [.expr (.super (some I.SetDataPdu) I.__init__ [] []),
    .assign (.attr (.name I.self) I.requestID) (.name I.requestID),
    .assign (.attr (.name I.self) I.padding1) (.int 0),
    .assign (.attr (.name I.self) I._datums) (.call I.DatumSpecification [.or (.name I.fixedDatumRecords) (.list []), .or (.name I.variableDatumRecords) (.list [])] [])]

/-- `SetDataPdu.numberOfFixedDatumRecords`, /repo/opendis/dis7.py:6497-6498. -/
def SetDataPdu.numberOfFixedDatumRecords : Method where
  params := []
  property := true
  body :=
   [.ret (.attr (.attr (.name I.self) I._datums) I.numberOfFixedDatumRecords)]

/-- `SetDataPdu.numberOfVariableDatumRecords`, /repo/opendis/dis7.py:6501-6502. -/
def SetDataPdu.numberOfVariableDatumRecords : Method where
  params := []
  property := true
  body :=
   [.ret (.attr (.attr (.name I.self) I._datums) I.numberOfVariableDatumRecords)]

/-- `SetDataPdu.fixedDatumRecords`, /repo/opendis/dis7.py:6505-6506. -/
def SetDataPdu.fixedDatumRecords : Method where
  params := []
  property := true
  body :=
   [.ret (.attr (.attr (.name I.self) I._datums) I.fixedDatumRecords)]

/-- `SetDataPdu.variableDatumRecords`, /repo/opendis/dis7.py:6509-6510. -/
def SetDataPdu.variableDatumRecords : Method where
  params := []
  property := true
  body :=
   [.ret (.attr (.attr (.name I.self) I._datums) I.variableDatumRecords)]

/-- `SetDataPdu.serialize`, /repo/opendis/dis7.py:6512-6517. -/
def SetDataPdu.serialize : Method where
  params := [(I.outputStream, none)]
  property := false
  body :=
   [.expr (.super (some I.SetDataPdu) I.serialize [.name I.outputStream] []),
    .expr (.method (.name I.outputStream) I.write_unsigned_int [.attr (.name I.self) I.requestID] []),
    .expr (.method (.name I.outputStream) I.write_unsigned_int [.attr (.name I.self) I.padding1] []),
    .expr (.method (.attr (.name I.self) I._datums) I.serialize [.name I.outputStream] [])]

/-- `SetDataPdu.parse`, /repo/opendis/dis7.py:6519-6524. -/
def SetDataPdu.parse : Method where
  params := [(I.inputStream, none)]
  property := false
  body :=
   [.expr (.super (some I.SetDataPdu) I.parse [.name I.inputStream] []),
    .assign (.attr (.name I.self) I.requestID) (.method (.name I.inputStream) I.read_unsigned_int [] []),
    .assign (.attr (.name I.self) I.padding1) (.method (.name I.inputStream) I.read_unsigned_int [] []),
    .expr (.method (.attr (.name I.self) I._datums) I.parse [.name I.inputStream] [])]

/-- `class SetDataPdu`, /repo/opendis/dis7.py:6478-6524. -/
def SetDataPdu : Class where
  base := some I.SimulationManagementFamilyPdu
  attrs := [(I.pduType, .int 19)]
  methods :=
   [(I.__init__, SetDataPdu.__init__),
    (I.numberOfFixedDatumRecords, SetDataPdu.numberOfFixedDatumRecords),
    (I.numberOfVariableDatumRecords, SetDataPdu.numberOfVariableDatumRecords),
    (I.fixedDatumRecords, SetDataPdu.fixedDatumRecords),
    (I.variableDatumRecords, SetDataPdu.variableDatumRecords),
    (I.serialize, SetDataPdu.serialize),
    (I.parse, SetDataPdu.parse)]

/-- `RecordQueryReliablePdu.__init__`, /repo/opendis/dis7.py:6534-6549. -/
def RecordQueryReliablePdu.__init__ : Method where
  params := [(I.requestID, some (.int 0)), (I.requiredReliabilityService, some (.int 0)), (I.eventType, some (.int 0)),
   (I.time, some (.int 0)), (I.recordIDs, some (.none))]
  property := false
  body :=
   [.expr (.super (some I.RecordQueryReliablePdu) I.__init__ [] []),
    .assign (.attr (.name I.self) I.requestID) (.name I.requestID),
    .assign (.attr (.name I.self) I.requiredReliabilityService) (.name I.requiredReliabilityService),
    .assign (.attr (.name I.self) I.pad1) (.int 0),
    .assign (.attr (.name I.self) I.pad2) (.int 0),
    .assign (.attr (.name I.self) I.eventType) (.name I.eventType),
    .assign (.attr (.name I.self) I.time) (.name I.time),
    .assign (.attr (.name I.self) I.recordIDs) (.or (.name I.recordIDs) (.list []))]

/-- `RecordQueryReliablePdu.numberOfRecords`, /repo/opendis/dis7.py:6552-6553. -/
def RecordQueryReliablePdu.numberOfRecords : Method where
  params := []
  property := true
  body :=
   [.ret (.call I.len [.attr (.name I.self) I.recordIDs] [])]

/-- `RecordQueryReliablePdu.serialize`, /repo/opendis/dis7.py:6555-6566. -/
def RecordQueryReliablePdu.serialize : Method where
  params := [(I.outputStream, none)]
  property := false
  body :=
   [.expr (.super (some I.RecordQueryReliablePdu) I.serialize [.name I.outputStream] []),
    .expr (.method (.name I.outputStream) I.write_unsigned_int [.attr (.name I.self) I.requestID] []),
    .expr (.method (.name I.outputStream) I.write_unsigned_byte [.attr (.name I.self) I.requiredReliabilityService] []),
    .expr (.method (.name I.outputStream) I.write_unsigned_short [.attr (.name I.self) I.pad1] []),
    .expr (.method (.name I.outputStream) I.write_unsigned_byte [.attr (.name I.self) I.pad2] []),
    .expr (.method (.name I.outputStream) I.write_unsigned_short [.attr (.name I.self) I.eventType] []),
    .expr (.method (.name I.outputStream) I.write_unsigned_int [.attr (.name I.self) I.time] []),
    .expr (.method (.name I.outputStream) I.write_unsigned_int [.attr (.name I.self) I.numberOfRecords] []),
    .for I.anObj (.attr (.name I.self) I.recordIDs)
      [.expr (.method (.name I.anObj) I.serialize [.name I.outputStream] [])]]

/-- `RecordQueryReliablePdu.parse`, /repo/opendis/dis7.py:6568-6581. -/
def RecordQueryReliablePdu.parse : Method where
  params := [(I.inputStream, none)]
  property := false
  body :=
   [.expr (.super (some I.RecordQueryReliablePdu) I.parse [.name I.inputStream] []),
    .assign (.attr (.name I.self) I.requestID) (.method (.name I.inputStream) I.read_unsigned_int [] []),
    .assign (.attr (.name I.self) I.requiredReliabilityService) (.method (.name I.inputStream) I.read_unsigned_byte [] []),
    .assign (.attr (.name I.self) I.pad1) (.method (.name I.inputStream) I.read_unsigned_short [] []),
    .assign (.attr (.name I.self) I.pad2) (.method (.name I.inputStream) I.read_unsigned_byte [] []),
    .assign (.attr (.name I.self) I.eventType) (.method (.name I.inputStream) I.read_unsigned_short [] []),
    .assign (.attr (.name I.self) I.time) (.method (.name I.inputStream) I.read_unsigned_int [] []),
    .assign (.name I.numberOfRecords) (.method (.name I.inputStream) I.read_unsigned_int [] []),
    .for I.idx (.call I.range [.int 0, .name I.numberOfRecords] [])
      [.assign (.name I.element) (.call I.null [] []),
       .expr (.method (.name I.element) I.parse [.name I.inputStream] []),
       .expr (.method (.attr (.name I.self) I.recordIDs) I.append [.name I.element] [])]]

/-- `class RecordQueryReliablePdu`, /repo/opendis/dis7.py:6527-6581. -/
def RecordQueryReliablePdu : Class where
  base := some I.SimulationManagementWithReliabilityFamilyPdu
  attrs := [(I.pduType, .int 63)]
  methods :=
   [(I.__init__, RecordQueryReliablePdu.__init__),
    (I.numberOfRecords, RecordQueryReliablePdu.numberOfRecords),
    (I.serialize, RecordQueryReliablePdu.serialize),
    (I.parse, RecordQueryReliablePdu.parse)]

/-- `ActionResponsePdu.__init__`, /repo/opendis/dis7.py:6591-6602. -/
def ActionResponsePdu.__init__ : Method where
  params := [(I.requestID, some (.int 0)), (I.requestStatus, some (.int 0)), (I.fixedDatumRecords, some (.none)),
   (I.variableDatumRecords, some (.none))]
  property := false
  body :=
   [.expr (.super (some I.ActionResponsePdu) I.__init__ [] []),
    .assign (.attr (.name I.self) I.requestID) (.name I.requestID),
    .assign (.attr (.name I.self) I.requestStatus) (.name I.requestStatus),
    .assign (.attr (.name I.self) I._datums) (.call I.DatumSpecification [.or (.name I.fixedDatumRecords) (.list []), .or (.name I.variableDatumRecords) (.list [])] [])]

/-- `ActionResponsePdu.numberOfFixedDatumRecords`, /repo/opendis/dis7.py:6605-6606. -/
def ActionResponsePdu.numberOfFixedDatumRecords : Method where
  params := []
  property := true
  body :=
   [.ret (.attr (.attr (.name I.self) I._datums) I.numberOfFixedDatumRecords)]

/-- `ActionResponsePdu.numberOfVariableDatumRecords`, /repo/opendis/dis7.py:6609-6610. -/
def ActionResponsePdu.numberOfVariableDatumRecords : Method where
  params := []
  property := true
  body :=
   [.ret (.attr (.attr (.name I.self) I._datums) I.numberOfVariableDatumRecords)]

/-- `ActionResponsePdu.fixedDatumRecords`, /repo/opendis/dis7.py:6613-6614. -/
def ActionResponsePdu.fixedDatumRecords : Method where
  params := []
  property := true
  body :=
   [.ret (.attr (.attr (.name I.self) I._datums) I.fixedDatumRecords)]

/-- `ActionResponsePdu.variableDatumRecords`, /repo/opendis/dis7.py:6617-6618. -/
def ActionResponsePdu.variableDatumRecords : Method where
  params := []
  property := true
  body :=
   [.ret (.attr (.attr (.name I.self) I._datums) I.variableDatumRecords)]

/-- `ActionResponsePdu.serialize`, /repo/opendis/dis7.py:6620-6625. -/
def ActionResponsePdu.serialize : Method where
  params := [(I.outputStream, none)]
  property := false
  body :=
   [.expr (.super (some I.ActionResponsePdu) I.serialize [.name I.outputStream] []),
    .expr (.method (.name I.outputStream) I.write_unsigned_int [.attr (.name I.self) I.requestID] []),
    .expr (.method (.name I.outputStream) I.write_unsigned_int [.attr (.name I.self) I.requestStatus] []),
    .expr (.method (.attr (.name I.self) I._datums) I.serialize [.name I.outputStream] [])]

/-- `ActionResponsePdu.parse`, /repo/opendis/dis7.py:6627-6632. -/
def ActionResponsePdu.parse : Method where
  params := [(I.inputStream, none)]
  property := false
  body :=
   [.expr (.super (some I.ActionResponsePdu) I.parse [.name I.inputStream] []),
    .assign (.attr (.name I.self) I.requestID) (.method (.name I.inputStream) I.read_unsigned_int [] []),
    .assign (.attr (.name I.self) I.requestStatus) (.method (.name I.inputStream) I.read_unsigned_int [] []),
    .expr (.method (.attr (.name I.self) I._datums) I.parse [.name I.inputStream] [])]

/-- `class ActionResponsePdu`, /repo/opendis/dis7.py:6584-6632. -/
def ActionResponsePdu : Class where
  base := some I.SimulationManagementFamilyPdu
  attrs := [(I.pduType, .int 17)]
  methods :=
   [(I.__init__, ActionResponsePdu.__init__),
    (I.numberOfFixedDatumRecords, ActionResponsePdu.numberOfFixedDatumRecords),
    (I.numberOfVariableDatumRecords, ActionResponsePdu.numberOfVariableDatumRecords),
    (I.fixedDatumRecords, ActionResponsePdu.fixedDatumRecords),
    (I.variableDatumRecords, ActionResponsePdu.variableDatumRecords),
    (I.serialize, ActionResponsePdu.serialize),
    (I.parse, ActionResponsePdu.parse)]

/-- `EntityDamageStatusPdu.__init__`, /repo/opendis/dis7.py:6643-6651. -/
def EntityDamageStatusPdu.__init__ : Method where
  params := [(I.damagedEntityID, some (.none)), (I.damageDescriptions, some (.none))]
  property := false
  body :=
   [.expr (.super (some I.EntityDamageStatusPdu) I.__init__ [] []),
    .assign (.attr (.name I.self) I.damagedEntityID) (.or (.name I.damagedEntityID) (.call I.EntityIdentifier [] [])),
    .assign (.attr (.name I.self) I.padding1) (.int 0),
    .assign (.attr (.name I.self) I.padding2) (.int 0),
    .assign (.attr (.name I.self) I.damageDescriptions) (.or (.name I.damageDescriptions) (.list []))]

/-- `EntityDamageStatusPdu.damageDescriptionCount`, /repo/opendis/dis7.py:6654-6655. -/
def EntityDamageStatusPdu.damageDescriptionCount : Method where
  params := []
  property := true
  body :=
   [.ret (.call I.len [.attr (.name I.self) I.damageDescriptions] [])]

/-- `EntityDamageStatusPdu.serialize`, /repo/opendis/dis7.py:6657-6664. -/
def EntityDamageStatusPdu.serialize : Method where
  params := [(I.outputStream, none)]
  property := false
  body :=
   [.expr (.super (some I.EntityDamageStatusPdu) I.serialize [.name I.outputStream] []),
    .expr (.method (.attr (.name I.self) I.damagedEntityID) I.serialize [.name I.outputStream] []),
    .expr (.method (.name I.outputStream) I.write_uint16 [.attr (.name I.self) I.padding1] []),
    .expr (.method (.name I.outputStream) I.write_uint16 [.attr (.name I.self) I.padding2] []),
    .expr (.method (.name I.outputStream) I.write_uint16 [.attr (.name I.self) I.damageDescriptionCount] []),
    .for I.record (.attr (.name I.self) I.damageDescriptions)
      [.expr (.method (.name I.record) I.serialize [.name I.outputStream] [])]]

/-- `EntityDamageStatusPdu.parse`, /repo/opendis/dis7.py:6666-6677. -/
def EntityDamageStatusPdu.parse : Method where
  params := [(I.inputStream, none)]
  property := false
  body :=
   [.expr (.super (some I.EntityDamageStatusPdu) I.parse [.name I.inputStream] []),
    .expr (.method (.attr (.name I.self) I.damagedEntityID) I.parse [.name I.inputStream] []),
    .assign (.attr (.name I.self) I.padding1) (.method (.name I.inputStream) I.read_uint16 [] []),
    .assign (.attr (.name I.self) I.padding2) (.method (.name I.inputStream) I.read_uint16 [] []),
    .assign (.name I.damageDescriptionCount) (.method (.name I.inputStream) I.read_uint16 [] []),
    .for I.«_» (.call I.range [.int 0, .name I.damageDescriptionCount] [])
      [.assign (.name I.record) (.func I.parseStandardVariableRecord [.name I.inputStream, .name I.DamageDescriptionRecord] []),
       .expr (.method (.attr (.name I.self) I.damageDescriptions) I.append [.name I.record] [])]]

/-- `class EntityDamageStatusPdu`, /repo/opendis/dis7.py:6635-6677. -/
def EntityDamageStatusPdu : Class where
  base := some I.WarfareFamilyPdu
  attrs := [(I.pduType, .int 69)]
  methods :=
   [(I.__init__, EntityDamageStatusPdu.__init__),
    (I.damageDescriptionCount, EntityDamageStatusPdu.damageDescriptionCount),
    (I.serialize, EntityDamageStatusPdu.serialize),
    (I.parse, EntityDamageStatusPdu.parse)]

/-- `FirePdu.__init__`, /repo/opendis/dis7.py:6688-6711. -/
def FirePdu.__init__ : Method where
  params := [(I.munitionExpendableID, some (.none)), (I.eventID, some (.none)), (I.fireMissionIndex, some (.int 0)),
   (I.location, some (.none)), (I.descriptor, some (.none)), (I.velocity, some (.none)), (I.range_, some
   (.float 0x0000000000000000))]
  property := false
  body :=
   [.expr (.super (some I.FirePdu) I.__init__ [] []),
    .assign (.attr (.name I.self) I.munitionExpendableID) (.or (.name I.munitionExpendableID) (.call I.EntityIdentifier [] [])),
    .assign (.attr (.name I.self) I.eventID) (.or (.name I.eventID) (.call I.EventIdentifier [] [])),
    .assign (.attr (.name I.self) I.fireMissionIndex) (.name I.fireMissionIndex),
    .assign (.attr (.name I.self) I.location) (.or (.name I.location) (.call I.WorldCoordinates [] [])),
    .assign (.attr (.name I.self) I.descriptor) (.or (.name I.descriptor) (.call I.MunitionDescriptor [] [])),
    .assign (.attr (.name I.self) I.velocity) (.or (.name I.velocity) (.call I.Vector3Float [] [])),
    .assign (.attr (.name I.self) I.range) (.name I.range_)]

/-- `FirePdu.serialize`, /repo/opendis/dis7.py:6713-6722. -/
def FirePdu.serialize : Method where
  params := [(I.outputStream, none)]
  property := false
  body :=
   [.expr (.super (some I.FirePdu) I.serialize [.name I.outputStream] []),
    .expr (.method (.attr (.name I.self) I.munitionExpendableID) I.serialize [.name I.outputStream] []),
    .expr (.method (.attr (.name I.self) I.eventID) I.serialize [.name I.outputStream] []),
    .expr (.method (.name I.outputStream) I.write_unsigned_int [.attr (.name I.self) I.fireMissionIndex] []),
    .expr (.method (.attr (.name I.self) I.location) I.serialize [.name I.outputStream] []),
    .expr (.method (.attr (.name I.self) I.descriptor) I.serialize [.name I.outputStream] []),
    .expr (.method (.attr (.name I.self) I.velocity) I.serialize [.name I.outputStream] []),
    .expr (.method (.name I.outputStream) I.write_float [.attr (.name I.self) I.range] [])]

/-- `FirePdu.parse`, /repo/opendis/dis7.py:6724-6733. -/
def FirePdu.parse : Method where
  params := [(I.inputStream, none)]
  property := false
  body :=
   [.expr (.super (some I.FirePdu) I.parse [.name I.inputStream] []),
    .expr (.method (.attr (.name I.self) I.munitionExpendableID) I.parse [.name I.inputStream] []),
    .expr (.method (.attr (.name I.self) I.eventID) I.parse [.name I.inputStream] []),
    .assign (.attr (.name I.self) I.fireMissionIndex) (.method (.name I.inputStream) I.read_unsigned_int [] []),
    .expr (.method (.attr (.name I.self) I.location) I.parse [.name I.inputStream] []),
    .expr (.method (.attr (.name I.self) I.descriptor) I.parse [.name I.inputStream] []),
    .expr (.method (.attr (.name I.self) I.velocity) I.parse [.name I.inputStream] []),
    .assign (.attr (.name I.self) I.range) (.method (.name I.inputStream) I.read_float [] [])]

/-- `class FirePdu`, /repo/opendis/dis7.py:6680-6733. -/
def FirePdu : Class where
  base := some I.WarfareFamilyPdu
  attrs := [(I.pduType, .int 2)]
  methods :=
   [(I.__init__, FirePdu.__init__),
    (I.serialize, FirePdu.serialize),
    (I.parse, FirePdu.parse)]

/-- `ReceiverPdu.__init__`, /repo/opendis/dis7.py:6743-6757. -/
def ReceiverPdu.__init__ : Method where
  params := [(I.receiverState, some (.int 0)), (I.receivedPower, some (.float 0x0000000000000000)),
   (I.transmitterEntityID, some (.none)), (I.transmitterRadioId, some (.int 0))]
  property := false
  body :=
   [.expr (.super (some I.ReceiverPdu) I.__init__ [] []),
    .assign (.attr (.name I.self) I.receiverState) (.name I.receiverState),
    .assign (.attr (.name I.self) I.padding1) (.int 0),
    .assign (.attr (.name I.self) I.receivedPower) (.name I.receivedPower),
    .assign (.attr (.name I.self) I.transmitterEntityID) (.or (.name I.transmitterEntityID) (.call I.EntityIdentifier [] [])),
    .assign (.attr (.name I.self) I.transmitterRadioId) (.name I.transmitterRadioId)]

/-- `ReceiverPdu.serialize`, /repo/opendis/dis7.py:6759-6766. -/
def ReceiverPdu.serialize : Method where
  params := [(I.outputStream, none)]
  property := false
  body :=
   [.expr (.super (some I.ReceiverPdu) I.serialize [.name I.outputStream] []),
    .expr (.method (.name I.outputStream) I.write_unsigned_short [.attr (.name I.self) I.receiverState] []),
    .expr (.method (.name I.outputStream) I.write_unsigned_short [.attr (.name I.self) I.padding1] []),
    .expr (.method (.name I.outputStream) I.write_float [.attr (.name I.self) I.receivedPower] []),
    .expr (.method (.attr (.name I.self) I.transmitterEntityID) I.serialize [.name I.outputStream] []),
    .expr (.method (.name I.outputStream) I.write_unsigned_short [.attr (.name I.self) I.transmitterRadioId] [])]

/-- `ReceiverPdu.parse`, /repo/opendis/dis7.py:6768-6775. -/
def ReceiverPdu.parse : Method where
  params := [(I.inputStream, none)]
  property := false
  body :=
   [.expr (.super (some I.ReceiverPdu) I.parse [.name I.inputStream] []),
    .assign (.attr (.name I.self) I.receiverState) (.method (.name I.inputStream) I.read_unsigned_short [] []),
    .assign (.attr (.name I.self) I.padding1) (.method (.name I.inputStream) I.read_unsigned_short [] []),
    .assign (.attr (.name I.self) I.receivedPower) (.method (.name I.inputStream) I.read_float [] []),
    .expr (.method (.attr (.name I.self) I.transmitterEntityID) I.parse [.name I.inputStream] []),
    .assign (.attr (.name I.self) I.transmitterRadioId) (.method (.name I.inputStream) I.read_unsigned_short [] [])]

/-- `class ReceiverPdu`, /repo/opendis/dis7.py:6736-6775. -/
def ReceiverPdu : Class where
  base := some I.RadioCommunicationsFamilyPdu
  attrs := [(I.pduType, .int 27)]
  methods :=
   [(I.__init__, ReceiverPdu.__init__),
    (I.serialize, ReceiverPdu.serialize),
    (I.parse, ReceiverPdu.parse)]

/-- `UaPdu.__init__`, /repo/opendis/dis7.py:6787-6814. -/
def UaPdu.__init__ : Method where
  params := [(I.emittingEntityID, some (.none)), (I.eventID, some (.none)), (I.stateChangeIndicator, some (.int 0)),
   (I.passiveParameterIndex, some (.int 0)), (I.propulsionPlantConfiguration, some (.int 0)), (I.shaftRPMs,
   some (.none)), (I.apaData, some (.none)), (I.emitterSystems, some (.none))]
  property := false
  body :=
   [.expr (.super (some I.UaPdu) I.__init__ [] []),
    .assign (.attr (.name I.self) I.emittingEntityID) (.or (.name I.emittingEntityID) (.call I.EntityIdentifier [] [])),
    .assign (.attr (.name I.self) I.eventID) (.or (.name I.eventID) (.call I.EventIdentifier [] [])),
    .assign (.attr (.name I.self) I.stateChangeIndicator) (.name I.stateChangeIndicator),
    .assign (.attr (.name I.self) I.pad) (.int 0),
    .assign (.attr (.name I.self) I.passiveParameterIndex) (.name I.passiveParameterIndex),
    .assign (.attr (.name I.self) I.propulsionPlantConfiguration) (.name I.propulsionPlantConfiguration),
    .assign (.attr (.name I.self) I.shaftRPMs) (.or (.name I.shaftRPMs) (.list [])),
    .assign (.attr (.name I.self) I.apaData) (.or (.name I.apaData) (.list [])),
    .assign (.attr (.name I.self) I.emitterSystems) (.or (.name I.emitterSystems) (.list []))]

/-- `UaPdu.numberOfShafts`, /repo/opendis/dis7.py:6817-6818. -/
def UaPdu.numberOfShafts : Method where
  params := []
  property := true
  body :=
   [.ret (.call I.len [.attr (.name I.self) I.shaftRPMs] [])]

/-- `UaPdu.numberOfAPAs`, /repo/opendis/dis7.py:6821-6822. -/
def UaPdu.numberOfAPAs : Method where
  params := []
  property := true
  body :=
   [.ret (.call I.len [.attr (.name I.self) I.apaData] [])]

/-- `UaPdu.numberOfUAEmitterSystems`, /repo/opendis/dis7.py:6825-6826. -/
def UaPdu.numberOfUAEmitterSystems : Method where
  params := []
  property := true
  body :=
   [.ret (.call I.len [.attr (.name I.self) I.emitterSystems] [])]

/-- `UaPdu.serialize`, /repo/opendis/dis7.py:6828-6845. -/
def UaPdu.serialize : Method where
  params := [(I.outputStream, none)]
  property := false
  body :=
   [.expr (.super (some I.UaPdu) I.serialize [.name I.outputStream] []),
    .expr (.method (.attr (.name I.self) I.emittingEntityID) I.serialize [.name I.outputStream] []),
    .expr (.method (.attr (.name I.self) I.eventID) I.serialize [.name I.outputStream] []),
    .expr (.method (.name I.outputStream) I.write_byte [.attr (.name I.self) I.stateChangeIndicator] []),
    .expr (.method (.name I.outputStream) I.write_byte [.attr (.name I.self) I.pad] []),
    .expr (.method (.name I.outputStream) I.write_unsigned_short [.attr (.name I.self) I.passiveParameterIndex] []),
    .expr (.method (.name I.outputStream) I.write_unsigned_byte [.attr (.name I.self) I.propulsionPlantConfiguration] []),
    .expr (.method (.name I.outputStream) I.write_unsigned_byte [.attr (.name I.self) I.numberOfShafts] []),
    .expr (.method (.name I.outputStream) I.write_unsigned_byte [.attr (.name I.self) I.numberOfAPAs] []),
    .expr (.method (.name I.outputStream) I.write_unsigned_byte [.attr (.name I.self) I.numberOfUAEmitterSystems] []),
    .for I.anObj (.attr (.name I.self) I.shaftRPMs)
      [.expr (.method (.name I.anObj) I.serialize [.name I.outputStream] [])],
    .for I.anObj (.attr (.name I.self) I.apaData)
      [.expr (.method (.name I.anObj) I.serialize [.name I.outputStream] [])],
    .for I.anObj (.attr (.name I.self) I.emitterSystems)
      [.expr (.method (.name I.anObj) I.serialize [.name I.outputStream] [])]]

/-- `UaPdu.parse`, /repo/opendis/dis7.py:6847-6870. -/
def UaPdu.parse : Method where
  params := [(I.inputStream, none)]
  property := false
  body :=
   [.expr (.super (some I.UaPdu) I.parse [.name I.inputStream] []),
    .expr (.method (.attr (.name I.self) I.emittingEntityID) I.parse [.name I.inputStream] []),
    .expr (.method (.attr (.name I.self) I.eventID) I.parse [.name I.inputStream] []),
    .assign (.attr (.name I.self) I.stateChangeIndicator) (.method (.name I.inputStream) I.read_byte [] []),
    .assign (.attr (.name I.self) I.pad) (.method (.name I.inputStream) I.read_byte [] []),
    .assign (.attr (.name I.self) I.passiveParameterIndex) (.method (.name I.inputStream) I.read_unsigned_short [] []),
    .assign (.attr (.name I.self) I.propulsionPlantConfiguration) (.method (.name I.inputStream) I.read_unsigned_byte [] []),
    .assign (.name I.numberOfShafts) (.method (.name I.inputStream) I.read_unsigned_byte [] []),
    .assign (.name I.numberOfAPAs) (.method (.name I.inputStream) I.read_unsigned_byte [] []),
    .assign (.name I.numberOfUAEmitterSystems) (.method (.name I.inputStream) I.read_unsigned_byte [] []),
    .for I.idx (.call I.range [.int 0, .name I.numberOfShafts] [])
      [.assign (.name I.element) (.call I.null [] []),
       .expr (.method (.name I.element) I.parse [.name I.inputStream] []),
       .expr (.method (.attr (.name I.self) I.shaftRPMs) I.append [.name I.element] [])],
    .for I.idx (.call I.range [.int 0, .name I.numberOfAPAs] [])
      [.assign (.name I.element) (.call I.null [] []),
       .expr (.method (.name I.element) I.parse [.name I.inputStream] []),
       .expr (.method (.attr (.name I.self) I.apaData) I.append [.name I.element] [])],
    .for I.idx (.call I.range [.int 0, .name I.numberOfUAEmitterSystems] [])
      [.assign (.name I.element) (.call I.null [] []),
       .expr (.method (.name I.element) I.parse [.name I.inputStream] []),
       .expr (.method (.attr (.name I.self) I.emitterSystems) I.append [.name I.element] [])]]

/-- `class UaPdu`, /repo/opendis/dis7.py:6778-6870. -/
def UaPdu : Class where
  base := some I.DistributedEmissionsFamilyPdu
  attrs := [(I.pduType, .int 29)]
  methods :=
   [(I.__init__, UaPdu.__init__),
    (I.numberOfShafts, UaPdu.numberOfShafts),
    (I.numberOfAPAs, UaPdu.numberOfAPAs),
    (I.numberOfUAEmitterSystems, UaPdu.numberOfUAEmitterSystems),
    (I.serialize, UaPdu.serialize),
    (I.parse, UaPdu.parse)]

/-- `IntercomControlPdu.__init__`, /repo/opendis/dis7.py:6883-6914. -/
def IntercomControlPdu.__init__ : Method where
  params := [(I.controlType, some (.int 0)), (I.communicationsChannelType, some (.int 0)), (I.sourceEntityID, some
   (.none)), (I.sourceCommunicationsDeviceID, some (.int 0)), (I.sourceLineID, some (.int 0)),
   (I.transmitPriority, some (.int 0)), (I.transmitLineState, some (.int 0)), (I.command, some (.int 0)),
   (I.masterEntityID, some (.none)), (I.masterCommunicationsDeviceID, some (.int 0)), (I.intercomParameters,
   some (.none))]
  property := false
  body :=
   [.expr (.super (some I.IntercomControlPdu) I.__init__ [] []),
    .assign (.attr (.name I.self) I.controlType) (.name I.controlType),
    .assign (.attr (.name I.self) I.communicationsChannelType) (.name I.communicationsChannelType),
    .assign (.attr (.name I.self) I.sourceEntityID) (.or (.name I.sourceEntityID) (.call I.EntityIdentifier [] [])),
    .assign (.attr (.name I.self) I.sourceCommunicationsDeviceID) (.name I.sourceCommunicationsDeviceID),
    .assign (.attr (.name I.self) I.sourceLineID) (.name I.sourceLineID),
    .assign (.attr (.name I.self) I.transmitPriority) (.name I.transmitPriority),
    .assign (.attr (.name I.self) I.transmitLineState) (.name I.transmitLineState),
    .assign (.attr (.name I.self) I.command) (.name I.command),
    .assign (.attr (.name I.self) I.masterEntityID) (.or (.name I.masterEntityID) (.call I.EntityIdentifier [] [])),
    .assign (.attr (.name I.self) I.masterCommunicationsDeviceID) (.name I.masterCommunicationsDeviceID),
    .assign (.attr (.name I.self) I.intercomParameters) (.name I.intercomParameters)]

/-- `IntercomControlPdu.intercomParametersLength`, /repo/opendis/dis7.py:6917-6920. -/
def IntercomControlPdu.intercomParametersLength : Method where
  params := []
  property := true
  body :=
   [.ret (.call I.len [.attr (.name I.self) I.intercomParameters] [])]

/-- `IntercomControlPdu.serialize`, /repo/opendis/dis7.py:6922-6937. -/
def IntercomControlPdu.serialize : Method where
  params := [(I.outputStream, none)]
  property := false
  body :=
   [.expr (.super (some I.IntercomControlPdu) I.serialize [.name I.outputStream] []),
    .expr (.method (.name I.outputStream) I.write_unsigned_byte [.attr (.name I.self) I.controlType] []),
    .expr (.method (.name I.outputStream) I.write_unsigned_byte [.attr (.name I.self) I.communicationsChannelType] []),
    .expr (.method (.attr (.name I.self) I.sourceEntityID) I.serialize [.name I.outputStream] []),
    .expr (.method (.name I.outputStream) I.write_unsigned_byte [.attr (.name I.self) I.sourceCommunicationsDeviceID] []),
    .expr (.method (.name I.outputStream) I.write_unsigned_byte [.attr (.name I.self) I.sourceLineID] []),
    .expr (.method (.name I.outputStream) I.write_unsigned_byte [.attr (.name I.self) I.transmitPriority] []),
    .expr (.method (.name I.outputStream) I.write_unsigned_byte [.attr (.name I.self) I.transmitLineState] []),
    .expr (.method (.name I.outputStream) I.write_unsigned_byte [.attr (.name I.self) I.command] []),
    .expr (.method (.attr (.name I.self) I.masterEntityID) I.serialize [.name I.outputStream] []),
    .expr (.method (.name I.outputStream) I.write_unsigned_short [.attr (.name I.self) I.masterCommunicationsDeviceID] []),
    .expr (.method (.name I.outputStream) I.write_unsigned_int [.attr (.name I.self) I.intercomParametersLength] []),
    .for I.anObj (.attr (.name I.self) I.intercomParameters)
      [.expr (.method (.name I.anObj) I.serialize [.name I.outputStream] [])]]

/-- `IntercomControlPdu.parse`, /repo/opendis/dis7.py:6939-6954. -/
def IntercomControlPdu.parse : Method where
  params := [(I.inputStream, none)]
  property := false
  body :=
   [.expr (.super (some I.IntercomControlPdu) I.parse [.name I.inputStream] []),
    .assign (.attr (.name I.self) I.controlType) (.method (.name I.inputStream) I.read_unsigned_byte [] []),
    .assign (.attr (.name I.self) I.communicationsChannelType) (.method (.name I.inputStream) I.read_unsigned_byte [] []),
    .expr (.method (.attr (.name I.self) I.sourceEntityID) I.parse [.name I.inputStream] []),
    .assign (.attr (.name I.self) I.sourceCommunicationsDeviceID) (.method (.name I.inputStream) I.read_unsigned_byte [] []),
    .assign (.attr (.name I.self) I.sourceLineID) (.method (.name I.inputStream) I.read_unsigned_byte [] []),
    .assign (.attr (.name I.self) I.transmitPriority) (.method (.name I.inputStream) I.read_unsigned_byte [] []),
    .assign (.attr (.name I.self) I.transmitLineState) (.method (.name I.inputStream) I.read_unsigned_byte [] []),
    .assign (.attr (.name I.self) I.command) (.method (.name I.inputStream) I.read_unsigned_byte [] []),
    .expr (.method (.attr (.name I.self) I.masterEntityID) I.parse [.name I.inputStream] []),
    .assign (.attr (.name I.self) I.masterCommunicationsDeviceID) (.method (.name I.inputStream) I.read_unsigned_short [] []),
    .assign (.name I.intercomParametersLength) (.method (.name I.inputStream) I.read_unsigned_int [] []),
    .assign (.attr (.name I.self) I.intercomParameters) (.method (.name I.IntercomCommunicationsParameters) I.parse [.name I.inputStream] [])]

/-- `class IntercomControlPdu`, /repo/opendis/dis7.py:6873-6954. -/
def IntercomControlPdu : Class where
  base := some I.RadioCommunicationsFamilyPdu
  attrs := [(I.pduType, .int 32)]
  methods :=
   [(I.__init__, IntercomControlPdu.__init__),
    (I.intercomParametersLength, IntercomControlPdu.intercomParametersLength),
    (I.serialize, IntercomControlPdu.serialize),
    (I.parse, IntercomControlPdu.parse)]

/-- `SignalPdu.__init__`, /repo/opendis/dis7.py:6966-6982. -/
def SignalPdu.__init__ : Method where
  params := [(I.entityID, some (.none)), (I.radioID, some (.int 0)), (I.encodingScheme, some (.int 0)), (I.tdlType, some
   (.int 0)), (I.sampleRate, some (.int 0)), (I.samples, some (.int 0)), (I.data, some (.none))]
  property := false
  body :=
   [.expr (.super (some I.SignalPdu) I.__init__ [] []),
    .assign (.attr (.name I.self) I.entityID) (.or (.name I.entityID) (.call I.EntityIdentifier [] [])),
    .assign (.attr (.name I.self) I.radioID) (.name I.radioID),
    .assign (.attr (.name I.self) I.encodingScheme) (.name I.encodingScheme),
    .assign (.attr (.name I.self) I.tdlType) (.name I.tdlType),
    .assign (.attr (.name I.self) I.sampleRate) (.name I.sampleRate),
    .assign (.attr (.name I.self) I.samples) (.name I.samples),
    .assign (.attr (.name I.self) I.data) (.or (.name I.data) (.list []))]

/-- `SignalPdu.dataLength`, /repo/opendis/dis7.py:6986-6988. -/
def SignalPdu.dataLength : Method where
  params := []
  property := true
  body :=
   [.ret (.bin .mul (.call I.len [.attr (.name I.self) I.data] []) (.int 8))]

/-- `SignalPdu.serialize`, /repo/opendis/dis7.py:6990-7001. -/
def SignalPdu.serialize : Method where
  params := [(I.outputStream, none)]
  property := false
  body :=
   [.expr (.super (some I.SignalPdu) I.serialize [.name I.outputStream] []),
    .expr (.method (.attr (.name I.self) I.entityID) I.serialize [.name I.outputStream] []),
    .expr (.method (.name I.outputStream) I.write_unsigned_short [.attr (.name I.self) I.radioID] []),
    .expr (.method (.name I.outputStream) I.write_unsigned_short [.attr (.name I.self) I.encodingScheme] []),
    .expr (.method (.name I.outputStream) I.write_unsigned_short [.attr (.name I.self) I.tdlType] []),
    .expr (.method (.name I.outputStream) I.write_unsigned_int [.attr (.name I.self) I.sampleRate] []),
    .expr (.method (.name I.outputStream) I.write_unsigned_short [.bin .mul (.call I.len [.attr (.name I.self) I.data] []) (.int 8)] []),
    .expr (.method (.name I.outputStream) I.write_unsigned_short [.attr (.name I.self) I.samples] []),
    .for I.b (.attr (.name I.self) I.data)
      [.expr (.method (.name I.outputStream) I.write_unsigned_byte [.name I.b] [])]]

/-- `SignalPdu.parse`, /repo/opendis/dis7.py:7003-7015. -/
def SignalPdu.parse : Method where
  params := [(I.inputStream, none)]
  property := false
  body :=
   [.expr (.super (some I.SignalPdu) I.parse [.name I.inputStream] []),
    .expr (.method (.attr (.name I.self) I.entityID) I.parse [.name I.inputStream] []),
    .assign (.attr (.name I.self) I.radioID) (.method (.name I.inputStream) I.read_unsigned_short [] []),
    .assign (.attr (.name I.self) I.encodingScheme) (.method (.name I.inputStream) I.read_unsigned_short [] []),
    .assign (.attr (.name I.self) I.tdlType) (.method (.name I.inputStream) I.read_unsigned_short [] []),
    .assign (.attr (.name I.self) I.sampleRate) (.method (.name I.inputStream) I.read_unsigned_int [] []),
    .assign (.name I.dataLength) (.method (.name I.inputStream) I.read_unsigned_short [] []),
    .assign (.attr (.name I.self) I.samples) (.method (.name I.inputStream) I.read_unsigned_short [] []),
    .for I.idx (.call I.range [.int 0, .bin .floordiv (.name I.dataLength) (.int 8)] [])
      [.assign (.name I.element) (.method (.name I.inputStream) I.read_unsigned_byte [] []),
       .expr (.method (.attr (.name I.self) I.data) I.append [.name I.element] [])]]

/-- `class SignalPdu`, /repo/opendis/dis7.py:6957-7015. -/
def SignalPdu : Class where
  base := some I.RadioCommunicationsFamilyPdu
  attrs := [(I.pduType, .int 26)]
  methods :=
   [(I.__init__, SignalPdu.__init__),
    (I.dataLength, SignalPdu.dataLength),
    (I.serialize, SignalPdu.serialize),
    (I.parse, SignalPdu.parse)]

/-- `RemoveEntityReliablePdu.__init__`, /repo/opendis/dis7.py:7025-7033. -/
def RemoveEntityReliablePdu.__init__ : Method where
  params := [(I.requiredReliabilityService, some (.int 0)), (I.requestID, some (.int 0))]
  property := false
  body :=
   [.expr (.super (some I.RemoveEntityReliablePdu) I.__init__ [] []),
    .assign (.attr (.name I.self) I.requiredReliabilityService) (.name I.requiredReliabilityService),
    .assign (.attr (.name I.self) I.pad1) (.int 0),
    .assign (.attr (.name I.self) I.pad2) (.int 0),
    .assign (.attr (.name I.self) I.requestID) (.name I.requestID)]

/-- `RemoveEntityReliablePdu.serialize`, /repo/opendis/dis7.py:7035-7041. -/
def RemoveEntityReliablePdu.serialize : Method where
  params := [(I.outputStream, none)]
  property := false
  body :=
   [.expr (.super (some I.RemoveEntityReliablePdu) I.serialize [.name I.outputStream] []),
    .expr (.method (.name I.outputStream) I.write_unsigned_byte [.attr (.name I.self) I.requiredReliabilityService] []),
    .expr (.method (.name I.outputStream) I.write_unsigned_short [.attr (.name I.self) I.pad1] []),
    .expr (.method (.name I.outputStream) I.write_unsigned_byte [.attr (.name I.self) I.pad2] []),
    .expr (.method (.name I.outputStream) I.write_unsigned_int [.attr (.name I.self) I.requestID] [])]

/-- `RemoveEntityReliablePdu.parse`, /repo/opendis/dis7.py:7043-7049. -/
def RemoveEntityReliablePdu.parse : Method where
  params := [(I.inputStream, none)]
  property := false
  body :=
   [.expr (.super (some I.RemoveEntityReliablePdu) I.parse [.name I.inputStream] []),
    .assign (.attr (.name I.self) I.requiredReliabilityService) (.method (.name I.inputStream) I.read_unsigned_byte [] []),
    .assign (.attr (.name I.self) I.pad1) (.method (.name I.inputStream) I.read_unsigned_short [] []),
    .assign (.attr (.name I.self) I.pad2) (.method (.name I.inputStream) I.read_unsigned_byte [] []),
    .assign (.attr (.name I.self) I.requestID) (.method (.name I.inputStream) I.read_unsigned_int [] [])]

/-- `class RemoveEntityReliablePdu`, /repo/opendis/dis7.py:7018-7049. -/
def RemoveEntityReliablePdu : Class where
  base := some I.SimulationManagementWithReliabilityFamilyPdu
  attrs := [(I.pduType, .int 52)]
  methods :=
   [(I.__init__, RemoveEntityReliablePdu.__init__),
    (I.serialize, RemoveEntityReliablePdu.serialize),
    (I.parse, RemoveEntityReliablePdu.parse)]

/-- `SeesPdu.__init__`, /repo/opendis/dis7.py:7059-7072. -/
def SeesPdu.__init__ : Method where
  params := [(I.originatingEntityID, some (.none)), (I.infraredSignatureRepresentationIndex, some (.int 0)),
   (I.acousticSignatureRepresentationIndex, some (.int 0)), (I.radarCrossSectionSignatureRepresentationIndex,
   some (.int 0)), (I.propulsionSystemData, some (.none)), (I.vectoringSystemData, some (.none))]
  property := false
  body :=
   [.expr (.super (some I.SeesPdu) I.__init__ [] []),
    .assign (.attr (.name I.self) I.orginatingEntityID) (.or (.name I.originatingEntityID) (.call I.EntityIdentifier [] [])),
    .assign (.attr (.name I.self) I.infraredSignatureRepresentationIndex) (.name I.infraredSignatureRepresentationIndex),
    .assign (.attr (.name I.self) I.acousticSignatureRepresentationIndex) (.name I.acousticSignatureRepresentationIndex),
    .assign (.attr (.name I.self) I.radarCrossSectionSignatureRepresentationIndex) (.name I.radarCrossSectionSignatureRepresentationIndex),
    .assign (.attr (.name I.self) I.propulsionSystemData) (.or (.name I.propulsionSystemData) (.list [])),
    .assign (.attr (.name I.self) I.vectoringSystemData) (.or (.name I.vectoringSystemData) (.list []))]

/-- `SeesPdu.numberOfPropulsionSystems`, /repo/opendis/dis7.py:7075-7076. -/
def SeesPdu.numberOfPropulsionSystems : Method where
  params := []
  property := true
  body :=
   [.ret (.call I.len [.attr (.name I.self) I.propulsionSystemData] [])]

/-- `SeesPdu.numberOfVectoringNozzleSystems`, /repo/opendis/dis7.py:7079-7080. -/
def SeesPdu.numberOfVectoringNozzleSystems : Method where
  params := []
  property := true
  body :=
   [.ret (.call I.len [.attr (.name I.self) I.vectoringSystemData] [])]

/-- `SeesPdu.serialize`, /repo/opendis/dis7.py:7082-7097. -/
def SeesPdu.serialize : Method where
  params := [(I.outputStream, none)]
  property := false
  body :=
   [.expr (.super (some I.SeesPdu) I.serialize [.name I.outputStream] []),
    .expr (.method (.attr (.name I.self) I.orginatingEntityID) I.serialize [.name I.outputStream] []),
    .expr (.method (.name I.outputStream) I.write_unsigned_short [.attr (.name I.self) I.infraredSignatureRepresentationIndex] []),
    .expr (.method (.name I.outputStream) I.write_unsigned_short [.attr (.name I.self) I.acousticSignatureRepresentationIndex] []),
    .expr (.method (.name I.outputStream) I.write_unsigned_short [.attr (.name I.self) I.radarCrossSectionSignatureRepresentationIndex] []),
    .expr (.method (.name I.outputStream) I.write_unsigned_short [.attr (.name I.self) I.numberOfPropulsionSystems] []),
    .expr (.method (.name I.outputStream) I.write_unsigned_short [.attr (.name I.self) I.numberOfVectoringNozzleSystems] []),
    .for I.anObj (.attr (.name I.self) I.propulsionSystemData)
      [.expr (.method (.name I.anObj) I.serialize [.name I.outputStream] [])],
    .for I.anObj (.attr (.name I.self) I.vectoringSystemData)
      [.expr (.method (.name I.anObj) I.serialize [.name I.outputStream] [])]]

/-- `SeesPdu.parse`, /repo/opendis/dis7.py:7099-7119. -/
def SeesPdu.parse : Method where
  params := [(I.inputStream, none)]
  property := false
  body :=
   [.expr (.super (some I.SeesPdu) I.parse [.name I.inputStream] []),
    .expr (.method (.attr (.name I.self) I.orginatingEntityID) I.parse [.name I.inputStream] []),
    .assign (.attr (.name I.self) I.infraredSignatureRepresentationIndex) (.method (.name I.inputStream) I.read_unsigned_short [] []),
    .assign (.attr (.name I.self) I.acousticSignatureRepresentationIndex) (.method (.name I.inputStream) I.read_unsigned_short [] []),
    .assign (.attr (.name I.self) I.radarCrossSectionSignatureRepresentationIndex) (.method (.name I.inputStream) I.read_unsigned_short [] []),
    .assign (.name I.numberOfPropulsionSystems) (.method (.name I.inputStream) I.read_unsigned_short [] []),
    .assign (.name I.numberOfVectoringNozzleSystems) (.method (.name I.inputStream) I.read_unsigned_short [] []),
    .for I.idx (.call I.range [.int 0, .name I.numberOfPropulsionSystems] [])
      [.assign (.name I.element) (.call I.null [] []),
       .expr (.method (.name I.element) I.parse [.name I.inputStream] []),
       .expr (.method (.attr (.name I.self) I.propulsionSystemData) I.append [.name I.element] [])],
    .for I.idx (.call I.range [.int 0, .name I.numberOfVectoringNozzleSystems] [])
      [.assign (.name I.element) (.call I.null [] []),
       .expr (.method (.name I.element) I.parse [.name I.inputStream] []),
       .expr (.method (.attr (.name I.self) I.vectoringSystemData) I.append [.name I.element] [])]]

/-- `class SeesPdu`, /repo/opendis/dis7.py:7052-7119. -/
def SeesPdu : Class where
  base := some I.DistributedEmissionsFamilyPdu
  attrs := [(I.pduType, .int 30)]
  methods :=
   [(I.__init__, SeesPdu.__init__),
    (I.numberOfPropulsionSystems, SeesPdu.numberOfPropulsionSystems),
    (I.numberOfVectoringNozzleSystems, SeesPdu.numberOfVectoringNozzleSystems),
    (I.serialize, SeesPdu.serialize),
    (I.parse, SeesPdu.parse)]

/-- `CreateEntityReliablePdu.__init__`, /repo/opendis/dis7.py:7129-7137. -/
def CreateEntityReliablePdu.__init__ : Method where
  params := [(I.requiredReliabilityService, some (.int 0)), (I.requestID, some (.int 0))]
  property := false
  body :=
   [.expr (.super (some I.CreateEntityReliablePdu) I.__init__ [] []),
    .assign (.attr (.name I.self) I.requiredReliabilityService) (.name I.requiredReliabilityService),
    .assign (.attr (.name I.self) I.pad1) (.int 0),
    .assign (.attr (.name I.self) I.pad2) (.int 0),
    .assign (.attr (.name I.self) I.requestID) (.name I.requestID)]

/-- `CreateEntityReliablePdu.serialize`, /repo/opendis/dis7.py:7139-7145. -/
def CreateEntityReliablePdu.serialize : Method where
  params := [(I.outputStream, none)]
  property := false
  body :=
   [.expr (.super (some I.CreateEntityReliablePdu) I.serialize [.name I.outputStream] []),
    .expr (.method (.name I.outputStream) I.write_unsigned_byte [.attr (.name I.self) I.requiredReliabilityService] []),
    .expr (.method (.name I.outputStream) I.write_unsigned_short [.attr (.name I.self) I.pad1] []),
    .expr (.method (.name I.outputStream) I.write_unsigned_byte [.attr (.name I.self) I.pad2] []),
    .expr (.method (.name I.outputStream) I.write_unsigned_int [.attr (.name I.self) I.requestID] [])]

/-- `CreateEntityReliablePdu.parse`, /repo/opendis/dis7.py:7147-7153. -/
def CreateEntityReliablePdu.parse : Method where
  params := [(I.inputStream, none)]
  property := false
  body :=
   [.expr (.super (some I.CreateEntityReliablePdu) I.parse [.name I.inputStream] []),
    .assign (.attr (.name I.self) I.requiredReliabilityService) (.method (.name I.inputStream) I.read_unsigned_byte [] []),
    .assign (.attr (.name I.self) I.pad1) (.method (.name I.inputStream) I.read_unsigned_short [] []),
    .assign (.attr (.name I.self) I.pad2) (.method (.name I.inputStream) I.read_unsigned_byte [] []),
    .assign (.attr (.name I.self) I.requestID) (.method (.name I.inputStream) I.read_unsigned_int [] [])]

/-- `class CreateEntityReliablePdu`, /repo/opendis/dis7.py:7122-7153. -/
def CreateEntityReliablePdu : Class where
  base := some I.SimulationManagementWithReliabilityFamilyPdu
  attrs := [(I.pduType, .int 51)]
  methods :=
   [(I.__init__, CreateEntityReliablePdu.__init__),
    (I.serialize, CreateEntityReliablePdu.serialize),
    (I.parse, CreateEntityReliablePdu.parse)]

/-- `StopFreezeReliablePdu.__init__`, /repo/opendis/dis7.py:7163-7179. -/
def StopFreezeReliablePdu.__init__ : Method where
  params := [(I.realWorldTime, some (.none)), (I.reason, some (.int 0)), (I.frozenBehavior, some (.int 0)),
   (I.requiredReliabilityService, some (.int 0)), (I.requestID, some (.int 0))]
  property := false
  body :=
   [.expr (.super (some I.StopFreezeReliablePdu) I.__init__ [] []),
    .assign (.attr (.name I.self) I.realWorldTime) (.or (.name I.realWorldTime) (.call I.ClockTime [] [])),
    .assign (.attr (.name I.self) I.reason) (.name I.reason),
    .assign (.attr (.name I.self) I.frozenBehavior) (.name I.frozenBehavior),
    .assign (.attr (.name I.self) I.requiredReliablityService) (.name I.requiredReliabilityService),
    .assign (.attr (.name I.self) I.pad1) (.int 0),
    .assign (.attr (.name I.self) I.requestID) (.name I.requestID)]

/-- `StopFreezeReliablePdu.serialize`, /repo/opendis/dis7.py:7181-7189. -/
def StopFreezeReliablePdu.serialize : Method where
  params := [(I.outputStream, none)]
  property := false
  body :=
   [.expr (.super (some I.StopFreezeReliablePdu) I.serialize [.name I.outputStream] []),
    .expr (.method (.attr (.name I.self) I.realWorldTime) I.serialize [.name I.outputStream] []),
    .expr (.method (.name I.outputStream) I.write_unsigned_byte [.attr (.name I.self) I.reason] []),
    .expr (.method (.name I.outputStream) I.write_unsigned_byte [.attr (.name I.self) I.frozenBehavior] []),
    .expr (.method (.name I.outputStream) I.write_unsigned_byte [.attr (.name I.self) I.requiredReliablityService] []),
    .expr (.method (.name I.outputStream) I.write_unsigned_byte [.attr (.name I.self) I.pad1] []),
    .expr (.method (.name I.outputStream) I.write_unsigned_int [.attr (.name I.self) I.requestID] [])]

/-- `StopFreezeReliablePdu.parse`, /repo/opendis/dis7.py:7191-7199. -/
def StopFreezeReliablePdu.parse : Method where
  params := [(I.inputStream, none)]
  property := false
  body :=
   [.expr (.super (some I.StopFreezeReliablePdu) I.parse [.name I.inputStream] []),
    .expr (.method (.attr (.name I.self) I.realWorldTime) I.parse [.name I.inputStream] []),
    .assign (.attr (.name I.self) I.reason) (.method (.name I.inputStream) I.read_unsigned_byte [] []),
    .assign (.attr (.name I.self) I.frozenBehavior) (.method (.name I.inputStream) I.read_unsigned_byte [] []),
    .assign (.attr (.name I.self) I.requiredReliablityService) (.method (.name I.inputStream) I.read_unsigned_byte [] []),
    .assign (.attr (.name I.self) I.pad1) (.method (.name I.inputStream) I.read_unsigned_byte [] []),
    .assign (.attr (.name I.self) I.requestID) (.method (.name I.inputStream) I.read_unsigned_int [] [])]

/-- `class StopFreezeReliablePdu`, /repo/opendis/dis7.py:7156-7199. -/
def StopFreezeReliablePdu : Class where
  base := some I.SimulationManagementWithReliabilityFamilyPdu
  attrs := [(I.pduType, .int 54)]
  methods :=
   [(I.__init__, StopFreezeReliablePdu.__init__),
    (I.serialize, StopFreezeReliablePdu.serialize),
    (I.parse, StopFreezeReliablePdu.parse)]

/-- `EventReportReliablePdu.__init__`, /repo/opendis/dis7.py:7210-7220. -/
def EventReportReliablePdu.__init__ : Method where
  params := [(I.eventType, some (.int 0)), (I.fixedDatumRecords, some (.none)), (I.variableDatumRecords, some (.none))]
  property := false
  body :=
   [.expr (.super (some I.EventReportReliablePdu) I.__init__ [] []),
    .assign (.attr (.name I.self) I.eventType) (.name I.eventType),
    .assign (.attr (.name I.self) I.pad1) (.int 0),
    .assign (.attr (.name I.self) I._datums) (.call I.DatumSpecification [.or (.name I.fixedDatumRecords) (.list []), .or (.name I.variableDatumRecords) (.list [])] [])]

/-- `EventReportReliablePdu.numberOfFixedDatumRecords`, /repo/opendis/dis7.py:7223-7224. -/
def EventReportReliablePdu.numberOfFixedDatumRecords : Method where
  params := []
  property := true
  body :=
   [.ret (.attr (.attr (.name I.self) I._datums) I.numberOfFixedDatumRecords)]

/-- `EventReportReliablePdu.numberOfVariableDatumRecords`, /repo/opendis/dis7.py:7227-7228. -/
def EventReportReliablePdu.numberOfVariableDatumRecords : Method where
  params := []
  property := true
  body :=
   [.ret (.attr (.attr (.name I.self) I._datums) I.numberOfVariableDatumRecords)]

/-- `EventReportReliablePdu.fixedDatumRecords`, /repo/opendis/dis7.py:7231-7232. -/
def EventReportReliablePdu.fixedDatumRecords : Method where
  params := []
  property := true
  body :=
   [.ret (.attr (.attr (.name I.self) I._datums) I.fixedDatumRecords)]

/-- `EventReportReliablePdu.variableDatumRecords`, /repo/opendis/dis7.py:7235-7236. -/
def EventReportReliablePdu.variableDatumRecords : Method where
  params := []
  property := true
  body :=
   [.ret (.attr (.attr (.name I.self) I._datums) I.variableDatumRecords)]

/-- `EventReportReliablePdu.serialize`, /repo/opendis/dis7.py:7238-7243. -/
def EventReportReliablePdu.serialize : Method where
  params := [(I.outputStream, none)]
  property := false
  body :=
   [.expr (.super (some I.EventReportReliablePdu) I.serialize [.name I.outputStream] []),
    .expr (.method (.name I.outputStream) I.write_unsigned_short [.attr (.name I.self) I.eventType] []),
    .expr (.method (.name I.outputStream) I.write_unsigned_int [.attr (.name I.self) I.pad1] []),
    .expr (.method (.attr (.name I.self) I._datums) I.serialize [.name I.outputStream] [])]

/-- `EventReportReliablePdu.parse`, /repo/opendis/dis7.py:7245-7250. -/
def EventReportReliablePdu.parse : Method where
  params := [(I.inputStream, none)]
  property := false
  body :=
   [.expr (.super (some I.EventReportReliablePdu) I.parse [.name I.inputStream] []),
    .assign (.attr (.name I.self) I.eventType) (.method (.name I.inputStream) I.read_unsigned_short [] []),
    .assign (.attr (.name I.self) I.pad1) (.method (.name I.inputStream) I.read_unsigned_int [] []),
    .expr (.method (.attr (.name I.self) I._datums) I.parse [.name I.inputStream] [])]

/-- `class EventReportReliablePdu`, /repo/opendis/dis7.py:7202-7250. -/
def EventReportReliablePdu : Class where
  base := some I.SimulationManagementWithReliabilityFamilyPdu
  attrs := [(I.pduType, .int 61)]
  methods :=
   [(I.__init__, EventReportReliablePdu.__init__),
    (I.numberOfFixedDatumRecords, EventReportReliablePdu.numberOfFixedDatumRecords),
    (I.numberOfVariableDatumRecords, EventReportReliablePdu.numberOfVariableDatumRecords),
    (I.fixedDatumRecords, EventReportReliablePdu.fixedDatumRecords),
    (I.variableDatumRecords, EventReportReliablePdu.variableDatumRecords),
    (I.serialize, EventReportReliablePdu.serialize),
    (I.parse, EventReportReliablePdu.parse)]

/-- `MinefieldResponseNackPdu.__init__`, /repo/opendis/dis7.py:7260-7271. -/
def MinefieldResponseNackPdu.__init__ : Method where
  params := [(I.minefieldID, some (.none)), (I.requestingEntityID, some (.none)), (I.requestID, some (.int 0)),
   (I.missingPduSequenceNumbers, some (.none))]
  property := false
  body :=
   [.expr (.super (some I.MinefieldResponseNackPdu) I.__init__ [] []),
    .assign (.attr (.name I.self) I.minefieldID) (.or (.name I.minefieldID) (.call I.EntityIdentifier [] [])),
    .assign (.attr (.name I.self) I.requestingEntityID) (.or (.name I.requestingEntityID) (.call I.EntityIdentifier [] [])),
    .assign (.attr (.name I.self) I.requestID) (.name I.requestID),
    .assign (.attr (.name I.self) I.missingPduSequenceNumbers) (.or (.name I.missingPduSequenceNumbers) (.list []))]

/-- `MinefieldResponseNackPdu.numberOfMissingPdus`, /repo/opendis/dis7.py:7275-7276. -/
def MinefieldResponseNackPdu.numberOfMissingPdus : Method where
  params := []
  property := true
  body :=
   [.ret (.call I.len [.attr (.name I.self) I.missingPduSequenceNumbers] [])]

/-- `MinefieldResponseNackPdu.serialize`, /repo/opendis/dis7.py:7278-7286. -/
def MinefieldResponseNackPdu.serialize : Method where
  params := [(I.outputStream, none)]
  property := false
  body :=
   [.expr (.super (some I.MinefieldResponseNackPdu) I.serialize [.name I.outputStream] []),
    .expr (.method (.attr (.name I.self) I.minefieldID) I.serialize [.name I.outputStream] []),
    .expr (.method (.attr (.name I.self) I.requestingEntityID) I.serialize [.name I.outputStream] []),
    .expr (.method (.name I.outputStream) I.write_unsigned_byte [.attr (.name I.self) I.requestID] []),
    .expr (.method (.name I.outputStream) I.write_unsigned_byte [.attr (.name I.self) I.numberOfMissingPdus] []),
    .for I.anObj (.attr (.name I.self) I.missingPduSequenceNumbers)
      [.expr (.method (.name I.anObj) I.serialize [.name I.outputStream] [])]]

/-- `MinefieldResponseNackPdu.parse`, /repo/opendis/dis7.py:7288-7299. -/
def MinefieldResponseNackPdu.parse : Method where
  params := [(I.inputStream, none)]
  property := false
  body :=
   [.expr (.super (some I.MinefieldResponseNackPdu) I.parse [.name I.inputStream] []),
    .expr (.method (.attr (.name I.self) I.minefieldID) I.parse [.name I.inputStream] []),
    .expr (.method (.attr (.name I.self) I.requestingEntityID) I.parse [.name I.inputStream] []),
    .assign (.attr (.name I.self) I.requestID) (.method (.name I.inputStream) I.read_unsigned_byte [] []),
    .assign (.name I.numberOfMissingPdus) (.method (.name I.inputStream) I.read_unsigned_byte [] []),
    .for I.idx (.call I.range [.int 0, .name I.numberOfMissingPdus] [])
      [.assign (.name I.element) (.call I.null [] []),
       .expr (.method (.name I.element) I.parse [.name I.inputStream] []),
       .expr (.method (.attr (.name I.self) I.missingPduSequenceNumbers) I.append [.name I.element] [])]]

/-- `class MinefieldResponseNackPdu`, /repo/opendis/dis7.py:7253-7299. -/
def MinefieldResponseNackPdu : Class where
  base := some I.MinefieldFamilyPdu
  attrs := [(I.pduType, .int 40)]
  methods :=
   [(I.__init__, MinefieldResponseNackPdu.__init__),
    (I.numberOfMissingPdus, MinefieldResponseNackPdu.numberOfMissingPdus),
    (I.serialize, MinefieldResponseNackPdu.serialize),
    (I.parse, MinefieldResponseNackPdu.parse)]

/-- `ActionResponseReliablePdu.__init__`, /repo/opendis/dis7.py:7309-7319. -/
def ActionResponseReliablePdu.__init__ : Method where
  params := [(I.requestID, some (.int 0)), (I.responseStatus, some (.int 0)), (I.fixedDatumRecords, some (.none)),
   (I.variableDatumRecords, some (.none))]
  property := false
  body :=
   [.expr (.super (some I.ActionResponseReliablePdu) I.__init__ [] []),
    .assign (.attr (.name I.self) I.requestID) (.name I.requestID),
    .assign (.attr (.name I.self) I.responseStatus) (.name I.responseStatus),
    .assign (.attr (.name I.self) I._datums) (.call I.DatumSpecification [.or (.name I.fixedDatumRecords) (.list []), .or (.name I.variableDatumRecords) (.list [])] [])]

/-- `ActionResponseReliablePdu.numberOfFixedDatumRecords`, /repo/opendis/dis7.py:7322-7323. -/
def ActionResponseReliablePdu.numberOfFixedDatumRecords : Method where
  params := []
  property := true
  body :=
   [.ret (.attr (.attr (.name I.self) I._datums) I.numberOfFixedDatumRecords)]

/-- `ActionResponseReliablePdu.numberOfVariableDatumRecords`, /repo/opendis/dis7.py:7326-7327. -/
def ActionResponseReliablePdu.numberOfVariableDatumRecords : Method where
  params := []
  property := true
  body :=
   [.ret (.attr (.attr (.name I.self) I._datums) I.numberOfVariableDatumRecords)]

/-- `ActionResponseReliablePdu.fixedDatumRecords`, /repo/opendis/dis7.py:7330-7331. -/
def ActionResponseReliablePdu.fixedDatumRecords : Method where
  params := []
  property := true
  body :=
   [.ret (.attr (.attr (.name I.self) I._datums) I.fixedDatumRecords)]

/-- `ActionResponseReliablePdu.variableDatumRecords`, /repo/opendis/dis7.py:7334-7335. -/
def ActionResponseReliablePdu.variableDatumRecords : Method where
  params := []
  property := true
  body :=
   [.ret (.attr (.attr (.name I.self) I._datums) I.variableDatumRecords)]

/-- `ActionResponseReliablePdu.serialize`, /repo/opendis/dis7.py:7337-7342. -/
def ActionResponseReliablePdu.serialize : Method where
  params := [(I.outputStream, none)]
  property := false
  body :=
   [.expr (.super (some I.ActionResponseReliablePdu) I.serialize [.name I.outputStream] []),
    .expr (.method (.name I.outputStream) I.write_unsigned_int [.attr (.name I.self) I.requestID] []),
    .expr (.method (.name I.outputStream) I.write_unsigned_int [.attr (.name I.self) I.responseStatus] []),
    .expr (.method (.attr (.name I.self) I._datums) I.serialize [.name I.outputStream] [])]

/-- `ActionResponseReliablePdu.parse`, /repo/opendis/dis7.py:7344-7349. -/
def ActionResponseReliablePdu.parse : Method where
  params := [(I.inputStream, none)]
  property := false
  body :=
   [.expr (.super (some I.ActionResponseReliablePdu) I.parse [.name I.inputStream] []),
    .assign (.attr (.name I.self) I.requestID) (.method (.name I.inputStream) I.read_unsigned_int [] []),
    .assign (.attr (.name I.self) I.responseStatus) (.method (.name I.inputStream) I.read_unsigned_int [] []),
    .expr (.method (.attr (.name I.self) I._datums) I.parse [.name I.inputStream] [])]

/-- `class ActionResponseReliablePdu`, /repo/opendis/dis7.py:7302-7349. -/
def ActionResponseReliablePdu : Class where
  base := some I.SimulationManagementWithReliabilityFamilyPdu
  attrs := [(I.pduType, .int 57)]
  methods :=
   [(I.__init__, ActionResponseReliablePdu.__init__),
    (I.numberOfFixedDatumRecords, ActionResponseReliablePdu.numberOfFixedDatumRecords),
    (I.numberOfVariableDatumRecords, ActionResponseReliablePdu.numberOfVariableDatumRecords),
    (I.fixedDatumRecords, ActionResponseReliablePdu.fixedDatumRecords),
    (I.variableDatumRecords, ActionResponseReliablePdu.variableDatumRecords),
    (I.serialize, ActionResponseReliablePdu.serialize),
    (I.parse, ActionResponseReliablePdu.parse)]

/-- `IsPartOfPdu.__init__`, /repo/opendis/dis7.py:7360-7377. -/
def IsPartOfPdu.__init__ : Method where
  params := [(I.originatingEntityID, some (.none)), (I.receivingEntityID, some (.none)), (I.relationship, some (.none)),
   (I.partLocation, some (.none)), (I.namedLocationID, some (.none)), (I.partEntityType, some (.none))]
  property := false
  body :=
   [.expr (.super (some I.IsPartOfPdu) I.__init__ [] []),
    .assign (.attr (.name I.self) I.orginatingEntityID) (.or (.name I.originatingEntityID) (.call I.EntityIdentifier [] [])),
    .assign (.attr (.name I.self) I.receivingEntityID) (.or (.name I.receivingEntityID) (.call I.EntityIdentifier [] [])),
    .assign (.attr (.name I.self) I.relationship) (.or (.name I.relationship) (.call I.Relationship [] [])),
    .assign (.attr (.name I.self) I.partLocation) (.or (.name I.partLocation) (.call I.Vector3Float [] [])),
    .assign (.attr (.name I.self) I.namedLocationID) (.or (.name I.namedLocationID) (.call I.NamedLocationIdentification [] [])),
    .assign (.attr (.name I.self) I.partEntityType) (.or (.name I.partEntityType) (.call I.EntityType [] []))]

/-- `IsPartOfPdu.serialize`, /repo/opendis/dis7.py:7379-7387. -/
def IsPartOfPdu.serialize : Method where
  params := [(I.outputStream, none)]
  property := false
  body :=
   [.expr (.super (some I.IsPartOfPdu) I.serialize [.name I.outputStream] []),
    .expr (.method (.attr (.name I.self) I.orginatingEntityID) I.serialize [.name I.outputStream] []),
    .expr (.method (.attr (.name I.self) I.receivingEntityID) I.serialize [.name I.outputStream] []),
    .expr (.method (.attr (.name I.self) I.relationship) I.serialize [.name I.outputStream] []),
    .expr (.method (.attr (.name I.self) I.partLocation) I.serialize [.name I.outputStream] []),
    .expr (.method (.attr (.name I.self) I.namedLocationID) I.serialize [.name I.outputStream] []),
    .expr (.method (.attr (.name I.self) I.partEntityType) I.serialize [.name I.outputStream] [])]

/-- `IsPartOfPdu.parse`, /repo/opendis/dis7.py:7389-7397. -/
def IsPartOfPdu.parse : Method where
  params := [(I.inputStream, none)]
  property := false
  body :=
   [.expr (.super (some I.IsPartOfPdu) I.parse [.name I.inputStream] []),
    .expr (.method (.attr (.name I.self) I.orginatingEntityID) I.parse [.name I.inputStream] []),
    .expr (.method (.attr (.name I.self) I.receivingEntityID) I.parse [.name I.inputStream] []),
    .expr (.method (.attr (.name I.self) I.relationship) I.parse [.name I.inputStream] []),
    .expr (.method (.attr (.name I.self) I.partLocation) I.parse [.name I.inputStream] []),
    .expr (.method (.attr (.name I.self) I.namedLocationID) I.parse [.name I.inputStream] []),
    .expr (.method (.attr (.name I.self) I.partEntityType) I.parse [.name I.inputStream] [])]

/-- `class IsPartOfPdu`, /repo/opendis/dis7.py:7352-7397. -/
def IsPartOfPdu : Class where
  base := some I.EntityManagementFamilyPdu
  attrs := [(I.pduType, .int 36)]
  methods :=
   [(I.__init__, IsPartOfPdu.__init__),
    (I.serialize, IsPartOfPdu.serialize),
    (I.parse, IsPartOfPdu.parse)]

/-- `AggregateStatePdu.__init__`, /repo/opendis/dis7.py:7409-7449. -/
def AggregateStatePdu.__init__ : Method where
  params := [(I.aggregateID, some (.none)), (I.forceID, some (.int 0)), (I.aggregateState, some (.int 0)),
   (I.aggregateType, some (.none)), (I.formation, some (.int 0)), (I.aggregateMarking, some (.none)),
   (I.dimensions, some (.none)), (I.orientation, some (.none)), (I.centerOfMass, some (.none)), (I.velocity,
   some (.none)), (I.aggregateIDs, some (.none)), (I.entityIDs, some (.none)), (I.silentAggregateSystems, some
   (.none)), (I.silentEntitySystems, some (.none)), (I.variableDatumRecords, some (.none))]
  property := false
  body :=
   [.expr (.super (some I.AggregateStatePdu) I.__init__ [] []),
    .assign (.attr (.name I.self) I.aggregateID) (.or (.name I.aggregateID) (.call I.AggregateIdentifier [] [])),
    .assign (.attr (.name I.self) I.forceID) (.name I.forceID),
    .assign (.attr (.name I.self) I.aggregateState) (.name I.aggregateState),
    .assign (.attr (.name I.self) I.aggregateType) (.or (.name I.aggregateType) (.call I.AggregateType [] [])),
    .assign (.attr (.name I.self) I.formation) (.name I.formation),
    .assign (.attr (.name I.self) I.aggregateMarking) (.or (.name I.aggregateMarking) (.call I.AggregateMarking [] [])),
    .assign (.attr (.name I.self) I.dimensions) (.or (.name I.dimensions) (.call I.Vector3Float [] [])),
    .assign (.attr (.name I.self) I.orientation) (.or (.name I.orientation) (.call I.EulerAngles [] [])),
    .assign (.attr (.name I.self) I.centerOfMass) (.or (.name I.centerOfMass) (.call I.Vector3Float [] [])),
    .assign (.attr (.name I.self) I.velocity) (.or (.name I.velocity) (.call I.WorldCoordinates [] [])),
    .assign (.attr (.name I.self) I.aggregateIDs) (.or (.name I.aggregateIDs) (.list [])),
    .assign (.attr (.name I.self) I.entityIDs) (.or (.name I.entityIDs) (.list [])),
    .assign (.attr (.name I.self) I.silentAggregateSystems) (.or (.name I.silentAggregateSystems) (.list [])),
    .assign (.attr (.name I.self) I.silentEntitySystems) (.or (.name I.silentEntitySystems) (.list [])),
    .assign (.attr (.name I.self) I.variableDatumRecords) (.or (.name I.variableDatumRecords) (.list []))]

/-- `AggregateStatePdu.numberOfAggregateIDs`, /repo/opendis/dis7.py:7452-7453. -/
def AggregateStatePdu.numberOfAggregateIDs : Method where
  params := []
  property := true
  body :=
   [.ret (.call I.len [.attr (.name I.self) I.aggregateIDs] [])]

/-- `AggregateStatePdu.numberOfEntityIDs`, /repo/opendis/dis7.py:7456-7457. -/
def AggregateStatePdu.numberOfEntityIDs : Method where
  params := []
  property := true
  body :=
   [.ret (.call I.len [.attr (.name I.self) I.entityIDs] [])]

/-- `AggregateStatePdu.numberOfSilentAggregateSystems`, /repo/opendis/dis7.py:7460-7461. -/
def AggregateStatePdu.numberOfSilentAggregateSystems : Method where
  params := []
  property := true
  body :=
   [.ret (.call I.len [.attr (.name I.self) I.silentAggregateSystems] [])]

/-- `AggregateStatePdu.numberOfSilentEntitySystems`, /repo/opendis/dis7.py:7464-7465. -/
def AggregateStatePdu.numberOfSilentEntitySystems : Method where
  params := []
  property := true
  body :=
   [.ret (.call I.len [.attr (.name I.self) I.silentEntitySystems] [])]

/-- `AggregateStatePdu.numberOfVariableDatumRecords`, /repo/opendis/dis7.py:7468-7469. -/
def AggregateStatePdu.numberOfVariableDatumRecords : Method where
  params := []
  property := true
  body :=
   [.ret (.call I.len [.attr (.name I.self) I.variableDatumRecords] [])]

/-- `AggregateStatePdu.serialize`, /repo/opendis/dis7.py:7471-7498. -/
def AggregateStatePdu.serialize : Method where
  params := [(I.outputStream, none)]
  property := false
  body :=
   [.expr (.super (some I.AggregateStatePdu) I.serialize [.name I.outputStream] []),
    .expr (.method (.attr (.name I.self) I.aggregateID) I.serialize [.name I.outputStream] []),
    .expr (.method (.name I.outputStream) I.write_unsigned_byte [.attr (.name I.self) I.forceID] []),
    .expr (.method (.name I.outputStream) I.write_unsigned_byte [.attr (.name I.self) I.aggregateState] []),
    .expr (.method (.attr (.name I.self) I.aggregateType) I.serialize [.name I.outputStream] []),
    .expr (.method (.name I.outputStream) I.write_unsigned_int [.attr (.name I.self) I.formation] []),
    .expr (.method (.attr (.name I.self) I.aggregateMarking) I.serialize [.name I.outputStream] []),
    .expr (.method (.attr (.name I.self) I.dimensions) I.serialize [.name I.outputStream] []),
    .expr (.method (.attr (.name I.self) I.orientation) I.serialize [.name I.outputStream] []),
    .expr (.method (.attr (.name I.self) I.centerOfMass) I.serialize [.name I.outputStream] []),
    .expr (.method (.attr (.name I.self) I.velocity) I.serialize [.name I.outputStream] []),
    .expr (.method (.name I.outputStream) I.write_unsigned_short [.attr (.name I.self) I.numberOfAggregateIDs] []),
    .expr (.method (.name I.outputStream) I.write_unsigned_short [.attr (.name I.self) I.numberOfEntityIDs] []),
    .expr (.method (.name I.outputStream) I.write_unsigned_short [.attr (.name I.self) I.numberOfSilentAggregateSystems] []),
    .expr (.method (.name I.outputStream) I.write_unsigned_short [.attr (.name I.self) I.numberOfSilentEntitySystems] []),
    .for I.aggregateID (.attr (.name I.self) I.aggregateIDs)
      [.expr (.method (.name I.aggregateID) I.serialize [.name I.outputStream] [])],
    .for I.entityID (.attr (.name I.self) I.entityIDs)
      [.expr (.method (.name I.entityID) I.serialize [.name I.outputStream] [])],
    .for I.silentAggregateSystem (.attr (.name I.self) I.silentAggregateSystems)
      [.expr (.method (.name I.silentAggregateSystem) I.serialize [.name I.outputStream] [])],
    .for I.silentEntitySystem (.attr (.name I.self) I.silentEntitySystems)
      [.expr (.method (.name I.silentEntitySystem) I.serialize [.name I.outputStream] [])],
    .expr (.method (.name I.outputStream) I.write_unsigned_int [.attr (.name I.self) I.numberOfVariableDatumRecords] []),
    .for I.variableDatumRecord (.attr (.name I.self) I.variableDatumRecords)
      [.expr (.method (.name I.variableDatumRecord) I.serialize [.name I.outputStream] [])]]

/-- `AggregateStatePdu.parse`, /repo/opendis/dis7.py:7500-7537. -/
def AggregateStatePdu.parse : Method where
  params := [(I.inputStream, none)]
  property := false
  body :=
   [.expr (.super (some I.AggregateStatePdu) I.parse [.name I.inputStream] []),
    .expr (.method (.attr (.name I.self) I.aggregateID) I.parse [.name I.inputStream] []),
    .assign (.attr (.name I.self) I.forceID) (.method (.name I.inputStream) I.read_unsigned_byte [] []),
    .assign (.attr (.name I.self) I.aggregateState) (.method (.name I.inputStream) I.read_unsigned_byte [] []),
    .expr (.method (.attr (.name I.self) I.aggregateType) I.parse [.name I.inputStream] []),
    .assign (.attr (.name I.self) I.formation) (.method (.name I.inputStream) I.read_unsigned_int [] []),
    .expr (.method (.attr (.name I.self) I.aggregateMarking) I.parse [.name I.inputStream] []),
    .expr (.method (.attr (.name I.self) I.dimensions) I.parse [.name I.inputStream] []),
    .expr (.method (.attr (.name I.self) I.orientation) I.parse [.name I.inputStream] []),
    .expr (.method (.attr (.name I.self) I.centerOfMass) I.parse [.name I.inputStream] []),
    .expr (.method (.attr (.name I.self) I.velocity) I.parse [.name I.inputStream] []),
    .assign (.name I.numberOfAggregateIDs) (.method (.name I.inputStream) I.read_unsigned_short [] []),
    .assign (.name I.numberOfEntityIDs) (.method (.name I.inputStream) I.read_unsigned_short [] []),
    .assign (.name I.numberOfSilentAggregateSystems) (.method (.name I.inputStream) I.read_unsigned_short [] []),
    .assign (.name I.numberOfSilentEntitySystems) (.method (.name I.inputStream) I.read_unsigned_short [] []),
    .for I.idx (.call I.range [.int 0, .name I.numberOfAggregateIDs] [])
      [.assign (.name I.element) (.call I.AggregateIdentifier [] []),
       .expr (.method (.name I.element) I.parse [.name I.inputStream] []),
       .expr (.method (.attr (.name I.self) I.aggregateIDs) I.append [.name I.element] [])],
    .for I.idx (.call I.range [.int 0, .name I.numberOfEntityIDs] [])
      [.assign (.name I.element) (.call I.EntityIdentifier [] []),
       .expr (.method (.name I.element) I.parse [.name I.inputStream] []),
       .expr (.method (.attr (.name I.self) I.entityIDs) I.append [.name I.element] [])],
    .for I.idx (.call I.range [.int 0, .name I.numberOfSilentAggregateSystems] [])
      [.assign (.name I.element) (.call I.SilentAggregateSystem [] []),
       .expr (.method (.name I.element) I.parse [.name I.inputStream] []),
       .expr (.method (.attr (.name I.self) I.silentAggregateSystems) I.append [.name I.element] [])],
    .for I.idx (.call I.range [.int 0, .name I.numberOfSilentEntitySystems] [])
      [.assign (.name I.element) (.call I.SilentEntitySystem [] []),
       .expr (.method (.name I.element) I.parse [.name I.inputStream] []),
       .expr (.method (.attr (.name I.self) I.silentEntitySystems) I.append [.name I.element] [])],
    .assign (.name I.numberOfVariableDatumRecords) (.method (.name I.inputStream) I.read_unsigned_int [] []),
    .for I.idx (.call I.range [.int 0, .name I.numberOfVariableDatumRecords] [])
      [.assign (.name I.element) (.call I.VariableDatum [] []),
       .expr (.method (.name I.element) I.parse [.name I.inputStream] []),
       .expr (.method (.attr (.name I.self) I.variableDatumRecords) I.append [.name I.element] [])]]

/-- `class AggregateStatePdu`, /repo/opendis/dis7.py:7400-7537. -/
def AggregateStatePdu : Class where
  base := some I.EntityManagementFamilyPdu
  attrs := [(I.pduType, .int 33)]
  methods :=
   [(I.__init__, AggregateStatePdu.__init__),
    (I.numberOfAggregateIDs, AggregateStatePdu.numberOfAggregateIDs),
    (I.numberOfEntityIDs, AggregateStatePdu.numberOfEntityIDs),
    (I.numberOfSilentAggregateSystems, AggregateStatePdu.numberOfSilentAggregateSystems),
    (I.numberOfSilentEntitySystems, AggregateStatePdu.numberOfSilentEntitySystems),
    (I.numberOfVariableDatumRecords, AggregateStatePdu.numberOfVariableDatumRecords),
    (I.serialize, AggregateStatePdu.serialize),
    (I.parse, AggregateStatePdu.parse)]

end Dis.Src
