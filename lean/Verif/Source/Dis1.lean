import Verif.Source.Names

/-!
# `opendis/dis7.py` as syntax trees, part 1

Written by `tools/gensource.py` from the Python source.
-/

namespace Dis.Src

/-- `DataQueryDatumSpecification.__init__`, /repo/opendis/dis7.py:77-83. -/
def DataQueryDatumSpecification.__init__ : Method where
  params := [(I.fixedDatumIDs, some (.none)), (I.variableDatumIDs, some (.none))]
  property := false
  body :=
   [.assign (.attr (.name I.self) I.fixedDatumIDs) (.or (.name I.fixedDatumIDs) (.list [])),
    .assign (.attr (.name I.self) I.variableDatumIDs) (.or (.name I.variableDatumIDs) (.list []))]

/-- `DataQueryDatumSpecification.numberOfFixedDatumIDs`, /repo/opendis/dis7.py:86-87. -/
def DataQueryDatumSpecification.numberOfFixedDatumIDs : Method where
  params := []
  property := true
  body :=
   [.ret (.call I.len [.attr (.name I.self) I.fixedDatumIDs] [])]

/-- `DataQueryDatumSpecification.numberOfVariableDatumIDs`, /repo/opendis/dis7.py:90-91. -/
def DataQueryDatumSpecification.numberOfVariableDatumIDs : Method where
  params := []
  property := true
  body :=
   [.ret (.call I.len [.attr (.name I.self) I.variableDatumIDs] [])]

/-- `DataQueryDatumSpecification.serialize`, /repo/opendis/dis7.py:93-101. -/
def DataQueryDatumSpecification.serialize : Method where
  params := [(I.outputStream, none)]
  property := false
  body :=
   [.expr (.method (.name I.outputStream) I.write_unsigned_int [.attr (.name I.self) I.numberOfFixedDatumIDs] []),
    .expr (.method (.name I.outputStream) I.write_unsigned_int [.attr (.name I.self) I.numberOfVariableDatumIDs] []),
    .for I.datumID (.attr (.name I.self) I.fixedDatumIDs)
      [.expr (.method (.name I.outputStream) I.write_unsigned_int [.name I.datumID] [])],
    .for I.datumID (.attr (.name I.self) I.variableDatumIDs)
      [.expr (.method (.name I.outputStream) I.write_unsigned_int [.name I.datumID] [])]]

/-- `DataQueryDatumSpecification.parse`, /repo/opendis/dis7.py:103-112. -/
def DataQueryDatumSpecification.parse : Method where
  params := [(I.inputStream, none)]
  property := false
  body :=
   [.assign (.name I.numberOfFixedDatumIDs) (.method (.name I.inputStream) I.read_unsigned_int [] []),
    .assign (.name I.numberOfVariableDatumIDs) (.method (.name I.inputStream) I.read_unsigned_int [] []),
    .for I.idx (.call I.range [.int 0, .name I.numberOfFixedDatumIDs] [])
      [.assign (.name I.datumID) (.method (.name I.inputStream) I.read_unsigned_int [] []),
       .expr (.method (.attr (.name I.self) I.fixedDatumIDs) I.append [.name I.datumID] [])],
    .for I.idx (.call I.range [.int 0, .name I.numberOfVariableDatumIDs] [])
      [.assign (.name I.datumID) (.method (.name I.inputStream) I.read_unsigned_int [] []),
       .expr (.method (.attr (.name I.self) I.variableDatumIDs) I.append [.name I.datumID] [])]]

/-- `class DataQueryDatumSpecification`, /repo/opendis/dis7.py:71-112. -/
def DataQueryDatumSpecification : Class where
  base := none
  attrs := []
  methods :=
   [(I.__init__, DataQueryDatumSpecification.__init__),
    (I.numberOfFixedDatumIDs, DataQueryDatumSpecification.numberOfFixedDatumIDs),
    (I.numberOfVariableDatumIDs, DataQueryDatumSpecification.numberOfVariableDatumIDs),
    (I.serialize, DataQueryDatumSpecification.serialize),
    (I.parse, DataQueryDatumSpecification.parse)]

/-- `RadioIdentifier.__init__`, /repo/opendis/dis7.py:122-130. -/
def RadioIdentifier.__init__ : Method where
  params := [(I.siteNumber, some (.int 0)), (I.applicationNumber, some (.int 0)), (I.referenceNumber, some (.int 0)),
   (I.radioNumber, some (.int 0))]
  property := false
  body :=
   [.assign (.attr (.name I.self) I.siteNumber) (.name I.siteNumber),
    .assign (.attr (.name I.self) I.applicationNumber) (.name I.applicationNumber),
    .assign (.attr (.name I.self) I.referenceNumber) (.name I.referenceNumber),
    .assign (.attr (.name I.self) I.radioNumber) (.name I.radioNumber)]

/-- `RadioIdentifier.serialize`, /repo/opendis/dis7.py:132-137. -/
def RadioIdentifier.serialize : Method where
  params := [(I.outputStream, none)]
  property := false
  body :=
   [.expr (.method (.name I.outputStream) I.write_unsigned_short [.attr (.name I.self) I.siteNumber] []),
    .expr (.method (.name I.outputStream) I.write_unsigned_short [.attr (.name I.self) I.applicationNumber] []),
    .expr (.method (.name I.outputStream) I.write_unsigned_short [.attr (.name I.self) I.referenceNumber] []),
    .expr (.method (.name I.outputStream) I.write_unsigned_short [.attr (.name I.self) I.radioNumber] [])]

/-- `RadioIdentifier.parse`, /repo/opendis/dis7.py:139-144. -/
def RadioIdentifier.parse : Method where
  params := [(I.inputStream, none)]
  property := false
  body :=
   [.assign (.attr (.name I.self) I.siteNumber) (.method (.name I.inputStream) I.read_unsigned_short [] []),
    .assign (.attr (.name I.self) I.applicationNumber) (.method (.name I.inputStream) I.read_unsigned_short [] []),
    .assign (.attr (.name I.self) I.referenceNumber) (.method (.name I.inputStream) I.read_unsigned_short [] []),
    .assign (.attr (.name I.self) I.radioNumber) (.method (.name I.inputStream) I.read_unsigned_short [] [])]

/-- `class RadioIdentifier`, /repo/opendis/dis7.py:115-144. -/
def RadioIdentifier : Class where
  base := none
  attrs := []
  methods :=
   [(I.__init__, RadioIdentifier.__init__),
    (I.serialize, RadioIdentifier.serialize),
    (I.parse, RadioIdentifier.parse)]

/-- `RequestID.__init__`, /repo/opendis/dis7.py:154-156. -/
def RequestID.__init__ : Method where
  params := [(I.requestID, some (.int 0))]
  property := false
  body :=
   [.assign (.attr (.name I.self) I.requestID) (.name I.requestID)]

/-- `RequestID.serialize`, /repo/opendis/dis7.py:158-160. -/
def RequestID.serialize : Method where
  params := [(I.outputStream, none)]
  property := false
  body :=
   [.expr (.method (.name I.outputStream) I.write_unsigned_int [.attr (.name I.self) I.requestID] [])]

/-- `RequestID.parse`, /repo/opendis/dis7.py:162-164. -/
def RequestID.parse : Method where
  params := [(I.inputStream, none)]
  property := false
  body :=
   [.assign (.attr (.name I.self) I.requestID) (.method (.name I.inputStream) I.read_unsigned_int [] [])]

/-- `class RequestID`, /repo/opendis/dis7.py:147-164. -/
def RequestID : Class where
  base := none
  attrs := []
  methods :=
   [(I.__init__, RequestID.__init__),
    (I.serialize, RequestID.serialize),
    (I.parse, RequestID.parse)]

/-- `IFFData.__init__`, /repo/opendis/dis7.py:173-182. -/
def IFFData.__init__ : Method where
  params := [(I.recordType, some (.int 0)), (I.recordLength, some (.int 0)), (I.iffData, some (.none))]
  property := false
  body :=
   [.assign (.attr (.name I.self) I.recordType) (.name I.recordType),
    .assign (.attr (.name I.self) I.recordLength) (.name I.recordLength),
    .assign (.attr (.name I.self) I.iffData) (.or (.name I.iffData) (.list []))]

/-- `IFFData.serialize`, /repo/opendis/dis7.py:184-190. -/
def IFFData.serialize : Method where
  params := [(I.outputStream, none)]
  property := false
  body :=
   [.expr (.method (.name I.outputStream) I.write_unsigned_int [.attr (.name I.self) I.recordType] []),
    .expr (.method (.name I.outputStream) I.write_unsigned_short [.call I.len [.attr (.name I.self) I.iffData] []] []),
    .for I.anObj (.attr (.name I.self) I.iffData)
      [.expr (.method (.name I.outputStream) I.write_unsigned_byte [.name I.anObj] [])]]

/-- `IFFData.parse`, /repo/opendis/dis7.py:192-201. -/
def IFFData.parse : Method where
  params := [(I.inputStream, none)]
  property := false
  body :=
   [.assign (.attr (.name I.self) I.recordType) (.method (.name I.inputStream) I.read_unsigned_int [] []),
    .assign (.attr (.name I.self) I.recordLength) (.method (.name I.inputStream) I.read_unsigned_short [] []),
    .for I.idx (.call I.range [.int 0, .bin .sub (.attr (.name I.self) I.recordLength) (.int 6)] [])
      [.assign (.name I.val) (.method (.name I.inputStream) I.read_unsigned_byte [] []),
       .expr (.method (.attr (.name I.self) I.iffData) I.append [.name I.val] [])]]

/-- `class IFFData`, /repo/opendis/dis7.py:167-201. -/
def IFFData : Class where
  base := none
  attrs := []
  methods :=
   [(I.__init__, IFFData.__init__),
    (I.serialize, IFFData.serialize),
    (I.parse, IFFData.parse)]

/-- `MunitionDescriptor.__init__`, /repo/opendis/dis7.py:210-227. -/
def MunitionDescriptor.__init__ : Method where
  params := [(I.munitionType, some (.none)), (I.warhead, some (.int 0)), (I.fuse, some (.int 0)), (I.quantity, some (.int
   0)), (I.rate, some (.int 0))]
  property := false
  body :=
   [.assign (.attr (.name I.self) I.munitionType) (.or (.name I.munitionType) (.call I.EntityType [] [])),
    .assign (.attr (.name I.self) I.warhead) (.name I.warhead),
    .assign (.attr (.name I.self) I.fuse) (.name I.fuse),
    .assign (.attr (.name I.self) I.quantity) (.name I.quantity),
    .assign (.attr (.name I.self) I.rate) (.name I.rate)]

/-- `MunitionDescriptor.serialize`, /repo/opendis/dis7.py:229-235. -/
def MunitionDescriptor.serialize : Method where
  params := [(I.outputStream, none)]
  property := false
  body :=
   [.expr (.method (.attr (.name I.self) I.munitionType) I.serialize [.name I.outputStream] []),
    .expr (.method (.name I.outputStream) I.write_unsigned_short [.attr (.name I.self) I.warhead] []),
    .expr (.method (.name I.outputStream) I.write_unsigned_short [.attr (.name I.self) I.fuse] []),
    .expr (.method (.name I.outputStream) I.write_unsigned_short [.attr (.name I.self) I.quantity] []),
    .expr (.method (.name I.outputStream) I.write_unsigned_short [.attr (.name I.self) I.rate] [])]

/-- `MunitionDescriptor.parse`, /repo/opendis/dis7.py:237-243. -/
def MunitionDescriptor.parse : Method where
  params := [(I.inputStream, none)]
  property := false
  body :=
   [.expr (.method (.attr (.name I.self) I.munitionType) I.parse [.name I.inputStream] []),
    .assign (.attr (.name I.self) I.warhead) (.method (.name I.inputStream) I.read_unsigned_short [] []),
    .assign (.attr (.name I.self) I.fuse) (.method (.name I.inputStream) I.read_unsigned_short [] []),
    .assign (.attr (.name I.self) I.quantity) (.method (.name I.inputStream) I.read_unsigned_short [] []),
    .assign (.attr (.name I.self) I.rate) (.method (.name I.inputStream) I.read_unsigned_short [] [])]

/-- `class MunitionDescriptor`, /repo/opendis/dis7.py:204-243. -/
def MunitionDescriptor : Class where
  base := none
  attrs := []
  methods :=
   [(I.__init__, MunitionDescriptor.__init__),
    (I.serialize, MunitionDescriptor.serialize),
    (I.parse, MunitionDescriptor.parse)]

/-- `MinefieldSensorType.__init__`, /repo/opendis/dis7.py:252-254. -/
def MinefieldSensorType.__init__ : Method where
  params := [(I.sensorType, some (.int 0))]
  property := false
  body :=
   [.assign (.attr (.name I.self) I.sensorType) (.name I.sensorType)]

/-- `MinefieldSensorType.serialize`, /repo/opendis/dis7.py:257-259. -/
def MinefieldSensorType.serialize : Method where
  params := [(I.outputStream, none)]
  property := false
  body :=
   [.expr (.method (.name I.outputStream) I.write_unsigned_short [.attr (.name I.self) I.sensorType] [])]

/-- `MinefieldSensorType.parse`, /repo/opendis/dis7.py:261-263. -/
def MinefieldSensorType.parse : Method where
  params := [(I.inputStream, none)]
  property := false
  body :=
   [.assign (.attr (.name I.self) I.sensorType) (.method (.name I.inputStream) I.read_unsigned_short [] [])]

/-- `class MinefieldSensorType`, /repo/opendis/dis7.py:246-263. -/
def MinefieldSensorType : Class where
  base := none
  attrs := []
  methods :=
   [(I.__init__, MinefieldSensorType.__init__),
    (I.serialize, MinefieldSensorType.serialize),
    (I.parse, MinefieldSensorType.parse)]

/-- `GroupID.__init__`, /repo/opendis/dis7.py:273-279. -/
def GroupID.__init__ : Method where
  params := [(I.simulationAddress, some (.none)), (I.groupNumber, some (.int 0))]
  property := false
  body :=
   [.assign (.attr (.name I.self) I.simulationAddress) (.or (.name I.simulationAddress) (.call I.SimulationAddress [] [])),
    .assign (.attr (.name I.self) I.groupNumber) (.name I.groupNumber)]

/-- `GroupID.serialize`, /repo/opendis/dis7.py:281-284. -/
def GroupID.serialize : Method where
  params := [(I.outputStream, none)]
  property := false
  body :=
   [.expr (.method (.attr (.name I.self) I.simulationAddress) I.serialize [.name I.outputStream] []),
    .expr (.method (.name I.outputStream) I.write_unsigned_short [.attr (.name I.self) I.groupNumber] [])]

/-- `GroupID.parse`, /repo/opendis/dis7.py:286-289. -/
def GroupID.parse : Method where
  params := [(I.inputStream, none)]
  property := false
  body :=
   [.expr (.method (.attr (.name I.self) I.simulationAddress) I.parse [.name I.inputStream] []),
    .assign (.attr (.name I.self) I.groupNumber) (.method (.name I.inputStream) I.read_unsigned_short [] [])]

/-- `class GroupID`, /repo/opendis/dis7.py:266-289. -/
def GroupID : Class where
  base := none
  attrs := []
  methods :=
   [(I.__init__, GroupID.__init__),
    (I.serialize, GroupID.serialize),
    (I.parse, GroupID.parse)]

/-- `LayerHeader.__init__`, /repo/opendis/dis7.py:299-307. -/
def LayerHeader.__init__ : Method where
  params := [(I.layerNumber, some (.int 0)), (I.layerSpecificInformation, some (.int 0)), (I.length, some (.int 0))]
  property := false
  body :=
   [.assign (.attr (.name I.self) I.layerNumber) (.name I.layerNumber),
    .assign (.attr (.name I.self) I.layerSpecificInformation) (.name I.layerSpecificInformation),
    .assign (.attr (.name I.self) I.length) (.name I.length)]

/-- `LayerHeader.serialize`, /repo/opendis/dis7.py:309-313. -/
def LayerHeader.serialize : Method where
  params := [(I.outputStream, none)]
  property := false
  body :=
   [.expr (.method (.name I.outputStream) I.write_unsigned_byte [.attr (.name I.self) I.layerNumber] []),
    .expr (.method (.name I.outputStream) I.write_unsigned_byte [.attr (.name I.self) I.layerSpecificInformation] []),
    .expr (.method (.name I.outputStream) I.write_unsigned_short [.attr (.name I.self) I.length] [])]

/-- `LayerHeader.parse`, /repo/opendis/dis7.py:315-319. -/
def LayerHeader.parse : Method where
  params := [(I.inputStream, none)]
  property := false
  body :=
   [.assign (.attr (.name I.self) I.layerNumber) (.method (.name I.inputStream) I.read_unsigned_byte [] []),
    .assign (.attr (.name I.self) I.layerSpecificInformation) (.method (.name I.inputStream) I.read_unsigned_byte [] []),
    .assign (.attr (.name I.self) I.length) (.method (.name I.inputStream) I.read_unsigned_short [] [])]

/-- `class LayerHeader`, /repo/opendis/dis7.py:292-319. -/
def LayerHeader : Class where
  base := none
  attrs := []
  methods :=
   [(I.__init__, LayerHeader.__init__),
    (I.serialize, LayerHeader.serialize),
    (I.parse, LayerHeader.parse)]

/-- `UnsignedDISInteger.__init__`, /repo/opendis/dis7.py:325-327. -/
def UnsignedDISInteger.__init__ : Method where
  params := [(I.val, some (.int 0))]
  property := false
  body :=
   [.assign (.attr (.name I.self) I.val) (.name I.val)]

/-- `UnsignedDISInteger.serialize`, /repo/opendis/dis7.py:329-331. -/
def UnsignedDISInteger.serialize : Method where
  params := [(I.outputStream, none)]
  property := false
  body :=
   [.expr (.method (.name I.outputStream) I.write_unsigned_int [.attr (.name I.self) I.val] [])]

/-- `UnsignedDISInteger.parse`, /repo/opendis/dis7.py:333-335. -/
def UnsignedDISInteger.parse : Method where
  params := [(I.inputStream, none)]
  property := false
  body :=
   [.assign (.attr (.name I.self) I.val) (.method (.name I.inputStream) I.read_unsigned_int [] [])]

/-- `class UnsignedDISInteger`, /repo/opendis/dis7.py:322-335. -/
def UnsignedDISInteger : Class where
  base := none
  attrs := []
  methods :=
   [(I.__init__, UnsignedDISInteger.__init__),
    (I.serialize, UnsignedDISInteger.serialize),
    (I.parse, UnsignedDISInteger.parse)]

/-- `DeadReckoningParameters.__init__`, /repo/opendis/dis7.py:341-354. -/
def DeadReckoningParameters.__init__ : Method where
  params := [(I.deadReckoningAlgorithm, some (.int 0)), (I.parameters, some (.none)), (I.entityLinearAcceleration, some
   (.none)), (I.entityAngularVelocity, some (.none))]
  property := false
  body :=
   [.assign (.attr (.name I.self) I.deadReckoningAlgorithm) (.name I.deadReckoningAlgorithm),
    .assign (.attr (.name I.self) I.parameters) (.or (.name I.parameters) (.bin .mul (.list [.int 0]) (.int 15))),
    .assign (.attr (.name I.self) I.entityLinearAcceleration) (.or (.name I.entityLinearAcceleration) (.call I.Vector3Float [] [])),
    .assign (.attr (.name I.self) I.entityAngularVelocity) (.or (.name I.entityAngularVelocity) (.call I.Vector3Float [] []))]

/-- `DeadReckoningParameters.serialize`, /repo/opendis/dis7.py:356-363. -/
def DeadReckoningParameters.serialize : Method where
  params := [(I.outputStream, none)]
  property := false
  body :=
   [.expr (.method (.name I.outputStream) I.write_unsigned_byte [.attr (.name I.self) I.deadReckoningAlgorithm] []),
    .for I.idx (.call I.range [.int 0, .int 15] [])
      [.expr (.method (.name I.outputStream) I.write_unsigned_byte [.index (.attr (.name I.self) I.parameters) (.name I.idx)] [])],
    .expr (.method (.attr (.name I.self) I.entityLinearAcceleration) I.serialize [.name I.outputStream] []),
    .expr (.method (.attr (.name I.self) I.entityAngularVelocity) I.serialize [.name I.outputStream] [])]

/-- `DeadReckoningParameters.parse`, /repo/opendis/dis7.py:365-375. -/
def DeadReckoningParameters.parse : Method where
  params := [(I.inputStream, none)]
  property := false
  body :=
   [.assign (.attr (.name I.self) I.deadReckoningAlgorithm) (.method (.name I.inputStream) I.read_unsigned_byte [] []),
    .assign (.attr (.name I.self) I.parameters) (.bin .mul (.list [.int 0]) (.int 15)),
    .for I.idx (.call I.range [.int 0, .int 15] [])
      [.assign (.name I.val) (.method (.name I.inputStream) I.read_unsigned_byte [] []),
       .assign (.index (.attr (.name I.self) I.parameters) (.name I.idx)) (.name I.val)],
    .expr (.method (.attr (.name I.self) I.entityLinearAcceleration) I.parse [.name I.inputStream] []),
    .expr (.method (.attr (.name I.self) I.entityAngularVelocity) I.parse [.name I.inputStream] [])]

/-- `class DeadReckoningParameters`, /repo/opendis/dis7.py:338-375. -/
def DeadReckoningParameters : Class where
  base := none
  attrs := []
  methods :=
   [(I.__init__, DeadReckoningParameters.__init__),
    (I.serialize, DeadReckoningParameters.serialize),
    (I.parse, DeadReckoningParameters.parse)]

/-- `ProtocolMode.__init__`, /repo/opendis/dis7.py:384-386. -/
def ProtocolMode.__init__ : Method where
  params := [(I.protocolMode, some (.int 0))]
  property := false
  body :=
   [.assign (.attr (.name I.self) I.protocolMode) (.name I.protocolMode)]

/-- `ProtocolMode.serialize`, /repo/opendis/dis7.py:388-390. -/
def ProtocolMode.serialize : Method where
  params := [(I.outputStream, none)]
  property := false
  body :=
   [.expr (.method (.name I.outputStream) I.write_unsigned_short [.attr (.name I.self) I.protocolMode] [])]

/-- `ProtocolMode.parse`, /repo/opendis/dis7.py:392-394. -/
def ProtocolMode.parse : Method where
  params := [(I.inputStream, none)]
  property := false
  body :=
   [.assign (.attr (.name I.self) I.protocolMode) (.method (.name I.inputStream) I.read_unsigned_short [] [])]

/-- `class ProtocolMode`, /repo/opendis/dis7.py:378-394. -/
def ProtocolMode : Class where
  base := none
  attrs := []
  methods :=
   [(I.__init__, ProtocolMode.__init__),
    (I.serialize, ProtocolMode.serialize),
    (I.parse, ProtocolMode.parse)]

/-- `AngleDeception.__init__`, /repo/opendis/dis7.py:409-434. -/
def AngleDeception.__init__ : Method where
  params := [(I.emitterNumber, some (.int 0)), (I.beamNumber, some (.int 0)), (I.stateIndicator, some (.int 0)),
   (I.azimuthOffset, some (.float 0x0000000000000000)), (I.azimuthWidth, some (.float 0x0000000000000000)),
   (I.azimuthPullRate, some (.float 0x0000000000000000)), (I.azimuthPullAcceleration, some (.float
   0x0000000000000000)), (I.elevationOffset, some (.float 0x0000000000000000)), (I.elevationWidth, some
   (.float 0x0000000000000000)), (I.elevationPullRate, some (.float 0x0000000000000000)),
   (I.elevationPullAcceleration, some (.float 0x0000000000000000))]
  property := false
  body :=
   [.assign (.attr (.name I.self) I.padding) (.int 0),
    .assign (.attr (.name I.self) I.emitterNumber) (.name I.emitterNumber),
    .assign (.attr (.name I.self) I.beamNumber) (.name I.beamNumber),
    .assign (.attr (.name I.self) I.stateIndicator) (.name I.stateIndicator),
    .assign (.attr (.name I.self) I.padding2) (.int 0),
    .assign (.attr (.name I.self) I.azimuthOffset) (.name I.azimuthOffset),
    .assign (.attr (.name I.self) I.azimuthWidth) (.name I.azimuthWidth),
    .assign (.attr (.name I.self) I.azimuthPullRate) (.name I.azimuthPullRate),
    .assign (.attr (.name I.self) I.azimuthPullAcceleration) (.name I.azimuthPullAcceleration),
    .assign (.attr (.name I.self) I.elevationOffset) (.name I.elevationOffset),
    .assign (.attr (.name I.self) I.elevationWidth) (.name I.elevationWidth),
    .assign (.attr (.name I.self) I.elevationPullRate) (.name I.elevationPullRate),
    .assign (.attr (.name I.self) I.elevationPullAcceleration) (.name I.elevationPullAcceleration),
    .assign (.attr (.name I.self) I.padding3) (.int 0)]

/-- `AngleDeception.serialize`, /repo/opendis/dis7.py:436-453. -/
def AngleDeception.serialize : Method where
  params := [(I.outputStream, none)]
  property := false
  body :=
   [.expr (.method (.name I.outputStream) I.write_unsigned_int [.attr (.name I.self) I.recordType] []),
    .expr (.method (.name I.outputStream) I.write_unsigned_short [.attr (.name I.self) I.recordLength] []),
    .expr (.method (.name I.outputStream) I.write_unsigned_short [.attr (.name I.self) I.padding] []),
    .expr (.method (.name I.outputStream) I.write_unsigned_byte [.attr (.name I.self) I.emitterNumber] []),
    .expr (.method (.name I.outputStream) I.write_unsigned_byte [.attr (.name I.self) I.beamNumber] []),
    .expr (.method (.name I.outputStream) I.write_unsigned_byte [.attr (.name I.self) I.stateIndicator] []),
    .expr (.method (.name I.outputStream) I.write_unsigned_byte [.attr (.name I.self) I.padding2] []),
    .expr (.method (.name I.outputStream) I.write_float [.attr (.name I.self) I.azimuthOffset] []),
    .expr (.method (.name I.outputStream) I.write_float [.attr (.name I.self) I.azimuthWidth] []),
    .expr (.method (.name I.outputStream) I.write_float [.attr (.name I.self) I.azimuthPullRate] []),
    .expr (.method (.name I.outputStream) I.write_float [.attr (.name I.self) I.azimuthPullAcceleration] []),
    .expr (.method (.name I.outputStream) I.write_float [.attr (.name I.self) I.elevationOffset] []),
    .expr (.method (.name I.outputStream) I.write_float [.attr (.name I.self) I.elevationWidth] []),
    .expr (.method (.name I.outputStream) I.write_float [.attr (.name I.self) I.elevationPullRate] []),
    .expr (.method (.name I.outputStream) I.write_float [.attr (.name I.self) I.elevationPullAcceleration] []),
    .expr (.method (.name I.outputStream) I.write_unsigned_int [.attr (.name I.self) I.padding3] [])]

/-- `AngleDeception.parse`, /repo/opendis/dis7.py:455-472. -/
def AngleDeception.parse : Method where
  params := [(I.inputStream, none)]
  property := false
  body :=
   [.assign (.attr (.name I.self) I.recordType) (.method (.name I.inputStream) I.read_unsigned_int [] []),
    .assign (.attr (.name I.self) I.recordLength) (.method (.name I.inputStream) I.read_unsigned_short [] []),
    .assign (.attr (.name I.self) I.padding) (.method (.name I.inputStream) I.read_unsigned_short [] []),
    .assign (.attr (.name I.self) I.emitterNumber) (.method (.name I.inputStream) I.read_unsigned_byte [] []),
    .assign (.attr (.name I.self) I.beamNumber) (.method (.name I.inputStream) I.read_unsigned_byte [] []),
    .assign (.attr (.name I.self) I.stateIndicator) (.method (.name I.inputStream) I.read_unsigned_byte [] []),
    .assign (.attr (.name I.self) I.padding2) (.method (.name I.inputStream) I.read_unsigned_byte [] []),
    .assign (.attr (.name I.self) I.azimuthOffset) (.method (.name I.inputStream) I.read_float [] []),
    .assign (.attr (.name I.self) I.azimuthWidth) (.method (.name I.inputStream) I.read_float [] []),
    .assign (.attr (.name I.self) I.azimuthPullRate) (.method (.name I.inputStream) I.read_float [] []),
    .assign (.attr (.name I.self) I.azimuthPullAcceleration) (.method (.name I.inputStream) I.read_float [] []),
    .assign (.attr (.name I.self) I.elevationOffset) (.method (.name I.inputStream) I.read_float [] []),
    .assign (.attr (.name I.self) I.elevationWidth) (.method (.name I.inputStream) I.read_float [] []),
    .assign (.attr (.name I.self) I.elevationPullRate) (.method (.name I.inputStream) I.read_float [] []),
    .assign (.attr (.name I.self) I.elevationPullAcceleration) (.method (.name I.inputStream) I.read_float [] []),
    .assign (.attr (.name I.self) I.padding3) (.method (.name I.inputStream) I.read_unsigned_int [] [])]

/-- `class AngleDeception`, /repo/opendis/dis7.py:397-472. -/
def AngleDeception : Class where
  base := none
  attrs := [(I.recordType, .int 3501), (I.recordLength, .int 48)]
  methods :=
   [(I.__init__, AngleDeception.__init__),
    (I.serialize, AngleDeception.serialize),
    (I.parse, AngleDeception.parse)]

/-- `EntityAssociation.__init__`, /repo/opendis/dis7.py:482-506. -/
def EntityAssociation.__init__ : Method where
  params := [(I.changeIndicator, some (.int 0)), (I.associationStatus, some (.int 0)), (I.associationType, some (.int 0)),
   (I.entityID, some (.none)), (I.ownStationLocation, some (.int 0)), (I.physicalConnectionType, some (.int
   0)), (I.groupMemberType, some (.int 0)), (I.groupNumber, some (.int 0))]
  property := false
  body :=
   [.assign (.attr (.name I.self) I.changeIndicator) (.name I.changeIndicator),
    .assign (.attr (.name I.self) I.associationStatus) (.name I.associationStatus),
    .assign (.attr (.name I.self) I.associationType) (.name I.associationType),
    .assign (.attr (.name I.self) I.entityID) (.or (.name I.entityID) (.call I.EntityIdentifier [] [])),
    .assign (.attr (.name I.self) I.ownStationLocation) (.name I.ownStationLocation),
    .assign (.attr (.name I.self) I.physicalConnectionType) (.name I.physicalConnectionType),
    .assign (.attr (.name I.self) I.groupMemberType) (.name I.groupMemberType),
    .assign (.attr (.name I.self) I.groupNumber) (.name I.groupNumber)]

/-- `EntityAssociation.serialize`, /repo/opendis/dis7.py:508-518. -/
def EntityAssociation.serialize : Method where
  params := [(I.outputStream, none)]
  property := false
  body :=
   [.expr (.method (.name I.outputStream) I.write_unsigned_byte [.attr (.name I.self) I.recordType] []),
    .expr (.method (.name I.outputStream) I.write_unsigned_byte [.attr (.name I.self) I.changeIndicator] []),
    .expr (.method (.name I.outputStream) I.write_unsigned_byte [.attr (.name I.self) I.associationStatus] []),
    .expr (.method (.name I.outputStream) I.write_unsigned_byte [.attr (.name I.self) I.associationType] []),
    .expr (.method (.attr (.name I.self) I.entityID) I.serialize [.name I.outputStream] []),
    .expr (.method (.name I.outputStream) I.write_unsigned_short [.attr (.name I.self) I.ownStationLocation] []),
    .expr (.method (.name I.outputStream) I.write_unsigned_byte [.attr (.name I.self) I.physicalConnectionType] []),
    .expr (.method (.name I.outputStream) I.write_unsigned_byte [.attr (.name I.self) I.groupMemberType] []),
    .expr (.method (.name I.outputStream) I.write_unsigned_short [.attr (.name I.self) I.groupNumber] [])]

/-- `EntityAssociation.parse`, /repo/opendis/dis7.py:520-530. -/
def EntityAssociation.parse : Method where
  params := [(I.inputStream, none)]
  property := false
  body :=
   [.assign (.attr (.name I.self) I.recordType) (.method (.name I.inputStream) I.read_unsigned_byte [] []),
    .assign (.attr (.name I.self) I.changeIndicator) (.method (.name I.inputStream) I.read_unsigned_byte [] []),
    .assign (.attr (.name I.self) I.associationStatus) (.method (.name I.inputStream) I.read_unsigned_byte [] []),
    .assign (.attr (.name I.self) I.associationType) (.method (.name I.inputStream) I.read_unsigned_byte [] []),
    .expr (.method (.attr (.name I.self) I.entityID) I.parse [.name I.inputStream] []),
    .assign (.attr (.name I.self) I.ownStationLocation) (.method (.name I.inputStream) I.read_unsigned_short [] []),
    .assign (.attr (.name I.self) I.physicalConnectionType) (.method (.name I.inputStream) I.read_unsigned_byte [] []),
    .assign (.attr (.name I.self) I.groupMemberType) (.method (.name I.inputStream) I.read_unsigned_byte [] []),
    .assign (.attr (.name I.self) I.groupNumber) (.method (.name I.inputStream) I.read_unsigned_short [] [])]

/-- `class EntityAssociation`, /repo/opendis/dis7.py:475-530. -/
def EntityAssociation : Class where
  base := none
  attrs := [(I.recordType, .int 4)]
  methods :=
   [(I.__init__, EntityAssociation.__init__),
    (I.serialize, EntityAssociation.serialize),
    (I.parse, EntityAssociation.parse)]

/-- `VectoringNozzleSystem.__init__`, /repo/opendis/dis7.py:539-543. -/
def VectoringNozzleSystem.__init__ : Method where
  params := [(I.horizontalDeflectionAngle, some (.float 0x0000000000000000)), (I.verticalDeflectionAngle, some (.float
   0x0000000000000000))]
  property := false
  body :=
   [.assign (.attr (.name I.self) I.horizontalDeflectionAngle) (.name I.horizontalDeflectionAngle),
    .assign (.attr (.name I.self) I.verticalDeflectionAngle) (.name I.verticalDeflectionAngle)]

/-- `VectoringNozzleSystem.serialize`, /repo/opendis/dis7.py:545-548. -/
def VectoringNozzleSystem.serialize : Method where
  params := [(I.outputStream, none)]
  property := false
  body :=
   [.expr (.method (.name I.outputStream) I.write_float [.attr (.name I.self) I.horizontalDeflectionAngle] []),
    .expr (.method (.name I.outputStream) I.write_float [.attr (.name I.self) I.verticalDeflectionAngle] [])]

/-- `VectoringNozzleSystem.parse`, /repo/opendis/dis7.py:550-553. -/
def VectoringNozzleSystem.parse : Method where
  params := [(I.inputStream, none)]
  property := false
  body :=
   [.assign (.attr (.name I.self) I.horizontalDeflectionAngle) (.method (.name I.inputStream) I.read_float [] []),
    .assign (.attr (.name I.self) I.verticalDeflectionAngle) (.method (.name I.inputStream) I.read_float [] [])]

/-- `class VectoringNozzleSystem`, /repo/opendis/dis7.py:533-553. -/
def VectoringNozzleSystem : Class where
  base := none
  attrs := []
  methods :=
   [(I.__init__, VectoringNozzleSystem.__init__),
    (I.serialize, VectoringNozzleSystem.serialize),
    (I.parse, VectoringNozzleSystem.parse)]

/-- `FalseTargetsAttribute.__init__`, /repo/opendis/dis7.py:569-589. -/
def FalseTargetsAttribute.__init__ : Method where
  params := [(I.emitterNumber, some (.int 0)), (I.beamNumber, some (.int 0)), (I.stateIndicator, some (.int 0)),
   (I.falseTargetCount, some (.int 0)), (I.walkSpeed, some (.float 0x0000000000000000)), (I.walkAcceleration,
   some (.float 0x0000000000000000)), (I.maximumWalkDistance, some (.float 0x0000000000000000)), (I.keepTime,
   some (.float 0x0000000000000000)), (I.echoSpacing, some (.float 0x0000000000000000))]
  property := false
  body :=
   [.assign (.attr (.name I.self) I.padding) (.int 0),
    .assign (.attr (.name I.self) I.emitterNumber) (.name I.emitterNumber),
    .assign (.attr (.name I.self) I.beamNumber) (.name I.beamNumber),
    .assign (.attr (.name I.self) I.stateIndicator) (.name I.stateIndicator),
    .assign (.attr (.name I.self) I.padding2) (.int 0),
    .assign (.attr (.name I.self) I.falseTargetCount) (.name I.falseTargetCount),
    .assign (.attr (.name I.self) I.walkSpeed) (.name I.walkSpeed),
    .assign (.attr (.name I.self) I.walkAcceleration) (.name I.walkAcceleration),
    .assign (.attr (.name I.self) I.maximumWalkDistance) (.name I.maximumWalkDistance),
    .assign (.attr (.name I.self) I.keepTime) (.name I.keepTime),
    .assign (.attr (.name I.self) I.echoSpacing) (.name I.echoSpacing)]

/-- `FalseTargetsAttribute.serialize`, /repo/opendis/dis7.py:591-605. -/
def FalseTargetsAttribute.serialize : Method where
  params := [(I.outputStream, none)]
  property := false
  body :=
   [.expr (.method (.name I.outputStream) I.write_unsigned_int [.attr (.name I.self) I.recordType] []),
    .expr (.method (.name I.outputStream) I.write_unsigned_short [.attr (.name I.self) I.recordLength] []),
    .expr (.method (.name I.outputStream) I.write_unsigned_short [.attr (.name I.self) I.padding] []),
    .expr (.method (.name I.outputStream) I.write_unsigned_byte [.attr (.name I.self) I.emitterNumber] []),
    .expr (.method (.name I.outputStream) I.write_unsigned_byte [.attr (.name I.self) I.beamNumber] []),
    .expr (.method (.name I.outputStream) I.write_unsigned_byte [.attr (.name I.self) I.stateIndicator] []),
    .expr (.method (.name I.outputStream) I.write_unsigned_byte [.attr (.name I.self) I.padding2] []),
    .expr (.method (.name I.outputStream) I.write_unsigned_short [.attr (.name I.self) I.falseTargetCount] []),
    .expr (.method (.name I.outputStream) I.write_float [.attr (.name I.self) I.walkSpeed] []),
    .expr (.method (.name I.outputStream) I.write_float [.attr (.name I.self) I.walkAcceleration] []),
    .expr (.method (.name I.outputStream) I.write_float [.attr (.name I.self) I.maximumWalkDistance] []),
    .expr (.method (.name I.outputStream) I.write_float [.attr (.name I.self) I.keepTime] []),
    .expr (.method (.name I.outputStream) I.write_float [.attr (.name I.self) I.echoSpacing] [])]

/-- `FalseTargetsAttribute.parse`, /repo/opendis/dis7.py:607-621. -/
def FalseTargetsAttribute.parse : Method where
  params := [(I.inputStream, none)]
  property := false
  body :=
   [.assign (.attr (.name I.self) I.recordType) (.method (.name I.inputStream) I.read_unsigned_int [] []),
    .assign (.attr (.name I.self) I.recordLength) (.method (.name I.inputStream) I.read_unsigned_short [] []),
    .assign (.attr (.name I.self) I.padding) (.method (.name I.inputStream) I.read_unsigned_short [] []),
    .assign (.attr (.name I.self) I.emitterNumber) (.method (.name I.inputStream) I.read_unsigned_byte [] []),
    .assign (.attr (.name I.self) I.beamNumber) (.method (.name I.inputStream) I.read_unsigned_byte [] []),
    .assign (.attr (.name I.self) I.stateIndicator) (.method (.name I.inputStream) I.read_unsigned_byte [] []),
    .assign (.attr (.name I.self) I.padding2) (.method (.name I.inputStream) I.read_unsigned_byte [] []),
    .assign (.attr (.name I.self) I.falseTargetCount) (.method (.name I.inputStream) I.read_unsigned_short [] []),
    .assign (.attr (.name I.self) I.walkSpeed) (.method (.name I.inputStream) I.read_float [] []),
    .assign (.attr (.name I.self) I.walkAcceleration) (.method (.name I.inputStream) I.read_float [] []),
    .assign (.attr (.name I.self) I.maximumWalkDistance) (.method (.name I.inputStream) I.read_float [] []),
    .assign (.attr (.name I.self) I.keepTime) (.method (.name I.inputStream) I.read_float [] []),
    .assign (.attr (.name I.self) I.echoSpacing) (.method (.name I.inputStream) I.read_float [] [])]

/-- `class FalseTargetsAttribute`, /repo/opendis/dis7.py:556-621. -/
def FalseTargetsAttribute : Class where
  base := none
  attrs := [(I.recordType, .int 3502), (I.recordLength, .int 48)]
  methods :=
   [(I.__init__, FalseTargetsAttribute.__init__),
    (I.serialize, FalseTargetsAttribute.serialize),
    (I.parse, FalseTargetsAttribute.parse)]

/-- `MinefieldIdentifier.__init__`, /repo/opendis/dis7.py:630-634. -/
def MinefieldIdentifier.__init__ : Method where
  params := [(I.simulationAddress, some (.none)), (I.minefieldNumber, some (.int 0))]
  property := false
  body :=
   [.assign (.attr (.name I.self) I.simulationAddress) (.or (.name I.simulationAddress) (.call I.SimulationAddress [] [])),
    .assign (.attr (.name I.self) I.minefieldNumber) (.name I.minefieldNumber)]

/-- `MinefieldIdentifier.serialize`, /repo/opendis/dis7.py:636-639. -/
def MinefieldIdentifier.serialize : Method where
  params := [(I.outputStream, none)]
  property := false
  body :=
   [.expr (.method (.attr (.name I.self) I.simulationAddress) I.serialize [.name I.outputStream] []),
    .expr (.method (.name I.outputStream) I.write_unsigned_short [.attr (.name I.self) I.minefieldNumber] [])]

/-- `MinefieldIdentifier.parse`, /repo/opendis/dis7.py:641-644. -/
def MinefieldIdentifier.parse : Method where
  params := [(I.inputStream, none)]
  property := false
  body :=
   [.expr (.method (.attr (.name I.self) I.simulationAddress) I.parse [.name I.inputStream] []),
    .assign (.attr (.name I.self) I.minefieldNumber) (.method (.name I.inputStream) I.read_unsigned_short [] [])]

/-- `class MinefieldIdentifier`, /repo/opendis/dis7.py:624-644. -/
def MinefieldIdentifier : Class where
  base := none
  attrs := []
  methods :=
   [(I.__init__, MinefieldIdentifier.__init__),
    (I.serialize, MinefieldIdentifier.serialize),
    (I.parse, MinefieldIdentifier.parse)]

/-- `RadioType.__init__`, /repo/opendis/dis7.py:654-670. -/
def RadioType.__init__ : Method where
  params := [(I.domain, some (.int 0)), (I.country, some (.int 0)), (I.category, some (.int 0)), (I.subcategory, some
   (.int 0)), (I.specific, some (.int 0)), (I.extra, some (.int 0))]
  property := false
  body :=
   [.assign (.attr (.name I.self) I.domain) (.name I.domain),
    .assign (.attr (.name I.self) I.country) (.name I.country),
    .assign (.attr (.name I.self) I.category) (.name I.category),
    .assign (.attr (.name I.self) I.subcategory) (.name I.subcategory),
    .assign (.attr (.name I.self) I.specific) (.name I.specific),
    .assign (.attr (.name I.self) I.extra) (.name I.extra)]

/-- `RadioType.serialize`, /repo/opendis/dis7.py:672-680. -/
def RadioType.serialize : Method where
  params := [(I.outputStream, none)]
  property := false
  body :=
   [.expr (.method (.name I.outputStream) I.write_unsigned_byte [.attr (.name I.self) I.entityKind] []),
    .expr (.method (.name I.outputStream) I.write_unsigned_byte [.attr (.name I.self) I.domain] []),
    .expr (.method (.name I.outputStream) I.write_unsigned_short [.attr (.name I.self) I.country] []),
    .expr (.method (.name I.outputStream) I.write_unsigned_byte [.attr (.name I.self) I.category] []),
    .expr (.method (.name I.outputStream) I.write_unsigned_byte [.attr (.name I.self) I.subcategory] []),
    .expr (.method (.name I.outputStream) I.write_unsigned_byte [.attr (.name I.self) I.specific] []),
    .expr (.method (.name I.outputStream) I.write_unsigned_byte [.attr (.name I.self) I.extra] [])]

/-- `RadioType.parse`, /repo/opendis/dis7.py:682-690. -/
def RadioType.parse : Method where
  params := [(I.inputStream, none)]
  property := false
  body :=
   [.assign (.attr (.name I.self) I.entityKind) (.method (.name I.inputStream) I.read_unsigned_byte [] []),
    .assign (.attr (.name I.self) I.domain) (.method (.name I.inputStream) I.read_unsigned_byte [] []),
    .assign (.attr (.name I.self) I.country) (.method (.name I.inputStream) I.read_unsigned_short [] []),
    .assign (.attr (.name I.self) I.category) (.method (.name I.inputStream) I.read_unsigned_byte [] []),
    .assign (.attr (.name I.self) I.subcategory) (.method (.name I.inputStream) I.read_unsigned_byte [] []),
    .assign (.attr (.name I.self) I.specific) (.method (.name I.inputStream) I.read_unsigned_byte [] []),
    .assign (.attr (.name I.self) I.extra) (.method (.name I.inputStream) I.read_unsigned_byte [] [])]

/-- `class RadioType`, /repo/opendis/dis7.py:647-690. -/
def RadioType : Class where
  base := none
  attrs := [(I.entityKind, .int 7)]
  methods :=
   [(I.__init__, RadioType.__init__),
    (I.serialize, RadioType.serialize),
    (I.parse, RadioType.parse)]

/-- `NamedLocationIdentification.__init__`, /repo/opendis/dis7.py:700-707. -/
def NamedLocationIdentification.__init__ : Method where
  params := [(I.stationName, some (.int 0)), (I.stationNumber, some (.int 0))]
  property := false
  body :=
   [.assign (.attr (.name I.self) I.stationName) (.name I.stationName),
    .assign (.attr (.name I.self) I.stationNumber) (.name I.stationNumber)]

/-- `NamedLocationIdentification.serialize`, /repo/opendis/dis7.py:709-712. -/
def NamedLocationIdentification.serialize : Method where
  params := [(I.outputStream, none)]
  property := false
  body :=
   [.expr (.method (.name I.outputStream) I.write_unsigned_short [.attr (.name I.self) I.stationName] []),
    .expr (.method (.name I.outputStream) I.write_unsigned_short [.attr (.name I.self) I.stationNumber] [])]

/-- `NamedLocationIdentification.parse`, /repo/opendis/dis7.py:714-717. -/
def NamedLocationIdentification.parse : Method where
  params := [(I.inputStream, none)]
  property := false
  body :=
   [.assign (.attr (.name I.self) I.stationName) (.method (.name I.inputStream) I.read_unsigned_short [] []),
    .assign (.attr (.name I.self) I.stationNumber) (.method (.name I.inputStream) I.read_unsigned_short [] [])]

/-- `class NamedLocationIdentification`, /repo/opendis/dis7.py:693-717. -/
def NamedLocationIdentification : Class where
  base := none
  attrs := []
  methods :=
   [(I.__init__, NamedLocationIdentification.__init__),
    (I.serialize, NamedLocationIdentification.serialize),
    (I.parse, NamedLocationIdentification.parse)]

/-- `IFFDataSpecification.__init__`, /repo/opendis/dis7.py:726-727. -/
def IFFDataSpecification.__init__ : Method where
  params := [(I.iffDataRecords, some (.none))]
  property := false
  body :=
   [.assign (.attr (.name I.self) I.iffDataRecords) (.or (.name I.iffDataRecords) (.list []))]

/-- `IFFDataSpecification.numberOfIFFDataRecords`, /repo/opendis/dis7.py:730-731. -/
def IFFDataSpecification.numberOfIFFDataRecords : Method where
  params := []
  property := true
  body :=
   [.ret (.call I.len [.attr (.name I.self) I.iffDataRecords] [])]

/-- `IFFDataSpecification.serialize`, /repo/opendis/dis7.py:733-737. -/
def IFFDataSpecification.serialize : Method where
  params := [(I.outputStream, none)]
  property := false
  body :=
   [.expr (.method (.name I.outputStream) I.write_unsigned_short [.attr (.name I.self) I.numberOfIFFDataRecords] []),
    .for I.anObj (.attr (.name I.self) I.iffDataRecords)
      [.expr (.method (.name I.anObj) I.serialize [.name I.outputStream] [])]]

/-- `IFFDataSpecification.parse`, /repo/opendis/dis7.py:739-745. -/
def IFFDataSpecification.parse : Method where
  params := [(I.inputStream, none)]
  property := false
  body :=
   [.assign (.name I.numberOfIFFDataRecords) (.method (.name I.inputStream) I.read_unsigned_short [] []),
    .for I.idx (.call I.range [.int 0, .name I.numberOfIFFDataRecords] [])
      [.assign (.name I.element) (.call I.IFFData [] []),
       .expr (.method (.name I.element) I.parse [.name I.inputStream] []),
       .expr (.method (.attr (.name I.self) I.iffDataRecords) I.append [.name I.element] [])]]

/-- `class IFFDataSpecification`, /repo/opendis/dis7.py:720-745. -/
def IFFDataSpecification : Class where
  base := none
  attrs := []
  methods :=
   [(I.__init__, IFFDataSpecification.__init__),
    (I.numberOfIFFDataRecords, IFFDataSpecification.numberOfIFFDataRecords),
    (I.serialize, IFFDataSpecification.serialize),
    (I.parse, IFFDataSpecification.parse)]

/-- `OwnershipStatus.__init__`, /repo/opendis/dis7.py:754-761. -/
def OwnershipStatus.__init__ : Method where
  params := [(I.entityId, some (.none)), (I.ownershipStatus, some (.int 0))]
  property := false
  body :=
   [.assign (.attr (.name I.self) I.entityId) (.or (.name I.entityId) (.call I.EntityIdentifier [] [])),
    .assign (.attr (.name I.self) I.ownershipStatus) (.name I.ownershipStatus),
    .assign (.attr (.name I.self) I.padding) (.int 0)]

/-- `OwnershipStatus.serialize`, /repo/opendis/dis7.py:763-767. -/
def OwnershipStatus.serialize : Method where
  params := [(I.outputStream, none)]
  property := false
  body :=
   [.expr (.method (.attr (.name I.self) I.entityId) I.serialize [.name I.outputStream] []),
    .expr (.method (.name I.outputStream) I.write_unsigned_byte [.attr (.name I.self) I.ownershipStatus] []),
    .expr (.method (.name I.outputStream) I.write_unsigned_byte [.attr (.name I.self) I.padding] [])]

/-- `OwnershipStatus.parse`, /repo/opendis/dis7.py:769-773. -/
def OwnershipStatus.parse : Method where
  params := [(I.inputStream, none)]
  property := false
  body :=
   [.expr (.method (.attr (.name I.self) I.entityId) I.parse [.name I.inputStream] []),
    .assign (.attr (.name I.self) I.ownershipStatus) (.method (.name I.inputStream) I.read_unsigned_byte [] []),
    .assign (.attr (.name I.self) I.padding) (.method (.name I.inputStream) I.read_unsigned_byte [] [])]

/-- `class OwnershipStatus`, /repo/opendis/dis7.py:748-773. -/
def OwnershipStatus : Class where
  base := none
  attrs := []
  methods :=
   [(I.__init__, OwnershipStatus.__init__),
    (I.serialize, OwnershipStatus.serialize),
    (I.parse, OwnershipStatus.parse)]

/-- `AttachedParts.__init__`, /repo/opendis/dis7.py:783-795. -/
def AttachedParts.__init__ : Method where
  params := [(I.detachedIndicator, some (.int 0)), (I.partAttachedTo, some (.int 0)), (I.parameterType, some (.int 0)),
   (I.attachedPartType, some (.none))]
  property := false
  body :=
   [.assign (.attr (.name I.self) I.detachedIndicator) (.name I.detachedIndicator),
    .assign (.attr (.name I.self) I.partAttachedTo) (.name I.partAttachedTo),
    .assign (.attr (.name I.self) I.parameterType) (.name I.parameterType),
    .assign (.attr (.name I.self) I.attachedPartType) (.or (.name I.attachedPartType) (.call I.EntityType [] []))]

/-- `AttachedParts.serialize`, /repo/opendis/dis7.py:797-803. -/
def AttachedParts.serialize : Method where
  params := [(I.outputStream, none)]
  property := false
  body :=
   [.expr (.method (.name I.outputStream) I.write_unsigned_byte [.attr (.name I.self) I.recordType] []),
    .expr (.method (.name I.outputStream) I.write_unsigned_byte [.attr (.name I.self) I.detachedIndicator] []),
    .expr (.method (.name I.outputStream) I.write_unsigned_short [.attr (.name I.self) I.partAttachedTo] []),
    .expr (.method (.name I.outputStream) I.write_unsigned_int [.attr (.name I.self) I.parameterType] []),
    .expr (.method (.name I.outputStream) I.write_long [.attr (.name I.self) I.parameterValue] [])]

/-- `AttachedParts.parse`, /repo/opendis/dis7.py:805-811. -/
def AttachedParts.parse : Method where
  params := [(I.inputStream, none)]
  property := false
  body :=
   [.assign (.attr (.name I.self) I.recordType) (.method (.name I.inputStream) I.read_unsigned_byte [] []),
    .assign (.attr (.name I.self) I.detachedIndicator) (.method (.name I.inputStream) I.read_unsigned_byte [] []),
    .assign (.attr (.name I.self) I.partAttachedTo) (.method (.name I.inputStream) I.read_unsigned_short [] []),
    .assign (.attr (.name I.self) I.parameterType) (.method (.name I.inputStream) I.read_unsigned_int [] []),
    .assign (.attr (.name I.self) I.parameterValue) (.method (.name I.inputStream) I.read_long [] [])]

/-- `class AttachedParts`, /repo/opendis/dis7.py:776-811. -/
def AttachedParts : Class where
  base := none
  attrs := [(I.recordType, .int 1)]
  methods :=
   [(I.__init__, AttachedParts.__init__),
    (I.serialize, AttachedParts.serialize),
    (I.parse, AttachedParts.parse)]

/-- `Attribute.__init__`, /repo/opendis/dis7.py:821-827. -/
def Attribute.__init__ : Method where
  params := [(I.recordType, some (.int 0)), (I.recordLength, some (.int 0)), (I.recordSpecificFields, some (.int 0))]
  property := false
  body :=
   [.assign (.attr (.name I.self) I.recordType) (.name I.recordType),
    .assign (.attr (.name I.self) I.recordLength) (.name I.recordLength),
    .assign (.attr (.name I.self) I.recordSpecificFields) (.name I.recordSpecificFields)]

/-- `Attribute.serialize`, /repo/opendis/dis7.py:829-833. -/
def Attribute.serialize : Method where
  params := [(I.outputStream, none)]
  property := false
  body :=
   [.expr (.method (.name I.outputStream) I.write_unsigned_int [.attr (.name I.self) I.recordType] []),
    .expr (.method (.name I.outputStream) I.write_unsigned_short [.attr (.name I.self) I.recordLength] []),
    .expr (.method (.name I.outputStream) I.write_long [.attr (.name I.self) I.recordSpecificFields] [])]

/-- `Attribute.parse`, /repo/opendis/dis7.py:835-839. -/
def Attribute.parse : Method where
  params := [(I.inputStream, none)]
  property := false
  body :=
   [.assign (.attr (.name I.self) I.recordType) (.method (.name I.inputStream) I.read_unsigned_int [] []),
    .assign (.attr (.name I.self) I.recordLength) (.method (.name I.inputStream) I.read_unsigned_short [] []),
    .assign (.attr (.name I.self) I.recordSpecificFields) (.method (.name I.inputStream) I.read_long [] [])]

/-- `class Attribute`, /repo/opendis/dis7.py:814-839. -/
def Attribute : Class where
  base := none
  attrs := []
  methods :=
   [(I.__init__, Attribute.__init__),
    (I.serialize, Attribute.serialize),
    (I.parse, Attribute.parse)]

/-- `RecordQuerySpecification.__init__`, /repo/opendis/dis7.py:848-851. -/
def RecordQuerySpecification.__init__ : Method where
  params := [(I.recordIDs, some (.none))]
  property := false
  body :=
   [.assign (.attr (.name I.self) I.recordIDs) (.or (.name I.recordIDs) (.list []))]

/-- `RecordQuerySpecification.numberOfRecords`, /repo/opendis/dis7.py:854-855. -/
def RecordQuerySpecification.numberOfRecords : Method where
  params := []
  property := true
  body :=
   [.ret (.call I.len [.attr (.name I.self) I.recordIDs] [])]

/-- `RecordQuerySpecification.serialize`, /repo/opendis/dis7.py:857-861. -/
def RecordQuerySpecification.serialize : Method where
  params := [(I.outputStream, none)]
  property := false
  body :=
   [.expr (.method (.name I.outputStream) I.write_unsigned_int [.attr (.name I.self) I.numberOfRecords] []),
    .for I.anObj (.attr (.name I.self) I.recordIDs)
      [.expr (.method (.name I.outputStream) I.write_unsigned_int [.name I.anObj] [])]]

/-- `RecordQuerySpecification.parse`, /repo/opendis/dis7.py:863-868. -/
def RecordQuerySpecification.parse : Method where
  params := [(I.inputStream, none)]
  property := false
  body :=
   [.assign (.name I.numberOfRecords) (.method (.name I.inputStream) I.read_unsigned_int [] []),
    .for I.idx (.call I.range [.int 0, .name I.numberOfRecords] [])
      [.assign (.name I.val) (.method (.name I.inputStream) I.read_unsigned_int [] []),
       .expr (.method (.attr (.name I.self) I.recordIDs) I.append [.name I.val] [])]]

/-- `class RecordQuerySpecification`, /repo/opendis/dis7.py:842-868. -/
def RecordQuerySpecification : Class where
  base := none
  attrs := []
  methods :=
   [(I.__init__, RecordQuerySpecification.__init__),
    (I.numberOfRecords, RecordQuerySpecification.numberOfRecords),
    (I.serialize, RecordQuerySpecification.serialize),
    (I.parse, RecordQuerySpecification.parse)]

/-- `ArticulatedParts.__init__`, /repo/opendis/dis7.py:879-891. -/
def ArticulatedParts.__init__ : Method where
  params := [(I.changeIndicator, some (.int 0)), (I.partAttachedTo, some (.int 0)), (I.parameterType, some (.int 0)),
   (I.parameterValue, some (.int 0))]
  property := false
  body :=
   [.assign (.attr (.name I.self) I.changeIndicator) (.name I.changeIndicator),
    .assign (.attr (.name I.self) I.partAttachedTo) (.name I.partAttachedTo),
    .assign (.attr (.name I.self) I.parameterType) (.name I.parameterType),
    .assign (.attr (.name I.self) I.parameterValue) (.name I.parameterValue)]

/-- `ArticulatedParts.serialize`, /repo/opendis/dis7.py:893-899. -/
def ArticulatedParts.serialize : Method where
  params := [(I.outputStream, none)]
  property := false
  body :=
   [.expr (.method (.name I.outputStream) I.write_unsigned_byte [.attr (.name I.self) I.recordType] []),
    .expr (.method (.name I.outputStream) I.write_unsigned_byte [.attr (.name I.self) I.changeIndicator] []),
    .expr (.method (.name I.outputStream) I.write_unsigned_short [.attr (.name I.self) I.partAttachedTo] []),
    .expr (.method (.name I.outputStream) I.write_unsigned_int [.attr (.name I.self) I.parameterType] []),
    .expr (.method (.name I.outputStream) I.write_long [.attr (.name I.self) I.parameterValue] [])]

/-- `ArticulatedParts.parse`, /repo/opendis/dis7.py:901-907. -/
def ArticulatedParts.parse : Method where
  params := [(I.inputStream, none)]
  property := false
  body :=
   [.assign (.attr (.name I.self) I.recordType) (.method (.name I.inputStream) I.read_unsigned_byte [] []),
    .assign (.attr (.name I.self) I.changeIndicator) (.method (.name I.inputStream) I.read_unsigned_byte [] []),
    .assign (.attr (.name I.self) I.partAttachedTo) (.method (.name I.inputStream) I.read_unsigned_short [] []),
    .assign (.attr (.name I.self) I.parameterType) (.method (.name I.inputStream) I.read_unsigned_int [] []),
    .assign (.attr (.name I.self) I.parameterValue) (.method (.name I.inputStream) I.read_long [] [])]

/-- `class ArticulatedParts`, /repo/opendis/dis7.py:871-907. -/
def ArticulatedParts : Class where
  base := none
  attrs := [(I.recordType, .int 0)]
  methods :=
   [(I.__init__, ArticulatedParts.__init__),
    (I.serialize, ArticulatedParts.serialize),
    (I.parse, ArticulatedParts.parse)]

/-- `ObjectType.__init__`, /repo/opendis/dis7.py:916-928. -/
def ObjectType.__init__ : Method where
  params := [(I.domain, some (.int 0)), (I.objectKind, some (.int 0)), (I.category, some (.int 0)), (I.subcategory, some
   (.int 0))]
  property := false
  body :=
   [.assign (.attr (.name I.self) I.domain) (.name I.domain),
    .assign (.attr (.name I.self) I.objectKind) (.name I.objectKind),
    .assign (.attr (.name I.self) I.category) (.name I.category),
    .assign (.attr (.name I.self) I.subcategory) (.name I.subcategory)]

/-- `ObjectType.serialize`, /repo/opendis/dis7.py:930-935. -/
def ObjectType.serialize : Method where
  params := [(I.outputStream, none)]
  property := false
  body :=
   [.expr (.method (.name I.outputStream) I.write_unsigned_byte [.attr (.name I.self) I.domain] []),
    .expr (.method (.name I.outputStream) I.write_unsigned_byte [.attr (.name I.self) I.objectKind] []),
    .expr (.method (.name I.outputStream) I.write_unsigned_byte [.attr (.name I.self) I.category] []),
    .expr (.method (.name I.outputStream) I.write_unsigned_byte [.attr (.name I.self) I.subcategory] [])]

/-- `ObjectType.parse`, /repo/opendis/dis7.py:937-942. -/
def ObjectType.parse : Method where
  params := [(I.inputStream, none)]
  property := false
  body :=
   [.assign (.attr (.name I.self) I.domain) (.method (.name I.inputStream) I.read_unsigned_byte [] []),
    .assign (.attr (.name I.self) I.objectKind) (.method (.name I.inputStream) I.read_unsigned_byte [] []),
    .assign (.attr (.name I.self) I.category) (.method (.name I.inputStream) I.read_unsigned_byte [] []),
    .assign (.attr (.name I.self) I.subcategory) (.method (.name I.inputStream) I.read_unsigned_byte [] [])]

/-- `class ObjectType`, /repo/opendis/dis7.py:910-942. -/
def ObjectType : Class where
  base := none
  attrs := []
  methods :=
   [(I.__init__, ObjectType.__init__),
    (I.serialize, ObjectType.serialize),
    (I.parse, ObjectType.parse)]

/-- `Association.__init__`, /repo/opendis/dis7.py:956-965. -/
def Association.__init__ : Method where
  params := [(I.associationType, some (.int 0)), (I.associatedEntityID, some (.none)), (I.associatedLocation, some
   (.none))]
  property := false
  body :=
   [.assign (.attr (.name I.self) I.associationType) (.name I.associationType),
    .assign (.attr (.name I.self) I.padding4) (.int 0),
    .assign (.attr (.name I.self) I.associatedEntityID) (.or (.name I.associatedEntityID) (.call I.EntityIdentifier [] [])),
    .assign (.attr (.name I.self) I.associatedLocation) (.or (.name I.associatedLocation) (.call I.WorldCoordinates [] []))]

/-- `Association.serialize`, /repo/opendis/dis7.py:967-972. -/
def Association.serialize : Method where
  params := [(I.outputStream, none)]
  property := false
  body :=
   [.expr (.method (.name I.outputStream) I.write_unsigned_byte [.attr (.name I.self) I.associationType] []),
    .expr (.method (.name I.outputStream) I.write_unsigned_byte [.attr (.name I.self) I.padding4] []),
    .expr (.method (.attr (.name I.self) I.associatedEntityID) I.serialize [.name I.outputStream] []),
    .expr (.method (.attr (.name I.self) I.associatedLocation) I.serialize [.name I.outputStream] [])]

/-- `Association.parse`, /repo/opendis/dis7.py:974-979. -/
def Association.parse : Method where
  params := [(I.inputStream, none)]
  property := false
  body :=
   [.assign (.attr (.name I.self) I.associationType) (.method (.name I.inputStream) I.read_unsigned_byte [] []),
    .assign (.attr (.name I.self) I.padding4) (.method (.name I.inputStream) I.read_unsigned_byte [] []),
    .expr (.method (.attr (.name I.self) I.associatedEntityID) I.parse [.name I.inputStream] []),
    .expr (.method (.attr (.name I.self) I.associatedLocation) I.parse [.name I.inputStream] [])]

/-- `class Association`, /repo/opendis/dis7.py:945-979. -/
def Association : Class where
  base := none
  attrs := []
  methods :=
   [(I.__init__, Association.__init__),
    (I.serialize, Association.serialize),
    (I.parse, Association.parse)]

/-- `RecordSpecificationElement.__init__`, /repo/opendis/dis7.py:987-1004. -/
def RecordSpecificationElement.__init__ : Method where
  params := [(I.recordID, some (.int 0)), (I.recordSetSerialNumber, some (.int 0)), (I.recordLength, some (.int 0)),
   (I.recordCount, some (.int 0)), (I.recordValues, some (.int 0))]
  property := false
  body :=
   [.assign (.attr (.name I.self) I.recordID) (.name I.recordID),
    .assign (.attr (.name I.self) I.recordSetSerialNumber) (.name I.recordSetSerialNumber),
    .assign (.attr (.name I.self) I.recordLength) (.name I.recordLength),
    .assign (.attr (.name I.self) I.recordCount) (.name I.recordCount),
    .assign (.attr (.name I.self) I.recordValues) (.name I.recordValues),
    .assign (.attr (.name I.self) I.pad4) (.int 0)]

/-- `RecordSpecificationElement.serialize`, /repo/opendis/dis7.py:1006-1013. -/
def RecordSpecificationElement.serialize : Method where
  params := [(I.outputStream, none)]
  property := false
  body :=
   [.expr (.method (.name I.outputStream) I.write_unsigned_int [.attr (.name I.self) I.recordID] []),
    .expr (.method (.name I.outputStream) I.write_unsigned_int [.attr (.name I.self) I.recordSetSerialNumber] []),
    .expr (.method (.name I.outputStream) I.write_unsigned_short [.attr (.name I.self) I.recordLength] []),
    .expr (.method (.name I.outputStream) I.write_unsigned_short [.attr (.name I.self) I.recordCount] []),
    .expr (.method (.name I.outputStream) I.write_unsigned_short [.attr (.name I.self) I.recordValues] []),
    .expr (.method (.name I.outputStream) I.write_unsigned_byte [.attr (.name I.self) I.pad4] [])]

/-- `RecordSpecificationElement.parse`, /repo/opendis/dis7.py:1015-1022. -/
def RecordSpecificationElement.parse : Method where
  params := [(I.inputStream, none)]
  property := false
  body :=
   [.assign (.attr (.name I.self) I.recordID) (.method (.name I.inputStream) I.read_unsigned_int [] []),
    .assign (.attr (.name I.self) I.recordSetSerialNumber) (.method (.name I.inputStream) I.read_unsigned_int [] []),
    .assign (.attr (.name I.self) I.recordLength) (.method (.name I.inputStream) I.read_unsigned_short [] []),
    .assign (.attr (.name I.self) I.recordCount) (.method (.name I.inputStream) I.read_unsigned_short [] []),
    .assign (.attr (.name I.self) I.recordValues) (.method (.name I.inputStream) I.read_unsigned_short [] []),
    .assign (.attr (.name I.self) I.pad4) (.method (.name I.inputStream) I.read_unsigned_byte [] [])]

/-- `class RecordSpecificationElement`, /repo/opendis/dis7.py:982-1022. -/
def RecordSpecificationElement : Class where
  base := none
  attrs := []
  methods :=
   [(I.__init__, RecordSpecificationElement.__init__),
    (I.serialize, RecordSpecificationElement.serialize),
    (I.parse, RecordSpecificationElement.parse)]

/-- `AntennaLocation.__init__`, /repo/opendis/dis7.py:1031-1038. -/
def AntennaLocation.__init__ : Method where
  params := [(I.antennaLocation, some (.none)), (I.relativeAntennaLocation, some (.none))]
  property := false
  body :=
   [.assign (.attr (.name I.self) I.antennaLocation) (.or (.name I.antennaLocation) (.call I.WorldCoordinates [] [])),
    .assign (.attr (.name I.self) I.relativeAntennaLocation) (.or (.name I.relativeAntennaLocation) (.call I.Vector3Float [] []))]

/-- `AntennaLocation.serialize`, /repo/opendis/dis7.py:1040-1043. -/
def AntennaLocation.serialize : Method where
  params := [(I.outputStream, none)]
  property := false
  body :=
   [.expr (.method (.attr (.name I.self) I.antennaLocation) I.serialize [.name I.outputStream] []),
    .expr (.method (.attr (.name I.self) I.relativeAntennaLocation) I.serialize [.name I.outputStream] [])]

/-- `AntennaLocation.parse`, /repo/opendis/dis7.py:1045-1048. -/
def AntennaLocation.parse : Method where
  params := [(I.inputStream, none)]
  property := false
  body :=
   [.expr (.method (.attr (.name I.self) I.antennaLocation) I.parse [.name I.inputStream] []),
    .expr (.method (.attr (.name I.self) I.relativeAntennaLocation) I.parse [.name I.inputStream] [])]

/-- `class AntennaLocation`, /repo/opendis/dis7.py:1025-1048. -/
def AntennaLocation : Class where
  base := none
  attrs := []
  methods :=
   [(I.__init__, AntennaLocation.__init__),
    (I.serialize, AntennaLocation.serialize),
    (I.parse, AntennaLocation.parse)]

/-- `ObjectIdentifier.__init__`, /repo/opendis/dis7.py:1057-1063. -/
def ObjectIdentifier.__init__ : Method where
  params := [(I.simulationAddress, some (.none)), (I.objectNumber, some (.int 0))]
  property := false
  body :=
   [.assign (.attr (.name I.self) I.simulationAddress) (.or (.name I.simulationAddress) (.call I.SimulationAddress [] [])),
    .assign (.attr (.name I.self) I.objectNumber) (.name I.objectNumber)]

/-- `ObjectIdentifier.serialize`, /repo/opendis/dis7.py:1065-1068. -/
def ObjectIdentifier.serialize : Method where
  params := [(I.outputStream, none)]
  property := false
  body :=
   [.expr (.method (.attr (.name I.self) I.simulationAddress) I.serialize [.name I.outputStream] []),
    .expr (.method (.name I.outputStream) I.write_unsigned_short [.attr (.name I.self) I.objectNumber] [])]

/-- `ObjectIdentifier.parse`, /repo/opendis/dis7.py:1070-1073. -/
def ObjectIdentifier.parse : Method where
  params := [(I.inputStream, none)]
  property := false
  body :=
   [.expr (.method (.attr (.name I.self) I.simulationAddress) I.parse [.name I.inputStream] []),
    .assign (.attr (.name I.self) I.objectNumber) (.method (.name I.inputStream) I.read_unsigned_short [] [])]

/-- `class ObjectIdentifier`, /repo/opendis/dis7.py:1051-1073. -/
def ObjectIdentifier : Class where
  base := none
  attrs := []
  methods :=
   [(I.__init__, ObjectIdentifier.__init__),
    (I.serialize, ObjectIdentifier.serialize),
    (I.parse, ObjectIdentifier.parse)]

/-- `AggregateIdentifier.__init__`, /repo/opendis/dis7.py:1082-1087. -/
def AggregateIdentifier.__init__ : Method where
  params := [(I.simulationAddress, some (.none)), (I.aggregateID, some (.int 0))]
  property := false
  body :=
   [.assign (.attr (.name I.self) I.simulationAddress) (.or (.name I.simulationAddress) (.call I.SimulationAddress [] [])),
    .assign (.attr (.name I.self) I.aggregateID) (.name I.aggregateID)]

/-- `AggregateIdentifier.serialize`, /repo/opendis/dis7.py:1089-1092. -/
def AggregateIdentifier.serialize : Method where
  params := [(I.outputStream, none)]
  property := false
  body :=
   [.expr (.method (.attr (.name I.self) I.simulationAddress) I.serialize [.name I.outputStream] []),
    .expr (.method (.name I.outputStream) I.write_unsigned_short [.attr (.name I.self) I.aggregateID] [])]

/-- `AggregateIdentifier.parse`, /repo/opendis/dis7.py:1094-1097. -/
def AggregateIdentifier.parse : Method where
  params := [(I.inputStream, none)]
  property := false
  body :=
   [.expr (.method (.attr (.name I.self) I.simulationAddress) I.parse [.name I.inputStream] []),
    .assign (.attr (.name I.self) I.aggregateID) (.method (.name I.inputStream) I.read_unsigned_short [] [])]

/-- `class AggregateIdentifier`, /repo/opendis/dis7.py:1076-1097. -/
def AggregateIdentifier : Class where
  base := none
  attrs := []
  methods :=
   [(I.__init__, AggregateIdentifier.__init__),
    (I.serialize, AggregateIdentifier.serialize),
    (I.parse, AggregateIdentifier.parse)]

/-- `FixedDatum.__init__`, /repo/opendis/dis7.py:1106-1112. -/
def FixedDatum.__init__ : Method where
  params := [(I.fixedDatumID, some (.int 0)), (I.fixedDatumValue, some (.int 0))]
  property := false
  body :=
   [.assign (.attr (.name I.self) I.fixedDatumID) (.name I.fixedDatumID),
    .assign (.attr (.name I.self) I.fixedDatumValue) (.name I.fixedDatumValue)]

/-- `FixedDatum.serialize`, /repo/opendis/dis7.py:1114-1117. -/
def FixedDatum.serialize : Method where
  params := [(I.outputStream, none)]
  property := false
  body :=
   [.expr (.method (.name I.outputStream) I.write_unsigned_int [.attr (.name I.self) I.fixedDatumID] []),
    .expr (.method (.name I.outputStream) I.write_unsigned_int [.attr (.name I.self) I.fixedDatumValue] [])]

/-- `FixedDatum.parse`, /repo/opendis/dis7.py:1119-1122. -/
def FixedDatum.parse : Method where
  params := [(I.inputStream, none)]
  property := false
  body :=
   [.assign (.attr (.name I.self) I.fixedDatumID) (.method (.name I.inputStream) I.read_unsigned_int [] []),
    .assign (.attr (.name I.self) I.fixedDatumValue) (.method (.name I.inputStream) I.read_unsigned_int [] [])]

/-- `class FixedDatum`, /repo/opendis/dis7.py:1100-1122. -/
def FixedDatum : Class where
  base := none
  attrs := []
  methods :=
   [(I.__init__, FixedDatum.__init__),
    (I.serialize, FixedDatum.serialize),
    (I.parse, FixedDatum.parse)]

/-- `VariableParameter.__init__`, /repo/opendis/dis7.py:1132-1147. -/
def VariableParameter.__init__ : Method where
  params := [(I.recordType, some (.int 0)), (I.variableParameterFields1, some (.int 0)), (I.variableParameterFields2, some
   (.int 0)), (I.variableParameterFields3, some (.int 0)), (I.variableParameterFields4, some (.int 0))]
  property := false
  body :=
   [.assign (.attr (.name I.self) I.recordType) (.name I.recordType),
    .assign (.attr (.name I.self) I.variableParameterFields1) (.name I.variableParameterFields1),
    .assign (.attr (.name I.self) I.variableParameterFields2) (.name I.variableParameterFields2),
    .assign (.attr (.name I.self) I.variableParameterFields3) (.name I.variableParameterFields3),
    .assign (.attr (.name I.self) I.variableParameterFields4) (.name I.variableParameterFields4)]

/-- `VariableParameter.serialize`, /repo/opendis/dis7.py:1149-1155. -/
def VariableParameter.serialize : Method where
  params := [(I.outputStream, none)]
  property := false
  body :=
   [.expr (.method (.name I.outputStream) I.write_unsigned_byte [.attr (.name I.self) I.recordType] []),
    .expr (.method (.name I.outputStream) I.write_double [.attr (.name I.self) I.variableParameterFields1] []),
    .expr (.method (.name I.outputStream) I.write_unsigned_int [.attr (.name I.self) I.variableParameterFields2] []),
    .expr (.method (.name I.outputStream) I.write_unsigned_short [.attr (.name I.self) I.variableParameterFields3] []),
    .expr (.method (.name I.outputStream) I.write_unsigned_byte [.attr (.name I.self) I.variableParameterFields4] [])]

/-- `VariableParameter.parse`, /repo/opendis/dis7.py:1157-1163. -/
def VariableParameter.parse : Method where
  params := [(I.inputStream, none)]
  property := false
  body :=
   [.assign (.attr (.name I.self) I.recordType) (.method (.name I.inputStream) I.read_unsigned_byte [] []),
    .assign (.attr (.name I.self) I.variableParameterFields1) (.method (.name I.inputStream) I.read_double [] []),
    .assign (.attr (.name I.self) I.variableParameterFields2) (.method (.name I.inputStream) I.read_unsigned_int [] []),
    .assign (.attr (.name I.self) I.variableParameterFields3) (.method (.name I.inputStream) I.read_unsigned_short [] []),
    .assign (.attr (.name I.self) I.variableParameterFields4) (.method (.name I.inputStream) I.read_unsigned_byte [] [])]

/-- `class VariableParameter`, /repo/opendis/dis7.py:1125-1163. -/
def VariableParameter : Class where
  base := none
  attrs := []
  methods :=
   [(I.__init__, VariableParameter.__init__),
    (I.serialize, VariableParameter.serialize),
    (I.parse, VariableParameter.parse)]

/-- `ChangeOptions.__init__`, /repo/opendis/dis7.py:1169-1171. -/
def ChangeOptions.__init__ : Method where
  params := []
  property := false
  body :=
   [.pass]

/-- `ChangeOptions.serialize`, /repo/opendis/dis7.py:1173-1175. -/
def ChangeOptions.serialize : Method where
  params := [(I.outputStream, none)]
  property := false
  body :=
   [.pass]

/-- `ChangeOptions.parse`, /repo/opendis/dis7.py:1177-1179. -/
def ChangeOptions.parse : Method where
  params := [(I.inputStream, none)]
  property := false
  body :=
   [.pass]

/-- `class ChangeOptions`, /repo/opendis/dis7.py:1166-1179. -/
def ChangeOptions : Class where
  base := none
  attrs := []
  methods :=
   [(I.__init__, ChangeOptions.__init__),
    (I.serialize, ChangeOptions.serialize),
    (I.parse, ChangeOptions.parse)]

/-- `LiveSimulationAddress.__init__`, /repo/opendis/dis7.py:1189-1195. -/
def LiveSimulationAddress.__init__ : Method where
  params := [(I.liveSiteNumber, some (.int 0)), (I.liveApplicationNumber, some (.int 0))]
  property := false
  body :=
   [.assign (.attr (.name I.self) I.liveSiteNumber) (.name I.liveSiteNumber),
    .assign (.attr (.name I.self) I.liveApplicationNumber) (.name I.liveApplicationNumber)]

/-- `LiveSimulationAddress.serialize`, /repo/opendis/dis7.py:1197-1200. -/
def LiveSimulationAddress.serialize : Method where
  params := [(I.outputStream, none)]
  property := false
  body :=
   [.expr (.method (.name I.outputStream) I.write_unsigned_byte [.attr (.name I.self) I.liveSiteNumber] []),
    .expr (.method (.name I.outputStream) I.write_unsigned_byte [.attr (.name I.self) I.liveApplicationNumber] [])]

/-- `LiveSimulationAddress.parse`, /repo/opendis/dis7.py:1202-1205. -/
def LiveSimulationAddress.parse : Method where
  params := [(I.inputStream, none)]
  property := false
  body :=
   [.assign (.attr (.name I.self) I.liveSiteNumber) (.method (.name I.inputStream) I.read_unsigned_byte [] []),
    .assign (.attr (.name I.self) I.liveApplicationNumber) (.method (.name I.inputStream) I.read_unsigned_byte [] [])]

/-- `class LiveSimulationAddress`, /repo/opendis/dis7.py:1182-1205. -/
def LiveSimulationAddress : Class where
  base := none
  attrs := []
  methods :=
   [(I.__init__, LiveSimulationAddress.__init__),
    (I.serialize, LiveSimulationAddress.serialize),
    (I.parse, LiveSimulationAddress.parse)]

/-- `EntityMarking.__init__`, /repo/opendis/dis7.py:1214-1220. -/
def EntityMarking.__init__ : Method where
  params := [(I.characterSet, some (.int 0)), (I.characters, some (.none))]
  property := false
  body :=
   [.assign (.attr (.name I.self) I.characterSet) (.name I.characterSet),
    .assign (.attr (.name I.self) I.characters) (.or (.name I.characters) (.bin .mul (.list [.int 0]) (.int 11)))]

/-- `EntityMarking.setString`, /repo/opendis/dis7.py:1222-1227. -/
def EntityMarking.setString : Method where
  params := [(I.new_str, none)]
  property := false
  body :=
   [.for I.idx (.call I.range [.int 0, .int 11] [])
      [.ite (.cmp .lt (.name I.idx) (.call I.len [.name I.new_str] []))
         [.assign (.index (.attr (.name I.self) I.characters) (.name I.idx)) (.prim .ord (.index (.name I.new_str) (.name I.idx)))]
         [.assign (.index (.attr (.name I.self) I.characters) (.name I.idx)) (.int 0)]]]

/-- `EntityMarking.charactersString`, /repo/opendis/dis7.py:1230-1231. -/
def EntityMarking.charactersString : Method where
  params := []
  property := false
  body :=
   [.ret (.prim .decode (.prim .bytes (.prim .filter (.attr (.name I.self) I.characters))))]

/-- `EntityMarking.serialize`, /repo/opendis/dis7.py:1233-1237. -/
def EntityMarking.serialize : Method where
  params := [(I.outputStream, none)]
  property := false
  body :=
   [.expr (.method (.name I.outputStream) I.write_unsigned_byte [.attr (.name I.self) I.characterSet] []),
    .for I.idx (.call I.range [.int 0, .int 11] [])
      [.expr (.method (.name I.outputStream) I.write_byte [.index (.attr (.name I.self) I.characters) (.name I.idx)] [])]]

/-- `EntityMarking.parse`, /repo/opendis/dis7.py:1239-1245. -/
def EntityMarking.parse : Method where
  params := [(I.inputStream, none)]
  property := false
  body :=
   [.assign (.attr (.name I.self) I.characterSet) (.method (.name I.inputStream) I.read_unsigned_byte [] []),
    .assign (.attr (.name I.self) I.characters) (.bin .mul (.list [.int 0]) (.int 11)),
    .for I.idx (.call I.range [.int 0, .int 11] [])
      [.assign (.name I.val) (.method (.name I.inputStream) I.read_byte [] []),
       .assign (.index (.attr (.name I.self) I.characters) (.name I.idx)) (.name I.val)]]

/-- `class EntityMarking`, /repo/opendis/dis7.py:1208-1245. -/
def EntityMarking : Class where
  base := none
  attrs := []
  methods :=
   [(I.__init__, EntityMarking.__init__),
    (I.setString, EntityMarking.setString),
    (I.charactersString, EntityMarking.charactersString),
    (I.serialize, EntityMarking.serialize),
    (I.parse, EntityMarking.parse)]

/-- `UAFundamentalParameter.__init__`, /repo/opendis/dis7.py:1255-1273. -/
def UAFundamentalParameter.__init__ : Method where
  params := [(I.activeEmissionParameterIndex, some (.int 0)), (I.scanPattern, some (.int 0)),
   (I.beamCenterAzimuthHorizontal, some (.float 0x0000000000000000)), (I.azimuthBeamwidthHorizontal, some
   (.float 0x0000000000000000)), (I.beamCenterDepressionElevation, some (.float 0x0000000000000000)),
   (I.beamwidthDownElevation, some (.float 0x0000000000000000))]
  property := false
  body :=
   [.assign (.attr (.name I.self) I.activeEmissionParameterIndex) (.name I.activeEmissionParameterIndex),
    .assign (.attr (.name I.self) I.scanPattern) (.name I.scanPattern),
    .assign (.attr (.name I.self) I.beamCenterAzimuthHorizontal) (.name I.beamCenterAzimuthHorizontal),
    .assign (.attr (.name I.self) I.azimuthalBeamwidthHorizontal) (.name I.azimuthBeamwidthHorizontal),
    .assign (.attr (.name I.self) I.beamCenterDepressionElevation) (.name I.beamCenterDepressionElevation),
    .assign (.attr (.name I.self) I.beamwidthDownElevation) (.name I.beamwidthDownElevation)]

/-- `UAFundamentalParameter.serialize`, /repo/opendis/dis7.py:1275-1282. -/
def UAFundamentalParameter.serialize : Method where
  params := [(I.outputStream, none)]
  property := false
  body :=
   [.expr (.method (.name I.outputStream) I.write_unsigned_short [.attr (.name I.self) I.activeEmissionParameterIndex] []),
    .expr (.method (.name I.outputStream) I.write_unsigned_short [.attr (.name I.self) I.scanPattern] []),
    .expr (.method (.name I.outputStream) I.write_float [.attr (.name I.self) I.beamCenterAzimuthHorizontal] []),
    .expr (.method (.name I.outputStream) I.write_float [.attr (.name I.self) I.azimuthalBeamwidthHorizontal] []),
    .expr (.method (.name I.outputStream) I.write_float [.attr (.name I.self) I.beamCenterDepressionElevation] []),
    .expr (.method (.name I.outputStream) I.write_float [.attr (.name I.self) I.beamwidthDownElevation] [])]

/-- `UAFundamentalParameter.parse`, /repo/opendis/dis7.py:1284-1291. -/
def UAFundamentalParameter.parse : Method where
  params := [(I.inputStream, none)]
  property := false
  body :=
   [.assign (.attr (.name I.self) I.activeEmissionParameterIndex) (.method (.name I.inputStream) I.read_unsigned_short [] []),
    .assign (.attr (.name I.self) I.scanPattern) (.method (.name I.inputStream) I.read_unsigned_short [] []),
    .assign (.attr (.name I.self) I.beamCenterAzimuthHorizontal) (.method (.name I.inputStream) I.read_float [] []),
    .assign (.attr (.name I.self) I.azimuthalBeamwidthHorizontal) (.method (.name I.inputStream) I.read_float [] []),
    .assign (.attr (.name I.self) I.beamCenterDepressionElevation) (.method (.name I.inputStream) I.read_float [] []),
    .assign (.attr (.name I.self) I.beamwidthDownElevation) (.method (.name I.inputStream) I.read_float [] [])]

/-- `class UAFundamentalParameter`, /repo/opendis/dis7.py:1248-1291. -/
def UAFundamentalParameter : Class where
  base := none
  attrs := []
  methods :=
   [(I.__init__, UAFundamentalParameter.__init__),
    (I.serialize, UAFundamentalParameter.serialize),
    (I.parse, UAFundamentalParameter.parse)]

/-- `ExplosionDescriptor.__init__`, /repo/opendis/dis7.py:1300-1310. -/
def ExplosionDescriptor.__init__ : Method where
  params := [(I.explodingObject, some (.none)), (I.explosiveMaterial, some (.int 0)), (I.explosiveForce, some (.float
   0x0000000000000000))]
  property := false
  body :=
   [.assign (.attr (.name I.self) I.explodingObject) (.or (.name I.explodingObject) (.call I.EntityType [] [])),
    .assign (.attr (.name I.self) I.explosiveMaterial) (.name I.explosiveMaterial),
    .assign (.attr (.name I.self) I.padding) (.int 0),
    .assign (.attr (.name I.self) I.explosiveForce) (.name I.explosiveForce)]

/-- `ExplosionDescriptor.serialize`, /repo/opendis/dis7.py:1312-1317. -/
def ExplosionDescriptor.serialize : Method where
  params := [(I.outputStream, none)]
  property := false
  body :=
   [.expr (.method (.attr (.name I.self) I.explodingObject) I.serialize [.name I.outputStream] []),
    .expr (.method (.name I.outputStream) I.write_unsigned_short [.attr (.name I.self) I.explosiveMaterial] []),
    .expr (.method (.name I.outputStream) I.write_unsigned_short [.attr (.name I.self) I.padding] []),
    .expr (.method (.name I.outputStream) I.write_float [.attr (.name I.self) I.explosiveForce] [])]

/-- `ExplosionDescriptor.parse`, /repo/opendis/dis7.py:1319-1324. -/
def ExplosionDescriptor.parse : Method where
  params := [(I.inputStream, none)]
  property := false
  body :=
   [.expr (.method (.attr (.name I.self) I.explodingObject) I.parse [.name I.inputStream] []),
    .assign (.attr (.name I.self) I.explosiveMaterial) (.method (.name I.inputStream) I.read_unsigned_short [] []),
    .assign (.attr (.name I.self) I.padding) (.method (.name I.inputStream) I.read_unsigned_short [] []),
    .assign (.attr (.name I.self) I.explosiveForce) (.method (.name I.inputStream) I.read_float [] [])]

/-- `class ExplosionDescriptor`, /repo/opendis/dis7.py:1294-1324. -/
def ExplosionDescriptor : Class where
  base := none
  attrs := []
  methods :=
   [(I.__init__, ExplosionDescriptor.__init__),
    (I.serialize, ExplosionDescriptor.serialize),
    (I.parse, ExplosionDescriptor.parse)]

/-- `ClockTime.__init__`, /repo/opendis/dis7.py:1336-1342. -/
def ClockTime.__init__ : Method where
  params := [(I.hour, some (.int 0)), (I.timePastHour, some (.int 0))]
  property := false
  body :=
   [.assign (.attr (.name I.self) I.hour) (.name I.hour),
    .assign (.attr (.name I.self) I.timePastHour) (.name I.timePastHour)]

/-- `ClockTime.serialize`, /repo/opendis/dis7.py:1344-1347. -/
def ClockTime.serialize : Method where
  params := [(I.outputStream, none)]
  property := false
  body :=
   [.expr (.method (.name I.outputStream) I.write_unsigned_int [.attr (.name I.self) I.hour] []),
    .expr (.method (.name I.outputStream) I.write_unsigned_int [.attr (.name I.self) I.timePastHour] [])]

/-- `ClockTime.parse`, /repo/opendis/dis7.py:1349-1352. -/
def ClockTime.parse : Method where
  params := [(I.inputStream, none)]
  property := false
  body :=
   [.assign (.attr (.name I.self) I.hour) (.method (.name I.inputStream) I.read_unsigned_int [] []),
    .assign (.attr (.name I.self) I.timePastHour) (.method (.name I.inputStream) I.read_unsigned_int [] [])]

/-- `class ClockTime`, /repo/opendis/dis7.py:1327-1352. -/
def ClockTime : Class where
  base := none
  attrs := []
  methods :=
   [(I.__init__, ClockTime.__init__),
    (I.serialize, ClockTime.serialize),
    (I.parse, ClockTime.parse)]

/-- `SecondaryOperationalData.__init__`, /repo/opendis/dis7.py:1363-1372. -/
def SecondaryOperationalData.__init__ : Method where
  params := [(I.operationalData1, some (.int 0)), (I.operationalData2, some (.int 0)),
   (I.numberOfIFFFundamentalParameterRecords, some (.int 0))]
  property := false
  body :=
   [.assign (.attr (.name I.self) I.operationalData1) (.name I.operationalData1),
    .assign (.attr (.name I.self) I.operationalData2) (.name I.operationalData2),
    .assign (.attr (.name I.self) I.numberOfIFFFundamentalParameterRecords) (.name I.numberOfIFFFundamentalParameterRecords)]

/-- `SecondaryOperationalData.serialize`, /repo/opendis/dis7.py:1374-1380. -/
def SecondaryOperationalData.serialize : Method where
  params := [(I.outputStream, none)]
  property := false
  body :=
   [.expr (.method (.name I.outputStream) I.write_unsigned_byte [.attr (.name I.self) I.operationalData1] []),
    .expr (.method (.name I.outputStream) I.write_unsigned_byte [.attr (.name I.self) I.operationalData2] []),
    .expr (.method (.name I.outputStream) I.write_unsigned_short [.attr (.name I.self) I.numberOfIFFFundamentalParameterRecords] [])]

/-- `SecondaryOperationalData.parse`, /repo/opendis/dis7.py:1382-1386. -/
def SecondaryOperationalData.parse : Method where
  params := [(I.inputStream, none)]
  property := false
  body :=
   [.assign (.attr (.name I.self) I.operationalData1) (.method (.name I.inputStream) I.read_unsigned_byte [] []),
    .assign (.attr (.name I.self) I.operationalData2) (.method (.name I.inputStream) I.read_unsigned_byte [] []),
    .assign (.attr (.name I.self) I.numberOfIFFFundamentalParameterRecords) (.method (.name I.inputStream) I.read_unsigned_short [] [])]

/-- `class SecondaryOperationalData`, /repo/opendis/dis7.py:1355-1386. -/
def SecondaryOperationalData : Class where
  base := none
  attrs := []
  methods :=
   [(I.__init__, SecondaryOperationalData.__init__),
    (I.serialize, SecondaryOperationalData.serialize),
    (I.parse, SecondaryOperationalData.parse)]

/-- `EnvironmentType.__init__`, /repo/opendis/dis7.py:1392-1412. -/
def EnvironmentType.__init__ : Method where
  params := [(I.entityKind, some (.int 0)), (I.domain, some (.int 0)), (I.entityClass, some (.int 0)), (I.category, some
   (.int 0)), (I.subcategory, some (.int 0)), (I.specific, some (.int 0)), (I.extra, some (.int 0))]
  property := false
  body :=
   [.assign (.attr (.name I.self) I.entityKind) (.name I.entityKind),
    .assign (.attr (.name I.self) I.domain) (.name I.domain),
    .assign (.attr (.name I.self) I.entityClass) (.name I.entityClass),
    .assign (.attr (.name I.self) I.category) (.name I.category),
    .assign (.attr (.name I.self) I.subcategory) (.name I.subcategory),
    .assign (.attr (.name I.self) I.specific) (.name I.specific),
    .assign (.attr (.name I.self) I.extra) (.name I.extra)]

/-- `EnvironmentType.serialize`, /repo/opendis/dis7.py:1414-1422. -/
def EnvironmentType.serialize : Method where
  params := [(I.outputStream, none)]
  property := false
  body :=
   [.expr (.method (.name I.outputStream) I.write_unsigned_byte [.attr (.name I.self) I.entityKind] []),
    .expr (.method (.name I.outputStream) I.write_unsigned_byte [.attr (.name I.self) I.domain] []),
    .expr (.method (.name I.outputStream) I.write_unsigned_short [.attr (.name I.self) I.entityClass] []),
    .expr (.method (.name I.outputStream) I.write_unsigned_byte [.attr (.name I.self) I.category] []),
    .expr (.method (.name I.outputStream) I.write_unsigned_byte [.attr (.name I.self) I.subcategory] []),
    .expr (.method (.name I.outputStream) I.write_unsigned_byte [.attr (.name I.self) I.specific] []),
    .expr (.method (.name I.outputStream) I.write_unsigned_byte [.attr (.name I.self) I.extra] [])]

/-- `EnvironmentType.parse`, /repo/opendis/dis7.py:1424-1433. -/
def EnvironmentType.parse : Method where
  params := [(I.inputStream, none)]
  property := false
  body :=
   [.assign (.attr (.name I.self) I.entityKind) (.method (.name I.inputStream) I.read_unsigned_byte [] []),
    .assign (.attr (.name I.self) I.domain) (.method (.name I.inputStream) I.read_unsigned_byte [] []),
    .assign (.attr (.name I.self) I.entityClass) (.method (.name I.inputStream) I.read_unsigned_short [] []),
    .assign (.attr (.name I.self) I.category) (.method (.name I.inputStream) I.read_unsigned_byte [] []),
    .assign (.attr (.name I.self) I.subcategory) (.method (.name I.inputStream) I.read_unsigned_byte [] []),
    .assign (.attr (.name I.self) I.specific) (.method (.name I.inputStream) I.read_unsigned_byte [] []),
    .assign (.attr (.name I.self) I.extra) (.method (.name I.inputStream) I.read_unsigned_byte [] [])]

/-- `class EnvironmentType`, /repo/opendis/dis7.py:1389-1433. -/
def EnvironmentType : Class where
  base := none
  attrs := []
  methods :=
   [(I.__init__, EnvironmentType.__init__),
    (I.serialize, EnvironmentType.serialize),
    (I.parse, EnvironmentType.parse)]

/-- `TotalRecordSets.__init__`, /repo/opendis/dis7.py:1439-1442. -/
def TotalRecordSets.__init__ : Method where
  params := [(I.totalRecordSets, some (.int 0))]
  property := false
  body :=
   [.assign (.attr (.name I.self) I.totalRecordSets) (.name I.totalRecordSets),
    .assign (.attr (.name I.self) I.padding) (.int 0)]

/-- `TotalRecordSets.serialize`, /repo/opendis/dis7.py:1444-1447. -/
def TotalRecordSets.serialize : Method where
  params := [(I.outputStream, none)]
  property := false
  body :=
   [.expr (.method (.name I.outputStream) I.write_unsigned_short [.attr (.name I.self) I.totalRecordSets] []),
    .expr (.method (.name I.outputStream) I.write_unsigned_short [.attr (.name I.self) I.padding] [])]

/-- `TotalRecordSets.parse`, /repo/opendis/dis7.py:1449-1453. -/
def TotalRecordSets.parse : Method where
  params := [(I.inputStream, none)]
  property := false
  body :=
   [.assign (.attr (.name I.self) I.totalRecordSets) (.method (.name I.inputStream) I.read_unsigned_short [] []),
    .assign (.attr (.name I.self) I.padding) (.method (.name I.inputStream) I.read_unsigned_short [] [])]

/-- `class TotalRecordSets`, /repo/opendis/dis7.py:1436-1453. -/
def TotalRecordSets : Class where
  base := none
  attrs := []
  methods :=
   [(I.__init__, TotalRecordSets.__init__),
    (I.serialize, TotalRecordSets.serialize),
    (I.parse, TotalRecordSets.parse)]

/-- `MineEntityIdentifier.__init__`, /repo/opendis/dis7.py:1463-1467. -/
def MineEntityIdentifier.__init__ : Method where
  params := [(I.simulationAddress, some (.none)), (I.mineEntityNumber, some (.int 0))]
  property := false
  body :=
   [.assign (.attr (.name I.self) I.simulationAddress) (.or (.name I.simulationAddress) (.call I.SimulationAddress [] [])),
    .assign (.attr (.name I.self) I.mineEntityNumber) (.name I.mineEntityNumber)]

/-- `MineEntityIdentifier.serialize`, /repo/opendis/dis7.py:1469-1472. -/
def MineEntityIdentifier.serialize : Method where
  params := [(I.outputStream, none)]
  property := false
  body :=
   [.expr (.method (.attr (.name I.self) I.simulationAddress) I.serialize [.name I.outputStream] []),
    .expr (.method (.name I.outputStream) I.write_unsigned_short [.attr (.name I.self) I.mineEntityNumber] [])]

/-- `MineEntityIdentifier.parse`, /repo/opendis/dis7.py:1474-1477. -/
def MineEntityIdentifier.parse : Method where
  params := [(I.inputStream, none)]
  property := false
  body :=
   [.expr (.method (.attr (.name I.self) I.simulationAddress) I.parse [.name I.inputStream] []),
    .assign (.attr (.name I.self) I.mineEntityNumber) (.method (.name I.inputStream) I.read_unsigned_short [] [])]

/-- `class MineEntityIdentifier`, /repo/opendis/dis7.py:1456-1477. -/
def MineEntityIdentifier : Class where
  base := none
  attrs := []
  methods :=
   [(I.__init__, MineEntityIdentifier.__init__),
    (I.serialize, MineEntityIdentifier.serialize),
    (I.parse, MineEntityIdentifier.parse)]

/-- `Relationship.__init__`, /repo/opendis/dis7.py:1486-1492. -/
def Relationship.__init__ : Method where
  params := [(I.nature, some (.int 0)), (I.position, some (.int 0))]
  property := false
  body :=
   [.assign (.attr (.name I.self) I.nature) (.name I.nature),
    .assign (.attr (.name I.self) I.position) (.name I.position)]

/-- `Relationship.serialize`, /repo/opendis/dis7.py:1494-1497. -/
def Relationship.serialize : Method where
  params := [(I.outputStream, none)]
  property := false
  body :=
   [.expr (.method (.name I.outputStream) I.write_unsigned_short [.attr (.name I.self) I.nature] []),
    .expr (.method (.name I.outputStream) I.write_unsigned_short [.attr (.name I.self) I.position] [])]

/-- `Relationship.parse`, /repo/opendis/dis7.py:1499-1502. -/
def Relationship.parse : Method where
  params := [(I.inputStream, none)]
  property := false
  body :=
   [.assign (.attr (.name I.self) I.nature) (.method (.name I.inputStream) I.read_unsigned_short [] []),
    .assign (.attr (.name I.self) I.position) (.method (.name I.inputStream) I.read_unsigned_short [] [])]

/-- `class Relationship`, /repo/opendis/dis7.py:1480-1502. -/
def Relationship : Class where
  base := none
  attrs := []
  methods :=
   [(I.__init__, Relationship.__init__),
    (I.serialize, Relationship.serialize),
    (I.parse, Relationship.parse)]

/-- `EEFundamentalParameterData.__init__`, /repo/opendis/dis7.py:1512-1537. -/
def EEFundamentalParameterData.__init__ : Method where
  params := [(I.frequency, some (.float 0x0000000000000000)), (I.frequencyRange, some (.int 0)),
   (I.effectiveRadiatedPower, some (.int 0)), (I.pulseRepetitionFrequency, some (.float 0x0000000000000000)),
   (I.pulseWidth, some (.float 0x0000000000000000)), (I.beamAzimuthCenter, some (.float 0x0000000000000000)),
   (I.beamAzimuthSweep, some (.float 0x0000000000000000)), (I.beamElevationCenter, some (.float
   0x0000000000000000)), (I.beamElevationSweep, some (.float 0x0000000000000000)), (I.beamSweepSync, some
   (.float 0x0000000000000000))]
  property := false
  body :=
   [.assign (.attr (.name I.self) I.frequency) (.name I.frequency),
    .assign (.attr (.name I.self) I.frequencyRange) (.name I.frequencyRange),
    .assign (.attr (.name I.self) I.effectiveRadiatedPower) (.name I.effectiveRadiatedPower),
    .assign (.attr (.name I.self) I.pulseRepetitionFrequency) (.name I.pulseRepetitionFrequency),
    .assign (.attr (.name I.self) I.pulseWidth) (.name I.pulseWidth),
    .assign (.attr (.name I.self) I.beamAzimuthCenter) (.name I.beamAzimuthCenter),
    .assign (.attr (.name I.self) I.beamAzimuthSweep) (.name I.beamAzimuthSweep),
    .assign (.attr (.name I.self) I.beamElevationCenter) (.name I.beamElevationCenter),
    .assign (.attr (.name I.self) I.beamElevationSweep) (.name I.beamElevationSweep),
    .assign (.attr (.name I.self) I.beamSweepSync) (.name I.beamSweepSync)]

/-- `EEFundamentalParameterData.serialize`, /repo/opendis/dis7.py:1539-1550. -/
def EEFundamentalParameterData.serialize : Method where
  params := [(I.outputStream, none)]
  property := false
  body :=
   [.expr (.method (.name I.outputStream) I.write_float [.attr (.name I.self) I.frequency] []),
    .expr (.method (.name I.outputStream) I.write_float [.attr (.name I.self) I.frequencyRange] []),
    .expr (.method (.name I.outputStream) I.write_float [.attr (.name I.self) I.effectiveRadiatedPower] []),
    .expr (.method (.name I.outputStream) I.write_float [.attr (.name I.self) I.pulseRepetitionFrequency] []),
    .expr (.method (.name I.outputStream) I.write_float [.attr (.name I.self) I.pulseWidth] []),
    .expr (.method (.name I.outputStream) I.write_float [.attr (.name I.self) I.beamAzimuthCenter] []),
    .expr (.method (.name I.outputStream) I.write_float [.attr (.name I.self) I.beamAzimuthSweep] []),
    .expr (.method (.name I.outputStream) I.write_float [.attr (.name I.self) I.beamElevationCenter] []),
    .expr (.method (.name I.outputStream) I.write_float [.attr (.name I.self) I.beamElevationSweep] []),
    .expr (.method (.name I.outputStream) I.write_float [.attr (.name I.self) I.beamSweepSync] [])]

/-- `EEFundamentalParameterData.parse`, /repo/opendis/dis7.py:1552-1563. -/
def EEFundamentalParameterData.parse : Method where
  params := [(I.inputStream, none)]
  property := false
  body :=
   [.assign (.attr (.name I.self) I.frequency) (.method (.name I.inputStream) I.read_float [] []),
    .assign (.attr (.name I.self) I.frequencyRange) (.method (.name I.inputStream) I.read_float [] []),
    .assign (.attr (.name I.self) I.effectiveRadiatedPower) (.method (.name I.inputStream) I.read_float [] []),
    .assign (.attr (.name I.self) I.pulseRepetitionFrequency) (.method (.name I.inputStream) I.read_float [] []),
    .assign (.attr (.name I.self) I.pulseWidth) (.method (.name I.inputStream) I.read_float [] []),
    .assign (.attr (.name I.self) I.beamAzimuthCenter) (.method (.name I.inputStream) I.read_float [] []),
    .assign (.attr (.name I.self) I.beamAzimuthSweep) (.method (.name I.inputStream) I.read_float [] []),
    .assign (.attr (.name I.self) I.beamElevationCenter) (.method (.name I.inputStream) I.read_float [] []),
    .assign (.attr (.name I.self) I.beamElevationSweep) (.method (.name I.inputStream) I.read_float [] []),
    .assign (.attr (.name I.self) I.beamSweepSync) (.method (.name I.inputStream) I.read_float [] [])]

/-- `class EEFundamentalParameterData`, /repo/opendis/dis7.py:1505-1563. -/
def EEFundamentalParameterData : Class where
  base := none
  attrs := []
  methods :=
   [(I.__init__, EEFundamentalParameterData.__init__),
    (I.serialize, EEFundamentalParameterData.serialize),
    (I.parse, EEFundamentalParameterData.parse)]

/-- `JammingTechnique.__init__`, /repo/opendis/dis7.py:1572-1576. -/
def JammingTechnique.__init__ : Method where
  params := [(I.kind, some (.int 0)), (I.category, some (.int 0)), (I.subcategory, some (.int 0)), (I.specific, some (.int
   0))]
  property := false
  body :=
   [.assign (.attr (.name I.self) I.kind) (.name I.kind),
    .assign (.attr (.name I.self) I.category) (.name I.category),
    .assign (.attr (.name I.self) I.subcategory) (.name I.subcategory),
    .assign (.attr (.name I.self) I.specific) (.name I.specific)]

/-- `JammingTechnique.serialize`, /repo/opendis/dis7.py:1578-1583. -/
def JammingTechnique.serialize : Method where
  params := [(I.outputStream, none)]
  property := false
  body :=
   [.expr (.method (.name I.outputStream) I.write_unsigned_byte [.attr (.name I.self) I.kind] []),
    .expr (.method (.name I.outputStream) I.write_unsigned_byte [.attr (.name I.self) I.category] []),
    .expr (.method (.name I.outputStream) I.write_unsigned_byte [.attr (.name I.self) I.subcategory] []),
    .expr (.method (.name I.outputStream) I.write_unsigned_byte [.attr (.name I.self) I.specific] [])]

/-- `JammingTechnique.parse`, /repo/opendis/dis7.py:1585-1590. -/
def JammingTechnique.parse : Method where
  params := [(I.inputStream, none)]
  property := false
  body :=
   [.assign (.attr (.name I.self) I.kind) (.method (.name I.inputStream) I.read_unsigned_byte [] []),
    .assign (.attr (.name I.self) I.category) (.method (.name I.inputStream) I.read_unsigned_byte [] []),
    .assign (.attr (.name I.self) I.subcategory) (.method (.name I.inputStream) I.read_unsigned_byte [] []),
    .assign (.attr (.name I.self) I.specific) (.method (.name I.inputStream) I.read_unsigned_byte [] [])]

/-- `class JammingTechnique`, /repo/opendis/dis7.py:1566-1590. -/
def JammingTechnique : Class where
  base := none
  attrs := []
  methods :=
   [(I.__init__, JammingTechnique.__init__),
    (I.serialize, JammingTechnique.serialize),
    (I.parse, JammingTechnique.parse)]

/-- `DatumSpecification.__init__`, /repo/opendis/dis7.py:1599-1605. -/
def DatumSpecification.__init__ : Method where
  params := [(I.fixedDatumRecords, some (.none)), (I.variableDatumRecords, some (.none))]
  property := false
  body :=
   [.assign (.attr (.name I.self) I.fixedDatumRecords) (.or (.name I.fixedDatumRecords) (.list [])),
    .assign (.attr (.name I.self) I.variableDatumRecords) (.or (.name I.variableDatumRecords) (.list []))]

/-- `DatumSpecification.numberOfFixedDatumRecords`, /repo/opendis/dis7.py:1608-1609. -/
def DatumSpecification.numberOfFixedDatumRecords : Method where
  params := []
  property := true
  body :=
   [.ret (.call I.len [.attr (.name I.self) I.fixedDatumRecords] [])]

/-- `DatumSpecification.numberOfVariableDatumRecords`, /repo/opendis/dis7.py:1612-1613. -/
def DatumSpecification.numberOfVariableDatumRecords : Method where
  params := []
  property := true
  body :=
   [.ret (.call I.len [.attr (.name I.self) I.variableDatumRecords] [])]

/-- `DatumSpecification.serialize`, /repo/opendis/dis7.py:1615-1623. -/
def DatumSpecification.serialize : Method where
  params := [(I.outputStream, none)]
  property := false
  body :=
   [.expr (.method (.name I.outputStream) I.write_unsigned_int [.attr (.name I.self) I.numberOfFixedDatumRecords] []),
    .expr (.method (.name I.outputStream) I.write_unsigned_int [.attr (.name I.self) I.numberOfVariableDatumRecords] []),
    .for I.anObj (.attr (.name I.self) I.fixedDatumRecords)
      [.expr (.method (.name I.anObj) I.serialize [.name I.outputStream] [])],
    .for I.anObj (.attr (.name I.self) I.variableDatumRecords)
      [.expr (.method (.name I.anObj) I.serialize [.name I.outputStream] [])]]

/-- `DatumSpecification.parse`, /repo/opendis/dis7.py:1625-1637. -/
def DatumSpecification.parse : Method where
  params := [(I.inputStream, none)]
  property := false
  body :=
   [.assign (.name I.numberOfFixedDatumRecords) (.method (.name I.inputStream) I.read_unsigned_int [] []),
    .assign (.name I.numberOfVariableDatumRecords) (.method (.name I.inputStream) I.read_unsigned_int [] []),
    .for I.idx (.call I.range [.int 0, .name I.numberOfFixedDatumRecords] [])
      [.assign (.name I.element) (.call I.FixedDatum [] []),
       .expr (.method (.name I.element) I.parse [.name I.inputStream] []),
       .expr (.method (.attr (.name I.self) I.fixedDatumRecords) I.append [.name I.element] [])],
    .for I.idx (.call I.range [.int 0, .name I.numberOfVariableDatumRecords] [])
      [.assign (.name I.element) (.call I.VariableDatum [] []),
       .expr (.method (.name I.element) I.parse [.name I.inputStream] []),
       .expr (.method (.attr (.name I.self) I.variableDatumRecords) I.append [.name I.element] [])]]

/-- `class DatumSpecification`, /repo/opendis/dis7.py:1593-1637. -/
def DatumSpecification : Class where
  base := none
  attrs := []
  methods :=
   [(I.__init__, DatumSpecification.__init__),
    (I.numberOfFixedDatumRecords, DatumSpecification.numberOfFixedDatumRecords),
    (I.numberOfVariableDatumRecords, DatumSpecification.numberOfVariableDatumRecords),
    (I.serialize, DatumSpecification.serialize),
    (I.parse, DatumSpecification.parse)]

/-- `Expendable.__init__`, /repo/opendis/dis7.py:1646-1656. -/
def Expendable.__init__ : Method where
  params := [(I.expendable, some (.none)), (I.station, some (.int 0)), (I.quantity, some (.int 0)), (I.expendableStatus,
   some (.int 0))]
  property := false
  body :=
   [.assign (.attr (.name I.self) I.expendable) (.or (.name I.expendable) (.call I.EntityType [] [])),
    .assign (.attr (.name I.self) I.station) (.name I.station),
    .assign (.attr (.name I.self) I.quantity) (.name I.quantity),
    .assign (.attr (.name I.self) I.expendableStatus) (.name I.expendableStatus),
    .assign (.attr (.name I.self) I.padding) (.int 0)]

/-- `Expendable.serialize`, /repo/opendis/dis7.py:1658-1664. -/
def Expendable.serialize : Method where
  params := [(I.outputStream, none)]
  property := false
  body :=
   [.expr (.method (.attr (.name I.self) I.expendable) I.serialize [.name I.outputStream] []),
    .expr (.method (.name I.outputStream) I.write_unsigned_int [.attr (.name I.self) I.station] []),
    .expr (.method (.name I.outputStream) I.write_unsigned_short [.attr (.name I.self) I.quantity] []),
    .expr (.method (.name I.outputStream) I.write_unsigned_byte [.attr (.name I.self) I.expendableStatus] []),
    .expr (.method (.name I.outputStream) I.write_unsigned_byte [.attr (.name I.self) I.padding] [])]

/-- `Expendable.parse`, /repo/opendis/dis7.py:1666-1672. -/
def Expendable.parse : Method where
  params := [(I.inputStream, none)]
  property := false
  body :=
   [.expr (.method (.attr (.name I.self) I.expendable) I.parse [.name I.inputStream] []),
    .assign (.attr (.name I.self) I.station) (.method (.name I.inputStream) I.read_unsigned_int [] []),
    .assign (.attr (.name I.self) I.quantity) (.method (.name I.inputStream) I.read_unsigned_short [] []),
    .assign (.attr (.name I.self) I.expendableStatus) (.method (.name I.inputStream) I.read_unsigned_byte [] []),
    .assign (.attr (.name I.self) I.padding) (.method (.name I.inputStream) I.read_unsigned_byte [] [])]

/-- `class Expendable`, /repo/opendis/dis7.py:1640-1672. -/
def Expendable : Class where
  base := none
  attrs := []
  methods :=
   [(I.__init__, Expendable.__init__),
    (I.serialize, Expendable.serialize),
    (I.parse, Expendable.parse)]

/-- `IOCommunicationsNode.__init__`, /repo/opendis/dis7.py:1683-1689. -/
def IOCommunicationsNode.__init__ : Method where
  params := [(I.communicationsNodeType, some (.int 0)), (I.communicationsNodeID, some (.none))]
  property := false
  body :=
   [.assign (.attr (.name I.self) I.communcationsNodeType) (.name I.communicationsNodeType),
    .assign (.attr (.name I.self) I.padding) (.int 0),
    .assign (.attr (.name I.self) I.communicationsNodeID) (.or (.name I.communicationsNodeID) (.call I.CommunicationsNodeID [] []))]

/-- `IOCommunicationsNode.serialize`, /repo/opendis/dis7.py:1691-1697. -/
def IOCommunicationsNode.serialize : Method where
  params := [(I.outputStream, none)]
  property := false
  body :=
   [.expr (.method (.name I.outputStream) I.write_unsigned_int [.attr (.name I.self) I.recordType] []),
    .expr (.method (.name I.outputStream) I.write_unsigned_short [.attr (.name I.self) I.recordLength] []),
    .expr (.method (.name I.outputStream) I.write_unsigned_byte [.attr (.name I.self) I.communcationsNodeType] []),
    .expr (.method (.name I.outputStream) I.write_unsigned_byte [.attr (.name I.self) I.padding] []),
    .expr (.method (.attr (.name I.self) I.communicationsNodeID) I.serialize [.name I.outputStream] [])]

/-- `IOCommunicationsNode.parse`, /repo/opendis/dis7.py:1699-1705. -/
def IOCommunicationsNode.parse : Method where
  params := [(I.inputStream, none)]
  property := false
  body :=
   [.assign (.attr (.name I.self) I.recordType) (.method (.name I.inputStream) I.read_unsigned_int [] []),
    .assign (.attr (.name I.self) I.recordLength) (.method (.name I.inputStream) I.read_unsigned_short [] []),
    .assign (.attr (.name I.self) I.communcationsNodeType) (.method (.name I.inputStream) I.read_unsigned_byte [] []),
    .assign (.attr (.name I.self) I.padding) (.method (.name I.inputStream) I.read_unsigned_byte [] []),
    .expr (.method (.attr (.name I.self) I.communicationsNodeID) I.parse [.name I.inputStream] [])]

/-- `class IOCommunicationsNode`, /repo/opendis/dis7.py:1675-1705. -/
def IOCommunicationsNode : Class where
  base := none
  attrs := [(I.recordType, .int 5501), (I.recordLength, .int 16)]
  methods :=
   [(I.__init__, IOCommunicationsNode.__init__),
    (I.serialize, IOCommunicationsNode.serialize),
    (I.parse, IOCommunicationsNode.parse)]

/-- `LinearSegmentParameter.__init__`, /repo/opendis/dis7.py:1715-1746. -/
def LinearSegmentParameter.__init__ : Method where
  params := [(I.segmentNumber, some (.int 0)), (I.segmentModification, some (.int 0)), (I.generalSegmentAppearance, some
   (.int 0)), (I.specificSegmentAppearance, some (.int 0)), (I.segmentLocation, some (.none)),
   (I.segmentOrientation, some (.none)), (I.segmentLength, some (.float 0x0000000000000000)), (I.segmentWidth,
   some (.float 0x0000000000000000)), (I.segmentHeight, some (.float 0x0000000000000000)), (I.segmentDepth,
   some (.float 0x0000000000000000))]
  property := false
  body :=
   [.assign (.attr (.name I.self) I.segmentNumber) (.name I.segmentNumber),
    .assign (.attr (.name I.self) I.segmentModification) (.name I.segmentModification),
    .assign (.attr (.name I.self) I.generalSegmentAppearance) (.name I.generalSegmentAppearance),
    .assign (.attr (.name I.self) I.specificSegmentAppearance) (.name I.specificSegmentAppearance),
    .assign (.attr (.name I.self) I.segmentLocation) (.or (.name I.segmentLocation) (.call I.WorldCoordinates [] [])),
    .assign (.attr (.name I.self) I.segmentOrientation) (.or (.name I.segmentOrientation) (.call I.EulerAngles [] [])),
    .assign (.attr (.name I.self) I.segmentLength) (.name I.segmentLength),
    .assign (.attr (.name I.self) I.segmentWidth) (.name I.segmentWidth),
    .assign (.attr (.name I.self) I.segmentHeight) (.name I.segmentHeight),
    .assign (.attr (.name I.self) I.segmentDepth) (.name I.segmentDepth),
    .assign (.attr (.name I.self) I.padding) (.int 0)]

/-- `LinearSegmentParameter.serialize`, /repo/opendis/dis7.py:1748-1760. -/
def LinearSegmentParameter.serialize : Method where
  params := [(I.outputStream, none)]
  property := false
  body :=
   [.expr (.method (.name I.outputStream) I.write_unsigned_byte [.attr (.name I.self) I.segmentNumber] []),
    .expr (.method (.name I.outputStream) I.write_unsigned_byte [.attr (.name I.self) I.segmentModification] []),
    .expr (.method (.name I.outputStream) I.write_unsigned_short [.attr (.name I.self) I.generalSegmentAppearance] []),
    .expr (.method (.name I.outputStream) I.write_unsigned_int [.attr (.name I.self) I.specificSegmentAppearance] []),
    .expr (.method (.attr (.name I.self) I.segmentLocation) I.serialize [.name I.outputStream] []),
    .expr (.method (.attr (.name I.self) I.segmentOrientation) I.serialize [.name I.outputStream] []),
    .expr (.method (.name I.outputStream) I.write_float [.attr (.name I.self) I.segmentLength] []),
    .expr (.method (.name I.outputStream) I.write_float [.attr (.name I.self) I.segmentWidth] []),
    .expr (.method (.name I.outputStream) I.write_float [.attr (.name I.self) I.segmentHeight] []),
    .expr (.method (.name I.outputStream) I.write_float [.attr (.name I.self) I.segmentDepth] []),
    .expr (.method (.name I.outputStream) I.write_unsigned_int [.attr (.name I.self) I.padding] [])]

/-- `LinearSegmentParameter.parse`, /repo/opendis/dis7.py:1762-1774. -/
def LinearSegmentParameter.parse : Method where
  params := [(I.inputStream, none)]
  property := false
  body :=
   [.assign (.attr (.name I.self) I.segmentNumber) (.method (.name I.inputStream) I.read_unsigned_byte [] []),
    .assign (.attr (.name I.self) I.segmentModification) (.method (.name I.inputStream) I.read_unsigned_byte [] []),
    .assign (.attr (.name I.self) I.generalSegmentAppearance) (.method (.name I.inputStream) I.read_unsigned_short [] []),
    .assign (.attr (.name I.self) I.specificSegmentAppearance) (.method (.name I.inputStream) I.read_unsigned_int [] []),
    .expr (.method (.attr (.name I.self) I.segmentLocation) I.parse [.name I.inputStream] []),
    .expr (.method (.attr (.name I.self) I.segmentOrientation) I.parse [.name I.inputStream] []),
    .assign (.attr (.name I.self) I.segmentLength) (.method (.name I.inputStream) I.read_float [] []),
    .assign (.attr (.name I.self) I.segmentWidth) (.method (.name I.inputStream) I.read_float [] []),
    .assign (.attr (.name I.self) I.segmentHeight) (.method (.name I.inputStream) I.read_float [] []),
    .assign (.attr (.name I.self) I.segmentDepth) (.method (.name I.inputStream) I.read_float [] []),
    .assign (.attr (.name I.self) I.padding) (.method (.name I.inputStream) I.read_unsigned_int [] [])]

/-- `class LinearSegmentParameter`, /repo/opendis/dis7.py:1708-1774. -/
def LinearSegmentParameter : Class where
  base := none
  attrs := []
  methods :=
   [(I.__init__, LinearSegmentParameter.__init__),
    (I.serialize, LinearSegmentParameter.serialize),
    (I.parse, LinearSegmentParameter.parse)]

/-- `SystemIdentifier.__init__`, /repo/opendis/dis7.py:1783-1795. -/
def SystemIdentifier.__init__ : Method where
  params := [(I.systemType, some (.int 0)), (I.systemName, some (.int 0)), (I.systemMode, some (.int 0)),
   (I.changeOptions, some (.none))]
  property := false
  body :=
   [.assign (.attr (.name I.self) I.systemType) (.name I.systemType),
    .assign (.attr (.name I.self) I.systemName) (.name I.systemName),
    .assign (.attr (.name I.self) I.systemMode) (.name I.systemMode),
    .assign (.attr (.name I.self) I.changeOptions) (.or (.name I.changeOptions) (.call I.ChangeOptions [] []))]

/-- `SystemIdentifier.serialize`, /repo/opendis/dis7.py:1797-1802. -/
def SystemIdentifier.serialize : Method where
  params := [(I.outputStream, none)]
  property := false
  body :=
   [.expr (.method (.name I.outputStream) I.write_unsigned_short [.attr (.name I.self) I.systemType] []),
    .expr (.method (.name I.outputStream) I.write_unsigned_short [.attr (.name I.self) I.systemName] []),
    .expr (.method (.name I.outputStream) I.write_unsigned_short [.attr (.name I.self) I.systemMode] []),
    .expr (.method (.attr (.name I.self) I.changeOptions) I.serialize [.name I.outputStream] [])]

/-- `SystemIdentifier.parse`, /repo/opendis/dis7.py:1804-1809. -/
def SystemIdentifier.parse : Method where
  params := [(I.inputStream, none)]
  property := false
  body :=
   [.assign (.attr (.name I.self) I.systemType) (.method (.name I.inputStream) I.read_unsigned_short [] []),
    .assign (.attr (.name I.self) I.systemName) (.method (.name I.inputStream) I.read_unsigned_short [] []),
    .assign (.attr (.name I.self) I.systemMode) (.method (.name I.inputStream) I.read_unsigned_short [] []),
    .expr (.method (.attr (.name I.self) I.changeOptions) I.parse [.name I.inputStream] [])]

/-- `class SystemIdentifier`, /repo/opendis/dis7.py:1777-1809. -/
def SystemIdentifier : Class where
  base := none
  attrs := []
  methods :=
   [(I.__init__, SystemIdentifier.__init__),
    (I.serialize, SystemIdentifier.serialize),
    (I.parse, SystemIdentifier.parse)]

/-- `TrackJamData.__init__`, /repo/opendis/dis7.py:1818-1827. -/
def TrackJamData.__init__ : Method where
  params := [(I.entityID, some (.none)), (I.emitterNumber, some (.int 0)), (I.beamNumber, some (.int 0))]
  property := false
  body :=
   [.assign (.attr (.name I.self) I.entityID) (.or (.name I.entityID) (.call I.EntityIdentifier [] [])),
    .assign (.attr (.name I.self) I.emitterNumber) (.name I.emitterNumber),
    .assign (.attr (.name I.self) I.beamNumber) (.name I.beamNumber)]

/-- `TrackJamData.serialize`, /repo/opendis/dis7.py:1829-1833. -/
def TrackJamData.serialize : Method where
  params := [(I.outputStream, none)]
  property := false
  body :=
   [.expr (.method (.attr (.name I.self) I.entityID) I.serialize [.name I.outputStream] []),
    .expr (.method (.name I.outputStream) I.write_unsigned_byte [.attr (.name I.self) I.emitterNumber] []),
    .expr (.method (.name I.outputStream) I.write_unsigned_byte [.attr (.name I.self) I.beamNumber] [])]

/-- `TrackJamData.parse`, /repo/opendis/dis7.py:1835-1839. -/
def TrackJamData.parse : Method where
  params := [(I.inputStream, none)]
  property := false
  body :=
   [.expr (.method (.attr (.name I.self) I.entityID) I.parse [.name I.inputStream] []),
    .assign (.attr (.name I.self) I.emitterNumber) (.method (.name I.inputStream) I.read_unsigned_byte [] []),
    .assign (.attr (.name I.self) I.beamNumber) (.method (.name I.inputStream) I.read_unsigned_byte [] [])]

/-- `class TrackJamData`, /repo/opendis/dis7.py:1812-1839. -/
def TrackJamData : Class where
  base := none
  attrs := []
  methods :=
   [(I.__init__, TrackJamData.__init__),
    (I.serialize, TrackJamData.serialize),
    (I.parse, TrackJamData.parse)]

/-- `AggregateType.__init__`, /repo/opendis/dis7.py:1848-1868. -/
def AggregateType.__init__ : Method where
  params := [(I.aggregateKind, some (.int 0)), (I.domain, some (.int 0)), (I.country, some (.int 0)), (I.category, some
   (.int 0)), (I.subcategory, some (.int 0)), (I.specificInfo, some (.int 0)), (I.extra, some (.int 0))]
  property := false
  body :=
   [.assign (.attr (.name I.self) I.aggregateKind) (.name I.aggregateKind),
    .assign (.attr (.name I.self) I.domain) (.name I.domain),
    .assign (.attr (.name I.self) I.country) (.name I.country),
    .assign (.attr (.name I.self) I.category) (.name I.category),
    .assign (.attr (.name I.self) I.subcategory) (.name I.subcategory),
    .assign (.attr (.name I.self) I.specificInfo) (.name I.specificInfo),
    .assign (.attr (.name I.self) I.extra) (.name I.extra)]

/-- `AggregateType.serialize`, /repo/opendis/dis7.py:1870-1878. -/
def AggregateType.serialize : Method where
  params := [(I.outputStream, none)]
  property := false
  body :=
   [.expr (.method (.name I.outputStream) I.write_unsigned_byte [.attr (.name I.self) I.aggregateKind] []),
    .expr (.method (.name I.outputStream) I.write_unsigned_byte [.attr (.name I.self) I.domain] []),
    .expr (.method (.name I.outputStream) I.write_unsigned_short [.attr (.name I.self) I.country] []),
    .expr (.method (.name I.outputStream) I.write_unsigned_byte [.attr (.name I.self) I.category] []),
    .expr (.method (.name I.outputStream) I.write_unsigned_byte [.attr (.name I.self) I.subcategory] []),
    .expr (.method (.name I.outputStream) I.write_unsigned_byte [.attr (.name I.self) I.specificInfo] []),
    .expr (.method (.name I.outputStream) I.write_unsigned_byte [.attr (.name I.self) I.extra] [])]

/-- `AggregateType.parse`, /repo/opendis/dis7.py:1880-1888. -/
def AggregateType.parse : Method where
  params := [(I.inputStream, none)]
  property := false
  body :=
   [.assign (.attr (.name I.self) I.aggregateKind) (.method (.name I.inputStream) I.read_unsigned_byte [] []),
    .assign (.attr (.name I.self) I.domain) (.method (.name I.inputStream) I.read_unsigned_byte [] []),
    .assign (.attr (.name I.self) I.country) (.method (.name I.inputStream) I.read_unsigned_short [] []),
    .assign (.attr (.name I.self) I.category) (.method (.name I.inputStream) I.read_unsigned_byte [] []),
    .assign (.attr (.name I.self) I.subcategory) (.method (.name I.inputStream) I.read_unsigned_byte [] []),
    .assign (.attr (.name I.self) I.specificInfo) (.method (.name I.inputStream) I.read_unsigned_byte [] []),
    .assign (.attr (.name I.self) I.extra) (.method (.name I.inputStream) I.read_unsigned_byte [] [])]

/-- `class AggregateType`, /repo/opendis/dis7.py:1842-1888. -/
def AggregateType : Class where
  base := none
  attrs := []
  methods :=
   [(I.__init__, AggregateType.__init__),
    (I.serialize, AggregateType.serialize),
    (I.parse, AggregateType.parse)]

/-- `SimulationManagementPduHeader.__init__`, /repo/opendis/dis7.py:1898-1907. -/
def SimulationManagementPduHeader.__init__ : Method where
  params := [(I.pduHeader, some (.none)), (I.originatingID, some (.none)), (I.receivingID, some (.none))]
  property := false
  body :=
   [.assign (.attr (.name I.self) I.pduHeader) (.or (.name I.pduHeader) (.call I.PduHeader [] [])),
    .assign (.attr (.name I.self) I.originatingID) (.or (.name I.originatingID) (.call I.SimulationIdentifier [] [])),
    .assign (.attr (.name I.self) I.receivingID) (.or (.name I.receivingID) (.call I.SimulationIdentifier [] []))]

/-- `SimulationManagementPduHeader.serialize`, /repo/opendis/dis7.py:1909-1913. -/
def SimulationManagementPduHeader.serialize : Method where
  params := [(I.outputStream, none)]
  property := false
  body :=
   [.expr (.method (.attr (.name I.self) I.pduHeader) I.serialize [.name I.outputStream] []),
    .expr (.method (.attr (.name I.self) I.originatingID) I.serialize [.name I.outputStream] []),
    .expr (.method (.attr (.name I.self) I.receivingID) I.serialize [.name I.outputStream] [])]

/-- `SimulationManagementPduHeader.parse`, /repo/opendis/dis7.py:1915-1919. -/
def SimulationManagementPduHeader.parse : Method where
  params := [(I.inputStream, none)]
  property := false
  body :=
   [.expr (.method (.attr (.name I.self) I.pduHeader) I.parse [.name I.inputStream] []),
    .expr (.method (.attr (.name I.self) I.originatingID) I.parse [.name I.inputStream] []),
    .expr (.method (.attr (.name I.self) I.receivingID) I.parse [.name I.inputStream] [])]

/-- `class SimulationManagementPduHeader`, /repo/opendis/dis7.py:1891-1919. -/
def SimulationManagementPduHeader : Class where
  base := none
  attrs := []
  methods :=
   [(I.__init__, SimulationManagementPduHeader.__init__),
    (I.serialize, SimulationManagementPduHeader.serialize),
    (I.parse, SimulationManagementPduHeader.parse)]

end Dis.Src
