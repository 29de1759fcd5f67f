import Verif.Source.Names

/-!
# `opendis/dis7.py` as syntax trees, part 2

Written by `tools/gensource.py` from the Python source.
-/

namespace Dis.Src

/-- `BeamData.__init__`, /repo/opendis/dis7.py:1928-1944. -/
def BeamData.__init__ : Method where
  params := [(I.beamAzimuthCenter, some (.float 0x0000000000000000)), (I.beamAzimuthSweep, some (.float
   0x0000000000000000)), (I.beamElevationCenter, some (.float 0x0000000000000000)), (I.beamElevationSweep,
   some (.float 0x0000000000000000)), (I.beamSweepSync, some (.float 0x0000000000000000))]
  property := false
  body :=
   [.assign (.attr (.name I.self) I.beamAzimuthCenter) (.name I.beamAzimuthCenter),
    .assign (.attr (.name I.self) I.beamAzimuthSweep) (.name I.beamAzimuthSweep),
    .assign (.attr (.name I.self) I.beamElevationCenter) (.name I.beamElevationCenter),
    .assign (.attr (.name I.self) I.beamElevationSweep) (.name I.beamElevationSweep),
    .assign (.attr (.name I.self) I.beamSweepSync) (.name I.beamSweepSync)]

/-- `BeamData.serialize`, /repo/opendis/dis7.py:1946-1952. -/
def BeamData.serialize : Method where
  params := [(I.outputStream, none)]
  property := false
  body :=
   [.expr (.method (.name I.outputStream) I.write_float [.attr (.name I.self) I.beamAzimuthCenter] []),
    .expr (.method (.name I.outputStream) I.write_float [.attr (.name I.self) I.beamAzimuthSweep] []),
    .expr (.method (.name I.outputStream) I.write_float [.attr (.name I.self) I.beamElevationCenter] []),
    .expr (.method (.name I.outputStream) I.write_float [.attr (.name I.self) I.beamElevationSweep] []),
    .expr (.method (.name I.outputStream) I.write_float [.attr (.name I.self) I.beamSweepSync] [])]

/-- `BeamData.parse`, /repo/opendis/dis7.py:1954-1960. -/
def BeamData.parse : Method where
  params := [(I.inputStream, none)]
  property := false
  body :=
   [.assign (.attr (.name I.self) I.beamAzimuthCenter) (.method (.name I.inputStream) I.read_float [] []),
    .assign (.attr (.name I.self) I.beamAzimuthSweep) (.method (.name I.inputStream) I.read_float [] []),
    .assign (.attr (.name I.self) I.beamElevationCenter) (.method (.name I.inputStream) I.read_float [] []),
    .assign (.attr (.name I.self) I.beamElevationSweep) (.method (.name I.inputStream) I.read_float [] []),
    .assign (.attr (.name I.self) I.beamSweepSync) (.method (.name I.inputStream) I.read_float [] [])]

/-- `class BeamData`, /repo/opendis/dis7.py:1922-1960. -/
def BeamData : Class where
  base := none
  attrs := []
  methods :=
   [(I.__init__, BeamData.__init__),
    (I.serialize, BeamData.serialize),
    (I.parse, BeamData.parse)]

/-- `EngineFuel.__init__`, /repo/opendis/dis7.py:1969-1982. -/
def EngineFuel.__init__ : Method where
  params := [(I.fuelQuantity, some (.int 0)), (I.fuelMeasurementUnits, some (.int 0)), (I.fuelType, some (.int 0)),
   (I.fuelLocation, some (.int 0))]
  property := false
  body :=
   [.assign (.attr (.name I.self) I.fuelQuantity) (.int 0),
    .assign (.attr (.name I.self) I.fuelMeasurementUnits) (.int 0),
    .assign (.attr (.name I.self) I.fuelType) (.int 0),
    .assign (.attr (.name I.self) I.fuelLocation) (.int 0),
    .assign (.attr (.name I.self) I.padding) (.int 0)]

/-- `EngineFuel.serialize`, /repo/opendis/dis7.py:1984-1990. -/
def EngineFuel.serialize : Method where
  params := [(I.outputStream, none)]
  property := false
  body :=
   [.expr (.method (.name I.outputStream) I.write_unsigned_int [.attr (.name I.self) I.fuelQuantity] []),
    .expr (.method (.name I.outputStream) I.write_unsigned_byte [.attr (.name I.self) I.fuelMeasurementUnits] []),
    .expr (.method (.name I.outputStream) I.write_unsigned_byte [.attr (.name I.self) I.fuelType] []),
    .expr (.method (.name I.outputStream) I.write_unsigned_byte [.attr (.name I.self) I.fuelLocation] []),
    .expr (.method (.name I.outputStream) I.write_unsigned_byte [.attr (.name I.self) I.padding] [])]

/-- `EngineFuel.parse`, /repo/opendis/dis7.py:1992-1998. -/
def EngineFuel.parse : Method where
  params := [(I.inputStream, none)]
  property := false
  body :=
   [.assign (.attr (.name I.self) I.fuelQuantity) (.method (.name I.inputStream) I.read_unsigned_int [] []),
    .assign (.attr (.name I.self) I.fuelMeasurementUnits) (.method (.name I.inputStream) I.read_unsigned_byte [] []),
    .assign (.attr (.name I.self) I.fuelType) (.method (.name I.inputStream) I.read_unsigned_byte [] []),
    .assign (.attr (.name I.self) I.fuelLocation) (.method (.name I.inputStream) I.read_unsigned_byte [] []),
    .assign (.attr (.name I.self) I.padding) (.method (.name I.inputStream) I.read_unsigned_byte [] [])]

/-- `class EngineFuel`, /repo/opendis/dis7.py:1963-1998. -/
def EngineFuel : Class where
  base := none
  attrs := []
  methods :=
   [(I.__init__, EngineFuel.__init__),
    (I.serialize, EngineFuel.serialize),
    (I.parse, EngineFuel.parse)]

/-- `IOEffect.__init__`, /repo/opendis/dis7.py:2009-2023. -/
def IOEffect.__init__ : Method where
  params := [(I.ioStatus, some (.int 0)), (I.ioLinkType, some (.int 0)), (I.ioEffect, some (.int 0)),
   (I.ioEffectDutyCycle, some (.int 0)), (I.ioEffectDuration, some (.int 0)), (I.ioProcess, some (.int 0))]
  property := false
  body :=
   [.assign (.attr (.name I.self) I.ioStatus) (.name I.ioStatus),
    .assign (.attr (.name I.self) I.ioLinkType) (.name I.ioLinkType),
    .assign (.attr (.name I.self) I.ioEffect) (.name I.ioEffect),
    .assign (.attr (.name I.self) I.ioEffectDutyCycle) (.name I.ioEffectDutyCycle),
    .assign (.attr (.name I.self) I.ioEffectDuration) (.name I.ioEffectDuration),
    .assign (.attr (.name I.self) I.ioProcess) (.name I.ioProcess),
    .assign (.attr (.name I.self) I.padding) (.int 0)]

/-- `IOEffect.serialize`, /repo/opendis/dis7.py:2025-2035. -/
def IOEffect.serialize : Method where
  params := [(I.outputStream, none)]
  property := false
  body :=
   [.expr (.method (.name I.outputStream) I.write_unsigned_int [.attr (.name I.self) I.recordType] []),
    .expr (.method (.name I.outputStream) I.write_unsigned_short [.attr (.name I.self) I.recordLength] []),
    .expr (.method (.name I.outputStream) I.write_unsigned_byte [.attr (.name I.self) I.ioStatus] []),
    .expr (.method (.name I.outputStream) I.write_unsigned_byte [.attr (.name I.self) I.ioLinkType] []),
    .expr (.method (.name I.outputStream) I.write_unsigned_byte [.attr (.name I.self) I.ioEffect] []),
    .expr (.method (.name I.outputStream) I.write_unsigned_byte [.attr (.name I.self) I.ioEffectDutyCycle] []),
    .expr (.method (.name I.outputStream) I.write_unsigned_short [.attr (.name I.self) I.ioEffectDuration] []),
    .expr (.method (.name I.outputStream) I.write_unsigned_short [.attr (.name I.self) I.ioProcess] []),
    .expr (.method (.name I.outputStream) I.write_unsigned_short [.attr (.name I.self) I.padding] [])]

/-- `IOEffect.parse`, /repo/opendis/dis7.py:2037-2047. -/
def IOEffect.parse : Method where
  params := [(I.inputStream, none)]
  property := false
  body :=
   [.assign (.attr (.name I.self) I.recordType) (.method (.name I.inputStream) I.read_unsigned_int [] []),
    .assign (.attr (.name I.self) I.recordLength) (.method (.name I.inputStream) I.read_unsigned_short [] []),
    .assign (.attr (.name I.self) I.ioStatus) (.method (.name I.inputStream) I.read_unsigned_byte [] []),
    .assign (.attr (.name I.self) I.ioLinkType) (.method (.name I.inputStream) I.read_unsigned_byte [] []),
    .assign (.attr (.name I.self) I.ioEffect) (.method (.name I.inputStream) I.read_unsigned_byte [] []),
    .assign (.attr (.name I.self) I.ioEffectDutyCycle) (.method (.name I.inputStream) I.read_unsigned_byte [] []),
    .assign (.attr (.name I.self) I.ioEffectDuration) (.method (.name I.inputStream) I.read_unsigned_short [] []),
    .assign (.attr (.name I.self) I.ioProcess) (.method (.name I.inputStream) I.read_unsigned_short [] []),
    .assign (.attr (.name I.self) I.padding) (.method (.name I.inputStream) I.read_unsigned_short [] [])]

/-- `class IOEffect`, /repo/opendis/dis7.py:2001-2047. -/
def IOEffect : Class where
  base := none
  attrs := [(I.recordType, .int 5500), (I.recordLength, .int 16)]
  methods :=
   [(I.__init__, IOEffect.__init__),
    (I.serialize, IOEffect.serialize),
    (I.parse, IOEffect.parse)]

/-- `SimulationIdentifier.__init__`, /repo/opendis/dis7.py:2061-2067. -/
def SimulationIdentifier.__init__ : Method where
  params := [(I.simulationAddress, some (.none)), (I.referenceNumber, some (.int 0))]
  property := false
  body :=
   [.assign (.attr (.name I.self) I.simulationAddress) (.or (.name I.simulationAddress) (.call I.SimulationAddress [] [])),
    .assign (.attr (.name I.self) I.referenceNumber) (.name I.referenceNumber)]

/-- `SimulationIdentifier.serialize`, /repo/opendis/dis7.py:2069-2072. -/
def SimulationIdentifier.serialize : Method where
  params := [(I.outputStream, none)]
  property := false
  body :=
   [.expr (.method (.attr (.name I.self) I.simulationAddress) I.serialize [.name I.outputStream] []),
    .expr (.method (.name I.outputStream) I.write_unsigned_short [.attr (.name I.self) I.referenceNumber] [])]

/-- `SimulationIdentifier.parse`, /repo/opendis/dis7.py:2074-2077. -/
def SimulationIdentifier.parse : Method where
  params := [(I.inputStream, none)]
  property := false
  body :=
   [.expr (.method (.attr (.name I.self) I.simulationAddress) I.parse [.name I.inputStream] []),
    .assign (.attr (.name I.self) I.referenceNumber) (.method (.name I.inputStream) I.read_unsigned_short [] [])]

/-- `class SimulationIdentifier`, /repo/opendis/dis7.py:2050-2077. -/
def SimulationIdentifier : Class where
  base := none
  attrs := []
  methods :=
   [(I.__init__, SimulationIdentifier.__init__),
    (I.serialize, SimulationIdentifier.serialize),
    (I.parse, SimulationIdentifier.parse)]

/-- `GridAxisDescriptorVariable.__init__`, /repo/opendis/dis7.py:2087-2120. -/
def GridAxisDescriptorVariable.__init__ : Method where
  params := [(I.domainInitialXi, some (.float 0x0000000000000000)), (I.domainFinalXi, some (.float 0x0000000000000000)),
   (I.domainPointsXi, some (.int 0)), (I.interleafFactor, some (.int 0)), (I.axisType, some (.int 0)),
   (I.numberOfPointsOnXiAxis, some (.int 0)), (I.initialIndex, some (.int 0)), (I.coordinateScaleXi, some
   (.float 0x0000000000000000)), (I.coordinateOffsetXi, some (.float 0x0000000000000000)), (I.xiValues, some
   (.none))]
  property := false
  body :=
   [.assign (.attr (.name I.self) I.domainInitialXi) (.name I.domainInitialXi),
    .assign (.attr (.name I.self) I.domainFinalXi) (.name I.domainFinalXi),
    .assign (.attr (.name I.self) I.domainPointsXi) (.name I.domainPointsXi),
    .assign (.attr (.name I.self) I.interleafFactor) (.name I.interleafFactor),
    .assign (.attr (.name I.self) I.axisType) (.name I.axisType),
    .assign (.attr (.name I.self) I.numberOfPointsOnXiAxis) (.name I.numberOfPointsOnXiAxis),
    .assign (.attr (.name I.self) I.initialIndex) (.name I.initialIndex),
    .assign (.attr (.name I.self) I.coordinateScaleXi) (.name I.coordinateScaleXi),
    .assign (.attr (.name I.self) I.coordinateOffsetXi) (.name I.coordinateOffsetXi),
    .assign (.attr (.name I.self) I.xiValues) (.or (.name I.xiValues) (.list []))]

/-- `GridAxisDescriptorVariable.serialize`, /repo/opendis/dis7.py:2123-2137. -/
def GridAxisDescriptorVariable.serialize : Method where
  params := [(I.outputStream, none)]
  property := false
  body :=
   [.expr (.method (.name I.outputStream) I.write_double [.attr (.name I.self) I.domainInitialXi] []),
    .expr (.method (.name I.outputStream) I.write_double [.attr (.name I.self) I.domainFinalXi] []),
    .expr (.method (.name I.outputStream) I.write_unsigned_short [.attr (.name I.self) I.domainPointsXi] []),
    .expr (.method (.name I.outputStream) I.write_unsigned_byte [.attr (.name I.self) I.interleafFactor] []),
    .expr (.method (.name I.outputStream) I.write_unsigned_byte [.attr (.name I.self) I.axisType] []),
    .expr (.method (.name I.outputStream) I.write_unsigned_short [.call I.len [.attr (.name I.self) I.xiValues] []] []),
    .expr (.method (.name I.outputStream) I.write_unsigned_short [.attr (.name I.self) I.initialIndex] []),
    .expr (.method (.name I.outputStream) I.write_double [.attr (.name I.self) I.coordinateScaleXi] []),
    .expr (.method (.name I.outputStream) I.write_double [.attr (.name I.self) I.coordinateOffsetXi] []),
    .for I.anObj (.attr (.name I.self) I.xiValues)
      [.expr (.method (.name I.anObj) I.serialize [.name I.outputStream] [])]]

/-- `GridAxisDescriptorVariable.parse`, /repo/opendis/dis7.py:2139-2155. -/
def GridAxisDescriptorVariable.parse : Method where
  params := [(I.inputStream, none)]
  property := false
  body :=
   [.assign (.attr (.name I.self) I.domainInitialXi) (.method (.name I.inputStream) I.read_double [] []),
    .assign (.attr (.name I.self) I.domainFinalXi) (.method (.name I.inputStream) I.read_double [] []),
    .assign (.attr (.name I.self) I.domainPointsXi) (.method (.name I.inputStream) I.read_unsigned_short [] []),
    .assign (.attr (.name I.self) I.interleafFactor) (.method (.name I.inputStream) I.read_unsigned_byte [] []),
    .assign (.attr (.name I.self) I.axisType) (.method (.name I.inputStream) I.read_unsigned_byte [] []),
    .assign (.attr (.name I.self) I.numberOfPointsOnXiAxis) (.method (.name I.inputStream) I.read_unsigned_short [] []),
    .assign (.attr (.name I.self) I.initialIndex) (.method (.name I.inputStream) I.read_unsigned_short [] []),
    .assign (.attr (.name I.self) I.coordinateScaleXi) (.method (.name I.inputStream) I.read_double [] []),
    .assign (.attr (.name I.self) I.coordinateOffsetXi) (.method (.name I.inputStream) I.read_double [] []),
    .for I.idx (.call I.range [.int 0, .attr (.name I.self) I.numberOfPointsOnXiAxis] [])
      [.assign (.name I.element) (.call I.null [] []),
       .expr (.method (.name I.element) I.parse [.name I.inputStream] []),
       .expr (.method (.attr (.name I.self) I.xiValues) I.append [.name I.element] [])]]

/-- `class GridAxisDescriptorVariable`, /repo/opendis/dis7.py:2080-2155. -/
def GridAxisDescriptorVariable : Class where
  base := none
  attrs := []
  methods :=
   [(I.__init__, GridAxisDescriptorVariable.__init__),
    (I.serialize, GridAxisDescriptorVariable.serialize),
    (I.parse, GridAxisDescriptorVariable.parse)]

/-- `SupplyQuantity.__init__`, /repo/opendis/dis7.py:2164-2169. -/
def SupplyQuantity.__init__ : Method where
  params := [(I.supplyType, some (.none)), (I.quantity, some (.float 0x0000000000000000))]
  property := false
  body :=
   [.assign (.attr (.name I.self) I.supplyType) (.or (.name I.supplyType) (.call I.EntityType [] [])),
    .assign (.attr (.name I.self) I.quantity) (.name I.quantity)]

/-- `SupplyQuantity.serialize`, /repo/opendis/dis7.py:2171-2174. -/
def SupplyQuantity.serialize : Method where
  params := [(I.outputStream, none)]
  property := false
  body :=
   [.expr (.method (.attr (.name I.self) I.supplyType) I.serialize [.name I.outputStream] []),
    .expr (.method (.name I.outputStream) I.write_float [.attr (.name I.self) I.quantity] [])]

/-- `SupplyQuantity.parse`, /repo/opendis/dis7.py:2176-2179. -/
def SupplyQuantity.parse : Method where
  params := [(I.inputStream, none)]
  property := false
  body :=
   [.expr (.method (.attr (.name I.self) I.supplyType) I.parse [.name I.inputStream] []),
    .assign (.attr (.name I.self) I.quantity) (.method (.name I.inputStream) I.read_float [] [])]

/-- `class SupplyQuantity`, /repo/opendis/dis7.py:2158-2179. -/
def SupplyQuantity : Class where
  base := none
  attrs := []
  methods :=
   [(I.__init__, SupplyQuantity.__init__),
    (I.serialize, SupplyQuantity.serialize),
    (I.parse, SupplyQuantity.parse)]

/-- `SilentEntitySystem.__init__`, /repo/opendis/dis7.py:2188-2196. -/
def SilentEntitySystem.__init__ : Method where
  params := [(I.numberOfEntities, some (.int 0)), (I.entityType, some (.none)), (I.appearanceRecordList, some (.none))]
  property := false
  body :=
   [.assign (.attr (.name I.self) I.numberOfEntities) (.name I.numberOfEntities),
    .assign (.attr (.name I.self) I.entityType) (.or (.name I.entityType) (.call I.EntityType [] [])),
    .assign (.attr (.name I.self) I.appearanceRecordList) (.or (.name I.appearanceRecordList) (.list []))]

/-- `SilentEntitySystem.numberOfAppearanceRecords`, /repo/opendis/dis7.py:2199-2200. -/
def SilentEntitySystem.numberOfAppearanceRecords : Method where
  params := []
  property := true
  body :=
   [.ret (.call I.len [.attr (.name I.self) I.appearanceRecordList] [])]

/-- `SilentEntitySystem.serialize`, /repo/opendis/dis7.py:2202-2208. -/
def SilentEntitySystem.serialize : Method where
  params := [(I.outputStream, none)]
  property := false
  body :=
   [.expr (.method (.name I.outputStream) I.write_unsigned_short [.attr (.name I.self) I.numberOfEntities] []),
    .expr (.method (.name I.outputStream) I.write_unsigned_short [.attr (.name I.self) I.numberOfAppearanceRecords] []),
    .expr (.method (.attr (.name I.self) I.entityType) I.serialize [.name I.outputStream] []),
    .for I.anObj (.attr (.name I.self) I.appearanceRecordList)
      [.expr (.method (.name I.anObj) I.serialize [.name I.outputStream] [])]]

/-- `SilentEntitySystem.parse`, /repo/opendis/dis7.py:2210-2218. -/
def SilentEntitySystem.parse : Method where
  params := [(I.inputStream, none)]
  property := false
  body :=
   [.assign (.attr (.name I.self) I.numberOfEntities) (.method (.name I.inputStream) I.read_unsigned_short [] []),
    .assign (.name I.numberOfAppearanceRecords) (.method (.name I.inputStream) I.read_unsigned_short [] []),
    .expr (.method (.attr (.name I.self) I.entityType) I.parse [.name I.inputStream] []),
    .for I.idx (.call I.range [.int 0, .name I.numberOfAppearanceRecords] [])
      [.assign (.name I.element) (.call I.null [] []),
       .expr (.method (.name I.element) I.parse [.name I.inputStream] []),
       .expr (.method (.attr (.name I.self) I.appearanceRecordList) I.append [.name I.element] [])]]

/-- `class SilentEntitySystem`, /repo/opendis/dis7.py:2182-2218. -/
def SilentEntitySystem : Class where
  base := none
  attrs := []
  methods :=
   [(I.__init__, SilentEntitySystem.__init__),
    (I.numberOfAppearanceRecords, SilentEntitySystem.numberOfAppearanceRecords),
    (I.serialize, SilentEntitySystem.serialize),
    (I.parse, SilentEntitySystem.parse)]

/-- `SilentAggregateSystem.__init__`, /repo/opendis/dis7.py:2227-2232. -/
def SilentAggregateSystem.__init__ : Method where
  params := [(I.numberOfAggregates, some (.int 0)), (I.aggregateType, some (.none))]
  property := false
  body :=
   [.assign (.attr (.name I.self) I.numberOfAggregates) (.name I.numberOfAggregates),
    .assign (.attr (.name I.self) I.aggregateType) (.or (.name I.aggregateType) (.call I.AggregateType [] []))]

/-- `SilentAggregateSystem.serialize`, /repo/opendis/dis7.py:2234-2237. -/
def SilentAggregateSystem.serialize : Method where
  params := [(I.outputStream, none)]
  property := false
  body :=
   [.expr (.method (.name I.outputStream) I.write_unsigned_short [.attr (.name I.self) I.numberOfAggregates] []),
    .expr (.method (.attr (.name I.self) I.entityType) I.serialize [.name I.outputStream] [])]

/-- `SilentAggregateSystem.parse`, /repo/opendis/dis7.py:2239-2242. -/
def SilentAggregateSystem.parse : Method where
  params := [(I.inputStream, none)]
  property := false
  body :=
   [.assign (.attr (.name I.self) I.numberOfAggregates) (.method (.name I.inputStream) I.read_unsigned_short [] []),
    .expr (.method (.attr (.name I.self) I.aggregateType) I.parse [.name I.inputStream] [])]

/-- `class SilentAggregateSystem`, /repo/opendis/dis7.py:2221-2242. -/
def SilentAggregateSystem : Class where
  base := none
  attrs := []
  methods :=
   [(I.__init__, SilentAggregateSystem.__init__),
    (I.serialize, SilentAggregateSystem.serialize),
    (I.parse, SilentAggregateSystem.parse)]

/-- `BlankingSector.__init__`, /repo/opendis/dis7.py:2254-2275. -/
def BlankingSector.__init__ : Method where
  params := [(I.emitterNumber, some (.int 0)), (I.beamNumber, some (.int 0)), (I.stateIndicator, some (.int 0)),
   (I.leftAzimuth, some (.float 0x0000000000000000)), (I.rightAzimuth, some (.float 0x0000000000000000)),
   (I.lowerElevation, some (.float 0x0000000000000000)), (I.upperElevation, some (.float 0x0000000000000000)),
   (I.residualPower, some (.float 0x0000000000000000))]
  property := false
  body :=
   [.assign (.attr (.name I.self) I.padding) (.int 0),
    .assign (.attr (.name I.self) I.emitterNumber) (.name I.emitterNumber),
    .assign (.attr (.name I.self) I.beamNumber) (.name I.beamNumber),
    .assign (.attr (.name I.self) I.stateIndicator) (.name I.stateIndicator),
    .assign (.attr (.name I.self) I.padding2) (.int 0),
    .assign (.attr (.name I.self) I.leftAzimuth) (.name I.leftAzimuth),
    .assign (.attr (.name I.self) I.rightAzimuth) (.name I.rightAzimuth),
    .assign (.attr (.name I.self) I.lowerElevation) (.name I.lowerElevation),
    .assign (.attr (.name I.self) I.upperElevation) (.name I.upperElevation),
    .assign (.attr (.name I.self) I.residualPower) (.name I.residualPower),
    .assign (.attr (.name I.self) I.padding3) (.int 0),
    .assign (.attr (.name I.self) I.padding4) (.int 0)]

/-- `BlankingSector.serialize`, /repo/opendis/dis7.py:2277-2292. -/
def BlankingSector.serialize : Method where
  params := [(I.outputStream, none)]
  property := false
  body :=
   [.expr (.method (.name I.outputStream) I.write_int [.attr (.name I.self) I.recordType] []),
    .expr (.method (.name I.outputStream) I.write_unsigned_short [.attr (.name I.self) I.recordLength] []),
    .expr (.method (.name I.outputStream) I.write_unsigned_short [.attr (.name I.self) I.padding] []),
    .expr (.method (.name I.outputStream) I.write_unsigned_byte [.attr (.name I.self) I.emitterNumber] []),
    .expr (.method (.name I.outputStream) I.write_unsigned_byte [.attr (.name I.self) I.beamNumber] []),
    .expr (.method (.name I.outputStream) I.write_unsigned_byte [.attr (.name I.self) I.stateIndicator] []),
    .expr (.method (.name I.outputStream) I.write_unsigned_byte [.attr (.name I.self) I.padding2] []),
    .expr (.method (.name I.outputStream) I.write_float [.attr (.name I.self) I.leftAzimuth] []),
    .expr (.method (.name I.outputStream) I.write_float [.attr (.name I.self) I.rightAzimuth] []),
    .expr (.method (.name I.outputStream) I.write_float [.attr (.name I.self) I.lowerElevation] []),
    .expr (.method (.name I.outputStream) I.write_float [.attr (.name I.self) I.upperElevation] []),
    .expr (.method (.name I.outputStream) I.write_float [.attr (.name I.self) I.residualPower] []),
    .expr (.method (.name I.outputStream) I.write_int [.attr (.name I.self) I.padding3] []),
    .expr (.method (.name I.outputStream) I.write_int [.attr (.name I.self) I.padding4] [])]

/-- `BlankingSector.parse`, /repo/opendis/dis7.py:2294-2310. -/
def BlankingSector.parse : Method where
  params := [(I.inputStream, none)]
  property := false
  body :=
   [.assign (.attr (.name I.self) I.recordType) (.method (.name I.inputStream) I.read_int [] []),
    .assign (.attr (.name I.self) I.recordLength) (.method (.name I.inputStream) I.read_unsigned_short [] []),
    .assign (.attr (.name I.self) I.padding) (.method (.name I.inputStream) I.read_unsigned_short [] []),
    .assign (.attr (.name I.self) I.emitterNumber) (.method (.name I.inputStream) I.read_unsigned_byte [] []),
    .assign (.attr (.name I.self) I.beamNumber) (.method (.name I.inputStream) I.read_unsigned_byte [] []),
    .assign (.attr (.name I.self) I.stateIndicator) (.method (.name I.inputStream) I.read_unsigned_byte [] []),
    .assign (.attr (.name I.self) I.padding2) (.method (.name I.inputStream) I.read_unsigned_byte [] []),
    .assign (.attr (.name I.self) I.leftAzimuth) (.method (.name I.inputStream) I.read_float [] []),
    .assign (.attr (.name I.self) I.rightAzimuth) (.method (.name I.inputStream) I.read_float [] []),
    .assign (.attr (.name I.self) I.lowerElevation) (.method (.name I.inputStream) I.read_float [] []),
    .assign (.attr (.name I.self) I.upperElevation) (.method (.name I.inputStream) I.read_float [] []),
    .assign (.attr (.name I.self) I.residualPower) (.method (.name I.inputStream) I.read_float [] []),
    .assign (.attr (.name I.self) I.padding3) (.method (.name I.inputStream) I.read_int [] []),
    .assign (.attr (.name I.self) I.padding4) (.method (.name I.inputStream) I.read_int [] [])]

/-- `class BlankingSector`, /repo/opendis/dis7.py:2245-2310. -/
def BlankingSector : Class where
  base := none
  attrs := [(I.recordType, .int 3500), (I.recordLength, .int 40)]
  methods :=
   [(I.__init__, BlankingSector.__init__),
    (I.serialize, BlankingSector.serialize),
    (I.parse, BlankingSector.parse)]

/-- `LaunchedMunitionRecord.__init__`, /repo/opendis/dis7.py:2319-2330. -/
def LaunchedMunitionRecord.__init__ : Method where
  params := [(I.fireEventID, some (.none)), (I.firingEntityID, some (.none)), (I.targetEntityID, some (.none)),
   (I.targetLocation, some (.none))]
  property := false
  body :=
   [.assign (.attr (.name I.self) I.fireEventID) (.or (.name I.fireEventID) (.call I.EventIdentifier [] [])),
    .assign (.attr (.name I.self) I.padding) (.int 0),
    .assign (.attr (.name I.self) I.firingEntityID) (.or (.name I.firingEntityID) (.call I.EventIdentifier [] [])),
    .assign (.attr (.name I.self) I.padding2) (.int 0),
    .assign (.attr (.name I.self) I.targetEntityID) (.or (.name I.targetEntityID) (.call I.EventIdentifier [] [])),
    .assign (.attr (.name I.self) I.padding3) (.int 0),
    .assign (.attr (.name I.self) I.targetLocation) (.or (.name I.targetLocation) (.call I.WorldCoordinates [] []))]

/-- `LaunchedMunitionRecord.serialize`, /repo/opendis/dis7.py:2332-2340. -/
def LaunchedMunitionRecord.serialize : Method where
  params := [(I.outputStream, none)]
  property := false
  body :=
   [.expr (.method (.attr (.name I.self) I.fireEventID) I.serialize [.name I.outputStream] []),
    .expr (.method (.name I.outputStream) I.write_unsigned_short [.attr (.name I.self) I.padding] []),
    .expr (.method (.attr (.name I.self) I.firingEntityID) I.serialize [.name I.outputStream] []),
    .expr (.method (.name I.outputStream) I.write_unsigned_short [.attr (.name I.self) I.padding2] []),
    .expr (.method (.attr (.name I.self) I.targetEntityID) I.serialize [.name I.outputStream] []),
    .expr (.method (.name I.outputStream) I.write_unsigned_short [.attr (.name I.self) I.padding3] []),
    .expr (.method (.attr (.name I.self) I.targetLocation) I.serialize [.name I.outputStream] [])]

/-- `LaunchedMunitionRecord.parse`, /repo/opendis/dis7.py:2342-2350. -/
def LaunchedMunitionRecord.parse : Method where
  params := [(I.inputStream, none)]
  property := false
  body :=
   [.expr (.method (.attr (.name I.self) I.fireEventID) I.parse [.name I.inputStream] []),
    .assign (.attr (.name I.self) I.padding) (.method (.name I.inputStream) I.read_unsigned_short [] []),
    .expr (.method (.attr (.name I.self) I.firingEntityID) I.parse [.name I.inputStream] []),
    .assign (.attr (.name I.self) I.padding2) (.method (.name I.inputStream) I.read_unsigned_short [] []),
    .expr (.method (.attr (.name I.self) I.targetEntityID) I.parse [.name I.inputStream] []),
    .assign (.attr (.name I.self) I.padding3) (.method (.name I.inputStream) I.read_unsigned_short [] []),
    .expr (.method (.attr (.name I.self) I.targetLocation) I.parse [.name I.inputStream] [])]

/-- `class LaunchedMunitionRecord`, /repo/opendis/dis7.py:2313-2350. -/
def LaunchedMunitionRecord : Class where
  base := none
  attrs := []
  methods :=
   [(I.__init__, LaunchedMunitionRecord.__init__),
    (I.serialize, LaunchedMunitionRecord.serialize),
    (I.parse, LaunchedMunitionRecord.parse)]

/-- `IFFFundamentalParameterData.__init__`, /repo/opendis/dis7.py:2359-2373. -/
def IFFFundamentalParameterData.__init__ : Method where
  params := [(I.erp, some (.float 0x0000000000000000)), (I.frequency, some (.float 0x0000000000000000)), (I.pgrf, some
   (.float 0x0000000000000000)), (I.pulseWidth, some (.float 0x0000000000000000)), (I.burstLength, some (.int
   0)), (I.applicableModes, some (.int 0)), (I.systemSpecificData, some (.none))]
  property := false
  body :=
   [.assign (.attr (.name I.self) I.erp) (.name I.erp),
    .assign (.attr (.name I.self) I.frequency) (.name I.frequency),
    .assign (.attr (.name I.self) I.pgrf) (.name I.pgrf),
    .assign (.attr (.name I.self) I.pulseWidth) (.name I.pulseWidth),
    .assign (.attr (.name I.self) I.burstLength) (.name I.burstLength),
    .assign (.attr (.name I.self) I.applicableModes) (.name I.applicableModes),
    .assign (.attr (.name I.self) I.systemSpecificData) (.or (.name I.systemSpecificData) (.bin .mul (.list [.int 0]) (.int 3)))]

/-- `IFFFundamentalParameterData.serialize`, /repo/opendis/dis7.py:2375-2384. -/
def IFFFundamentalParameterData.serialize : Method where
  params := [(I.outputStream, none)]
  property := false
  body :=
   [.expr (.method (.name I.outputStream) I.write_float [.attr (.name I.self) I.erp] []),
    .expr (.method (.name I.outputStream) I.write_float [.attr (.name I.self) I.frequency] []),
    .expr (.method (.name I.outputStream) I.write_float [.attr (.name I.self) I.pgrf] []),
    .expr (.method (.name I.outputStream) I.write_float [.attr (.name I.self) I.pulseWidth] []),
    .expr (.method (.name I.outputStream) I.write_unsigned_int [.attr (.name I.self) I.burstLength] []),
    .expr (.method (.name I.outputStream) I.write_unsigned_byte [.attr (.name I.self) I.applicableModes] []),
    .for I.idx (.call I.range [.int 0, .int 3] [])
      [.expr (.method (.name I.outputStream) I.write_unsigned_byte [.index (.attr (.name I.self) I.systemSpecificData) (.name I.idx)] [])]]

/-- `IFFFundamentalParameterData.parse`, /repo/opendis/dis7.py:2386-2398. -/
def IFFFundamentalParameterData.parse : Method where
  params := [(I.inputStream, none)]
  property := false
  body :=
   [.assign (.attr (.name I.self) I.erp) (.method (.name I.inputStream) I.read_float [] []),
    .assign (.attr (.name I.self) I.frequency) (.method (.name I.inputStream) I.read_float [] []),
    .assign (.attr (.name I.self) I.pgrf) (.method (.name I.inputStream) I.read_float [] []),
    .assign (.attr (.name I.self) I.pulseWidth) (.method (.name I.inputStream) I.read_float [] []),
    .assign (.attr (.name I.self) I.burstLength) (.method (.name I.inputStream) I.read_unsigned_int [] []),
    .assign (.attr (.name I.self) I.applicableModes) (.method (.name I.inputStream) I.read_unsigned_byte [] []),
    .assign (.attr (.name I.self) I.systemSpecificData) (.bin .mul (.list [.int 0]) (.int 3)),
    .for I.idx (.call I.range [.int 0, .int 3] [])
      [.assign (.name I.val) (.method (.name I.inputStream) I.read_unsigned_byte [] []),
       .assign (.index (.attr (.name I.self) I.systemSpecificData) (.name I.idx)) (.name I.val)]]

/-- `class IFFFundamentalParameterData`, /repo/opendis/dis7.py:2353-2398. -/
def IFFFundamentalParameterData : Class where
  base := none
  attrs := []
  methods :=
   [(I.__init__, IFFFundamentalParameterData.__init__),
    (I.serialize, IFFFundamentalParameterData.serialize),
    (I.parse, IFFFundamentalParameterData.parse)]

/-- `FundamentalOperationalData.__init__`, /repo/opendis/dis7.py:2407-2437. -/
def FundamentalOperationalData.__init__ : Method where
  params := [(I.systemStatus, some (.int 0)), (I.dataField1, some (.int 0)), (I.informationLayers, some (.int 0)),
   (I.dataField2, some (.int 0)), (I.parameter1, some (.int 0)), (I.parameter2, some (.int 0)), (I.parameter3,
   some (.int 0)), (I.parameter4, some (.int 0)), (I.parameter5, some (.int 0)), (I.parameter6, some (.int
   0))]
  property := false
  body :=
   [.assign (.attr (.name I.self) I.systemStatus) (.name I.systemStatus),
    .assign (.attr (.name I.self) I.dataField1) (.name I.dataField1),
    .assign (.attr (.name I.self) I.informationLayers) (.name I.informationLayers),
    .assign (.attr (.name I.self) I.dataField2) (.name I.dataField2),
    .assign (.attr (.name I.self) I.parameter1) (.name I.parameter1),
    .assign (.attr (.name I.self) I.parameter2) (.name I.parameter2),
    .assign (.attr (.name I.self) I.parameter3) (.name I.parameter3),
    .assign (.attr (.name I.self) I.parameter4) (.name I.parameter4),
    .assign (.attr (.name I.self) I.parameter5) (.name I.parameter5),
    .assign (.attr (.name I.self) I.parameter6) (.name I.parameter6)]

/-- `FundamentalOperationalData.serialize`, /repo/opendis/dis7.py:2439-2450. -/
def FundamentalOperationalData.serialize : Method where
  params := [(I.outputStream, none)]
  property := false
  body :=
   [.expr (.method (.name I.outputStream) I.write_unsigned_byte [.attr (.name I.self) I.systemStatus] []),
    .expr (.method (.name I.outputStream) I.write_unsigned_byte [.attr (.name I.self) I.dataField1] []),
    .expr (.method (.name I.outputStream) I.write_unsigned_byte [.attr (.name I.self) I.informationLayers] []),
    .expr (.method (.name I.outputStream) I.write_unsigned_byte [.attr (.name I.self) I.dataField2] []),
    .expr (.method (.name I.outputStream) I.write_unsigned_short [.attr (.name I.self) I.parameter1] []),
    .expr (.method (.name I.outputStream) I.write_unsigned_short [.attr (.name I.self) I.parameter2] []),
    .expr (.method (.name I.outputStream) I.write_unsigned_short [.attr (.name I.self) I.parameter3] []),
    .expr (.method (.name I.outputStream) I.write_unsigned_short [.attr (.name I.self) I.parameter4] []),
    .expr (.method (.name I.outputStream) I.write_unsigned_short [.attr (.name I.self) I.parameter5] []),
    .expr (.method (.name I.outputStream) I.write_unsigned_short [.attr (.name I.self) I.parameter6] [])]

/-- `FundamentalOperationalData.parse`, /repo/opendis/dis7.py:2452-2463. -/
def FundamentalOperationalData.parse : Method where
  params := [(I.inputStream, none)]
  property := false
  body :=
   [.assign (.attr (.name I.self) I.systemStatus) (.method (.name I.inputStream) I.read_unsigned_byte [] []),
    .assign (.attr (.name I.self) I.dataField1) (.method (.name I.inputStream) I.read_unsigned_byte [] []),
    .assign (.attr (.name I.self) I.informationLayers) (.method (.name I.inputStream) I.read_unsigned_byte [] []),
    .assign (.attr (.name I.self) I.dataField2) (.method (.name I.inputStream) I.read_unsigned_byte [] []),
    .assign (.attr (.name I.self) I.parameter1) (.method (.name I.inputStream) I.read_unsigned_short [] []),
    .assign (.attr (.name I.self) I.parameter2) (.method (.name I.inputStream) I.read_unsigned_short [] []),
    .assign (.attr (.name I.self) I.parameter3) (.method (.name I.inputStream) I.read_unsigned_short [] []),
    .assign (.attr (.name I.self) I.parameter4) (.method (.name I.inputStream) I.read_unsigned_short [] []),
    .assign (.attr (.name I.self) I.parameter5) (.method (.name I.inputStream) I.read_unsigned_short [] []),
    .assign (.attr (.name I.self) I.parameter6) (.method (.name I.inputStream) I.read_unsigned_short [] [])]

/-- `class FundamentalOperationalData`, /repo/opendis/dis7.py:2401-2463. -/
def FundamentalOperationalData : Class where
  base := none
  attrs := []
  methods :=
   [(I.__init__, FundamentalOperationalData.__init__),
    (I.serialize, FundamentalOperationalData.serialize),
    (I.parse, FundamentalOperationalData.parse)]

/-- `IntercomCommunicationsParameters.__init__`, /repo/opendis/dis7.py:2472-2481. -/
def IntercomCommunicationsParameters.__init__ : Method where
  params := [(I.recordType, some (.int 0)), (I.recordLength, some (.int 0)), (I.recordSpecificField, some (.int 0))]
  property := false
  body :=
   [.assign (.attr (.name I.self) I.recordType) (.name I.recordType),
    .assign (.attr (.name I.self) I.recordLength) (.name I.recordLength),
    .assign (.attr (.name I.self) I.recordSpecificField) (.name I.recordSpecificField)]

/-- `IntercomCommunicationsParameters.serialize`, /repo/opendis/dis7.py:2484-2488. -/
def IntercomCommunicationsParameters.serialize : Method where
  params := [(I.outputStream, none)]
  property := false
  body :=
   [.expr (.method (.name I.outputStream) I.write_unsigned_short [.attr (.name I.self) I.recordType] []),
    .expr (.method (.name I.outputStream) I.write_unsigned_short [.attr (.name I.self) I.recordLength] []),
    .expr (.method (.name I.outputStream) I.write_unsigned_int [.attr (.name I.self) I.recordSpecificField] [])]

/-- `IntercomCommunicationsParameters.parse`, /repo/opendis/dis7.py:2490-2494. -/
def IntercomCommunicationsParameters.parse : Method where
  params := [(I.inputStream, none)]
  property := false
  body :=
   [.assign (.attr (.name I.self) I.recordType) (.method (.name I.inputStream) I.read_unsigned_short [] []),
    .assign (.attr (.name I.self) I.recordLength) (.method (.name I.inputStream) I.read_unsigned_short [] []),
    .assign (.attr (.name I.self) I.recordSpecificField) (.method (.name I.inputStream) I.read_unsigned_int [] [])]

/-- `class IntercomCommunicationsParameters`, /repo/opendis/dis7.py:2466-2494. -/
def IntercomCommunicationsParameters : Class where
  base := none
  attrs := []
  methods :=
   [(I.__init__, IntercomCommunicationsParameters.__init__),
    (I.serialize, IntercomCommunicationsParameters.serialize),
    (I.parse, IntercomCommunicationsParameters.parse)]

/-- `EntityType.__init__`, /repo/opendis/dis7.py:2503-2520. -/
def EntityType.__init__ : Method where
  params := [(I.entityKind, some (.int 0)), (I.domain, some (.int 0)), (I.country, some (.int 0)), (I.category, some (.int
   0)), (I.subcategory, some (.int 0)), (I.specific, some (.int 0)), (I.extra, some (.int 0))]
  property := false
  body :=
   [.assign (.attr (.name I.self) I.entityKind) (.name I.entityKind),
    .assign (.attr (.name I.self) I.domain) (.name I.domain),
    .assign (.attr (.name I.self) I.country) (.name I.country),
    .assign (.attr (.name I.self) I.category) (.name I.category),
    .assign (.attr (.name I.self) I.subcategory) (.name I.subcategory),
    .assign (.attr (.name I.self) I.specific) (.name I.specific),
    .assign (.attr (.name I.self) I.extra) (.name I.extra)]

/-- `EntityType.serialize`, /repo/opendis/dis7.py:2522-2530. -/
def EntityType.serialize : Method where
  params := [(I.outputStream, none)]
  property := false
  body :=
   [.expr (.method (.name I.outputStream) I.write_unsigned_byte [.attr (.name I.self) I.entityKind] []),
    .expr (.method (.name I.outputStream) I.write_unsigned_byte [.attr (.name I.self) I.domain] []),
    .expr (.method (.name I.outputStream) I.write_unsigned_short [.attr (.name I.self) I.country] []),
    .expr (.method (.name I.outputStream) I.write_unsigned_byte [.attr (.name I.self) I.category] []),
    .expr (.method (.name I.outputStream) I.write_unsigned_byte [.attr (.name I.self) I.subcategory] []),
    .expr (.method (.name I.outputStream) I.write_unsigned_byte [.attr (.name I.self) I.specific] []),
    .expr (.method (.name I.outputStream) I.write_unsigned_byte [.attr (.name I.self) I.extra] [])]

/-- `EntityType.parse`, /repo/opendis/dis7.py:2532-2540. -/
def EntityType.parse : Method where
  params := [(I.inputStream, none)]
  property := false
  body :=
   [.assign (.attr (.name I.self) I.entityKind) (.method (.name I.inputStream) I.read_unsigned_byte [] []),
    .assign (.attr (.name I.self) I.domain) (.method (.name I.inputStream) I.read_unsigned_byte [] []),
    .assign (.attr (.name I.self) I.country) (.method (.name I.inputStream) I.read_unsigned_short [] []),
    .assign (.attr (.name I.self) I.category) (.method (.name I.inputStream) I.read_unsigned_byte [] []),
    .assign (.attr (.name I.self) I.subcategory) (.method (.name I.inputStream) I.read_unsigned_byte [] []),
    .assign (.attr (.name I.self) I.specific) (.method (.name I.inputStream) I.read_unsigned_byte [] []),
    .assign (.attr (.name I.self) I.extra) (.method (.name I.inputStream) I.read_unsigned_byte [] [])]

/-- `class EntityType`, /repo/opendis/dis7.py:2497-2540. -/
def EntityType : Class where
  base := none
  attrs := []
  methods :=
   [(I.__init__, EntityType.__init__),
    (I.serialize, EntityType.serialize),
    (I.parse, EntityType.parse)]

/-- `Munition.__init__`, /repo/opendis/dis7.py:2552-2566. -/
def Munition.__init__ : Method where
  params := [(I.munitionType, some (.none)), (I.station, some (.int 0)), (I.quantity, some (.int 0)), (I.munitionStatus,
   some (.int 0))]
  property := false
  body :=
   [.assign (.attr (.name I.self) I.munitionType) (.or (.name I.munitionType) (.call I.EntityType [] [])),
    .assign (.attr (.name I.self) I.station) (.name I.station),
    .assign (.attr (.name I.self) I.quantity) (.name I.quantity),
    .assign (.attr (.name I.self) I.munitionStatus) (.name I.munitionStatus),
    .assign (.attr (.name I.self) I.padding) (.int 0)]

/-- `Munition.serialize`, /repo/opendis/dis7.py:2568-2574. -/
def Munition.serialize : Method where
  params := [(I.outputStream, none)]
  property := false
  body :=
   [.expr (.method (.attr (.name I.self) I.munitionType) I.serialize [.name I.outputStream] []),
    .expr (.method (.name I.outputStream) I.write_unsigned_int [.attr (.name I.self) I.station] []),
    .expr (.method (.name I.outputStream) I.write_unsigned_short [.attr (.name I.self) I.quantity] []),
    .expr (.method (.name I.outputStream) I.write_unsigned_byte [.attr (.name I.self) I.munitionStatus] []),
    .expr (.method (.name I.outputStream) I.write_unsigned_byte [.attr (.name I.self) I.padding] [])]

/-- `Munition.parse`, /repo/opendis/dis7.py:2576-2582. -/
def Munition.parse : Method where
  params := [(I.inputStream, none)]
  property := false
  body :=
   [.expr (.method (.attr (.name I.self) I.munitionType) I.parse [.name I.inputStream] []),
    .assign (.attr (.name I.self) I.station) (.method (.name I.inputStream) I.read_unsigned_int [] []),
    .assign (.attr (.name I.self) I.quantity) (.method (.name I.inputStream) I.read_unsigned_short [] []),
    .assign (.attr (.name I.self) I.munitionStatus) (.method (.name I.inputStream) I.read_unsigned_byte [] []),
    .assign (.attr (.name I.self) I.padding) (.method (.name I.inputStream) I.read_unsigned_byte [] [])]

/-- `class Munition`, /repo/opendis/dis7.py:2543-2582. -/
def Munition : Class where
  base := none
  attrs := []
  methods :=
   [(I.__init__, Munition.__init__),
    (I.serialize, Munition.serialize),
    (I.parse, Munition.parse)]

/-- `StandardVariableSpecification.__init__`, /repo/opendis/dis7.py:2591-2596. -/
def StandardVariableSpecification.__init__ : Method where
  params := [(I.standardVariables, some (.none))]
  property := false
  body :=
   [.assign (.attr (.name I.self) I.standardVariables) (.or (.name I.standardVariables) (.list []))]

/-- `StandardVariableSpecification.numberOfStandardVariableRecords`, /repo/opendis/dis7.py:2599-2600. -/
def StandardVariableSpecification.numberOfStandardVariableRecords : Method where
  params := []
  property := true
  body :=
   [.ret (.call I.len [.attr (.name I.self) I.standardVariables] [])]

/-- `StandardVariableSpecification.serialize`, /repo/opendis/dis7.py:2602-2606. -/
def StandardVariableSpecification.serialize : Method where
  params := [(I.outputStream, none)]
  property := false
  body :=
   [.expr (.method (.name I.outputStream) I.write_unsigned_short [.attr (.name I.self) I.numberOfStandardVariableRecords] []),
    .for I.anObj (.attr (.name I.self) I.standardVariables)
      [.expr (.method (.name I.anObj) I.serialize [.name I.outputStream] [])]]

/-- `StandardVariableSpecification.parse`, /repo/opendis/dis7.py:2608-2615. -/
def StandardVariableSpecification.parse : Method where
  params := [(I.inputStream, none)]
  property := false
  body :=
   [.assign (.name I.numberOfStandardVariableRecords) (.method (.name I.inputStream) I.read_unsigned_short [] []),
    .for I.idx (.call I.range [.int 0, .name I.numberOfStandardVariableRecords] [])
      [.assign (.name I.element) (.call I.null [] []),
       .expr (.method (.name I.element) I.parse [.name I.inputStream] []),
       .expr (.method (.attr (.name I.self) I.standardVariables) I.append [.name I.element] [])]]

/-- `class StandardVariableSpecification`, /repo/opendis/dis7.py:2585-2615. -/
def StandardVariableSpecification : Class where
  base := none
  attrs := []
  methods :=
   [(I.__init__, StandardVariableSpecification.__init__),
    (I.numberOfStandardVariableRecords, StandardVariableSpecification.numberOfStandardVariableRecords),
    (I.serialize, StandardVariableSpecification.serialize),
    (I.parse, StandardVariableSpecification.parse)]

/-- `Vector2Float.__init__`, /repo/opendis/dis7.py:2621-2623. -/
def Vector2Float.__init__ : Method where
  params := [(I.x, some (.float 0x0000000000000000)), (I.y, some (.float 0x0000000000000000))]
  property := false
  body :=
   [.assign (.attr (.name I.self) I.x) (.name I.x),
    .assign (.attr (.name I.self) I.y) (.name I.y)]

/-- `Vector2Float.serialize`, /repo/opendis/dis7.py:2625-2628. -/
def Vector2Float.serialize : Method where
  params := [(I.outputStream, none)]
  property := false
  body :=
   [.expr (.method (.name I.outputStream) I.write_float [.attr (.name I.self) I.x] []),
    .expr (.method (.name I.outputStream) I.write_float [.attr (.name I.self) I.y] [])]

/-- `Vector2Float.parse`, /repo/opendis/dis7.py:2630-2633. -/
def Vector2Float.parse : Method where
  params := [(I.inputStream, none)]
  property := false
  body :=
   [.assign (.attr (.name I.self) I.x) (.method (.name I.inputStream) I.read_float [] []),
    .assign (.attr (.name I.self) I.y) (.method (.name I.inputStream) I.read_float [] [])]

/-- `class Vector2Float`, /repo/opendis/dis7.py:2618-2633. -/
def Vector2Float : Class where
  base := none
  attrs := []
  methods :=
   [(I.__init__, Vector2Float.__init__),
    (I.serialize, Vector2Float.serialize),
    (I.parse, Vector2Float.parse)]

/-- `Environment.__init__`, /repo/opendis/dis7.py:2642-2654. -/
def Environment.__init__ : Method where
  params := [(I.environmentType, some (.int 0)), (I.length, some (.int 0)), (I.index, some (.int 0))]
  property := false
  body :=
   [.assign (.attr (.name I.self) I.environmentType) (.name I.environmentType),
    .assign (.attr (.name I.self) I.length) (.name I.length),
    .assign (.attr (.name I.self) I.index) (.name I.index),
    .assign (.attr (.name I.self) I.padding0) (.int 0),
    .assign (.attr (.name I.self) I.padding1) (.int 0)]

/-- `Environment.serialize`, /repo/opendis/dis7.py:2656-2661. -/
def Environment.serialize : Method where
  params := [(I.outputStream, none)]
  property := false
  body :=
   [.expr (.method (.name I.outputStream) I.write_unsigned_int [.attr (.name I.self) I.environmentType] []),
    .expr (.method (.name I.outputStream) I.write_unsigned_short [.attr (.name I.self) I.length] []),
    .expr (.method (.name I.outputStream) I.write_unsigned_byte [.attr (.name I.self) I.index] []),
    .expr (.method (.name I.outputStream) I.write_unsigned_byte [.attr (.name I.self) I.padding] [])]

/-- `Environment.parse`, /repo/opendis/dis7.py:2663-2668. -/
def Environment.parse : Method where
  params := [(I.inputStream, none)]
  property := false
  body :=
   [.assign (.attr (.name I.self) I.environmentType) (.method (.name I.inputStream) I.read_unsigned_int [] []),
    .assign (.attr (.name I.self) I.length) (.method (.name I.inputStream) I.read_unsigned_short [] []),
    .assign (.attr (.name I.self) I.index) (.method (.name I.inputStream) I.read_unsigned_byte [] []),
    .assign (.attr (.name I.self) I.padding) (.method (.name I.inputStream) I.read_unsigned_byte [] [])]

/-- `class Environment`, /repo/opendis/dis7.py:2636-2668. -/
def Environment : Class where
  base := none
  attrs := []
  methods :=
   [(I.__init__, Environment.__init__),
    (I.serialize, Environment.serialize),
    (I.parse, Environment.parse)]

/-- `AcousticEmitter.__init__`, /repo/opendis/dis7.py:2677-2686. -/
def AcousticEmitter.__init__ : Method where
  params := [(I.acousticSystemName, some (.int 0)), (I.acousticFunction, some (.int 0)), (I.acousticIDNumber, some (.int
   0))]
  property := false
  body :=
   [.assign (.attr (.name I.self) I.acousticSystemName) (.name I.acousticSystemName),
    .assign (.attr (.name I.self) I.acousticFunction) (.name I.acousticFunction),
    .assign (.attr (.name I.self) I.acousticIDNumber) (.name I.acousticIDNumber)]

/-- `AcousticEmitter.serialize`, /repo/opendis/dis7.py:2688-2692. -/
def AcousticEmitter.serialize : Method where
  params := [(I.outputStream, none)]
  property := false
  body :=
   [.expr (.method (.name I.outputStream) I.write_unsigned_short [.attr (.name I.self) I.acousticSystemName] []),
    .expr (.method (.name I.outputStream) I.write_unsigned_byte [.attr (.name I.self) I.acousticFunction] []),
    .expr (.method (.name I.outputStream) I.write_unsigned_byte [.attr (.name I.self) I.acousticIDNumber] [])]

/-- `AcousticEmitter.parse`, /repo/opendis/dis7.py:2694-2698. -/
def AcousticEmitter.parse : Method where
  params := [(I.inputStream, none)]
  property := false
  body :=
   [.assign (.attr (.name I.self) I.acousticSystemName) (.method (.name I.inputStream) I.read_unsigned_short [] []),
    .assign (.attr (.name I.self) I.acousticFunction) (.method (.name I.inputStream) I.read_unsigned_byte [] []),
    .assign (.attr (.name I.self) I.acousticIDNumber) (.method (.name I.inputStream) I.read_unsigned_byte [] [])]

/-- `class AcousticEmitter`, /repo/opendis/dis7.py:2671-2698. -/
def AcousticEmitter : Class where
  base := none
  attrs := []
  methods :=
   [(I.__init__, AcousticEmitter.__init__),
    (I.serialize, AcousticEmitter.serialize),
    (I.parse, AcousticEmitter.parse)]

/-- `AngularVelocityVector.__init__`, /repo/opendis/dis7.py:2710-2716. -/
def AngularVelocityVector.__init__ : Method where
  params := [(I.x, some (.float 0x0000000000000000)), (I.y, some (.float 0x0000000000000000)), (I.z, some (.float
   0x0000000000000000))]
  property := false
  body :=
   [.assign (.attr (.name I.self) I.x) (.int 0),
    .assign (.attr (.name I.self) I.y) (.int 0),
    .assign (.attr (.name I.self) I.z) (.int 0)]

/-- `AngularVelocityVector.serialize`, /repo/opendis/dis7.py:2718-2722. -/
def AngularVelocityVector.serialize : Method where
  params := [(I.outputStream, none)]
  property := false
  body :=
   [.expr (.method (.name I.outputStream) I.write_float [.attr (.name I.self) I.x] []),
    .expr (.method (.name I.outputStream) I.write_float [.attr (.name I.self) I.y] []),
    .expr (.method (.name I.outputStream) I.write_float [.attr (.name I.self) I.z] [])]

/-- `AngularVelocityVector.parse`, /repo/opendis/dis7.py:2724-2728. -/
def AngularVelocityVector.parse : Method where
  params := [(I.inputStream, none)]
  property := false
  body :=
   [.assign (.attr (.name I.self) I.x) (.method (.name I.inputStream) I.read_float [] []),
    .assign (.attr (.name I.self) I.y) (.method (.name I.inputStream) I.read_float [] []),
    .assign (.attr (.name I.self) I.z) (.method (.name I.inputStream) I.read_float [] [])]

/-- `class AngularVelocityVector`, /repo/opendis/dis7.py:2701-2728. -/
def AngularVelocityVector : Class where
  base := none
  attrs := []
  methods :=
   [(I.__init__, AngularVelocityVector.__init__),
    (I.serialize, AngularVelocityVector.serialize),
    (I.parse, AngularVelocityVector.parse)]

/-- `AggregateMarking.__init__`, /repo/opendis/dis7.py:2738-2744. -/
def AggregateMarking.__init__ : Method where
  params := [(I.characterSet, some (.int 0)), (I.characters, some (.none))]
  property := false
  body :=
   [.assign (.attr (.name I.self) I.characterSet) (.name I.characterSet),
    .assign (.attr (.name I.self) I.characters) (.bin .mul (.list [.int 0]) (.int 31))]

/-- `AggregateMarking.serialize`, /repo/opendis/dis7.py:2746-2750. -/
def AggregateMarking.serialize : Method where
  params := [(I.outputStream, none)]
  property := false
  body :=
   [.expr (.method (.name I.outputStream) I.write_unsigned_byte [.attr (.name I.self) I.characterSet] []),
    .for I.idx (.call I.range [.int 0, .int 31] [])
      [.expr (.method (.name I.outputStream) I.write_unsigned_byte [.index (.attr (.name I.self) I.characters) (.name I.idx)] [])]]

/-- `AggregateMarking.parse`, /repo/opendis/dis7.py:2752-2759. -/
def AggregateMarking.parse : Method where
  params := [(I.inputStream, none)]
  property := false
  body :=
   [.assign (.attr (.name I.self) I.characterSet) (.method (.name I.inputStream) I.read_unsigned_byte [] []),
    .assign (.attr (.name I.self) I.characters) (.bin .mul (.list [.int 0]) (.int 31)),
    .for I.idx (.call I.range [.int 0, .int 31] [])
      [.assign (.name I.val) (.method (.name I.inputStream) I.read_unsigned_byte [] []),
       .assign (.index (.attr (.name I.self) I.characters) (.name I.idx)) (.name I.val)]]

/-- `class AggregateMarking`, /repo/opendis/dis7.py:2731-2759. -/
def AggregateMarking : Class where
  base := none
  attrs := []
  methods :=
   [(I.__init__, AggregateMarking.__init__),
    (I.serialize, AggregateMarking.serialize),
    (I.parse, AggregateMarking.parse)]

/-- `DataFilterRecord.__init__`, /repo/opendis/dis7.py:2771-2773. -/
def DataFilterRecord.__init__ : Method where
  params := [(I.bitFlags, some (.int 0))]
  property := false
  body :=
   [.assign (.attr (.name I.self) I.bitFlags) (.name I.bitFlags)]

/-- `DataFilterRecord.serialize`, /repo/opendis/dis7.py:2775-2777. -/
def DataFilterRecord.serialize : Method where
  params := [(I.outputStream, none)]
  property := false
  body :=
   [.expr (.method (.name I.outputStream) I.write_unsigned_int [.attr (.name I.self) I.bitFlags] [])]

/-- `DataFilterRecord.parse`, /repo/opendis/dis7.py:2779-2781. -/
def DataFilterRecord.parse : Method where
  params := [(I.inputStream, none)]
  property := false
  body :=
   [.assign (.attr (.name I.self) I.bitFlags) (.method (.name I.inputStream) I.read_unsigned_int [] [])]

/-- `class DataFilterRecord`, /repo/opendis/dis7.py:2762-2781. -/
def DataFilterRecord : Class where
  base := none
  attrs := []
  methods :=
   [(I.__init__, DataFilterRecord.__init__),
    (I.serialize, DataFilterRecord.serialize),
    (I.parse, DataFilterRecord.parse)]

/-- `IntercomIdentifier.__init__`, /repo/opendis/dis7.py:2790-2798. -/
def IntercomIdentifier.__init__ : Method where
  params := [(I.siteNumber, some (.int 0)), (I.applicationNumber, some (.int 0)), (I.referenceNumber, some (.int 0)),
   (I.intercomNumber, some (.int 0))]
  property := false
  body :=
   [.assign (.attr (.name I.self) I.siteNumber) (.name I.siteNumber),
    .assign (.attr (.name I.self) I.applicationNumber) (.name I.applicationNumber),
    .assign (.attr (.name I.self) I.referenceNumber) (.name I.referenceNumber),
    .assign (.attr (.name I.self) I.intercomNumber) (.name I.intercomNumber)]

/-- `IntercomIdentifier.serialize`, /repo/opendis/dis7.py:2800-2805. -/
def IntercomIdentifier.serialize : Method where
  params := [(I.outputStream, none)]
  property := false
  body :=
   [.expr (.method (.name I.outputStream) I.write_unsigned_short [.attr (.name I.self) I.siteNumber] []),
    .expr (.method (.name I.outputStream) I.write_unsigned_short [.attr (.name I.self) I.applicationNumber] []),
    .expr (.method (.name I.outputStream) I.write_unsigned_short [.attr (.name I.self) I.referenceNumber] []),
    .expr (.method (.name I.outputStream) I.write_unsigned_short [.attr (.name I.self) I.intercomNumber] [])]

/-- `IntercomIdentifier.parse`, /repo/opendis/dis7.py:2807-2812. -/
def IntercomIdentifier.parse : Method where
  params := [(I.inputStream, none)]
  property := false
  body :=
   [.assign (.attr (.name I.self) I.siteNumber) (.method (.name I.inputStream) I.read_unsigned_short [] []),
    .assign (.attr (.name I.self) I.applicationNumber) (.method (.name I.inputStream) I.read_unsigned_short [] []),
    .assign (.attr (.name I.self) I.referenceNumber) (.method (.name I.inputStream) I.read_unsigned_short [] []),
    .assign (.attr (.name I.self) I.intercomNumber) (.method (.name I.inputStream) I.read_unsigned_short [] [])]

/-- `class IntercomIdentifier`, /repo/opendis/dis7.py:2784-2812. -/
def IntercomIdentifier : Class where
  base := none
  attrs := []
  methods :=
   [(I.__init__, IntercomIdentifier.__init__),
    (I.serialize, IntercomIdentifier.serialize),
    (I.parse, IntercomIdentifier.parse)]

/-- `StorageFuel.__init__`, /repo/opendis/dis7.py:2821-2834. -/
def StorageFuel.__init__ : Method where
  params := [(I.fuelQuantity, some (.int 0)), (I.fuelMeasurementUnits, some (.int 0)), (I.fuelType, some (.int 0)),
   (I.fuelLocation, some (.int 0))]
  property := false
  body :=
   [.assign (.attr (.name I.self) I.fuelQuantity) (.name I.fuelQuantity),
    .assign (.attr (.name I.self) I.fuelMeasurementUnits) (.name I.fuelMeasurementUnits),
    .assign (.attr (.name I.self) I.fuelType) (.name I.fuelType),
    .assign (.attr (.name I.self) I.fuelLocation) (.name I.fuelLocation),
    .assign (.attr (.name I.self) I.padding) (.int 0)]

/-- `StorageFuel.serialize`, /repo/opendis/dis7.py:2836-2842. -/
def StorageFuel.serialize : Method where
  params := [(I.outputStream, none)]
  property := false
  body :=
   [.expr (.method (.name I.outputStream) I.write_unsigned_int [.attr (.name I.self) I.fuelQuantity] []),
    .expr (.method (.name I.outputStream) I.write_unsigned_byte [.attr (.name I.self) I.fuelMeasurementUnits] []),
    .expr (.method (.name I.outputStream) I.write_unsigned_byte [.attr (.name I.self) I.fuelType] []),
    .expr (.method (.name I.outputStream) I.write_unsigned_byte [.attr (.name I.self) I.fuelLocation] []),
    .expr (.method (.name I.outputStream) I.write_unsigned_byte [.attr (.name I.self) I.padding] [])]

/-- `StorageFuel.parse`, /repo/opendis/dis7.py:2844-2850. -/
def StorageFuel.parse : Method where
  params := [(I.inputStream, none)]
  property := false
  body :=
   [.assign (.attr (.name I.self) I.fuelQuantity) (.method (.name I.inputStream) I.read_unsigned_int [] []),
    .assign (.attr (.name I.self) I.fuelMeasurementUnits) (.method (.name I.inputStream) I.read_unsigned_byte [] []),
    .assign (.attr (.name I.self) I.fuelType) (.method (.name I.inputStream) I.read_unsigned_byte [] []),
    .assign (.attr (.name I.self) I.fuelLocation) (.method (.name I.inputStream) I.read_unsigned_byte [] []),
    .assign (.attr (.name I.self) I.padding) (.method (.name I.inputStream) I.read_unsigned_byte [] [])]

/-- `class StorageFuel`, /repo/opendis/dis7.py:2815-2850. -/
def StorageFuel : Class where
  base := none
  attrs := []
  methods :=
   [(I.__init__, StorageFuel.__init__),
    (I.serialize, StorageFuel.serialize),
    (I.parse, StorageFuel.parse)]

/-- `Sensor.__init__`, /repo/opendis/dis7.py:2859-2875. -/
def Sensor.__init__ : Method where
  params := [(I.sensorTypeSource, some (.int 0)), (I.sensorOnOffStatus, some (.int 0)), (I.sensorType, some (.int 0)),
   (I.station, some (.int 0)), (I.quantity, some (.int 0))]
  property := false
  body :=
   [.assign (.attr (.name I.self) I.sensorTypeSource) (.name I.sensorTypeSource),
    .assign (.attr (.name I.self) I.sensorOnOffStatus) (.name I.sensorOnOffStatus),
    .assign (.attr (.name I.self) I.sensorType) (.name I.sensorType),
    .assign (.attr (.name I.self) I.station) (.name I.station),
    .assign (.attr (.name I.self) I.quantity) (.name I.quantity),
    .assign (.attr (.name I.self) I.padding) (.int 0)]

/-- `Sensor.serialize`, /repo/opendis/dis7.py:2877-2884. -/
def Sensor.serialize : Method where
  params := [(I.outputStream, none)]
  property := false
  body :=
   [.expr (.method (.name I.outputStream) I.write_unsigned_byte [.attr (.name I.self) I.sensorTypeSource] []),
    .expr (.method (.name I.outputStream) I.write_unsigned_byte [.attr (.name I.self) I.sensorOnOffStatus] []),
    .expr (.method (.name I.outputStream) I.write_unsigned_short [.attr (.name I.self) I.sensorType] []),
    .expr (.method (.name I.outputStream) I.write_unsigned_int [.attr (.name I.self) I.station] []),
    .expr (.method (.name I.outputStream) I.write_unsigned_short [.attr (.name I.self) I.quantity] []),
    .expr (.method (.name I.outputStream) I.write_unsigned_short [.attr (.name I.self) I.padding] [])]

/-- `Sensor.parse`, /repo/opendis/dis7.py:2886-2893. -/
def Sensor.parse : Method where
  params := [(I.inputStream, none)]
  property := false
  body :=
   [.assign (.attr (.name I.self) I.sensorTypeSource) (.method (.name I.inputStream) I.read_unsigned_byte [] []),
    .assign (.attr (.name I.self) I.sensorOnOffStatus) (.method (.name I.inputStream) I.read_unsigned_byte [] []),
    .assign (.attr (.name I.self) I.sensorType) (.method (.name I.inputStream) I.read_unsigned_short [] []),
    .assign (.attr (.name I.self) I.station) (.method (.name I.inputStream) I.read_unsigned_int [] []),
    .assign (.attr (.name I.self) I.quantity) (.method (.name I.inputStream) I.read_unsigned_short [] []),
    .assign (.attr (.name I.self) I.padding) (.method (.name I.inputStream) I.read_unsigned_short [] [])]

/-- `class Sensor`, /repo/opendis/dis7.py:2853-2893. -/
def Sensor : Class where
  base := none
  attrs := []
  methods :=
   [(I.__init__, Sensor.__init__),
    (I.serialize, Sensor.serialize),
    (I.parse, Sensor.parse)]

/-- `MunitionReload.__init__`, /repo/opendis/dis7.py:2903-2922. -/
def MunitionReload.__init__ : Method where
  params := [(I.munitionType, some (.none)), (I.station, some (.int 0)), (I.standardQuantity, some (.int 0)),
   (I.maximumQuantity, some (.int 0)), (I.standardQuantityReloadTime, some (.int 0)),
   (I.maximumQuantityReloadTime, some (.int 0))]
  property := false
  body :=
   [.assign (.attr (.name I.self) I.munitionType) (.or (.name I.munitionType) (.call I.EntityType [] [])),
    .assign (.attr (.name I.self) I.station) (.name I.station),
    .assign (.attr (.name I.self) I.standardQuantity) (.name I.standardQuantity),
    .assign (.attr (.name I.self) I.maximumQuantity) (.name I.maximumQuantity),
    .assign (.attr (.name I.self) I.standardQuantityReloadTime) (.name I.standardQuantityReloadTime),
    .assign (.attr (.name I.self) I.maximumQuantityReloadTime) (.name I.maximumQuantityReloadTime)]

/-- `MunitionReload.serialize`, /repo/opendis/dis7.py:2924-2931. -/
def MunitionReload.serialize : Method where
  params := [(I.outputStream, none)]
  property := false
  body :=
   [.expr (.method (.attr (.name I.self) I.munitionType) I.serialize [.name I.outputStream] []),
    .expr (.method (.name I.outputStream) I.write_unsigned_int [.attr (.name I.self) I.station] []),
    .expr (.method (.name I.outputStream) I.write_unsigned_short [.attr (.name I.self) I.standardQuantity] []),
    .expr (.method (.name I.outputStream) I.write_unsigned_short [.attr (.name I.self) I.maximumQuantity] []),
    .expr (.method (.name I.outputStream) I.write_unsigned_int [.attr (.name I.self) I.standardQuantityReloadTime] []),
    .expr (.method (.name I.outputStream) I.write_unsigned_int [.attr (.name I.self) I.maximumQuantityReloadTime] [])]

/-- `MunitionReload.parse`, /repo/opendis/dis7.py:2933-2940. -/
def MunitionReload.parse : Method where
  params := [(I.inputStream, none)]
  property := false
  body :=
   [.expr (.method (.attr (.name I.self) I.munitionType) I.parse [.name I.inputStream] []),
    .assign (.attr (.name I.self) I.station) (.method (.name I.inputStream) I.read_unsigned_int [] []),
    .assign (.attr (.name I.self) I.standardQuantity) (.method (.name I.inputStream) I.read_unsigned_short [] []),
    .assign (.attr (.name I.self) I.maximumQuantity) (.method (.name I.inputStream) I.read_unsigned_short [] []),
    .assign (.attr (.name I.self) I.standardQuantityReloadTime) (.method (.name I.inputStream) I.read_unsigned_int [] []),
    .assign (.attr (.name I.self) I.maximumQuantityReloadTime) (.method (.name I.inputStream) I.read_unsigned_int [] [])]

/-- `class MunitionReload`, /repo/opendis/dis7.py:2896-2940. -/
def MunitionReload : Class where
  base := none
  attrs := []
  methods :=
   [(I.__init__, MunitionReload.__init__),
    (I.serialize, MunitionReload.serialize),
    (I.parse, MunitionReload.parse)]

/-- `StorageFuelReload.__init__`, /repo/opendis/dis7.py:2952-2974. -/
def StorageFuelReload.__init__ : Method where
  params := [(I.standardQuantity, some (.int 0)), (I.maximumQuantity, some (.int 0)), (I.standardQuantityReloadTime, some
   (.int 0)), (I.maximumQuantityReloadTime, some (.int 0)), (I.fuelMeasurementUnits, some (.int 0)),
   (I.fuelType, some (.int 0)), (I.fuelLocation, some (.int 0))]
  property := false
  body :=
   [.assign (.attr (.name I.self) I.standardQuantity) (.name I.standardQuantity),
    .assign (.attr (.name I.self) I.maximumQuantity) (.name I.maximumQuantity),
    .assign (.attr (.name I.self) I.standardQuantityReloadTime) (.name I.standardQuantityReloadTime),
    .assign (.attr (.name I.self) I.maximumQuantityReloadTime) (.name I.maximumQuantityReloadTime),
    .assign (.attr (.name I.self) I.fuelMeasurementUnits) (.name I.fuelMeasurementUnits),
    .assign (.attr (.name I.self) I.fuelType) (.name I.fuelType),
    .assign (.attr (.name I.self) I.fuelLocation) (.name I.fuelLocation),
    .assign (.attr (.name I.self) I.padding) (.int 0)]

/-- `StorageFuelReload.serialize`, /repo/opendis/dis7.py:2976-2985. -/
def StorageFuelReload.serialize : Method where
  params := [(I.outputStream, none)]
  property := false
  body :=
   [.expr (.method (.name I.outputStream) I.write_unsigned_int [.attr (.name I.self) I.standardQuantity] []),
    .expr (.method (.name I.outputStream) I.write_unsigned_int [.attr (.name I.self) I.maximumQuantity] []),
    .expr (.method (.name I.outputStream) I.write_unsigned_byte [.attr (.name I.self) I.standardQuantityReloadTime] []),
    .expr (.method (.name I.outputStream) I.write_unsigned_byte [.attr (.name I.self) I.maximumQuantityReloadTime] []),
    .expr (.method (.name I.outputStream) I.write_unsigned_byte [.attr (.name I.self) I.fuelMeasurementUnits] []),
    .expr (.method (.name I.outputStream) I.write_unsigned_byte [.attr (.name I.self) I.fuelType] []),
    .expr (.method (.name I.outputStream) I.write_unsigned_byte [.attr (.name I.self) I.fuelLocation] []),
    .expr (.method (.name I.outputStream) I.write_unsigned_byte [.attr (.name I.self) I.padding] [])]

/-- `StorageFuelReload.parse`, /repo/opendis/dis7.py:2987-2996. -/
def StorageFuelReload.parse : Method where
  params := [(I.inputStream, none)]
  property := false
  body :=
   [.assign (.attr (.name I.self) I.standardQuantity) (.method (.name I.inputStream) I.read_unsigned_int [] []),
    .assign (.attr (.name I.self) I.maximumQuantity) (.method (.name I.inputStream) I.read_unsigned_int [] []),
    .assign (.attr (.name I.self) I.standardQuantityReloadTime) (.method (.name I.inputStream) I.read_unsigned_byte [] []),
    .assign (.attr (.name I.self) I.maximumQuantityReloadTime) (.method (.name I.inputStream) I.read_unsigned_byte [] []),
    .assign (.attr (.name I.self) I.fuelMeasurementUnits) (.method (.name I.inputStream) I.read_unsigned_byte [] []),
    .assign (.attr (.name I.self) I.fuelType) (.method (.name I.inputStream) I.read_unsigned_byte [] []),
    .assign (.attr (.name I.self) I.fuelLocation) (.method (.name I.inputStream) I.read_unsigned_byte [] []),
    .assign (.attr (.name I.self) I.padding) (.method (.name I.inputStream) I.read_unsigned_byte [] [])]

/-- `class StorageFuelReload`, /repo/opendis/dis7.py:2943-2996. -/
def StorageFuelReload : Class where
  base := none
  attrs := []
  methods :=
   [(I.__init__, StorageFuelReload.__init__),
    (I.serialize, StorageFuelReload.serialize),
    (I.parse, StorageFuelReload.parse)]

/-- `ExpendableReload.__init__`, /repo/opendis/dis7.py:3005-3019. -/
def ExpendableReload.__init__ : Method where
  params := [(I.expendable, some (.none)), (I.station, some (.int 0)), (I.standardQuantity, some (.int 0)),
   (I.maximumQuantity, some (.int 0)), (I.standardQuantityReloadTime, some (.int 0)),
   (I.maximumQuantityReloadTime, some (.int 0))]
  property := false
  body :=
   [.assign (.attr (.name I.self) I.expendable) (.or (.name I.expendable) (.call I.EntityType [] [])),
    .assign (.attr (.name I.self) I.station) (.name I.station),
    .assign (.attr (.name I.self) I.standardQuantity) (.name I.standardQuantity),
    .assign (.attr (.name I.self) I.maximumQuantity) (.name I.maximumQuantity),
    .assign (.attr (.name I.self) I.standardQuantityReloadTime) (.name I.standardQuantityReloadTime),
    .assign (.attr (.name I.self) I.maximumQuantityReloadTime) (.name I.maximumQuantityReloadTime)]

/-- `ExpendableReload.serialize`, /repo/opendis/dis7.py:3021-3028. -/
def ExpendableReload.serialize : Method where
  params := [(I.outputStream, none)]
  property := false
  body :=
   [.expr (.method (.attr (.name I.self) I.expendable) I.serialize [.name I.outputStream] []),
    .expr (.method (.name I.outputStream) I.write_unsigned_int [.attr (.name I.self) I.station] []),
    .expr (.method (.name I.outputStream) I.write_unsigned_short [.attr (.name I.self) I.standardQuantity] []),
    .expr (.method (.name I.outputStream) I.write_unsigned_short [.attr (.name I.self) I.maximumQuantity] []),
    .expr (.method (.name I.outputStream) I.write_unsigned_int [.attr (.name I.self) I.standardQuantityReloadTime] []),
    .expr (.method (.name I.outputStream) I.write_unsigned_int [.attr (.name I.self) I.maximumQuantityReloadTime] [])]

/-- `ExpendableReload.parse`, /repo/opendis/dis7.py:3030-3037. -/
def ExpendableReload.parse : Method where
  params := [(I.inputStream, none)]
  property := false
  body :=
   [.expr (.method (.attr (.name I.self) I.expendable) I.parse [.name I.inputStream] []),
    .assign (.attr (.name I.self) I.station) (.method (.name I.inputStream) I.read_unsigned_int [] []),
    .assign (.attr (.name I.self) I.standardQuantity) (.method (.name I.inputStream) I.read_unsigned_short [] []),
    .assign (.attr (.name I.self) I.maximumQuantity) (.method (.name I.inputStream) I.read_unsigned_short [] []),
    .assign (.attr (.name I.self) I.standardQuantityReloadTime) (.method (.name I.inputStream) I.read_unsigned_int [] []),
    .assign (.attr (.name I.self) I.maximumQuantityReloadTime) (.method (.name I.inputStream) I.read_unsigned_int [] [])]

/-- `class ExpendableReload`, /repo/opendis/dis7.py:2999-3037. -/
def ExpendableReload : Class where
  base := none
  attrs := []
  methods :=
   [(I.__init__, ExpendableReload.__init__),
    (I.serialize, ExpendableReload.serialize),
    (I.parse, ExpendableReload.parse)]

/-- `EngineFuelReload.__init__`, /repo/opendis/dis7.py:3043-3062. -/
def EngineFuelReload.__init__ : Method where
  params := [(I.standardQuantity, some (.int 0)), (I.maximumQuantity, some (.int 0)), (I.standardQuantityReloadTime, some
   (.int 0)), (I.maximumQuantityReloadTime, some (.int 0)), (I.fuelMeasurementUnits, some (.int 0)),
   (I.fuelLocation, some (.int 0))]
  property := false
  body :=
   [.assign (.attr (.name I.self) I.standardQuantity) (.name I.standardQuantity),
    .assign (.attr (.name I.self) I.maximumQuantity) (.name I.maximumQuantity),
    .assign (.attr (.name I.self) I.standardQuantityReloadTime) (.name I.standardQuantityReloadTime),
    .assign (.attr (.name I.self) I.maximumQuantityReloadTime) (.name I.maximumQuantityReloadTime),
    .assign (.attr (.name I.self) I.fuelMeasurmentUnits) (.name I.fuelMeasurementUnits),
    .assign (.attr (.name I.self) I.fuelLocation) (.name I.fuelLocation),
    .assign (.attr (.name I.self) I.padding) (.int 0)]

/-- `EngineFuelReload.serialize`, /repo/opendis/dis7.py:3064-3072. -/
def EngineFuelReload.serialize : Method where
  params := [(I.outputStream, none)]
  property := false
  body :=
   [.expr (.method (.name I.outputStream) I.write_unsigned_int [.attr (.name I.self) I.standardQuantity] []),
    .expr (.method (.name I.outputStream) I.write_unsigned_int [.attr (.name I.self) I.maximumQuantity] []),
    .expr (.method (.name I.outputStream) I.write_unsigned_int [.attr (.name I.self) I.standardQuantityReloadTime] []),
    .expr (.method (.name I.outputStream) I.write_unsigned_int [.attr (.name I.self) I.maximumQuantityReloadTime] []),
    .expr (.method (.name I.outputStream) I.write_unsigned_byte [.attr (.name I.self) I.fuelMeasurmentUnits] []),
    .expr (.method (.name I.outputStream) I.write_unsigned_byte [.attr (.name I.self) I.fuelLocation] []),
    .expr (.method (.name I.outputStream) I.write_unsigned_byte [.attr (.name I.self) I.padding] [])]

/-- `EngineFuelReload.parse`, /repo/opendis/dis7.py:3074-3083. -/
def EngineFuelReload.parse : Method where
  params := [(I.inputStream, none)]
  property := false
  body :=
   [.assign (.attr (.name I.self) I.standardQuantity) (.method (.name I.inputStream) I.read_unsigned_int [] []),
    .assign (.attr (.name I.self) I.maximumQuantity) (.method (.name I.inputStream) I.read_unsigned_int [] []),
    .assign (.attr (.name I.self) I.standardQuantityReloadTime) (.method (.name I.inputStream) I.read_unsigned_int [] []),
    .assign (.attr (.name I.self) I.maximumQuantityReloadTime) (.method (.name I.inputStream) I.read_unsigned_int [] []),
    .assign (.attr (.name I.self) I.fuelMeasurmentUnits) (.method (.name I.inputStream) I.read_unsigned_byte [] []),
    .assign (.attr (.name I.self) I.fuelLocation) (.method (.name I.inputStream) I.read_unsigned_byte [] []),
    .assign (.attr (.name I.self) I.padding) (.method (.name I.inputStream) I.read_unsigned_byte [] [])]

/-- `class EngineFuelReload`, /repo/opendis/dis7.py:3040-3083. -/
def EngineFuelReload : Class where
  base := none
  attrs := []
  methods :=
   [(I.__init__, EngineFuelReload.__init__),
    (I.serialize, EngineFuelReload.serialize),
    (I.parse, EngineFuelReload.parse)]

/-- `UnattachedIdentifier.__init__`, /repo/opendis/dis7.py:3093-3099. -/
def UnattachedIdentifier.__init__ : Method where
  params := [(I.simulationAddress, some (.none)), (I.referenceNumber, some (.int 0))]
  property := false
  body :=
   [.assign (.attr (.name I.self) I.simulationAddress) (.or (.name I.simulationAddress) (.call I.SimulationAddress [] [])),
    .assign (.attr (.name I.self) I.referenceNumber) (.name I.referenceNumber)]

/-- `UnattachedIdentifier.serialize`, /repo/opendis/dis7.py:3101-3104. -/
def UnattachedIdentifier.serialize : Method where
  params := [(I.outputStream, none)]
  property := false
  body :=
   [.expr (.method (.attr (.name I.self) I.simulationAddress) I.serialize [.name I.outputStream] []),
    .expr (.method (.name I.outputStream) I.write_unsigned_short [.attr (.name I.self) I.referenceNumber] [])]

/-- `UnattachedIdentifier.parse`, /repo/opendis/dis7.py:3106-3109. -/
def UnattachedIdentifier.parse : Method where
  params := [(I.inputStream, none)]
  property := false
  body :=
   [.expr (.method (.attr (.name I.self) I.simulationAddress) I.parse [.name I.inputStream] []),
    .assign (.attr (.name I.self) I.referenceNumber) (.method (.name I.inputStream) I.read_unsigned_short [] [])]

/-- `class UnattachedIdentifier`, /repo/opendis/dis7.py:3086-3109. -/
def UnattachedIdentifier : Class where
  base := none
  attrs := []
  methods :=
   [(I.__init__, UnattachedIdentifier.__init__),
    (I.serialize, UnattachedIdentifier.serialize),
    (I.parse, UnattachedIdentifier.parse)]

/-- `EntityTypeVP.__init__`, /repo/opendis/dis7.py:3119-3127. -/
def EntityTypeVP.__init__ : Method where
  params := [(I.changeIndicator, some (.int 0)), (I.entityType, some (.none))]
  property := false
  body :=
   [.assign (.attr (.name I.self) I.changeIndicator) (.name I.changeIndicator),
    .assign (.attr (.name I.self) I.entityType) (.or (.name I.entityType) (.call I.EntityType [] [])),
    .assign (.attr (.name I.self) I.padding) (.int 0),
    .assign (.attr (.name I.self) I.padding1) (.int 0)]

/-- `EntityTypeVP.serialize`, /repo/opendis/dis7.py:3129-3135. -/
def EntityTypeVP.serialize : Method where
  params := [(I.outputStream, none)]
  property := false
  body :=
   [.expr (.method (.name I.outputStream) I.write_unsigned_byte [.attr (.name I.self) I.recordType] []),
    .expr (.method (.name I.outputStream) I.write_unsigned_byte [.attr (.name I.self) I.changeIndicator] []),
    .expr (.method (.attr (.name I.self) I.entityType) I.serialize [.name I.outputStream] []),
    .expr (.method (.name I.outputStream) I.write_unsigned_short [.attr (.name I.self) I.padding] []),
    .expr (.method (.name I.outputStream) I.write_unsigned_int [.attr (.name I.self) I.padding1] [])]

/-- `EntityTypeVP.parse`, /repo/opendis/dis7.py:3137-3143. -/
def EntityTypeVP.parse : Method where
  params := [(I.inputStream, none)]
  property := false
  body :=
   [.assign (.attr (.name I.self) I.recordType) (.method (.name I.inputStream) I.read_unsigned_byte [] []),
    .assign (.attr (.name I.self) I.changeIndicator) (.method (.name I.inputStream) I.read_unsigned_byte [] []),
    .expr (.method (.attr (.name I.self) I.entityType) I.parse [.name I.inputStream] []),
    .assign (.attr (.name I.self) I.padding) (.method (.name I.inputStream) I.read_unsigned_short [] []),
    .assign (.attr (.name I.self) I.padding1) (.method (.name I.inputStream) I.read_unsigned_int [] [])]

/-- `class EntityTypeVP`, /repo/opendis/dis7.py:3112-3143. -/
def EntityTypeVP : Class where
  base := none
  attrs := [(I.recordType, .int 3)]
  methods :=
   [(I.__init__, EntityTypeVP.__init__),
    (I.serialize, EntityTypeVP.serialize),
    (I.parse, EntityTypeVP.parse)]

/-- `BeamStatus.__init__`, /repo/opendis/dis7.py:3154-3156. -/
def BeamStatus.__init__ : Method where
  params := [(I.beamState, some (.int 0))]
  property := false
  body :=
   [.assign (.attr (.name I.self) I.beamState) (.bin .bitand (.name I.beamState) (.int 1))]

/-- `BeamStatus.serialize`, /repo/opendis/dis7.py:3158-3160. -/
def BeamStatus.serialize : Method where
  params := [(I.outputStream, none)]
  property := false
  body :=
   [.expr (.method (.name I.outputStream) I.write_unsigned_byte [.bin .bitand (.attr (.name I.self) I.beamState) (.int 1)] [])]

/-- `BeamStatus.parse`, /repo/opendis/dis7.py:3162-3165. -/
def BeamStatus.parse : Method where
  params := [(I.inputStream, none)]
  property := false
  body :=
   [.assign (.name I.value) (.bin .bitand (.method (.name I.inputStream) I.read_unsigned_byte [] []) (.int 1)),
    .assign (.attr (.name I.self) I.beamState) (.name I.value)]

/-- `class BeamStatus`, /repo/opendis/dis7.py:3146-3165. -/
def BeamStatus : Class where
  base := none
  attrs := []
  methods :=
   [(I.__init__, BeamStatus.__init__),
    (I.serialize, BeamStatus.serialize),
    (I.parse, BeamStatus.parse)]

/-- `EnvironmentGeneral.__init__`, /repo/opendis/dis7.py:3176-3191. -/
def EnvironmentGeneral.__init__ : Method where
  params := [(I.environmentType, some (.int 0)), (I.length, some (.int 0)), (I.index, some (.int 0)), (I.geometry, some
   (.none))]
  property := false
  body :=
   [.assign (.attr (.name I.self) I.environmentType) (.name I.environmentType),
    .assign (.attr (.name I.self) I.length) (.name I.length),
    .assign (.attr (.name I.self) I.index) (.name I.index),
    .assign (.attr (.name I.self) I.padding) (.int 0),
    .assign (.attr (.name I.self) I.geometry) (.name I.geometry),
    .assign (.attr (.name I.self) I.padding2) (.int 0)]

/-- `EnvironmentGeneral.serialize`, /repo/opendis/dis7.py:3193-3200. -/
def EnvironmentGeneral.serialize : Method where
  params := [(I.outputStream, none)]
  property := false
  body :=
   [.expr (.method (.name I.outputStream) I.write_unsigned_int [.attr (.name I.self) I.environmentType] []),
    .expr (.method (.name I.outputStream) I.write_unsigned_byte [.attr (.name I.self) I.length] []),
    .expr (.method (.name I.outputStream) I.write_unsigned_byte [.attr (.name I.self) I.index] []),
    .expr (.method (.name I.outputStream) I.write_unsigned_byte [.attr (.name I.self) I.padding1] []),
    .expr (.method (.name I.outputStream) I.write_unsigned_byte [.attr (.name I.self) I.geometry] []),
    .expr (.method (.name I.outputStream) I.write_unsigned_byte [.attr (.name I.self) I.padding2] [])]

/-- `EnvironmentGeneral.parse`, /repo/opendis/dis7.py:3202-3209. -/
def EnvironmentGeneral.parse : Method where
  params := [(I.inputStream, none)]
  property := false
  body :=
   [.assign (.attr (.name I.self) I.environmentType) (.method (.name I.inputStream) I.read_unsigned_int [] []),
    .assign (.attr (.name I.self) I.length) (.method (.name I.inputStream) I.read_unsigned_byte [] []),
    .assign (.attr (.name I.self) I.index) (.method (.name I.inputStream) I.read_unsigned_byte [] []),
    .assign (.attr (.name I.self) I.padding1) (.method (.name I.inputStream) I.read_unsigned_byte [] []),
    .assign (.attr (.name I.self) I.geometry) (.method (.name I.inputStream) I.read_unsigned_byte [] []),
    .assign (.attr (.name I.self) I.padding2) (.method (.name I.inputStream) I.read_unsigned_byte [] [])]

/-- `class EnvironmentGeneral`, /repo/opendis/dis7.py:3168-3209. -/
def EnvironmentGeneral : Class where
  base := none
  attrs := []
  methods :=
   [(I.__init__, EnvironmentGeneral.__init__),
    (I.serialize, EnvironmentGeneral.serialize),
    (I.parse, EnvironmentGeneral.parse)]

/-- `GridAxis.__init__`, /repo/opendis/dis7.py:3218-3239. -/
def GridAxis.__init__ : Method where
  params := [(I.domainInitialXi, some (.float 0x0000000000000000)), (I.domainFinalXi, some (.float 0x0000000000000000)),
   (I.domainPointsXi, some (.int 0)), (I.interleafFactor, some (.int 0)), (I.axisType, some (.int 0)),
   (I.numberOfPointsOnXiAxis, some (.int 0)), (I.initialIndex, some (.int 0))]
  property := false
  body :=
   [.assign (.attr (.name I.self) I.domainInitialXi) (.name I.domainInitialXi),
    .assign (.attr (.name I.self) I.domainFinalXi) (.name I.domainFinalXi),
    .assign (.attr (.name I.self) I.domainPointsXi) (.name I.domainPointsXi),
    .assign (.attr (.name I.self) I.interleafFactor) (.name I.interleafFactor),
    .assign (.attr (.name I.self) I.axisType) (.name I.axisType),
    .assign (.attr (.name I.self) I.numberOfPointsOnXiAxis) (.name I.numberOfPointsOnXiAxis),
    .assign (.attr (.name I.self) I.initialIndex) (.name I.initialIndex)]

/-- `GridAxis.serialize`, /repo/opendis/dis7.py:3241-3249. -/
def GridAxis.serialize : Method where
  params := [(I.outputStream, none)]
  property := false
  body :=
   [.expr (.method (.name I.outputStream) I.write_double [.attr (.name I.self) I.domainInitialXi] []),
    .expr (.method (.name I.outputStream) I.write_double [.attr (.name I.self) I.domainFinalXi] []),
    .expr (.method (.name I.outputStream) I.write_unsigned_short [.attr (.name I.self) I.domainPointsXi] []),
    .expr (.method (.name I.outputStream) I.write_unsigned_byte [.attr (.name I.self) I.interleafFactor] []),
    .expr (.method (.name I.outputStream) I.write_unsigned_byte [.attr (.name I.self) I.axisType] []),
    .expr (.method (.name I.outputStream) I.write_unsigned_short [.attr (.name I.self) I.numberOfPointsOnXiAxis] []),
    .expr (.method (.name I.outputStream) I.write_unsigned_short [.attr (.name I.self) I.initialIndex] [])]

/-- `GridAxis.parse`, /repo/opendis/dis7.py:3251-3259. -/
def GridAxis.parse : Method where
  params := [(I.inputStream, none)]
  property := false
  body :=
   [.assign (.attr (.name I.self) I.domainInitialXi) (.method (.name I.inputStream) I.read_double [] []),
    .assign (.attr (.name I.self) I.domainFinalXi) (.method (.name I.inputStream) I.read_double [] []),
    .assign (.attr (.name I.self) I.domainPointsXi) (.method (.name I.inputStream) I.read_unsigned_short [] []),
    .assign (.attr (.name I.self) I.interleafFactor) (.method (.name I.inputStream) I.read_unsigned_byte [] []),
    .assign (.attr (.name I.self) I.axisType) (.method (.name I.inputStream) I.read_unsigned_byte [] []),
    .assign (.attr (.name I.self) I.numberOfPointsOnXiAxis) (.method (.name I.inputStream) I.read_unsigned_short [] []),
    .assign (.attr (.name I.self) I.initialIndex) (.method (.name I.inputStream) I.read_unsigned_short [] [])]

/-- `class GridAxis`, /repo/opendis/dis7.py:3212-3259. -/
def GridAxis : Class where
  base := none
  attrs := []
  methods :=
   [(I.__init__, GridAxis.__init__),
    (I.serialize, GridAxis.serialize),
    (I.parse, GridAxis.parse)]

/-- `RecordSpecification.__init__`, /repo/opendis/dis7.py:3269-3272. -/
def RecordSpecification.__init__ : Method where
  params := [(I.recordSets, some (.none))]
  property := false
  body :=
   [.assign (.attr (.name I.self) I.recordSets) (.or (.name I.recordSets) (.list []))]

/-- `RecordSpecification.numberOfRecordSets`, /repo/opendis/dis7.py:3275-3276. -/
def RecordSpecification.numberOfRecordSets : Method where
  params := []
  property := true
  body :=
   [.ret (.call I.len [.attr (.name I.self) I.recordSets] [])]

/-- `RecordSpecification.serialize`, /repo/opendis/dis7.py:3278-3282. -/
def RecordSpecification.serialize : Method where
  params := [(I.outputStream, none)]
  property := false
  body :=
   [.expr (.method (.name I.outputStream) I.write_unsigned_int [.attr (.name I.self) I.numberOfRecordSets] []),
    .for I.anObj (.attr (.name I.self) I.recordSets)
      [.expr (.method (.name I.anObj) I.serialize [.name I.outputStream] [])]]

/-- `RecordSpecification.parse`, /repo/opendis/dis7.py:3284-3290. -/
def RecordSpecification.parse : Method where
  params := [(I.inputStream, none)]
  property := false
  body :=
   [.assign (.name I.numberOfRecordSets) (.method (.name I.inputStream) I.read_unsigned_int [] []),
    .for I.idx (.call I.range [.int 0, .name I.numberOfRecordSets] [])
      [.assign (.name I.element) (.call I.null [] []),
       .expr (.method (.name I.element) I.parse [.name I.inputStream] []),
       .expr (.method (.attr (.name I.self) I.recordSets) I.append [.name I.element] [])]]

/-- `class RecordSpecification`, /repo/opendis/dis7.py:3262-3290. -/
def RecordSpecification : Class where
  base := none
  attrs := []
  methods :=
   [(I.__init__, RecordSpecification.__init__),
    (I.numberOfRecordSets, RecordSpecification.numberOfRecordSets),
    (I.serialize, RecordSpecification.serialize),
    (I.parse, RecordSpecification.parse)]

/-- `VariableDatum.__init__`, /repo/opendis/dis7.py:3300-3309. -/
def VariableDatum.__init__ : Method where
  params := [(I.variableDatumID, some (.int 0)), (I.variableDatumLength, some (.int 0)), (I.variableData, some (.none))]
  property := false
  body :=
   [.assign (.attr (.name I.self) I.variableDatumID) (.name I.variableDatumID),
    .assign (.attr (.name I.self) I.variableDatumLength) (.name I.variableDatumLength),
    .assign (.attr (.name I.self) I.variableData) (.or (.name I.variableData) (.list []))]

/-- `VariableDatum.datumPaddingSizeInBits`, /repo/opendis/dis7.py:3311-3316. -/
def VariableDatum.datumPaddingSizeInBits : Method where
  params := []
  property := false
  body :=
   [.assign (.name I.padding) (.int 0),
    .assign (.name I.remainder) (.bin .mod (.attr (.name I.self) I.variableDatumLength) (.int 64)),
    .ite (.cmp .ne (.name I.remainder) (.int 0))
      [.assign (.name I.padding) (.bin .sub (.int 64) (.name I.remainder))]
      [],
    .ret (.name I.padding)]

/-- `VariableDatum.serialize`, /repo/opendis/dis7.py:3318-3327. -/
def VariableDatum.serialize : Method where
  params := [(I.outputStream, none)]
  property := false
  body :=
   [.expr (.method (.name I.outputStream) I.write_unsigned_int [.attr (.name I.self) I.variableDatumID] []),
    .expr (.method (.name I.outputStream) I.write_unsigned_int [.attr (.name I.self) I.variableDatumLength] []),
    .for I.x (.call I.range [.bin .floordiv (.attr (.name I.self) I.variableDatumLength) (.int 8)] [])
      [.expr (.method (.name I.outputStream) I.write_unsigned_byte [.index (.attr (.name I.self) I.variableData) (.name I.x)] [])],
    .for I.x (.call I.range [.bin .floordiv (.method (.name I.self) I.datumPaddingSizeInBits [] []) (.int 8)] [])
      [.expr (.method (.name I.outputStream) I.write_unsigned_byte [.int 0] [])]]

/-- `VariableDatum.parse`, /repo/opendis/dis7.py:3329-3339. -/
def VariableDatum.parse : Method where
  params := [(I.inputStream, none)]
  property := false
  body :=
   [.assign (.attr (.name I.self) I.variableDatumID) (.method (.name I.inputStream) I.read_unsigned_int [] []),
    .assign (.attr (.name I.self) I.variableDatumLength) (.method (.name I.inputStream) I.read_unsigned_int [] []),
    .for I.x (.call I.range [.bin .floordiv (.attr (.name I.self) I.variableDatumLength) (.int 8)] [])
      [.expr (.method (.attr (.name I.self) I.variableData) I.append [.method (.name I.inputStream) I.read_unsigned_byte [] []] [])],
    .for I.x (.call I.range [.bin .floordiv (.method (.name I.self) I.datumPaddingSizeInBits [] []) (.int 8)] [])
      [.expr (.method (.name I.inputStream) I.read_unsigned_byte [] [])]]

/-- `class VariableDatum`, /repo/opendis/dis7.py:3293-3339. -/
def VariableDatum : Class where
  base := none
  attrs := []
  methods :=
   [(I.__init__, VariableDatum.__init__),
    (I.datumPaddingSizeInBits, VariableDatum.datumPaddingSizeInBits),
    (I.serialize, VariableDatum.serialize),
    (I.parse, VariableDatum.parse)]

/-- `EventIdentifierLiveEntity.__init__`, /repo/opendis/dis7.py:3349-3355. -/
def EventIdentifierLiveEntity.__init__ : Method where
  params := [(I.siteNumber, some (.int 0)), (I.applicationNumber, some (.int 0)), (I.eventNumber, some (.int 0))]
  property := false
  body :=
   [.assign (.attr (.name I.self) I.siteNumber) (.name I.siteNumber),
    .assign (.attr (.name I.self) I.applicationNumber) (.name I.applicationNumber),
    .assign (.attr (.name I.self) I.eventNumber) (.name I.eventNumber)]

/-- `EventIdentifierLiveEntity.serialize`, /repo/opendis/dis7.py:3357-3361. -/
def EventIdentifierLiveEntity.serialize : Method where
  params := [(I.outputStream, none)]
  property := false
  body :=
   [.expr (.method (.name I.outputStream) I.write_unsigned_byte [.attr (.name I.self) I.siteNumber] []),
    .expr (.method (.name I.outputStream) I.write_unsigned_byte [.attr (.name I.self) I.applicationNumber] []),
    .expr (.method (.name I.outputStream) I.write_unsigned_short [.attr (.name I.self) I.eventNumber] [])]

/-- `EventIdentifierLiveEntity.parse`, /repo/opendis/dis7.py:3363-3367. -/
def EventIdentifierLiveEntity.parse : Method where
  params := [(I.inputStream, none)]
  property := false
  body :=
   [.assign (.attr (.name I.self) I.siteNumber) (.method (.name I.inputStream) I.read_unsigned_byte [] []),
    .assign (.attr (.name I.self) I.applicationNumber) (.method (.name I.inputStream) I.read_unsigned_byte [] []),
    .assign (.attr (.name I.self) I.eventNumber) (.method (.name I.inputStream) I.read_unsigned_short [] [])]

/-- `class EventIdentifierLiveEntity`, /repo/opendis/dis7.py:3342-3367. -/
def EventIdentifierLiveEntity : Class where
  base := none
  attrs := []
  methods :=
   [(I.__init__, EventIdentifierLiveEntity.__init__),
    (I.serialize, EventIdentifierLiveEntity.serialize),
    (I.parse, EventIdentifierLiveEntity.parse)]

/-- `PduHeader.__init__`, /repo/opendis/dis7.py:3377-3399. -/
def PduHeader.__init__ : Method where
  params := [(I.protocolVersion, some (.int 7)), (I.exerciseID, some (.int 0)), (I.pduType, some (.int 0)),
   (I.protocolFamily, some (.int 0)), (I.timestamp, some (.int 0)), (I.pduLength, some (.int 0)),
   (I.pduStatus, some (.int 0))]
  property := false
  body :=
   [.assign (.attr (.name I.self) I.protocolVersion) (.name I.protocolVersion),
    .assign (.attr (.name I.self) I.exerciseID) (.name I.exerciseID),
    .assign (.attr (.name I.self) I.pduType) (.name I.pduType),
    .assign (.attr (.name I.self) I.protocolFamily) (.name I.protocolFamily),
    .assign (.attr (.name I.self) I.timestamp) (.name I.timestamp),
    .assign (.attr (.name I.self) I.pduLength) (.name I.pduLength),
    .assign (.attr (.name I.self) I.pduStatus) (.name I.pduStatus),
    .assign (.attr (.name I.self) I.padding) (.int 0)]

/-- `PduHeader.serialize`, /repo/opendis/dis7.py:3401-3410. -/
def PduHeader.serialize : Method where
  params := [(I.outputStream, none)]
  property := false
  body :=
   [.expr (.method (.name I.outputStream) I.write_unsigned_byte [.attr (.name I.self) I.protocolVersion] []),
    .expr (.method (.name I.outputStream) I.write_unsigned_byte [.attr (.name I.self) I.exerciseID] []),
    .expr (.method (.name I.outputStream) I.write_unsigned_byte [.attr (.name I.self) I.pduType] []),
    .expr (.method (.name I.outputStream) I.write_unsigned_byte [.attr (.name I.self) I.protocolFamily] []),
    .expr (.method (.name I.outputStream) I.write_unsigned_int [.attr (.name I.self) I.timestamp] []),
    .expr (.method (.name I.outputStream) I.write_unsigned_byte [.attr (.name I.self) I.pduLength] []),
    .expr (.method (.name I.outputStream) I.write_unsigned_short [.attr (.name I.self) I.pduStatus] []),
    .expr (.method (.name I.outputStream) I.write_unsigned_byte [.attr (.name I.self) I.padding] [])]

/-- `PduHeader.parse`, /repo/opendis/dis7.py:3412-3421. -/
def PduHeader.parse : Method where
  params := [(I.inputStream, none)]
  property := false
  body :=
   [.assign (.attr (.name I.self) I.protocolVersion) (.method (.name I.inputStream) I.read_unsigned_byte [] []),
    .assign (.attr (.name I.self) I.exerciseID) (.method (.name I.inputStream) I.read_unsigned_byte [] []),
    .assign (.attr (.name I.self) I.pduType) (.method (.name I.inputStream) I.read_unsigned_byte [] []),
    .assign (.attr (.name I.self) I.protocolFamily) (.method (.name I.inputStream) I.read_unsigned_byte [] []),
    .assign (.attr (.name I.self) I.timestamp) (.method (.name I.inputStream) I.read_unsigned_int [] []),
    .assign (.attr (.name I.self) I.pduLength) (.method (.name I.inputStream) I.read_unsigned_byte [] []),
    .assign (.attr (.name I.self) I.pduStatus) (.method (.name I.inputStream) I.read_unsigned_short [] []),
    .assign (.attr (.name I.self) I.padding) (.method (.name I.inputStream) I.read_unsigned_byte [] [])]

/-- `class PduHeader`, /repo/opendis/dis7.py:3370-3421. -/
def PduHeader : Class where
  base := none
  attrs := []
  methods :=
   [(I.__init__, PduHeader.__init__),
    (I.serialize, PduHeader.serialize),
    (I.parse, PduHeader.parse)]

end Dis.Src
