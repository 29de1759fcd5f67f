import Verif.Source.Names

/-!
# The classes of `opendis/record` as syntax trees

Written by `tools/gensource.py` from the Python source.
-/

namespace Dis.Src

/-- `EntityIdentifier.__init__`, /repo/opendis/record/common.py:39-43. -/
def EntityIdentifier.__init__ : Method where
  params := [(I.simulationAddress, some (.none)), (I.entityNumber, some (.int 0))]
  property := false
  body :=
   [.assign (.attr (.name I.self) I.simulationAddress) (.or (.name I.simulationAddress) (.call I.SimulationAddress [] [])),
    .assign (.attr (.name I.self) I.entityNumber) (.name I.entityNumber)]

/-- `EntityIdentifier.marshalledSize`, /repo/opendis/record/common.py:45-46. -/
def EntityIdentifier.marshalledSize : Method where
  params := []
  property := false
  body :=
   [.ret (.bin .add (.method (.attr (.name I.self) I.simulationAddress) I.marshalledSize [] []) (.int 2))]

/-- `EntityIdentifier.serialize`, /repo/opendis/record/common.py:48-50. -/
def EntityIdentifier.serialize : Method where
  params := [(I.outputStream, none)]
  property := false
  body :=
   [.expr (.method (.attr (.name I.self) I.simulationAddress) I.serialize [.name I.outputStream] []),
    .expr (.method (.name I.outputStream) I.write_uint16 [.attr (.name I.self) I.entityNumber] [])]

/-- `EntityIdentifier.parse`, /repo/opendis/record/common.py:52-54. -/
def EntityIdentifier.parse : Method where
  params := [(I.inputStream, none)]
  property := false
  body :=
   [.expr (.method (.attr (.name I.self) I.simulationAddress) I.parse [.name I.inputStream] []),
    .assign (.attr (.name I.self) I.entityNumber) (.method (.name I.inputStream) I.read_uint16 [] [])]

/-- `class EntityIdentifier`, /repo/opendis/record/common.py:32-54. -/
def EntityIdentifier : Class where
  base := some I.Record
  attrs := []
  methods :=
   [(I.__init__, EntityIdentifier.__init__),
    (I.marshalledSize, EntityIdentifier.marshalledSize),
    (I.serialize, EntityIdentifier.serialize),
    (I.parse, EntityIdentifier.parse)]

/-- `EulerAngles.__init__`, /repo/opendis/record/common.py:66-72. -/
def EulerAngles.__init__ : Method where
  params := [(I.psi, some (.float 0x0000000000000000)), (I.theta, some (.float 0x0000000000000000)), (I.phi, some (.float
   0x0000000000000000))]
  property := false
  body :=
   [.assign (.attr (.name I.self) I.psi) (.name I.psi),
    .assign (.attr (.name I.self) I.theta) (.name I.theta),
    .assign (.attr (.name I.self) I.phi) (.name I.phi)]

/-- `EulerAngles.marshalledSize`, /repo/opendis/record/common.py:74-75. -/
def EulerAngles.marshalledSize : Method where
  params := []
  property := false
  body :=
   [.ret (.int 12)]

/-- `EulerAngles.serialize`, /repo/opendis/record/common.py:77-80. -/
def EulerAngles.serialize : Method where
  params := [(I.outputStream, none)]
  property := false
  body :=
   [.expr (.method (.name I.outputStream) I.write_float32 [.attr (.name I.self) I.psi] []),
    .expr (.method (.name I.outputStream) I.write_float32 [.attr (.name I.self) I.theta] []),
    .expr (.method (.name I.outputStream) I.write_float32 [.attr (.name I.self) I.phi] [])]

/-- `EulerAngles.parse`, /repo/opendis/record/common.py:82-85. -/
def EulerAngles.parse : Method where
  params := [(I.inputStream, none)]
  property := false
  body :=
   [.assign (.attr (.name I.self) I.psi) (.method (.name I.inputStream) I.read_float32 [] []),
    .assign (.attr (.name I.self) I.theta) (.method (.name I.inputStream) I.read_float32 [] []),
    .assign (.attr (.name I.self) I.phi) (.method (.name I.inputStream) I.read_float32 [] [])]

/-- `class EulerAngles`, /repo/opendis/record/common.py:57-85. -/
def EulerAngles : Class where
  base := some I.Record
  attrs := []
  methods :=
   [(I.__init__, EulerAngles.__init__),
    (I.marshalledSize, EulerAngles.marshalledSize),
    (I.serialize, EulerAngles.serialize),
    (I.parse, EulerAngles.parse)]

/-- `EventIdentifier.__init__`, /repo/opendis/record/common.py:96-101. -/
def EventIdentifier.__init__ : Method where
  params := [(I.simulationAddress, some (.none)), (I.eventNumber, some (.int 0))]
  property := false
  body :=
   [.assign (.attr (.name I.self) I.simulationAddress) (.or (.name I.simulationAddress) (.call I.SimulationAddress [] [])),
    .assign (.attr (.name I.self) I.eventNumber) (.name I.eventNumber)]

/-- `EventIdentifier.marshalledSize`, /repo/opendis/record/common.py:103-104. -/
def EventIdentifier.marshalledSize : Method where
  params := []
  property := false
  body :=
   [.ret (.bin .add (.method (.attr (.name I.self) I.simulationAddress) I.marshalledSize [] []) (.int 2))]

/-- `EventIdentifier.serialize`, /repo/opendis/record/common.py:106-108. -/
def EventIdentifier.serialize : Method where
  params := [(I.outputStream, none)]
  property := false
  body :=
   [.expr (.method (.attr (.name I.self) I.simulationAddress) I.serialize [.name I.outputStream] []),
    .expr (.method (.name I.outputStream) I.write_unsigned_short [.attr (.name I.self) I.eventNumber] [])]

/-- `EventIdentifier.parse`, /repo/opendis/record/common.py:110-112. -/
def EventIdentifier.parse : Method where
  params := [(I.inputStream, none)]
  property := false
  body :=
   [.expr (.method (.attr (.name I.self) I.simulationAddress) I.parse [.name I.inputStream] []),
    .assign (.attr (.name I.self) I.eventNumber) (.method (.name I.inputStream) I.read_unsigned_short [] [])]

/-- `class EventIdentifier`, /repo/opendis/record/common.py:88-112. -/
def EventIdentifier : Class where
  base := some I.Record
  attrs := []
  methods :=
   [(I.__init__, EventIdentifier.__init__),
    (I.marshalledSize, EventIdentifier.marshalledSize),
    (I.serialize, EventIdentifier.serialize),
    (I.parse, EventIdentifier.parse)]

/-- `SimulationAddress.__init__`, /repo/opendis/record/common.py:122-128. -/
def SimulationAddress.__init__ : Method where
  params := [(I.site, some (.int 0)), (I.application, some (.int 0))]
  property := false
  body :=
   [.assign (.attr (.name I.self) I.site) (.name I.site),
    .assign (.attr (.name I.self) I.application) (.name I.application)]

/-- `SimulationAddress.marshalledSize`, /repo/opendis/record/common.py:130-131. -/
def SimulationAddress.marshalledSize : Method where
  params := []
  property := false
  body :=
   [.ret (.int 4)]

/-- `SimulationAddress.serialize`, /repo/opendis/record/common.py:133-135. -/
def SimulationAddress.serialize : Method where
  params := [(I.outputStream, none)]
  property := false
  body :=
   [.expr (.method (.name I.outputStream) I.write_unsigned_short [.attr (.name I.self) I.site] []),
    .expr (.method (.name I.outputStream) I.write_unsigned_short [.attr (.name I.self) I.application] [])]

/-- `SimulationAddress.parse`, /repo/opendis/record/common.py:137-139. -/
def SimulationAddress.parse : Method where
  params := [(I.inputStream, none)]
  property := false
  body :=
   [.assign (.attr (.name I.self) I.site) (.method (.name I.inputStream) I.read_unsigned_short [] []),
    .assign (.attr (.name I.self) I.application) (.method (.name I.inputStream) I.read_unsigned_short [] [])]

/-- `class SimulationAddress`, /repo/opendis/record/common.py:115-139. -/
def SimulationAddress : Class where
  base := some I.Record
  attrs := []
  methods :=
   [(I.__init__, SimulationAddress.__init__),
    (I.marshalledSize, SimulationAddress.marshalledSize),
    (I.serialize, SimulationAddress.serialize),
    (I.parse, SimulationAddress.parse)]

/-- `Vector3Float.__init__`, /repo/opendis/record/common.py:152-155. -/
def Vector3Float.__init__ : Method where
  params := [(I.x, some (.float 0x0000000000000000)), (I.y, some (.float 0x0000000000000000)), (I.z, some (.float
   0x0000000000000000))]
  property := false
  body :=
   [.assign (.attr (.name I.self) I.x) (.name I.x),
    .assign (.attr (.name I.self) I.y) (.name I.y),
    .assign (.attr (.name I.self) I.z) (.name I.z)]

/-- `Vector3Float.marshalledSize`, /repo/opendis/record/common.py:157-158. -/
def Vector3Float.marshalledSize : Method where
  params := []
  property := false
  body :=
   [.ret (.int 12)]

/-- `Vector3Float.serialize`, /repo/opendis/record/common.py:160-163. -/
def Vector3Float.serialize : Method where
  params := [(I.outputStream, none)]
  property := false
  body :=
   [.expr (.method (.name I.outputStream) I.write_float [.attr (.name I.self) I.x] []),
    .expr (.method (.name I.outputStream) I.write_float [.attr (.name I.self) I.y] []),
    .expr (.method (.name I.outputStream) I.write_float [.attr (.name I.self) I.z] [])]

/-- `Vector3Float.parse`, /repo/opendis/record/common.py:165-168. -/
def Vector3Float.parse : Method where
  params := [(I.inputStream, none)]
  property := false
  body :=
   [.assign (.attr (.name I.self) I.x) (.method (.name I.inputStream) I.read_float [] []),
    .assign (.attr (.name I.self) I.y) (.method (.name I.inputStream) I.read_float [] []),
    .assign (.attr (.name I.self) I.z) (.method (.name I.inputStream) I.read_float [] [])]

/-- `class Vector3Float`, /repo/opendis/record/common.py:142-168. -/
def Vector3Float : Class where
  base := some I.Record
  attrs := []
  methods :=
   [(I.__init__, Vector3Float.__init__),
    (I.marshalledSize, Vector3Float.marshalledSize),
    (I.serialize, Vector3Float.serialize),
    (I.parse, Vector3Float.parse)]

/-- `WorldCoordinates.__init__`, /repo/opendis/record/common.py:180-183. -/
def WorldCoordinates.__init__ : Method where
  params := [(I.x, some (.float 0x0000000000000000)), (I.y, some (.float 0x0000000000000000)), (I.z, some (.float
   0x0000000000000000))]
  property := false
  body :=
   [.assign (.attr (.name I.self) I.x) (.name I.x),
    .assign (.attr (.name I.self) I.y) (.name I.y),
    .assign (.attr (.name I.self) I.z) (.name I.z)]

/-- `WorldCoordinates.marshalledSize`, /repo/opendis/record/common.py:185-186. -/
def WorldCoordinates.marshalledSize : Method where
  params := []
  property := false
  body :=
   [.ret (.int 24)]

/-- `WorldCoordinates.serialize`, /repo/opendis/record/common.py:188-191. -/
def WorldCoordinates.serialize : Method where
  params := [(I.outputStream, none)]
  property := false
  body :=
   [.expr (.method (.name I.outputStream) I.write_float64 [.attr (.name I.self) I.x] []),
    .expr (.method (.name I.outputStream) I.write_float64 [.attr (.name I.self) I.y] []),
    .expr (.method (.name I.outputStream) I.write_float64 [.attr (.name I.self) I.z] [])]

/-- `WorldCoordinates.parse`, /repo/opendis/record/common.py:193-196. -/
def WorldCoordinates.parse : Method where
  params := [(I.inputStream, none)]
  property := false
  body :=
   [.assign (.attr (.name I.self) I.x) (.method (.name I.inputStream) I.read_float64 [] []),
    .assign (.attr (.name I.self) I.y) (.method (.name I.inputStream) I.read_float64 [] []),
    .assign (.attr (.name I.self) I.z) (.method (.name I.inputStream) I.read_float64 [] [])]

/-- `class WorldCoordinates`, /repo/opendis/record/common.py:171-196. -/
def WorldCoordinates : Class where
  base := some I.Record
  attrs := []
  methods :=
   [(I.__init__, WorldCoordinates.__init__),
    (I.marshalledSize, WorldCoordinates.marshalledSize),
    (I.serialize, WorldCoordinates.serialize),
    (I.parse, WorldCoordinates.parse)]

/-- `Record.marshalledSize`, /repo/opendis/record/base.py:17-18. -/
def Record.marshalledSize : Method where
  params := []
  property := false
  body :=
   []

/-- `Record.serialize`, /repo/opendis/record/base.py:21-22. -/
def Record.serialize : Method where
  params := [(I.outputStream, none)]
  property := false
  body :=
   []

/-- `Record.parse`, /repo/opendis/record/base.py:25-26. -/
def Record.parse : Method where
  params := [(I.inputStream, none)]
  property := false
  body :=
   []

/-- `class Record`, /repo/opendis/record/base.py:13-26. -/
def Record : Class where
  base := none
  attrs := []
  methods :=
   [(I.marshalledSize, Record.marshalledSize),
    (I.serialize, Record.serialize),
    (I.parse, Record.parse)]

/-- `VariableRecord.is_positive_int`, /repo/opendis/record/base.py:34-36. -/
def VariableRecord.is_positive_int : Method where
  params := [(I.value, none)]
  property := false
  body :=
   [.ret (.and (.isInt (.name I.value)) (.cmp .ge (.name I.value) (.int 0)))]

/-- `VariableRecord.marshalledSize`, /repo/opendis/record/base.py:39-40. -/
def VariableRecord.marshalledSize : Method where
  params := []
  property := false
  body :=
   []

/-- `VariableRecord.serialize`, /repo/opendis/record/base.py:43-44. -/
def VariableRecord.serialize : Method where
  params := [(I.outputStream, none)]
  property := false
  body :=
   []

/-- `VariableRecord.parse`, /repo/opendis/record/base.py:47-57. -/
def VariableRecord.parse : Method where
  params := [(I.inputStream, none), (I.bytelength, some (.none))]
  property := false
  body :=
   [.ite (.and (.cmp .isNot (.name I.bytelength) .none) (.not (.method (.name I.self) I.is_positive_int [.name I.bytelength] [])))
      [.raise .valueError]
      []]

/-- `class VariableRecord`, /repo/opendis/record/base.py:30-57. -/
def VariableRecord : Class where
  base := none
  attrs := []
  methods :=
   [(I.is_positive_int, VariableRecord.is_positive_int),
    (I.marshalledSize, VariableRecord.marshalledSize),
    (I.serialize, VariableRecord.serialize),
    (I.parse, VariableRecord.parse)]

/-- `StandardVariableRecord.is_positive_int`, /repo/opendis/record/base.py:75-77. -/
def StandardVariableRecord.is_positive_int : Method where
  params := [(I.value, none)]
  property := false
  body :=
   [.ret (.and (.isInt (.name I.value)) (.cmp .ge (.name I.value) (.int 0)))]

/-- `StandardVariableRecord.recordLength`, /repo/opendis/record/base.py:80-81. -/
def StandardVariableRecord.recordLength : Method where
  params := []
  property := true
  body :=
   [.ret (.method (.name I.self) I.marshalledSize [] [])]

/-- `StandardVariableRecord.serialize`, /repo/opendis/record/base.py:84-88. -/
def StandardVariableRecord.serialize : Method where
  params := [(I.outputStream, none)]
  property := false
  body :=
   [.expr (.super none I.serialize [.name I.outputStream] []),
    .expr (.method (.name I.outputStream) I.write_uint32 [.attr (.name I.self) I.recordType] []),
    .expr (.method (.name I.outputStream) I.write_uint32 [.attr (.name I.self) I.recordLength] [])]

/-- `StandardVariableRecord.parse`, /repo/opendis/record/base.py:91-106. -/
def StandardVariableRecord.parse : Method where
  params := [(I.inputStream, none), (I.bytelength, none)]
  property := false
  body :=
   [.expr (.super none I.parse [.name I.inputStream, .name I.bytelength] []),
    .ite (.not (.cmp .eq (.bin .mod (.name I.bytelength) (.int 8)) (.int 0)))
      [.raise .valueError]
      []]

/-- `class StandardVariableRecord`, /repo/opendis/record/base.py:61-106. -/
def StandardVariableRecord : Class where
  base := some I.VariableRecord
  attrs := []
  methods :=
   [(I.is_positive_int, StandardVariableRecord.is_positive_int),
    (I.recordLength, StandardVariableRecord.recordLength),
    (I.serialize, StandardVariableRecord.serialize),
    (I.parse, StandardVariableRecord.parse)]

/-- `UnknownStandardVariableRecord.__init__`, /repo/opendis/record/__init__.py:52-53. -/
def UnknownStandardVariableRecord.__init__ : Method where
  params := [(I.data, some (.bytes []))]
  property := false
  body :=
   [.assign (.attr (.name I.self) I.data) (.name I.data)]

/-- `UnknownStandardVariableRecord.marshalledSize`, /repo/opendis/record/__init__.py:55-56. -/
def UnknownStandardVariableRecord.marshalledSize : Method where
  params := []
  property := false
  body :=
   [.ret (.bin .add (.int 6) (.call I.len [.attr (.name I.self) I.data] []))]

/-- `UnknownStandardVariableRecord.serialize`, /repo/opendis/record/__init__.py:58-62. -/
def UnknownStandardVariableRecord.serialize : Method where
  params := [(I.outputStream, none)]
  property := false
  body :=
   [.expr (.super none I.serialize [.name I.outputStream] []),
    .expr (.method (.name I.outputStream) I.write_uint32 [.attr (.name I.self) I.recordType] []),
    .expr (.method (.name I.outputStream) I.write_uint16 [.attr (.name I.self) I.recordLength] []),
    .expr (.method (.name I.outputStream) I.write_bytes [.attr (.name I.self) I.data] [])]

/-- `UnknownStandardVariableRecord.parse`, /repo/opendis/record/__init__.py:64-69. -/
def UnknownStandardVariableRecord.parse : Method where
  params := [(I.inputStream, none), (I.bytelength, none)]
  property := false
  body :=
   [.expr (.super none I.parse [.name I.inputStream, .name I.bytelength] []),
    .assign (.attr (.name I.self) I.data) (.method (.name I.inputStream) I.read_bytes [.bin .sub (.name I.bytelength) (.int 6)] [])]

/-- `class UnknownStandardVariableRecord`, /repo/opendis/record/__init__.py:48-69. -/
def UnknownStandardVariableRecord : Class where
  base := some I.StandardVariableRecord
  attrs := []
  methods :=
   [(I.__init__, UnknownStandardVariableRecord.__init__),
    (I.marshalledSize, UnknownStandardVariableRecord.marshalledSize),
    (I.serialize, UnknownStandardVariableRecord.serialize),
    (I.parse, UnknownStandardVariableRecord.parse)]

/-- `class AntennaPatternRecord`, /repo/opendis/record/radio/__init__.py:41-45. -/
def AntennaPatternRecord : Class where
  base := some I.VariableRecord
  attrs := []
  methods :=
   []

/-- `class ModulationParametersRecord`, /repo/opendis/record/radio/__init__.py:48-53. -/
def ModulationParametersRecord : Class where
  base := some I.VariableRecord
  attrs := []
  methods :=
   []

/-- `UnknownRadio.__init__`, /repo/opendis/record/radio/__init__.py:61-62. -/
def UnknownRadio.__init__ : Method where
  params := [(I.data, some (.bytes []))]
  property := false
  body :=
   [.assign (.attr (.name I.self) I.data) (.name I.data)]

/-- `UnknownRadio.marshalledSize`, /repo/opendis/record/radio/__init__.py:64-65. -/
def UnknownRadio.marshalledSize : Method where
  params := []
  property := false
  body :=
   [.ret (.call I.len [.attr (.name I.self) I.data] [])]

/-- `UnknownRadio.serialize`, /repo/opendis/record/radio/__init__.py:67-69. -/
def UnknownRadio.serialize : Method where
  params := [(I.outputStream, none)]
  property := false
  body :=
   [.expr (.super none I.serialize [.name I.outputStream] []),
    .expr (.method (.name I.outputStream) I.write_bytes [.attr (.name I.self) I.data] [])]

/-- `UnknownRadio.parse`, /repo/opendis/record/radio/__init__.py:71-77. -/
def UnknownRadio.parse : Method where
  params := [(I.inputStream, none), (I.bytelength, some (.none))]
  property := false
  body :=
   [.expr (.super none I.parse [.name I.inputStream, .name I.bytelength] []),
    .assert (.isInt (.name I.bytelength)),
    .assign (.attr (.name I.self) I.data) (.method (.name I.inputStream) I.read_bytes [.name I.bytelength] [])]

/-- `class UnknownRadio`, /repo/opendis/record/radio/__init__.py:58-77. -/
def UnknownRadio : Class where
  base := some I.ModulationParametersRecord
  attrs := []
  methods :=
   [(I.__init__, UnknownRadio.__init__),
    (I.marshalledSize, UnknownRadio.marshalledSize),
    (I.serialize, UnknownRadio.serialize),
    (I.parse, UnknownRadio.parse)]

/-- `UnknownAntennaPattern.__init__`, /repo/opendis/record/radio/__init__.py:83-84. -/
def UnknownAntennaPattern.__init__ : Method where
  params := [(I.data, some (.bytes []))]
  property := false
  body :=
   [.assign (.attr (.name I.self) I.data) (.name I.data)]

/-- `UnknownAntennaPattern.marshalledSize`, /repo/opendis/record/radio/__init__.py:86-87. -/
def UnknownAntennaPattern.marshalledSize : Method where
  params := []
  property := false
  body :=
   [.ret (.call I.len [.attr (.name I.self) I.data] [])]

/-- `UnknownAntennaPattern.serialize`, /repo/opendis/record/radio/__init__.py:89-91. -/
def UnknownAntennaPattern.serialize : Method where
  params := [(I.outputStream, none)]
  property := false
  body :=
   [.expr (.super none I.serialize [.name I.outputStream] []),
    .expr (.method (.name I.outputStream) I.write_bytes [.attr (.name I.self) I.data] [])]

/-- `UnknownAntennaPattern.parse`, /repo/opendis/record/radio/__init__.py:93-99. -/
def UnknownAntennaPattern.parse : Method where
  params := [(I.inputStream, none), (I.bytelength, none)]
  property := false
  body :=
   [.expr (.super none I.parse [.name I.inputStream, .name I.bytelength] []),
    .assign (.attr (.name I.self) I.data) (.method (.name I.inputStream) I.read_bytes [.bin .sub (.name I.bytelength) (.int 6)] [])]

/-- `class UnknownAntennaPattern`, /repo/opendis/record/radio/__init__.py:80-99. -/
def UnknownAntennaPattern : Class where
  base := some I.AntennaPatternRecord
  attrs := []
  methods :=
   [(I.__init__, UnknownAntennaPattern.__init__),
    (I.marshalledSize, UnknownAntennaPattern.marshalledSize),
    (I.serialize, UnknownAntennaPattern.serialize),
    (I.parse, UnknownAntennaPattern.parse)]

/-- `BeamAntennaPattern.__init__`, /repo/opendis/record/radio/__init__.py:111-132. -/
def BeamAntennaPattern.__init__ : Method where
  params := [(I.beamDirection, some (.none)), (I.azimuthBeamwidth, some (.float 0x0000000000000000)),
   (I.elevationBeamwidth, some (.float 0x0000000000000000)), (I.referenceSystem, some (.int 0)), (I.ez, some
   (.float 0x0000000000000000)), (I.ex, some (.float 0x0000000000000000)), (I.phase, some (.float
   0x0000000000000000))]
  property := false
  body :=
   [.assign (.attr (.name I.self) I.beamDirection) (.or (.name I.beamDirection) (.call I.EulerAngles [] [])),
    .assign (.attr (.name I.self) I.azimuthBeamwidth) (.name I.azimuthBeamwidth),
    .assign (.attr (.name I.self) I.elevationBeamwidth) (.name I.elevationBeamwidth),
    .assign (.attr (.name I.self) I.referenceSystem) (.name I.referenceSystem),
    .assign (.attr (.name I.self) I.padding1) (.int 0),
    .assign (.attr (.name I.self) I.padding2) (.int 0),
    .assign (.attr (.name I.self) I.ez) (.name I.ez),
    .assign (.attr (.name I.self) I.ex) (.name I.ex),
    .assign (.attr (.name I.self) I.phase) (.name I.phase),
    .assign (.attr (.name I.self) I.padding3) (.int 0)]

/-- `BeamAntennaPattern.marshalledSize`, /repo/opendis/record/radio/__init__.py:134-135. -/
def BeamAntennaPattern.marshalledSize : Method where
  params := []
  property := false
  body :=
   [.ret (.int 40)]

/-- `BeamAntennaPattern.serialize`, /repo/opendis/record/radio/__init__.py:137-148. -/
def BeamAntennaPattern.serialize : Method where
  params := [(I.outputStream, none)]
  property := false
  body :=
   [.expr (.super none I.serialize [.name I.outputStream] []),
    .expr (.method (.attr (.name I.self) I.beamDirection) I.serialize [.name I.outputStream] []),
    .expr (.method (.name I.outputStream) I.write_float32 [.attr (.name I.self) I.azimuthBeamwidth] []),
    .expr (.method (.name I.outputStream) I.write_float32 [.attr (.name I.self) I.elevationBeamwidth] []),
    .expr (.method (.name I.outputStream) I.write_uint8 [.attr (.name I.self) I.referenceSystem] []),
    .expr (.method (.name I.outputStream) I.write_uint8 [.attr (.name I.self) I.padding1] []),
    .expr (.method (.name I.outputStream) I.write_uint16 [.attr (.name I.self) I.padding2] []),
    .expr (.method (.name I.outputStream) I.write_float32 [.attr (.name I.self) I.ez] []),
    .expr (.method (.name I.outputStream) I.write_float32 [.attr (.name I.self) I.ex] []),
    .expr (.method (.name I.outputStream) I.write_float32 [.attr (.name I.self) I.phase] []),
    .expr (.method (.name I.outputStream) I.write_uint32 [.attr (.name I.self) I.padding3] [])]

/-- `BeamAntennaPattern.parse`, /repo/opendis/record/radio/__init__.py:150-164. -/
def BeamAntennaPattern.parse : Method where
  params := [(I.inputStream, none), (I.bytelength, some (.int 40))]
  property := false
  body :=
   [.expr (.super none I.parse [.name I.inputStream, .name I.bytelength] []),
    .expr (.method (.attr (.name I.self) I.beamDirection) I.parse [.name I.inputStream] []),
    .assign (.attr (.name I.self) I.azimuthBeamwidth) (.method (.name I.inputStream) I.read_float32 [] []),
    .assign (.attr (.name I.self) I.elevationBeamwidth) (.method (.name I.inputStream) I.read_float32 [] []),
    .assign (.attr (.name I.self) I.referenceSystem) (.method (.name I.inputStream) I.read_uint8 [] []),
    .assign (.attr (.name I.self) I.padding1) (.method (.name I.inputStream) I.read_uint8 [] []),
    .assign (.attr (.name I.self) I.padding2) (.method (.name I.inputStream) I.read_uint16 [] []),
    .assign (.attr (.name I.self) I.ez) (.method (.name I.inputStream) I.read_float32 [] []),
    .assign (.attr (.name I.self) I.ex) (.method (.name I.inputStream) I.read_float32 [] []),
    .assign (.attr (.name I.self) I.phase) (.method (.name I.inputStream) I.read_float32 [] []),
    .assign (.attr (.name I.self) I.padding3) (.method (.name I.inputStream) I.read_uint32 [] [])]

/-- `class BeamAntennaPattern`, /repo/opendis/record/radio/__init__.py:104-164. -/
def BeamAntennaPattern : Class where
  base := some I.AntennaPatternRecord
  attrs := []
  methods :=
   [(I.__init__, BeamAntennaPattern.__init__),
    (I.marshalledSize, BeamAntennaPattern.marshalledSize),
    (I.serialize, BeamAntennaPattern.serialize),
    (I.parse, BeamAntennaPattern.parse)]

/-- `SpreadSpectrum.__init__`, /repo/opendis/record/radio/__init__.py:189-197. -/
def SpreadSpectrum.__init__ : Method where
  params := [(I.frequencyHopping, some (.bool false)), (I.pseudoNoise, some (.bool false)), (I.timeHopping, some (.bool
   false)), (I.padding, some (.int 0))]
  property := false
  body :=
   [.assign (.attr (.name I.self) I.frequencyHopping) (.name I.frequencyHopping),
    .assign (.attr (.name I.self) I.pseudoNoise) (.name I.pseudoNoise),
    .assign (.attr (.name I.self) I.timeHopping) (.name I.timeHopping),
    .assign (.attr (.name I.self) I.padding) (.name I.padding)]

/-- `SpreadSpectrum.marshalledSize`, /repo/opendis/record/radio/__init__.py:199-200. -/
def SpreadSpectrum.marshalledSize : Method where
  params := []
  property := false
  body :=
   [.ret (.method (.attr (.name I.self) I._struct) I.marshalledSize [] [])]

/-- `SpreadSpectrum.serialize`, /repo/opendis/record/radio/__init__.py:202-209. -/
def SpreadSpectrum.serialize : Method where
  params := [(I.outputStream, none)]
  property := false
  body :=
   [.expr (.method (.apply (.attr (.name I.self) I._struct) [.toInt (.attr (.name I.self) I.frequencyHopping), .toInt (.attr (.name I.self) I.pseudoNoise), .toInt (.attr (.name I.self) I.timeHopping), .attr (.name I.self) I.padding]) I.serialize [.name I.outputStream] [])]

/-- `SpreadSpectrum.parse`, /repo/opendis/record/radio/__init__.py:211-215. -/
def SpreadSpectrum.parse : Method where
  params := [(I.inputStream, none)]
  property := false
  body :=
   [.assign (.name I.record_bitfield) (.method (.attr (.name I.self) I._struct) I.parse [.name I.inputStream] []),
    .assign (.attr (.name I.self) I.frequencyHopping) (.toBool (.attr (.name I.record_bitfield) I.frequencyHopping)),
    .assign (.attr (.name I.self) I.pseudoNoise) (.toBool (.attr (.name I.record_bitfield) I.pseudoNoise)),
    .assign (.attr (.name I.self) I.timeHopping) (.toBool (.attr (.name I.record_bitfield) I.timeHopping))]

/-- `class SpreadSpectrum`, /repo/opendis/record/radio/__init__.py:167-215. -/
def SpreadSpectrum : Class where
  base := some I.Record
  attrs := [(I._struct, .bitfield [(I.frequencyHopping, { isInteger := true, bits := some 1 }), (I.pseudoNoise, { isInteger := true, bits := some 1 }), (I.timeHopping, { isInteger := true, bits := some 1 }), (I.padding, { isInteger := true, bits := some 13 })])]
  methods :=
   [(I.__init__, SpreadSpectrum.__init__),
    (I.marshalledSize, SpreadSpectrum.marshalledSize),
    (I.serialize, SpreadSpectrum.serialize),
    (I.parse, SpreadSpectrum.parse)]

/-- `ModulationType.__init__`, /repo/opendis/record/radio/__init__.py:224-233. -/
def ModulationType.__init__ : Method where
  params := [(I.spreadSpectrum, some (.none)), (I.majorModulation, some (.int 0)), (I.detail, some (.int 0)),
   (I.radioSystem, some (.int 0))]
  property := false
  body :=
   [.assign (.attr (.name I.self) I.spreadSpectrum) (.or (.name I.spreadSpectrum) (.call I.SpreadSpectrum [] [])),
    .assign (.attr (.name I.self) I.majorModulation) (.name I.majorModulation),
    .assign (.attr (.name I.self) I.detail) (.name I.detail),
    .assign (.attr (.name I.self) I.radioSystem) (.name I.radioSystem)]

/-- `ModulationType.marshalledSize`, /repo/opendis/record/radio/__init__.py:235-241. -/
def ModulationType.marshalledSize : Method where
  params := []
  property := false
  body :=
   [.assign (.name I.size) (.int 0),
    .augAdd (.name I.size) (.method (.attr (.name I.self) I.spreadSpectrum) I.marshalledSize [] []),
    .augAdd (.name I.size) (.int 2),
    .augAdd (.name I.size) (.int 2),
    .augAdd (.name I.size) (.int 2),
    .ret (.name I.size)]

/-- `ModulationType.serialize`, /repo/opendis/record/radio/__init__.py:243-247. -/
def ModulationType.serialize : Method where
  params := [(I.outputStream, none)]
  property := false
  body :=
   [.expr (.method (.attr (.name I.self) I.spreadSpectrum) I.serialize [.name I.outputStream] []),
    .expr (.method (.name I.outputStream) I.write_uint16 [.attr (.name I.self) I.majorModulation] []),
    .expr (.method (.name I.outputStream) I.write_uint16 [.attr (.name I.self) I.detail] []),
    .expr (.method (.name I.outputStream) I.write_uint16 [.attr (.name I.self) I.radioSystem] [])]

/-- `ModulationType.parse`, /repo/opendis/record/radio/__init__.py:249-253. -/
def ModulationType.parse : Method where
  params := [(I.inputStream, none)]
  property := false
  body :=
   [.expr (.method (.attr (.name I.self) I.spreadSpectrum) I.parse [.name I.inputStream] []),
    .assign (.attr (.name I.self) I.majorModulation) (.method (.name I.inputStream) I.read_uint16 [] []),
    .assign (.attr (.name I.self) I.detail) (.method (.name I.inputStream) I.read_uint16 [] []),
    .assign (.attr (.name I.self) I.radioSystem) (.method (.name I.inputStream) I.read_uint16 [] [])]

/-- `class ModulationType`, /repo/opendis/record/radio/__init__.py:218-253. -/
def ModulationType : Class where
  base := some I.Record
  attrs := []
  methods :=
   [(I.__init__, ModulationType.__init__),
    (I.marshalledSize, ModulationType.marshalledSize),
    (I.serialize, ModulationType.serialize),
    (I.parse, ModulationType.parse)]

/-- `class VariableTransmitterParametersRecord`, /repo/opendis/record/radio/__init__.py:256-264. -/
def VariableTransmitterParametersRecord : Class where
  base := some I.StandardVariableRecord
  attrs := []
  methods :=
   []

/-- `NetId.__init__`, /repo/opendis/record/radio/__init__.py:283-292. -/
def NetId.__init__ : Method where
  params := [(I.netNumber, some (.int 0)), (I.frequencyTable, some (.int 0)), (I.mode, some (.int 0)), (I.padding, some
   (.int 0))]
  property := false
  body :=
   [.assign (.attr (.name I.self) I.netNumber) (.name I.netNumber),
    .assign (.attr (.name I.self) I.frequencyTable) (.name I.frequencyTable),
    .assign (.attr (.name I.self) I.mode) (.name I.mode),
    .assign (.attr (.name I.self) I.padding) (.name I.padding)]

/-- `NetId.marshalledSize`, /repo/opendis/record/radio/__init__.py:294-295. -/
def NetId.marshalledSize : Method where
  params := []
  property := false
  body :=
   [.ret (.method (.attr (.name I.self) I._struct) I.marshalledSize [] [])]

/-- `NetId.serialize`, /repo/opendis/record/radio/__init__.py:297-303. -/
def NetId.serialize : Method where
  params := [(I.outputStream, none)]
  property := false
  body :=
   [.expr (.method (.apply (.attr (.name I.self) I._struct) [.attr (.name I.self) I.netNumber, .attr (.name I.self) I.frequencyTable, .attr (.name I.self) I.mode, .attr (.name I.self) I.padding]) I.serialize [.name I.outputStream] [])]

/-- `NetId.parse`, /repo/opendis/record/radio/__init__.py:305-310. -/
def NetId.parse : Method where
  params := [(I.inputStream, none)]
  property := false
  body :=
   [.assign (.name I.record_bitfield) (.method (.attr (.name I.self) I._struct) I.parse [.name I.inputStream] []),
    .assign (.attr (.name I.self) I.netNumber) (.attr (.name I.record_bitfield) I.netNumber),
    .assign (.attr (.name I.self) I.frequencyTable) (.attr (.name I.record_bitfield) I.frequencyTable),
    .assign (.attr (.name I.self) I.mode) (.attr (.name I.record_bitfield) I.mode),
    .assign (.attr (.name I.self) I.padding) (.attr (.name I.record_bitfield) I.padding)]

/-- `class NetId`, /repo/opendis/record/radio/__init__.py:267-310. -/
def NetId : Class where
  base := some I.Record
  attrs := [(I._struct, .bitfield [(I.netNumber, { isInteger := true, bits := some 10 }), (I.frequencyTable, { isInteger := true, bits := some 2 }), (I.mode, { isInteger := true, bits := some 2 }), (I.padding, { isInteger := true, bits := some 2 })])]
  methods :=
   [(I.__init__, NetId.__init__),
    (I.marshalledSize, NetId.marshalledSize),
    (I.serialize, NetId.serialize),
    (I.parse, NetId.parse)]

/-- `GenericRadio.marshalledSize`, /repo/opendis/record/radio/__init__.py:320-321. -/
def GenericRadio.marshalledSize : Method where
  params := []
  property := false
  body :=
   [.ret (.int 0)]

/-- `GenericRadio.serialize`, /repo/opendis/record/radio/__init__.py:323-324. -/
def GenericRadio.serialize : Method where
  params := [(I.outputStream, none)]
  property := false
  body :=
   [.pass]

/-- `GenericRadio.parse`, /repo/opendis/record/radio/__init__.py:326-329. -/
def GenericRadio.parse : Method where
  params := [(I.inputStream, none), (I.bytelength, some (.none))]
  property := false
  body :=
   [.pass]

/-- `class GenericRadio`, /repo/opendis/record/radio/__init__.py:313-329. -/
def GenericRadio : Class where
  base := some I.ModulationParametersRecord
  attrs := []
  methods :=
   [(I.marshalledSize, GenericRadio.marshalledSize),
    (I.serialize, GenericRadio.serialize),
    (I.parse, GenericRadio.parse)]

/-- `SimpleIntercomRadio.marshalledSize`, /repo/opendis/record/radio/__init__.py:343-344. -/
def SimpleIntercomRadio.marshalledSize : Method where
  params := []
  property := false
  body :=
   [.ret (.int 0)]

/-- `SimpleIntercomRadio.serialize`, /repo/opendis/record/radio/__init__.py:346-347. -/
def SimpleIntercomRadio.serialize : Method where
  params := [(I.outputStream, none)]
  property := false
  body :=
   [.pass]

/-- `SimpleIntercomRadio.parse`, /repo/opendis/record/radio/__init__.py:349-352. -/
def SimpleIntercomRadio.parse : Method where
  params := [(I.inputStream, none), (I.bytelength, some (.none))]
  property := false
  body :=
   [.pass]

/-- `class SimpleIntercomRadio`, /repo/opendis/record/radio/__init__.py:332-352. -/
def SimpleIntercomRadio : Class where
  base := some I.ModulationParametersRecord
  attrs := []
  methods :=
   [(I.marshalledSize, SimpleIntercomRadio.marshalledSize),
    (I.serialize, SimpleIntercomRadio.serialize),
    (I.parse, SimpleIntercomRadio.parse)]

/-- `BasicHaveQuickMP.__init__`, /repo/opendis/record/radio/__init__.py:360-374. -/
def BasicHaveQuickMP.__init__ : Method where
  params := [(I.net_id, some (.none)), (I.mwod_index, some (.int 1)), (I.reserved16, some (.int 0)), (I.reserved8_1, some
   (.int 0)), (I.reserved8_2, some (.int 0)), (I.time_of_day, some (.int 0)), (I.padding, some (.int 0))]
  property := false
  body :=
   [.assign (.attr (.name I.self) I.net_id) (.or (.name I.net_id) (.call I.NetId [] [])),
    .assign (.attr (.name I.self) I.mwod_index) (.name I.mwod_index),
    .assign (.attr (.name I.self) I.reserved16) (.name I.reserved16),
    .assign (.attr (.name I.self) I.reserved8_1) (.name I.reserved8_1),
    .assign (.attr (.name I.self) I.reserved8_2) (.name I.reserved8_2),
    .assign (.attr (.name I.self) I.time_of_day) (.name I.time_of_day),
    .assign (.attr (.name I.self) I.padding) (.name I.padding)]

/-- `BasicHaveQuickMP.marshalledSize`, /repo/opendis/record/radio/__init__.py:376-377. -/
def BasicHaveQuickMP.marshalledSize : Method where
  params := []
  property := false
  body :=
   [.ret (.int 16)]

/-- `BasicHaveQuickMP.serialize`, /repo/opendis/record/radio/__init__.py:379-387. -/
def BasicHaveQuickMP.serialize : Method where
  params := [(I.outputStream, none)]
  property := false
  body :=
   [.expr (.super none I.serialize [.name I.outputStream] []),
    .expr (.method (.attr (.name I.self) I.net_id) I.serialize [.name I.outputStream] []),
    .expr (.method (.name I.outputStream) I.write_uint16 [.attr (.name I.self) I.mwod_index] []),
    .expr (.method (.name I.outputStream) I.write_uint16 [.attr (.name I.self) I.reserved16] []),
    .expr (.method (.name I.outputStream) I.write_uint8 [.attr (.name I.self) I.reserved8_1] []),
    .expr (.method (.name I.outputStream) I.write_uint8 [.attr (.name I.self) I.reserved8_2] []),
    .expr (.method (.name I.outputStream) I.write_uint32 [.attr (.name I.self) I.time_of_day] []),
    .expr (.method (.name I.outputStream) I.write_uint32 [.attr (.name I.self) I.padding] [])]

/-- `BasicHaveQuickMP.parse`, /repo/opendis/record/radio/__init__.py:389-400. -/
def BasicHaveQuickMP.parse : Method where
  params := [(I.inputStream, none), (I.bytelength, some (.none))]
  property := false
  body :=
   [.expr (.super none I.parse [.name I.inputStream, .name I.bytelength] []),
    .expr (.method (.attr (.name I.self) I.net_id) I.parse [.name I.inputStream] []),
    .assign (.attr (.name I.self) I.mwod_index) (.method (.name I.inputStream) I.read_uint16 [] []),
    .assign (.attr (.name I.self) I.reserved16) (.method (.name I.inputStream) I.read_uint16 [] []),
    .assign (.attr (.name I.self) I.reserved8_1) (.method (.name I.inputStream) I.read_uint8 [] []),
    .assign (.attr (.name I.self) I.reserved8_2) (.method (.name I.inputStream) I.read_uint8 [] []),
    .assign (.attr (.name I.self) I.time_of_day) (.method (.name I.inputStream) I.read_uint32 [] []),
    .assign (.attr (.name I.self) I.padding) (.method (.name I.inputStream) I.read_uint32 [] [])]

/-- `class BasicHaveQuickMP`, /repo/opendis/record/radio/__init__.py:357-400. -/
def BasicHaveQuickMP : Class where
  base := some I.ModulationParametersRecord
  attrs := []
  methods :=
   [(I.__init__, BasicHaveQuickMP.__init__),
    (I.marshalledSize, BasicHaveQuickMP.marshalledSize),
    (I.serialize, BasicHaveQuickMP.serialize),
    (I.parse, BasicHaveQuickMP.parse)]

/-- `CCTTSincgarsMP.__init__`, /repo/opendis/record/radio/__init__.py:406-421. -/
def CCTTSincgarsMP.__init__ : Method where
  params := [(I.fh_net_id, some (.int 0)), (I.hop_set_id, some (.int 0)), (I.lockout_set_id, some (.int 0)),
   (I.start_of_message, some (.int 0)), (I.clear_channel, some (.int 0)), (I.fh_sync_time_offset, some (.int
   0)), (I.transmission_security_key, some (.int 0))]
  property := false
  body :=
   [.assign (.attr (.name I.self) I.fh_net_id) (.name I.fh_net_id),
    .assign (.attr (.name I.self) I.hop_set_id) (.name I.hop_set_id),
    .assign (.attr (.name I.self) I.lockout_set_id) (.name I.lockout_set_id),
    .assign (.attr (.name I.self) I.start_of_message) (.name I.start_of_message),
    .assign (.attr (.name I.self) I.clear_channel) (.name I.clear_channel),
    .assign (.attr (.name I.self) I.fh_sync_time_offset) (.name I.fh_sync_time_offset),
    .assign (.attr (.name I.self) I.transmission_security_key) (.name I.transmission_security_key),
    .assign (.attr (.name I.self) I.padding) (.int 0)]

/-- `CCTTSincgarsMP.marshalledSize`, /repo/opendis/record/radio/__init__.py:423-424. -/
def CCTTSincgarsMP.marshalledSize : Method where
  params := []
  property := false
  body :=
   [.ret (.int 16)]

/-- `CCTTSincgarsMP.serialize`, /repo/opendis/record/radio/__init__.py:426-435. -/
def CCTTSincgarsMP.serialize : Method where
  params := [(I.outputStream, none)]
  property := false
  body :=
   [.expr (.super none I.serialize [.name I.outputStream] []),
    .expr (.method (.name I.outputStream) I.write_uint16 [.attr (.name I.self) I.fh_net_id] []),
    .expr (.method (.name I.outputStream) I.write_uint16 [.attr (.name I.self) I.hop_set_id] []),
    .expr (.method (.name I.outputStream) I.write_uint16 [.attr (.name I.self) I.lockout_set_id] []),
    .expr (.method (.name I.outputStream) I.write_uint8 [.attr (.name I.self) I.start_of_message] []),
    .expr (.method (.name I.outputStream) I.write_uint8 [.attr (.name I.self) I.clear_channel] []),
    .expr (.method (.name I.outputStream) I.write_uint32 [.attr (.name I.self) I.fh_sync_time_offset] []),
    .expr (.method (.name I.outputStream) I.write_uint16 [.attr (.name I.self) I.transmission_security_key] []),
    .expr (.method (.name I.outputStream) I.write_uint16 [.attr (.name I.self) I.padding] [])]

/-- `CCTTSincgarsMP.parse`, /repo/opendis/record/radio/__init__.py:437-449. -/
def CCTTSincgarsMP.parse : Method where
  params := [(I.inputStream, none), (I.bytelength, some (.none))]
  property := false
  body :=
   [.expr (.super none I.parse [.name I.inputStream, .name I.bytelength] []),
    .assign (.attr (.name I.self) I.fh_net_id) (.method (.name I.inputStream) I.read_uint16 [] []),
    .assign (.attr (.name I.self) I.hop_set_id) (.method (.name I.inputStream) I.read_uint16 [] []),
    .assign (.attr (.name I.self) I.lockout_set_id) (.method (.name I.inputStream) I.read_uint16 [] []),
    .assign (.attr (.name I.self) I.start_of_message) (.method (.name I.inputStream) I.read_uint8 [] []),
    .assign (.attr (.name I.self) I.clear_channel) (.method (.name I.inputStream) I.read_uint8 [] []),
    .assign (.attr (.name I.self) I.fh_sync_time_offset) (.method (.name I.inputStream) I.read_uint32 [] []),
    .assign (.attr (.name I.self) I.transmission_security_key) (.method (.name I.inputStream) I.read_uint16 [] []),
    .assign (.attr (.name I.self) I.padding) (.method (.name I.inputStream) I.read_uint16 [] [])]

/-- `class CCTTSincgarsMP`, /repo/opendis/record/radio/__init__.py:403-449. -/
def CCTTSincgarsMP : Class where
  base := some I.ModulationParametersRecord
  attrs := []
  methods :=
   [(I.__init__, CCTTSincgarsMP.__init__),
    (I.marshalledSize, CCTTSincgarsMP.marshalledSize),
    (I.serialize, CCTTSincgarsMP.serialize),
    (I.parse, CCTTSincgarsMP.parse)]

/-- `HighFidelityHAVEQUICKRadio.__init__`, /repo/opendis/record/radio/__init__.py:456-476. -/
def HighFidelityHAVEQUICKRadio.__init__ : Method where
  params := [(I.netId, some (.none)), (I.todTransmitIndicator, some (.int 0)), (I.todDelta, some (.int 0)), (I.wod1, some
   (.int 0)), (I.wod2, some (.int 0)), (I.wod3, some (.int 0)), (I.wod4, some (.int 0)), (I.wod5, some (.int
   0)), (I.wod6, some (.int 0))]
  property := false
  body :=
   [.assign (.attr (.name I.self) I.padding1) (.int 0),
    .assign (.attr (.name I.self) I.netId) (.or (.name I.netId) (.call I.NetId [] [])),
    .assign (.attr (.name I.self) I.todTransmitIndicator) (.name I.todTransmitIndicator),
    .assign (.attr (.name I.self) I.padding2) (.int 0),
    .assign (.attr (.name I.self) I.todDelta) (.name I.todDelta),
    .assign (.attr (.name I.self) I.wod1) (.name I.wod1),
    .assign (.attr (.name I.self) I.wod2) (.name I.wod2),
    .assign (.attr (.name I.self) I.wod3) (.name I.wod3),
    .assign (.attr (.name I.self) I.wod4) (.name I.wod4),
    .assign (.attr (.name I.self) I.wod5) (.name I.wod5),
    .assign (.attr (.name I.self) I.wod6) (.name I.wod6)]

/-- `HighFidelityHAVEQUICKRadio.marshalledSize`, /repo/opendis/record/radio/__init__.py:478-479. -/
def HighFidelityHAVEQUICKRadio.marshalledSize : Method where
  params := []
  property := false
  body :=
   [.ret (.int 40)]

/-- `HighFidelityHAVEQUICKRadio.serialize`, /repo/opendis/record/radio/__init__.py:481-493. -/
def HighFidelityHAVEQUICKRadio.serialize : Method where
  params := [(I.outputStream, none)]
  property := false
  body :=
   [.expr (.super none I.serialize [.name I.outputStream] []),
    .expr (.method (.name I.outputStream) I.write_uint16 [.attr (.name I.self) I.padding1] []),
    .expr (.method (.attr (.name I.self) I.netId) I.serialize [.name I.outputStream] []),
    .expr (.method (.name I.outputStream) I.write_uint8 [.attr (.name I.self) I.todTransmitIndicator] []),
    .expr (.method (.name I.outputStream) I.write_uint8 [.attr (.name I.self) I.padding2] []),
    .expr (.method (.name I.outputStream) I.write_uint32 [.attr (.name I.self) I.todDelta] []),
    .expr (.method (.name I.outputStream) I.write_uint32 [.attr (.name I.self) I.wod1] []),
    .expr (.method (.name I.outputStream) I.write_uint32 [.attr (.name I.self) I.wod2] []),
    .expr (.method (.name I.outputStream) I.write_uint32 [.attr (.name I.self) I.wod3] []),
    .expr (.method (.name I.outputStream) I.write_uint32 [.attr (.name I.self) I.wod4] []),
    .expr (.method (.name I.outputStream) I.write_uint32 [.attr (.name I.self) I.wod5] []),
    .expr (.method (.name I.outputStream) I.write_uint32 [.attr (.name I.self) I.wod6] [])]

/-- `HighFidelityHAVEQUICKRadio.parse`, /repo/opendis/record/radio/__init__.py:495-510. -/
def HighFidelityHAVEQUICKRadio.parse : Method where
  params := [(I.inputStream, none), (I.bytelength, none)]
  property := false
  body :=
   [.expr (.super none I.parse [.name I.inputStream, .name I.bytelength] []),
    .assign (.attr (.name I.self) I.padding1) (.method (.name I.inputStream) I.read_uint16 [] []),
    .expr (.method (.attr (.name I.self) I.netId) I.parse [.name I.inputStream] []),
    .assign (.attr (.name I.self) I.todTransmitIndicator) (.method (.name I.inputStream) I.read_uint8 [] []),
    .assign (.attr (.name I.self) I.padding2) (.method (.name I.inputStream) I.read_uint8 [] []),
    .assign (.attr (.name I.self) I.todDelta) (.method (.name I.inputStream) I.read_uint32 [] []),
    .assign (.attr (.name I.self) I.wod1) (.method (.name I.inputStream) I.read_uint32 [] []),
    .assign (.attr (.name I.self) I.wod2) (.method (.name I.inputStream) I.read_uint32 [] []),
    .assign (.attr (.name I.self) I.wod3) (.method (.name I.inputStream) I.read_uint32 [] []),
    .assign (.attr (.name I.self) I.wod4) (.method (.name I.inputStream) I.read_uint32 [] []),
    .assign (.attr (.name I.self) I.wod5) (.method (.name I.inputStream) I.read_uint32 [] []),
    .assign (.attr (.name I.self) I.wod6) (.method (.name I.inputStream) I.read_uint32 [] [])]

/-- `class HighFidelityHAVEQUICKRadio`, /repo/opendis/record/radio/__init__.py:452-510. -/
def HighFidelityHAVEQUICKRadio : Class where
  base := some I.VariableTransmitterParametersRecord
  attrs := [(I.recordType, .int 3000)]
  methods :=
   [(I.__init__, HighFidelityHAVEQUICKRadio.__init__),
    (I.marshalledSize, HighFidelityHAVEQUICKRadio.marshalledSize),
    (I.serialize, HighFidelityHAVEQUICKRadio.serialize),
    (I.parse, HighFidelityHAVEQUICKRadio.parse)]

/-- `class DamageDescriptionRecord`, /repo/opendis/record/warfare/__init__.py:34-40. -/
def DamageDescriptionRecord : Class where
  base := some I.StandardVariableRecord
  attrs := []
  methods :=
   []

/-- `DirectedEnergyDamage.__init__`, /repo/opendis/record/warfare/__init__.py:51-70. -/
def DirectedEnergyDamage.__init__ : Method where
  params := [(I.damageLocation, some (.none)), (I.damageDiameter, some (.float 0x0000000000000000)), (I.temperature, some
   (.float 0xc071126666666666)), (I.componentIdentification, some (.int 0)), (I.componentDamageStatus, some
   (.int 0)), (I.componentVisualDamageStatus, some (.int 0)), (I.componentVisualSmokeColor, some (.int 0)),
   (I.fireEventID, some (.none))]
  property := false
  body :=
   [.assign (.attr (.name I.self) I.padding) (.int 0),
    .assign (.attr (.name I.self) I.damageLocation) (.or (.name I.damageLocation) (.call I.Vector3Float [] [])),
    .assign (.attr (.name I.self) I.damageDiameter) (.name I.damageDiameter),
    .assign (.attr (.name I.self) I.temperature) (.name I.temperature),
    .assign (.attr (.name I.self) I.componentIdentification) (.name I.componentIdentification),
    .assign (.attr (.name I.self) I.componentDamageStatus) (.name I.componentDamageStatus),
    .assign (.attr (.name I.self) I.componentVisualDamageStatus) (.name I.componentVisualDamageStatus),
    .assign (.attr (.name I.self) I.componentVisualSmokeColor) (.name I.componentVisualSmokeColor),
    .assign (.attr (.name I.self) I.fireEventID) (.or (.name I.fireEventID) (.call I.EventIdentifier [] [])),
    .assign (.attr (.name I.self) I.padding2) (.int 0)]

/-- `DirectedEnergyDamage.marshalledSize`, /repo/opendis/record/warfare/__init__.py:72-73. -/
def DirectedEnergyDamage.marshalledSize : Method where
  params := []
  property := false
  body :=
   [.ret (.int 40)]

/-- `DirectedEnergyDamage.serialize`, /repo/opendis/record/warfare/__init__.py:75-88. -/
def DirectedEnergyDamage.serialize : Method where
  params := [(I.outputStream, none)]
  property := false
  body :=
   [.expr (.super none I.serialize [.name I.outputStream] []),
    .expr (.method (.name I.outputStream) I.write_uint32 [.attr (.name I.self) I.recordType] []),
    .expr (.method (.name I.outputStream) I.write_uint16 [.attr (.name I.self) I.recordLength] []),
    .expr (.method (.name I.outputStream) I.write_uint16 [.attr (.name I.self) I.padding] []),
    .expr (.method (.attr (.name I.self) I.damageLocation) I.serialize [.name I.outputStream] []),
    .expr (.method (.name I.outputStream) I.write_float32 [.attr (.name I.self) I.damageDiameter] []),
    .expr (.method (.name I.outputStream) I.write_float32 [.attr (.name I.self) I.temperature] []),
    .expr (.method (.name I.outputStream) I.write_uint8 [.attr (.name I.self) I.componentIdentification] []),
    .expr (.method (.name I.outputStream) I.write_uint8 [.attr (.name I.self) I.componentDamageStatus] []),
    .expr (.method (.name I.outputStream) I.write_uint8 [.attr (.name I.self) I.componentVisualDamageStatus] []),
    .expr (.method (.name I.outputStream) I.write_uint8 [.attr (.name I.self) I.componentVisualSmokeColor] []),
    .expr (.method (.attr (.name I.self) I.fireEventID) I.serialize [.name I.outputStream] []),
    .expr (.method (.name I.outputStream) I.write_uint16 [.attr (.name I.self) I.padding2] [])]

/-- `DirectedEnergyDamage.parse`, /repo/opendis/record/warfare/__init__.py:90-104. -/
def DirectedEnergyDamage.parse : Method where
  params := [(I.inputStream, none), (I.bytelength, none)]
  property := false
  body :=
   [.expr (.super none I.parse [.name I.inputStream, .name I.bytelength] []),
    .assign (.attr (.name I.self) I.padding) (.method (.name I.inputStream) I.read_unsigned_short [] []),
    .expr (.method (.attr (.name I.self) I.damageLocation) I.parse [.name I.inputStream] []),
    .assign (.attr (.name I.self) I.damageDiameter) (.method (.name I.inputStream) I.read_float32 [] []),
    .assign (.attr (.name I.self) I.temperature) (.method (.name I.inputStream) I.read_float32 [] []),
    .assign (.attr (.name I.self) I.componentIdentification) (.method (.name I.inputStream) I.read_uint8 [] []),
    .assign (.attr (.name I.self) I.componentDamageStatus) (.method (.name I.inputStream) I.read_uint8 [] []),
    .assign (.attr (.name I.self) I.componentVisualDamageStatus) (.method (.name I.inputStream) I.read_uint8 [] []),
    .assign (.attr (.name I.self) I.componentVisualSmokeColor) (.method (.name I.inputStream) I.read_uint8 [] []),
    .expr (.method (.attr (.name I.self) I.fireEventID) I.parse [.name I.inputStream] []),
    .assign (.attr (.name I.self) I.padding2) (.method (.name I.inputStream) I.read_uint16 [] [])]

/-- `class DirectedEnergyDamage`, /repo/opendis/record/warfare/__init__.py:43-104. -/
def DirectedEnergyDamage : Class where
  base := some I.DamageDescriptionRecord
  attrs := [(I.recordType, .int 4500)]
  methods :=
   [(I.__init__, DirectedEnergyDamage.__init__),
    (I.marshalledSize, DirectedEnergyDamage.marshalledSize),
    (I.serialize, DirectedEnergyDamage.serialize),
    (I.parse, DirectedEnergyDamage.parse)]

/-- `DirectedEnergyAreaAimpoint.__init__`, /repo/opendis/record/warfare/__init__.py:116-121. -/
def DirectedEnergyAreaAimpoint.__init__ : Method where
  params := [(I.beamAntennaPatterns, some (.none)), (I.directedEnergyTargetEnergyDepositions, some (.none))]
  property := false
  body :=
   [.assign (.attr (.name I.self) I.padding) (.int 0),
    .assign (.attr (.name I.self) I.beamAntennaPatterns) (.or (.name I.beamAntennaPatterns) (.list [])),
    .assign (.attr (.name I.self) I.directedEnergyTargetEnergyDepositions) (.or (.name I.directedEnergyTargetEnergyDepositions) (.list []))]

/-- `DirectedEnergyAreaAimpoint.beamAntennaPatternCount`, /repo/opendis/record/warfare/__init__.py:124-125. -/
def DirectedEnergyAreaAimpoint.beamAntennaPatternCount : Method where
  params := []
  property := true
  body :=
   [.ret (.call I.len [.attr (.name I.self) I.beamAntennaPatterns] [])]

/-- `DirectedEnergyAreaAimpoint.directedEnergyTargetEnergyDepositionCount`, /repo/opendis/record/warfare/__init__.py:128-129. -/
def DirectedEnergyAreaAimpoint.directedEnergyTargetEnergyDepositionCount : Method where
  params := []
  property := true
  body :=
   [.ret (.call I.len [.attr (.name I.self) I.directedEnergyTargetEnergyDepositions] [])]

/-- `DirectedEnergyAreaAimpoint.marshalledSize`, /repo/opendis/record/warfare/__init__.py:131-137. -/
def DirectedEnergyAreaAimpoint.marshalledSize : Method where
  params := []
  property := false
  body :=
   [.assign (.name I.size) (.int 8),
    .for I.record (.attr (.name I.self) I.beamAntennaPatterns)
      [.augAdd (.name I.size) (.method (.name I.record) I.marshalledSize [] [])],
    .for I.record (.attr (.name I.self) I.directedEnergyTargetEnergyDepositions)
      [.augAdd (.name I.size) (.method (.name I.record) I.marshalledSize [] [])],
    .ret (.name I.size)]

/-- `DirectedEnergyAreaAimpoint.serialize`, /repo/opendis/record/warfare/__init__.py:139-152. -/
def DirectedEnergyAreaAimpoint.serialize : Method where
  params := [(I.outputStream, none)]
  property := false
  body :=
   [.expr (.super none I.serialize [.name I.outputStream] []),
    .expr (.method (.name I.outputStream) I.write_uint32 [.attr (.name I.self) I.recordType] []),
    .expr (.method (.name I.outputStream) I.write_uint16 [.attr (.name I.self) I.recordLength] []),
    .expr (.method (.name I.outputStream) I.write_uint16 [.attr (.name I.self) I.padding] []),
    .expr (.method (.name I.outputStream) I.write_uint16 [.attr (.name I.self) I.beamAntennaPatternCount] []),
    .expr (.method (.name I.outputStream) I.write_uint16 [.attr (.name I.self) I.directedEnergyTargetEnergyDepositionCount] []),
    .for I.record (.attr (.name I.self) I.beamAntennaPatterns)
      [.expr (.method (.name I.record) I.serialize [.name I.outputStream] [])],
    .for I.record (.attr (.name I.self) I.directedEnergyTargetEnergyDepositions)
      [.expr (.method (.name I.record) I.serialize [.name I.outputStream] [])]]

/-- `DirectedEnergyAreaAimpoint.parse`, /repo/opendis/record/warfare/__init__.py:154-169. -/
def DirectedEnergyAreaAimpoint.parse : Method where
  params := [(I.inputStream, none), (I.bytelength, none)]
  property := false
  body :=
   [.expr (.super none I.parse [.name I.inputStream, .name I.bytelength] []),
    .assign (.attr (.name I.self) I.padding) (.method (.name I.inputStream) I.read_uint16 [] []),
    .assign (.name I.beamAntennaPatternCount) (.method (.name I.inputStream) I.read_uint16 [] []),
    .assign (.name I.directedEnergyTargetEnergyDepositionCount) (.method (.name I.inputStream) I.read_uint16 [] []),
    .for I.«_» (.call I.range [.int 0, .name I.beamAntennaPatternCount] [])
      [.assign (.name I.record) (.call I.BeamAntennaPattern [] []),
       .expr (.method (.name I.record) I.parse [.name I.inputStream] []),
       .expr (.method (.attr (.name I.self) I.beamAntennaPatterns) I.append [.name I.record] [])],
    .for I.«_» (.call I.range [.int 0, .name I.directedEnergyTargetEnergyDepositionCount] [])
      [.assign (.name I.record) (.call I.DirectedEnergyTargetEnergyDeposition [] []),
       .expr (.method (.name I.record) I.parse [.name I.inputStream] []),
       .expr (.method (.attr (.name I.self) I.directedEnergyTargetEnergyDepositions) I.append [.name I.record] [])]]

/-- `class DirectedEnergyAreaAimpoint`, /repo/opendis/record/warfare/__init__.py:107-169. -/
def DirectedEnergyAreaAimpoint : Class where
  base := some I.DamageDescriptionRecord
  attrs := [(I.recordType, .int 4001)]
  methods :=
   [(I.__init__, DirectedEnergyAreaAimpoint.__init__),
    (I.beamAntennaPatternCount, DirectedEnergyAreaAimpoint.beamAntennaPatternCount),
    (I.directedEnergyTargetEnergyDepositionCount, DirectedEnergyAreaAimpoint.directedEnergyTargetEnergyDepositionCount),
    (I.marshalledSize, DirectedEnergyAreaAimpoint.marshalledSize),
    (I.serialize, DirectedEnergyAreaAimpoint.serialize),
    (I.parse, DirectedEnergyAreaAimpoint.parse)]

/-- `DirectedEnergyPrecisionAimpoint.__init__`, /repo/opendis/record/warfare/__init__.py:181-205. -/
def DirectedEnergyPrecisionAimpoint.__init__ : Method where
  params := [(I.targetSpotLocation, some (.none)), (I.targetSpotEntityLocation, some (.none)), (I.targetSpotVelocity, some
   (.none)), (I.targetSpotAcceleration, some (.none)), (I.targetEntityID, some (.none)), (I.targetComponentID,
   some (.int 0)), (I.beamSpotType, some (.int 0)), (I.beamSpotCrossSectionSemiMajorAxis, some (.float
   0x0000000000000000)), (I.beamSpotCrossSectionSemiMinorAxis, some (.float 0x0000000000000000)),
   (I.beamSpotCrossSectionOrientationAngle, some (.float 0x0000000000000000)), (I.peakIrradiance, some (.float
   0x0000000000000000))]
  property := false
  body :=
   [.assign (.attr (.name I.self) I.padding) (.int 0),
    .assign (.attr (.name I.self) I.targetSpotLocation) (.or (.name I.targetSpotLocation) (.call I.WorldCoordinates [] [])),
    .assign (.attr (.name I.self) I.targetSpotEntityLocation) (.or (.name I.targetSpotEntityLocation) (.call I.Vector3Float [] [])),
    .assign (.attr (.name I.self) I.targetSpotVelocity) (.or (.name I.targetSpotVelocity) (.call I.Vector3Float [] [])),
    .assign (.attr (.name I.self) I.targetSpotAcceleration) (.or (.name I.targetSpotAcceleration) (.call I.Vector3Float [] [])),
    .assign (.attr (.name I.self) I.targetEntityID) (.or (.name I.targetEntityID) (.call I.EntityIdentifier [] [])),
    .assign (.attr (.name I.self) I.targetComponentID) (.name I.targetComponentID),
    .assign (.attr (.name I.self) I.beamSpotType) (.name I.beamSpotType),
    .assign (.attr (.name I.self) I.beamSpotCrossSectionSemiMajorAxis) (.name I.beamSpotCrossSectionSemiMajorAxis),
    .assign (.attr (.name I.self) I.beamSpotCrossSectionSemiMinorAxis) (.name I.beamSpotCrossSectionSemiMinorAxis),
    .assign (.attr (.name I.self) I.beamSpotCrossSectionOrientationAngle) (.name I.beamSpotCrossSectionOrientationAngle),
    .assign (.attr (.name I.self) I.peakIrradiance) (.name I.peakIrradiance),
    .assign (.attr (.name I.self) I.padding2) (.int 0)]

/-- `DirectedEnergyPrecisionAimpoint.marshalledSize`, /repo/opendis/record/warfare/__init__.py:207-208. -/
def DirectedEnergyPrecisionAimpoint.marshalledSize : Method where
  params := []
  property := false
  body :=
   [.ret (.int 96)]

/-- `DirectedEnergyPrecisionAimpoint.serialize`, /repo/opendis/record/warfare/__init__.py:210-226. -/
def DirectedEnergyPrecisionAimpoint.serialize : Method where
  params := [(I.outputStream, none)]
  property := false
  body :=
   [.expr (.super none I.serialize [.name I.outputStream] []),
    .expr (.method (.name I.outputStream) I.write_uint32 [.attr (.name I.self) I.recordType] []),
    .expr (.method (.name I.outputStream) I.write_uint16 [.attr (.name I.self) I.recordLength] []),
    .expr (.method (.name I.outputStream) I.write_uint16 [.attr (.name I.self) I.padding] []),
    .expr (.method (.attr (.name I.self) I.targetSpotLocation) I.serialize [.name I.outputStream] []),
    .expr (.method (.attr (.name I.self) I.targetSpotEntityLocation) I.serialize [.name I.outputStream] []),
    .expr (.method (.attr (.name I.self) I.targetSpotVelocity) I.serialize [.name I.outputStream] []),
    .expr (.method (.attr (.name I.self) I.targetSpotAcceleration) I.serialize [.name I.outputStream] []),
    .expr (.method (.attr (.name I.self) I.targetEntityID) I.serialize [.name I.outputStream] []),
    .expr (.method (.name I.outputStream) I.write_uint8 [.attr (.name I.self) I.targetComponentID] []),
    .expr (.method (.name I.outputStream) I.write_uint8 [.attr (.name I.self) I.beamSpotType] []),
    .expr (.method (.name I.outputStream) I.write_float32 [.attr (.name I.self) I.beamSpotCrossSectionSemiMajorAxis] []),
    .expr (.method (.name I.outputStream) I.write_float32 [.attr (.name I.self) I.beamSpotCrossSectionSemiMinorAxis] []),
    .expr (.method (.name I.outputStream) I.write_float32 [.attr (.name I.self) I.beamSpotCrossSectionOrientationAngle] []),
    .expr (.method (.name I.outputStream) I.write_float32 [.attr (.name I.self) I.peakIrradiance] []),
    .expr (.method (.name I.outputStream) I.write_uint32 [.attr (.name I.self) I.padding2] [])]

/-- `DirectedEnergyPrecisionAimpoint.parse`, /repo/opendis/record/warfare/__init__.py:228-248. -/
def DirectedEnergyPrecisionAimpoint.parse : Method where
  params := [(I.inputStream, none), (I.bytelength, none)]
  property := false
  body :=
   [.expr (.super none I.parse [.name I.inputStream, .name I.bytelength] []),
    .assign (.attr (.name I.self) I.padding) (.method (.name I.inputStream) I.read_uint16 [] []),
    .expr (.method (.attr (.name I.self) I.targetSpotLocation) I.parse [.name I.inputStream] []),
    .expr (.method (.attr (.name I.self) I.targetSpotEntityLocation) I.parse [.name I.inputStream] []),
    .expr (.method (.attr (.name I.self) I.targetSpotVelocity) I.parse [.name I.inputStream] []),
    .expr (.method (.attr (.name I.self) I.targetSpotAcceleration) I.parse [.name I.inputStream] []),
    .expr (.method (.attr (.name I.self) I.targetEntityID) I.parse [.name I.inputStream] []),
    .assign (.attr (.name I.self) I.targetComponentID) (.method (.name I.inputStream) I.read_uint8 [] []),
    .assign (.attr (.name I.self) I.beamSpotType) (.method (.name I.inputStream) I.read_uint8 [] []),
    .assign (.attr (.name I.self) I.beamSpotCrossSectionSemiMajorAxis) (.method (.name I.inputStream) I.read_float32 [] []),
    .assign (.attr (.name I.self) I.beamSpotCrossSectionSemiMinorAxis) (.method (.name I.inputStream) I.read_float32 [] []),
    .assign (.attr (.name I.self) I.beamSpotCrossSectionOrientationAngle) (.method (.name I.inputStream) I.read_float32 [] []),
    .assign (.attr (.name I.self) I.peakIrradiance) (.method (.name I.inputStream) I.read_float32 [] []),
    .assign (.attr (.name I.self) I.padding2) (.method (.name I.inputStream) I.read_uint32 [] [])]

/-- `class DirectedEnergyPrecisionAimpoint`, /repo/opendis/record/warfare/__init__.py:172-248. -/
def DirectedEnergyPrecisionAimpoint : Class where
  base := some I.DamageDescriptionRecord
  attrs := [(I.recordType, .int 4000)]
  methods :=
   [(I.__init__, DirectedEnergyPrecisionAimpoint.__init__),
    (I.marshalledSize, DirectedEnergyPrecisionAimpoint.marshalledSize),
    (I.serialize, DirectedEnergyPrecisionAimpoint.serialize),
    (I.parse, DirectedEnergyPrecisionAimpoint.parse)]

/-- `DirectedEnergyTargetEnergyDeposition.__init__`, /repo/opendis/record/warfare/__init__.py:260-265. -/
def DirectedEnergyTargetEnergyDeposition.__init__ : Method where
  params := [(I.targetEntityID, some (.none)), (I.peakIrradiance, some (.float 0x0000000000000000))]
  property := false
  body :=
   [.assign (.attr (.name I.self) I.targetEntityID) (.or (.name I.targetEntityID) (.call I.EntityIdentifier [] [])),
    .assign (.attr (.name I.self) I.padding) (.int 0),
    .assign (.attr (.name I.self) I.peakIrradiance) (.name I.peakIrradiance)]

/-- `DirectedEnergyTargetEnergyDeposition.marshalledSize`, /repo/opendis/record/warfare/__init__.py:267-268. -/
def DirectedEnergyTargetEnergyDeposition.marshalledSize : Method where
  params := []
  property := false
  body :=
   [.ret (.bin .add (.method (.attr (.name I.self) I.targetEntityID) I.marshalledSize [] []) (.int 6))]

/-- `DirectedEnergyTargetEnergyDeposition.serialize`, /repo/opendis/record/warfare/__init__.py:270-274. -/
def DirectedEnergyTargetEnergyDeposition.serialize : Method where
  params := [(I.outputStream, none)]
  property := false
  body :=
   [.expr (.super none I.serialize [.name I.outputStream] []),
    .expr (.method (.attr (.name I.self) I.targetEntityID) I.serialize [.name I.outputStream] []),
    .expr (.method (.name I.outputStream) I.write_uint16 [.attr (.name I.self) I.padding] []),
    .expr (.method (.name I.outputStream) I.write_float32 [.attr (.name I.self) I.peakIrradiance] [])]

/-- `DirectedEnergyTargetEnergyDeposition.parse`, /repo/opendis/record/warfare/__init__.py:276-280. -/
def DirectedEnergyTargetEnergyDeposition.parse : Method where
  params := [(I.inputStream, none)]
  property := false
  body :=
   [.expr (.super none I.parse [.name I.inputStream] []),
    .expr (.method (.attr (.name I.self) I.targetEntityID) I.parse [.name I.inputStream] []),
    .assign (.attr (.name I.self) I.padding) (.method (.name I.inputStream) I.read_uint16 [] []),
    .assign (.attr (.name I.self) I.peakIrradiance) (.method (.name I.inputStream) I.read_float32 [] [])]

/-- `class DirectedEnergyTargetEnergyDeposition`, /repo/opendis/record/warfare/__init__.py:251-280. -/
def DirectedEnergyTargetEnergyDeposition : Class where
  base := some I.Record
  attrs := []
  methods :=
   [(I.__init__, DirectedEnergyTargetEnergyDeposition.__init__),
    (I.marshalledSize, DirectedEnergyTargetEnergyDeposition.marshalledSize),
    (I.serialize, DirectedEnergyTargetEnergyDeposition.serialize),
    (I.parse, DirectedEnergyTargetEnergyDeposition.parse)]

/-- `DEFireFlags.__init__`, /repo/opendis/record/warfare/enums.py:17-23. -/
def DEFireFlags.__init__ : Method where
  params := [(I.weaponOn, some (.bool false)), (I.stateUpdateFlag, some (.int 0))]
  property := false
  body :=
   [.assign (.attr (.name I.self) I.weaponOn) (.name I.weaponOn),
    .assign (.attr (.name I.self) I.stateUpdateFlag) (.name I.stateUpdateFlag),
    .assign (.attr (.name I.self) I.padding) (.int 0)]

/-- `DEFireFlags.marshalledSize`, /repo/opendis/record/warfare/enums.py:25-26. -/
def DEFireFlags.marshalledSize : Method where
  params := []
  property := false
  body :=
   [.ret (.method (.attr (.name I.self) I._struct) I.marshalledSize [] [])]

/-- `DEFireFlags.serialize`, /repo/opendis/record/warfare/enums.py:28-32. -/
def DEFireFlags.serialize : Method where
  params := [(I.outputStream, none)]
  property := false
  body :=
   [.expr (.method (.apply (.attr (.name I.self) I._struct) [.attr (.name I.self) I.weaponOn, .attr (.name I.self) I.stateUpdateFlag]) I.serialize [.name I.outputStream] [])]

/-- `DEFireFlags.parse`, /repo/opendis/record/warfare/enums.py:34-38. -/
def DEFireFlags.parse : Method where
  params := [(I.inputStream, none)]
  property := false
  body :=
   [.assign (.name I.record_bitfield) (.method (.attr (.name I.self) I._struct) I.parse [.name I.inputStream] []),
    .assign (.attr (.name I.self) I.weaponOn) (.attr (.name I.record_bitfield) I.weaponOn),
    .assign (.attr (.name I.self) I.stateUpdateFlag) (.attr (.name I.record_bitfield) I.stateUpdateFlag),
    .assign (.attr (.name I.self) I.padding) (.attr (.name I.record_bitfield) I.padding)]

/-- `class DEFireFlags`, /repo/opendis/record/warfare/enums.py:8-38. -/
def DEFireFlags : Class where
  base := some I.Record
  attrs := [(I._struct, .bitfield [(I.weaponOn, { isInteger := true, bits := some 1 }), (I.stateUpdateFlag, { isInteger := true, bits := some 1 }), (I.padding, { isInteger := true, bits := some 14 })])]
  methods :=
   [(I.__init__, DEFireFlags.__init__),
    (I.marshalledSize, DEFireFlags.marshalledSize),
    (I.serialize, DEFireFlags.serialize),
    (I.parse, DEFireFlags.parse)]

end Dis.Src
