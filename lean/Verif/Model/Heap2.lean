import Verif.Model.Heap1

/-!
# Methods as programs on a memory of objects, part 2

Generated by `tools/genheap.py` from the Python source; each definition cites the lines it transliterates.
-/

set_option linter.unusedVariables false
set_option linter.unusedSimpArgs false

namespace Dis

/-- Attributes of a `LiveSimulationAddress` object before `__init__` (/repo/opendis/dis7.py:1182-1205): class attributes have
values. -/
def LiveSimulationAddress.attrs : List (String × Scalar) :=
  [("liveSiteNumber", .absent), ("liveApplicationNumber", .absent)]

/-- `LiveSimulationAddress.__init__`, /repo/opendis/dis7.py:1189-1195, statement by statement. -/
def LiveSimulationAddress.initHeap (self : Ref) (liveSiteNumber : Val := .sc (.int 0))
    (liveApplicationNumber : Val := .sc (.int 0)) : H Unit := do
  H.setAttr self "liveSiteNumber" liveSiteNumber
  H.setAttr self "liveApplicationNumber" liveApplicationNumber

/-- `LiveSimulationAddress(...)`, /repo/opendis/dis7.py:1189-1195. -/
def LiveSimulationAddress.newHeap (liveSiteNumber : Val := .sc (.int 0))
    (liveApplicationNumber : Val := .sc (.int 0)) : H Ref :=
  H.new LiveSimulationAddress.attrs fun self => LiveSimulationAddress.initHeap self liveSiteNumber liveApplicationNumber

/-- `LiveSimulationAddress.parse`, /repo/opendis/dis7.py:1202-1205, statement by statement. -/
def LiveSimulationAddress.parseHeap (self : Ref) : H Unit := do
  let liveSiteNumber ← H.read read_unsigned_byte
  H.setAttr self "liveSiteNumber" (.sc (.int liveSiteNumber))
  let liveApplicationNumber ← H.read read_unsigned_byte
  H.setAttr self "liveApplicationNumber" (.sc (.int liveApplicationNumber))
  return ()

/-- `LiveSimulationAddress.serialize`, /repo/opendis/dis7.py:1197-1200, statement by statement. -/
def LiveSimulationAddress.serializeHeap (self : Ref) : S Unit := do
  S.putInt self "liveSiteNumber" write_unsigned_byte
  S.putInt self "liveApplicationNumber" write_unsigned_byte

/-- Attributes of a `EntityMarking` object before `__init__` (/repo/opendis/dis7.py:1208-1245): class attributes have
values. -/
def EntityMarking.attrs : List (String × Scalar) :=
  [("characterSet", .absent), ("characters", .absent)]

/-- `EntityMarking.__init__`, /repo/opendis/dis7.py:1214-1220, statement by statement. -/
def EntityMarking.initHeap (self : Ref) (characterSet : Val := .sc (.int 0))
    (characters : Val := .sc .none) : H Unit := do
  H.setAttr self "characterSet" characterSet
  H.setOr self "characters" characters (H.zeros 11)

/-- `EntityMarking(...)`, /repo/opendis/dis7.py:1214-1220. -/
def EntityMarking.newHeap (characterSet : Val := .sc (.int 0)) (characters : Val := .sc .none)
    : H Ref :=
  H.new EntityMarking.attrs fun self => EntityMarking.initHeap self characterSet characters

/-- `EntityMarking.parse`, /repo/opendis/dis7.py:1239-1245, statement by statement. -/
def EntityMarking.parseHeap (self : Ref) : H Unit := do
  let characterSet ← H.read read_unsigned_byte
  H.setAttr self "characterSet" (.sc (.int characterSet))
  H.fillReads 11 read_byte self "characters"
  return ()

/-- `EntityMarking.serialize`, /repo/opendis/dis7.py:1233-1237, statement by statement. -/
def EntityMarking.serializeHeap (self : Ref) : S Unit := do
  S.putInt self "characterSet" write_unsigned_byte
  S.forRange 0 11 fun idx => S.putItem self "characters" idx write_byte

/-- Attributes of a `UAFundamentalParameter` object before `__init__` (/repo/opendis/dis7.py:1248-1291): class attributes have
values. -/
def UAFundamentalParameter.attrs : List (String × Scalar) :=
  [("activeEmissionParameterIndex", .absent), ("scanPattern", .absent),
   ("beamCenterAzimuthHorizontal", .absent), ("azimuthalBeamwidthHorizontal", .absent),
   ("beamCenterDepressionElevation", .absent), ("beamwidthDownElevation", .absent)]

/-- `UAFundamentalParameter.__init__`, /repo/opendis/dis7.py:1255-1273, statement by statement. -/
def UAFundamentalParameter.initHeap (self : Ref)
    (activeEmissionParameterIndex : Val := .sc (.int 0)) (scanPattern : Val := .sc (.int 0))
    (beamCenterAzimuthHorizontal : Val := .sc (.float 0x0000000000000000))
    (azimuthBeamwidthHorizontal : Val := .sc (.float 0x0000000000000000))
    (beamCenterDepressionElevation : Val := .sc (.float 0x0000000000000000))
    (beamwidthDownElevation : Val := .sc (.float 0x0000000000000000)) : H Unit := do
  H.setAttr self "activeEmissionParameterIndex" activeEmissionParameterIndex
  H.setAttr self "scanPattern" scanPattern
  H.setAttr self "beamCenterAzimuthHorizontal" beamCenterAzimuthHorizontal
  H.setAttr self "azimuthalBeamwidthHorizontal" azimuthBeamwidthHorizontal
  H.setAttr self "beamCenterDepressionElevation" beamCenterDepressionElevation
  H.setAttr self "beamwidthDownElevation" beamwidthDownElevation

/-- `UAFundamentalParameter(...)`, /repo/opendis/dis7.py:1255-1273. -/
def UAFundamentalParameter.newHeap (activeEmissionParameterIndex : Val := .sc (.int 0))
    (scanPattern : Val := .sc (.int 0))
    (beamCenterAzimuthHorizontal : Val := .sc (.float 0x0000000000000000))
    (azimuthBeamwidthHorizontal : Val := .sc (.float 0x0000000000000000))
    (beamCenterDepressionElevation : Val := .sc (.float 0x0000000000000000))
    (beamwidthDownElevation : Val := .sc (.float 0x0000000000000000)) : H Ref :=
  H.new UAFundamentalParameter.attrs fun self => UAFundamentalParameter.initHeap self activeEmissionParameterIndex scanPattern beamCenterAzimuthHorizontal azimuthBeamwidthHorizontal beamCenterDepressionElevation beamwidthDownElevation

/-- `UAFundamentalParameter.parse`, /repo/opendis/dis7.py:1284-1291, statement by statement. -/
def UAFundamentalParameter.parseHeap (self : Ref) : H Unit := do
  let activeEmissionParameterIndex ← H.read read_unsigned_short
  H.setAttr self "activeEmissionParameterIndex" (.sc (.int activeEmissionParameterIndex))
  let scanPattern ← H.read read_unsigned_short
  H.setAttr self "scanPattern" (.sc (.int scanPattern))
  let beamCenterAzimuthHorizontal ← H.read read_float
  H.setAttr self "beamCenterAzimuthHorizontal" (.sc (.float beamCenterAzimuthHorizontal))
  let azimuthalBeamwidthHorizontal ← H.read read_float
  H.setAttr self "azimuthalBeamwidthHorizontal" (.sc (.float azimuthalBeamwidthHorizontal))
  let beamCenterDepressionElevation ← H.read read_float
  H.setAttr self "beamCenterDepressionElevation" (.sc (.float beamCenterDepressionElevation))
  let beamwidthDownElevation ← H.read read_float
  H.setAttr self "beamwidthDownElevation" (.sc (.float beamwidthDownElevation))
  return ()

/-- `UAFundamentalParameter.serialize`, /repo/opendis/dis7.py:1275-1282, statement by statement. -/
def UAFundamentalParameter.serializeHeap (self : Ref) : S Unit := do
  S.putInt self "activeEmissionParameterIndex" write_unsigned_short
  S.putInt self "scanPattern" write_unsigned_short
  S.putFloat self "beamCenterAzimuthHorizontal" write_float
  S.putFloat self "azimuthalBeamwidthHorizontal" write_float
  S.putFloat self "beamCenterDepressionElevation" write_float
  S.putFloat self "beamwidthDownElevation" write_float

/-- Attributes of a `ExplosionDescriptor` object before `__init__` (/repo/opendis/dis7.py:1294-1324): class attributes have
values. -/
def ExplosionDescriptor.attrs : List (String × Scalar) :=
  [("explodingObject", .absent), ("explosiveMaterial", .absent), ("padding", .absent),
   ("explosiveForce", .absent)]

/-- `ExplosionDescriptor.__init__`, /repo/opendis/dis7.py:1300-1310, statement by statement. -/
def ExplosionDescriptor.initHeap (self : Ref) (explodingObject : Val := .sc .none)
    (explosiveMaterial : Val := .sc (.int 0))
    (explosiveForce : Val := .sc (.float 0x0000000000000000)) : H Unit := do
  H.setOr self "explodingObject" explodingObject EntityType.newHeap
  H.setAttr self "explosiveMaterial" explosiveMaterial
  H.setAttr self "padding" (.sc (.int 0))
  H.setAttr self "explosiveForce" explosiveForce

/-- `ExplosionDescriptor(...)`, /repo/opendis/dis7.py:1300-1310. -/
def ExplosionDescriptor.newHeap (explodingObject : Val := .sc .none)
    (explosiveMaterial : Val := .sc (.int 0))
    (explosiveForce : Val := .sc (.float 0x0000000000000000)) : H Ref :=
  H.new ExplosionDescriptor.attrs fun self => ExplosionDescriptor.initHeap self explodingObject explosiveMaterial explosiveForce

/-- `ExplosionDescriptor.parse`, /repo/opendis/dis7.py:1319-1324, statement by statement. -/
def ExplosionDescriptor.parseHeap (self : Ref) : H Unit := do
  H.call self "explodingObject" EntityType.parseHeap
  let explosiveMaterial ← H.read read_unsigned_short
  H.setAttr self "explosiveMaterial" (.sc (.int explosiveMaterial))
  let padding ← H.read read_unsigned_short
  H.setAttr self "padding" (.sc (.int padding))
  let explosiveForce ← H.read read_float
  H.setAttr self "explosiveForce" (.sc (.float explosiveForce))
  return ()

/-- `ExplosionDescriptor.serialize`, /repo/opendis/dis7.py:1312-1317, statement by statement. -/
def ExplosionDescriptor.serializeHeap (self : Ref) : S Unit := do
  S.call self "explodingObject" EntityType.serializeHeap
  S.putInt self "explosiveMaterial" write_unsigned_short
  S.putInt self "padding" write_unsigned_short
  S.putFloat self "explosiveForce" write_float

/-- Attributes of a `ClockTime` object before `__init__` (/repo/opendis/dis7.py:1327-1352): class attributes have
values. -/
def ClockTime.attrs : List (String × Scalar) :=
  [("hour", .absent), ("timePastHour", .absent)]

/-- `ClockTime.__init__`, /repo/opendis/dis7.py:1336-1342, statement by statement. -/
def ClockTime.initHeap (self : Ref) (hour : Val := .sc (.int 0))
    (timePastHour : Val := .sc (.int 0)) : H Unit := do
  H.setAttr self "hour" hour
  H.setAttr self "timePastHour" timePastHour

/-- `ClockTime(...)`, /repo/opendis/dis7.py:1336-1342. -/
def ClockTime.newHeap (hour : Val := .sc (.int 0)) (timePastHour : Val := .sc (.int 0))
    : H Ref :=
  H.new ClockTime.attrs fun self => ClockTime.initHeap self hour timePastHour

/-- `ClockTime.parse`, /repo/opendis/dis7.py:1349-1352, statement by statement. -/
def ClockTime.parseHeap (self : Ref) : H Unit := do
  let hour ← H.read read_unsigned_int
  H.setAttr self "hour" (.sc (.int hour))
  let timePastHour ← H.read read_unsigned_int
  H.setAttr self "timePastHour" (.sc (.int timePastHour))
  return ()

/-- `ClockTime.serialize`, /repo/opendis/dis7.py:1344-1347, statement by statement. -/
def ClockTime.serializeHeap (self : Ref) : S Unit := do
  S.putInt self "hour" write_unsigned_int
  S.putInt self "timePastHour" write_unsigned_int

/-- Attributes of a `SecondaryOperationalData` object before `__init__` (/repo/opendis/dis7.py:1355-1386): class attributes have
values. -/
def SecondaryOperationalData.attrs : List (String × Scalar) :=
  [("operationalData1", .absent), ("operationalData2", .absent),
   ("numberOfIFFFundamentalParameterRecords", .absent)]

/-- `SecondaryOperationalData.__init__`, /repo/opendis/dis7.py:1363-1372, statement by statement. -/
def SecondaryOperationalData.initHeap (self : Ref) (operationalData1 : Val := .sc (.int 0))
    (operationalData2 : Val := .sc (.int 0))
    (numberOfIFFFundamentalParameterRecords : Val := .sc (.int 0)) : H Unit := do
  H.setAttr self "operationalData1" operationalData1
  H.setAttr self "operationalData2" operationalData2
  H.setAttr self "numberOfIFFFundamentalParameterRecords" numberOfIFFFundamentalParameterRecords

/-- `SecondaryOperationalData(...)`, /repo/opendis/dis7.py:1363-1372. -/
def SecondaryOperationalData.newHeap (operationalData1 : Val := .sc (.int 0))
    (operationalData2 : Val := .sc (.int 0))
    (numberOfIFFFundamentalParameterRecords : Val := .sc (.int 0)) : H Ref :=
  H.new SecondaryOperationalData.attrs fun self => SecondaryOperationalData.initHeap self operationalData1 operationalData2 numberOfIFFFundamentalParameterRecords

/-- `SecondaryOperationalData.parse`, /repo/opendis/dis7.py:1382-1386, statement by statement. -/
def SecondaryOperationalData.parseHeap (self : Ref) : H Unit := do
  let operationalData1 ← H.read read_unsigned_byte
  H.setAttr self "operationalData1" (.sc (.int operationalData1))
  let operationalData2 ← H.read read_unsigned_byte
  H.setAttr self "operationalData2" (.sc (.int operationalData2))
  let numberOfIFFFundamentalParameterRecords ← H.read read_unsigned_short
  H.setAttr self "numberOfIFFFundamentalParameterRecords" (.sc (.int numberOfIFFFundamentalParameterRecords))
  return ()

/-- `SecondaryOperationalData.serialize`, /repo/opendis/dis7.py:1374-1380, statement by statement. -/
def SecondaryOperationalData.serializeHeap (self : Ref) : S Unit := do
  S.putInt self "operationalData1" write_unsigned_byte
  S.putInt self "operationalData2" write_unsigned_byte
  S.putInt self "numberOfIFFFundamentalParameterRecords" write_unsigned_short

/-- Attributes of a `EnvironmentType` object before `__init__` (/repo/opendis/dis7.py:1389-1433): class attributes have
values. -/
def EnvironmentType.attrs : List (String × Scalar) :=
  [("entityKind", .absent), ("domain", .absent), ("entityClass", .absent), ("category", .absent),
   ("subcategory", .absent), ("specific", .absent), ("extra", .absent)]

/-- `EnvironmentType.__init__`, /repo/opendis/dis7.py:1392-1412, statement by statement. -/
def EnvironmentType.initHeap (self : Ref) (entityKind : Val := .sc (.int 0))
    (domain : Val := .sc (.int 0)) (entityClass : Val := .sc (.int 0))
    (category : Val := .sc (.int 0)) (subcategory : Val := .sc (.int 0))
    (specific : Val := .sc (.int 0)) (extra : Val := .sc (.int 0)) : H Unit := do
  H.setAttr self "entityKind" entityKind
  H.setAttr self "domain" domain
  H.setAttr self "entityClass" entityClass
  H.setAttr self "category" category
  H.setAttr self "subcategory" subcategory
  H.setAttr self "specific" specific
  H.setAttr self "extra" extra

/-- `EnvironmentType(...)`, /repo/opendis/dis7.py:1392-1412. -/
def EnvironmentType.newHeap (entityKind : Val := .sc (.int 0)) (domain : Val := .sc (.int 0))
    (entityClass : Val := .sc (.int 0)) (category : Val := .sc (.int 0))
    (subcategory : Val := .sc (.int 0)) (specific : Val := .sc (.int 0))
    (extra : Val := .sc (.int 0)) : H Ref :=
  H.new EnvironmentType.attrs fun self => EnvironmentType.initHeap self entityKind domain entityClass category subcategory specific extra

/-- `EnvironmentType.parse`, /repo/opendis/dis7.py:1424-1433, statement by statement. -/
def EnvironmentType.parseHeap (self : Ref) : H Unit := do
  let entityKind ← H.read read_unsigned_byte
  H.setAttr self "entityKind" (.sc (.int entityKind))
  let domain ← H.read read_unsigned_byte
  H.setAttr self "domain" (.sc (.int domain))
  let entityClass ← H.read read_unsigned_short
  H.setAttr self "entityClass" (.sc (.int entityClass))
  let category ← H.read read_unsigned_byte
  H.setAttr self "category" (.sc (.int category))
  let subcategory ← H.read read_unsigned_byte
  H.setAttr self "subcategory" (.sc (.int subcategory))
  let specific ← H.read read_unsigned_byte
  H.setAttr self "specific" (.sc (.int specific))
  let extra ← H.read read_unsigned_byte
  H.setAttr self "extra" (.sc (.int extra))
  return ()

/-- `EnvironmentType.serialize`, /repo/opendis/dis7.py:1414-1422, statement by statement. -/
def EnvironmentType.serializeHeap (self : Ref) : S Unit := do
  S.putInt self "entityKind" write_unsigned_byte
  S.putInt self "domain" write_unsigned_byte
  S.putInt self "entityClass" write_unsigned_short
  S.putInt self "category" write_unsigned_byte
  S.putInt self "subcategory" write_unsigned_byte
  S.putInt self "specific" write_unsigned_byte
  S.putInt self "extra" write_unsigned_byte

/-- Attributes of a `TotalRecordSets` object before `__init__` (/repo/opendis/dis7.py:1436-1453): class attributes have
values. -/
def TotalRecordSets.attrs : List (String × Scalar) :=
  [("totalRecordSets", .absent), ("padding", .absent)]

/-- `TotalRecordSets.__init__`, /repo/opendis/dis7.py:1439-1442, statement by statement. -/
def TotalRecordSets.initHeap (self : Ref) (totalRecordSets : Val := .sc (.int 0)) : H Unit := do
  H.setAttr self "totalRecordSets" totalRecordSets
  H.setAttr self "padding" (.sc (.int 0))

/-- `TotalRecordSets(...)`, /repo/opendis/dis7.py:1439-1442. -/
def TotalRecordSets.newHeap (totalRecordSets : Val := .sc (.int 0)) : H Ref :=
  H.new TotalRecordSets.attrs fun self => TotalRecordSets.initHeap self totalRecordSets

/-- `TotalRecordSets.parse`, /repo/opendis/dis7.py:1449-1453, statement by statement. -/
def TotalRecordSets.parseHeap (self : Ref) : H Unit := do
  let totalRecordSets ← H.read read_unsigned_short
  H.setAttr self "totalRecordSets" (.sc (.int totalRecordSets))
  let padding ← H.read read_unsigned_short
  H.setAttr self "padding" (.sc (.int padding))
  return ()

/-- `TotalRecordSets.serialize`, /repo/opendis/dis7.py:1444-1447, statement by statement. -/
def TotalRecordSets.serializeHeap (self : Ref) : S Unit := do
  S.putInt self "totalRecordSets" write_unsigned_short
  S.putInt self "padding" write_unsigned_short

/-- Attributes of a `MineEntityIdentifier` object before `__init__` (/repo/opendis/dis7.py:1456-1477): class attributes have
values. -/
def MineEntityIdentifier.attrs : List (String × Scalar) :=
  [("simulationAddress", .absent), ("mineEntityNumber", .absent)]

/-- `MineEntityIdentifier.__init__`, /repo/opendis/dis7.py:1463-1467, statement by statement. -/
def MineEntityIdentifier.initHeap (self : Ref) (simulationAddress : Val := .sc .none)
    (mineEntityNumber : Val := .sc (.int 0)) : H Unit := do
  H.setOr self "simulationAddress" simulationAddress SimulationAddress.newHeap
  H.setAttr self "mineEntityNumber" mineEntityNumber

/-- `MineEntityIdentifier(...)`, /repo/opendis/dis7.py:1463-1467. -/
def MineEntityIdentifier.newHeap (simulationAddress : Val := .sc .none)
    (mineEntityNumber : Val := .sc (.int 0)) : H Ref :=
  H.new MineEntityIdentifier.attrs fun self => MineEntityIdentifier.initHeap self simulationAddress mineEntityNumber

/-- `MineEntityIdentifier.parse`, /repo/opendis/dis7.py:1474-1477, statement by statement. -/
def MineEntityIdentifier.parseHeap (self : Ref) : H Unit := do
  H.call self "simulationAddress" SimulationAddress.parseHeap
  let mineEntityNumber ← H.read read_unsigned_short
  H.setAttr self "mineEntityNumber" (.sc (.int mineEntityNumber))
  return ()

/-- `MineEntityIdentifier.serialize`, /repo/opendis/dis7.py:1469-1472, statement by statement. -/
def MineEntityIdentifier.serializeHeap (self : Ref) : S Unit := do
  S.call self "simulationAddress" SimulationAddress.serializeHeap
  S.putInt self "mineEntityNumber" write_unsigned_short

/-- Attributes of a `Relationship` object before `__init__` (/repo/opendis/dis7.py:1480-1502): class attributes have
values. -/
def Relationship.attrs : List (String × Scalar) :=
  [("nature", .absent), ("position", .absent)]

/-- `Relationship.__init__`, /repo/opendis/dis7.py:1486-1492, statement by statement. -/
def Relationship.initHeap (self : Ref) (nature : Val := .sc (.int 0))
    (position : Val := .sc (.int 0)) : H Unit := do
  H.setAttr self "nature" nature
  H.setAttr self "position" position

/-- `Relationship(...)`, /repo/opendis/dis7.py:1486-1492. -/
def Relationship.newHeap (nature : Val := .sc (.int 0)) (position : Val := .sc (.int 0))
    : H Ref :=
  H.new Relationship.attrs fun self => Relationship.initHeap self nature position

/-- `Relationship.parse`, /repo/opendis/dis7.py:1499-1502, statement by statement. -/
def Relationship.parseHeap (self : Ref) : H Unit := do
  let nature ← H.read read_unsigned_short
  H.setAttr self "nature" (.sc (.int nature))
  let position ← H.read read_unsigned_short
  H.setAttr self "position" (.sc (.int position))
  return ()

/-- `Relationship.serialize`, /repo/opendis/dis7.py:1494-1497, statement by statement. -/
def Relationship.serializeHeap (self : Ref) : S Unit := do
  S.putInt self "nature" write_unsigned_short
  S.putInt self "position" write_unsigned_short

/-- Attributes of a `EEFundamentalParameterData` object before `__init__` (/repo/opendis/dis7.py:1505-1563): class attributes have
values. -/
def EEFundamentalParameterData.attrs : List (String × Scalar) :=
  [("frequency", .absent), ("frequencyRange", .absent), ("effectiveRadiatedPower", .absent),
   ("pulseRepetitionFrequency", .absent), ("pulseWidth", .absent), ("beamAzimuthCenter", .absent),
   ("beamAzimuthSweep", .absent), ("beamElevationCenter", .absent), ("beamElevationSweep", .absent),
   ("beamSweepSync", .absent)]

/-- `EEFundamentalParameterData.__init__`, /repo/opendis/dis7.py:1512-1537, statement by statement. -/
def EEFundamentalParameterData.initHeap (self : Ref)
    (frequency : Val := .sc (.float 0x0000000000000000))
    (frequencyRange : Val := .sc (.float 0x0000000000000000))
    (effectiveRadiatedPower : Val := .sc (.float 0x0000000000000000))
    (pulseRepetitionFrequency : Val := .sc (.float 0x0000000000000000))
    (pulseWidth : Val := .sc (.float 0x0000000000000000))
    (beamAzimuthCenter : Val := .sc (.float 0x0000000000000000))
    (beamAzimuthSweep : Val := .sc (.float 0x0000000000000000))
    (beamElevationCenter : Val := .sc (.float 0x0000000000000000))
    (beamElevationSweep : Val := .sc (.float 0x0000000000000000))
    (beamSweepSync : Val := .sc (.float 0x0000000000000000)) : H Unit := do
  H.setAttr self "frequency" frequency
  H.setAttr self "frequencyRange" frequencyRange
  H.setAttr self "effectiveRadiatedPower" effectiveRadiatedPower
  H.setAttr self "pulseRepetitionFrequency" pulseRepetitionFrequency
  H.setAttr self "pulseWidth" pulseWidth
  H.setAttr self "beamAzimuthCenter" beamAzimuthCenter
  H.setAttr self "beamAzimuthSweep" beamAzimuthSweep
  H.setAttr self "beamElevationCenter" beamElevationCenter
  H.setAttr self "beamElevationSweep" beamElevationSweep
  H.setAttr self "beamSweepSync" beamSweepSync

/-- `EEFundamentalParameterData(...)`, /repo/opendis/dis7.py:1512-1537. -/
def EEFundamentalParameterData.newHeap (frequency : Val := .sc (.float 0x0000000000000000))
    (frequencyRange : Val := .sc (.float 0x0000000000000000))
    (effectiveRadiatedPower : Val := .sc (.float 0x0000000000000000))
    (pulseRepetitionFrequency : Val := .sc (.float 0x0000000000000000))
    (pulseWidth : Val := .sc (.float 0x0000000000000000))
    (beamAzimuthCenter : Val := .sc (.float 0x0000000000000000))
    (beamAzimuthSweep : Val := .sc (.float 0x0000000000000000))
    (beamElevationCenter : Val := .sc (.float 0x0000000000000000))
    (beamElevationSweep : Val := .sc (.float 0x0000000000000000))
    (beamSweepSync : Val := .sc (.float 0x0000000000000000)) : H Ref :=
  H.new EEFundamentalParameterData.attrs fun self => EEFundamentalParameterData.initHeap self frequency frequencyRange effectiveRadiatedPower pulseRepetitionFrequency pulseWidth beamAzimuthCenter beamAzimuthSweep beamElevationCenter beamElevationSweep beamSweepSync

/-- `EEFundamentalParameterData.parse`, /repo/opendis/dis7.py:1552-1563, statement by statement. -/
def EEFundamentalParameterData.parseHeap (self : Ref) : H Unit := do
  let frequency ← H.read read_float
  H.setAttr self "frequency" (.sc (.float frequency))
  let frequencyRange ← H.read read_float
  H.setAttr self "frequencyRange" (.sc (.float frequencyRange))
  let effectiveRadiatedPower ← H.read read_float
  H.setAttr self "effectiveRadiatedPower" (.sc (.float effectiveRadiatedPower))
  let pulseRepetitionFrequency ← H.read read_float
  H.setAttr self "pulseRepetitionFrequency" (.sc (.float pulseRepetitionFrequency))
  let pulseWidth ← H.read read_float
  H.setAttr self "pulseWidth" (.sc (.float pulseWidth))
  let beamAzimuthCenter ← H.read read_float
  H.setAttr self "beamAzimuthCenter" (.sc (.float beamAzimuthCenter))
  let beamAzimuthSweep ← H.read read_float
  H.setAttr self "beamAzimuthSweep" (.sc (.float beamAzimuthSweep))
  let beamElevationCenter ← H.read read_float
  H.setAttr self "beamElevationCenter" (.sc (.float beamElevationCenter))
  let beamElevationSweep ← H.read read_float
  H.setAttr self "beamElevationSweep" (.sc (.float beamElevationSweep))
  let beamSweepSync ← H.read read_float
  H.setAttr self "beamSweepSync" (.sc (.float beamSweepSync))
  return ()

/-- `EEFundamentalParameterData.serialize`, /repo/opendis/dis7.py:1539-1550, statement by statement. -/
def EEFundamentalParameterData.serializeHeap (self : Ref) : S Unit := do
  S.putFloat self "frequency" write_float
  S.putFloat self "frequencyRange" write_float
  S.putFloat self "effectiveRadiatedPower" write_float
  S.putFloat self "pulseRepetitionFrequency" write_float
  S.putFloat self "pulseWidth" write_float
  S.putFloat self "beamAzimuthCenter" write_float
  S.putFloat self "beamAzimuthSweep" write_float
  S.putFloat self "beamElevationCenter" write_float
  S.putFloat self "beamElevationSweep" write_float
  S.putFloat self "beamSweepSync" write_float

/-- Attributes of a `JammingTechnique` object before `__init__` (/repo/opendis/dis7.py:1566-1590): class attributes have
values. -/
def JammingTechnique.attrs : List (String × Scalar) :=
  [("kind", .absent), ("category", .absent), ("subcategory", .absent), ("specific", .absent)]

/-- `JammingTechnique.__init__`, /repo/opendis/dis7.py:1572-1576, statement by statement. -/
def JammingTechnique.initHeap (self : Ref) (kind : Val := .sc (.int 0))
    (category : Val := .sc (.int 0)) (subcategory : Val := .sc (.int 0))
    (specific : Val := .sc (.int 0)) : H Unit := do
  H.setAttr self "kind" kind
  H.setAttr self "category" category
  H.setAttr self "subcategory" subcategory
  H.setAttr self "specific" specific

/-- `JammingTechnique(...)`, /repo/opendis/dis7.py:1572-1576. -/
def JammingTechnique.newHeap (kind : Val := .sc (.int 0)) (category : Val := .sc (.int 0))
    (subcategory : Val := .sc (.int 0)) (specific : Val := .sc (.int 0)) : H Ref :=
  H.new JammingTechnique.attrs fun self => JammingTechnique.initHeap self kind category subcategory specific

/-- `JammingTechnique.parse`, /repo/opendis/dis7.py:1585-1590, statement by statement. -/
def JammingTechnique.parseHeap (self : Ref) : H Unit := do
  let kind ← H.read read_unsigned_byte
  H.setAttr self "kind" (.sc (.int kind))
  let category ← H.read read_unsigned_byte
  H.setAttr self "category" (.sc (.int category))
  let subcategory ← H.read read_unsigned_byte
  H.setAttr self "subcategory" (.sc (.int subcategory))
  let specific ← H.read read_unsigned_byte
  H.setAttr self "specific" (.sc (.int specific))
  return ()

/-- `JammingTechnique.serialize`, /repo/opendis/dis7.py:1578-1583, statement by statement. -/
def JammingTechnique.serializeHeap (self : Ref) : S Unit := do
  S.putInt self "kind" write_unsigned_byte
  S.putInt self "category" write_unsigned_byte
  S.putInt self "subcategory" write_unsigned_byte
  S.putInt self "specific" write_unsigned_byte

/-- Attributes of a `VariableDatum` object before `__init__` (/repo/opendis/dis7.py:3293-3339): class attributes have
values. -/
def VariableDatum.attrs : List (String × Scalar) :=
  [("variableDatumID", .absent), ("variableDatumLength", .absent), ("variableData", .absent)]

/-- `VariableDatum.__init__`, /repo/opendis/dis7.py:3300-3309, statement by statement. -/
def VariableDatum.initHeap (self : Ref) (variableDatumID : Val := .sc (.int 0))
    (variableDatumLength : Val := .sc (.int 0)) (variableData : Val := .sc .none) : H Unit := do
  H.setAttr self "variableDatumID" variableDatumID
  H.setAttr self "variableDatumLength" variableDatumLength
  H.setOr self "variableData" variableData (H.alloc (.list []))

/-- `VariableDatum(...)`, /repo/opendis/dis7.py:3300-3309. -/
def VariableDatum.newHeap (variableDatumID : Val := .sc (.int 0))
    (variableDatumLength : Val := .sc (.int 0)) (variableData : Val := .sc .none) : H Ref :=
  H.new VariableDatum.attrs fun self => VariableDatum.initHeap self variableDatumID variableDatumLength variableData

/-- `VariableDatum.parse`, /repo/opendis/dis7.py:3329-3339, statement by statement. -/
def VariableDatum.parseHeap (self : Ref) : H Unit := do
  let variableDatumID ← H.read read_unsigned_int
  H.setAttr self "variableDatumID" (.sc (.int variableDatumID))
  let variableDatumLength ← H.read read_unsigned_int
  H.setAttr self "variableDatumLength" (.sc (.int variableDatumLength))
  H.appendReads (variableDatumLength / 8).toNat read_unsigned_byte .int self "variableData"
  let _ ← H.read (R.times
    (VariableDatum.datumPaddingSizeInBits { variableDatumLength } / 8).toNat read_unsigned_byte)
  return ()

/-- `VariableDatum.serialize`, /repo/opendis/dis7.py:3318-3327, statement by statement. -/
def VariableDatum.serializeHeap (self : Ref) : S Unit := do
  S.putInt self "variableDatumID" write_unsigned_int
  S.putInt self "variableDatumLength" write_unsigned_int
  (do let n ← S.int self "variableDatumLength"
      S.forRange 0 (n / 8).toNat fun x => S.putItem self "variableData" x write_unsigned_byte)
  (do let n ← S.int self "variableDatumLength"
      S.forRange 0 (VariableDatum.datumPaddingSizeInBits { variableDatumLength := n } / 8).toNat fun _ =>
        S.write (write_unsigned_byte 0))

/-- Attributes of a `DatumSpecification` object before `__init__` (/repo/opendis/dis7.py:1593-1637): class attributes have
values. -/
def DatumSpecification.attrs : List (String × Scalar) :=
  [("fixedDatumRecords", .absent), ("variableDatumRecords", .absent)]

/-- `DatumSpecification.__init__`, /repo/opendis/dis7.py:1599-1605, statement by statement. -/
def DatumSpecification.initHeap (self : Ref) (fixedDatumRecords : Val := .sc .none)
    (variableDatumRecords : Val := .sc .none) : H Unit := do
  H.setOr self "fixedDatumRecords" fixedDatumRecords (H.alloc (.list []))
  H.setOr self "variableDatumRecords" variableDatumRecords (H.alloc (.list []))

/-- `DatumSpecification(...)`, /repo/opendis/dis7.py:1599-1605. -/
def DatumSpecification.newHeap (fixedDatumRecords : Val := .sc .none)
    (variableDatumRecords : Val := .sc .none) : H Ref :=
  H.new DatumSpecification.attrs fun self => DatumSpecification.initHeap self fixedDatumRecords variableDatumRecords

/-- `DatumSpecification.parse`, /repo/opendis/dis7.py:1625-1637, statement by statement. -/
def DatumSpecification.parseHeap (self : Ref) : H Unit := do
  let numberOfFixedDatumRecords ← H.read read_unsigned_int
  let numberOfVariableDatumRecords ← H.read read_unsigned_int
  H.appendObjs numberOfFixedDatumRecords.toNat FixedDatum.newHeap FixedDatum.parseHeap self "fixedDatumRecords"
  H.appendObjs numberOfVariableDatumRecords.toNat VariableDatum.newHeap VariableDatum.parseHeap self "variableDatumRecords"
  return ()

/-- `DatumSpecification.serialize`, /repo/opendis/dis7.py:1615-1623, statement by statement. -/
def DatumSpecification.serializeHeap (self : Ref) : S Unit := do
  S.putLen self "fixedDatumRecords" write_unsigned_int
  S.putLen self "variableDatumRecords" write_unsigned_int
  S.each self "fixedDatumRecords" FixedDatum.serializeHeap
  S.each self "variableDatumRecords" VariableDatum.serializeHeap

/-- Attributes of a `Expendable` object before `__init__` (/repo/opendis/dis7.py:1640-1672): class attributes have
values. -/
def Expendable.attrs : List (String × Scalar) :=
  [("expendable", .absent), ("station", .absent), ("quantity", .absent),
   ("expendableStatus", .absent), ("padding", .absent)]

/-- `Expendable.__init__`, /repo/opendis/dis7.py:1646-1656, statement by statement. -/
def Expendable.initHeap (self : Ref) (expendable : Val := .sc .none)
    (station : Val := .sc (.int 0)) (quantity : Val := .sc (.int 0))
    (expendableStatus : Val := .sc (.int 0)) : H Unit := do
  H.setOr self "expendable" expendable EntityType.newHeap
  H.setAttr self "station" station
  H.setAttr self "quantity" quantity
  H.setAttr self "expendableStatus" expendableStatus
  H.setAttr self "padding" (.sc (.int 0))

/-- `Expendable(...)`, /repo/opendis/dis7.py:1646-1656. -/
def Expendable.newHeap (expendable : Val := .sc .none) (station : Val := .sc (.int 0))
    (quantity : Val := .sc (.int 0)) (expendableStatus : Val := .sc (.int 0)) : H Ref :=
  H.new Expendable.attrs fun self => Expendable.initHeap self expendable station quantity expendableStatus

/-- `Expendable.parse`, /repo/opendis/dis7.py:1666-1672, statement by statement. -/
def Expendable.parseHeap (self : Ref) : H Unit := do
  H.call self "expendable" EntityType.parseHeap
  let station ← H.read read_unsigned_int
  H.setAttr self "station" (.sc (.int station))
  let quantity ← H.read read_unsigned_short
  H.setAttr self "quantity" (.sc (.int quantity))
  let expendableStatus ← H.read read_unsigned_byte
  H.setAttr self "expendableStatus" (.sc (.int expendableStatus))
  let padding ← H.read read_unsigned_byte
  H.setAttr self "padding" (.sc (.int padding))
  return ()

/-- `Expendable.serialize`, /repo/opendis/dis7.py:1658-1664, statement by statement. -/
def Expendable.serializeHeap (self : Ref) : S Unit := do
  S.call self "expendable" EntityType.serializeHeap
  S.putInt self "station" write_unsigned_int
  S.putInt self "quantity" write_unsigned_short
  S.putInt self "expendableStatus" write_unsigned_byte
  S.putInt self "padding" write_unsigned_byte

/-- Attributes of a `CommunicationsNodeID` object before `__init__` (/repo/opendis/dis7.py:3481-3501): class attributes have
values. -/
def CommunicationsNodeID.attrs : List (String × Scalar) :=
  [("entityID", .absent), ("elementID", .absent)]

/-- `CommunicationsNodeID.__init__`, /repo/opendis/dis7.py:3487-3491, statement by statement. -/
def CommunicationsNodeID.initHeap (self : Ref) (entityID : Val := .sc .none)
    (elementID : Val := .sc (.int 0)) : H Unit := do
  H.setOr self "entityID" entityID EntityIdentifier.newHeap
  H.setAttr self "elementID" elementID

/-- `CommunicationsNodeID(...)`, /repo/opendis/dis7.py:3487-3491. -/
def CommunicationsNodeID.newHeap (entityID : Val := .sc .none) (elementID : Val := .sc (.int 0))
    : H Ref :=
  H.new CommunicationsNodeID.attrs fun self => CommunicationsNodeID.initHeap self entityID elementID

/-- `CommunicationsNodeID.parse`, /repo/opendis/dis7.py:3498-3501, statement by statement. -/
def CommunicationsNodeID.parseHeap (self : Ref) : H Unit := do
  H.call self "entityID" EntityIdentifier.parseHeap
  let elementID ← H.read read_unsigned_short
  H.setAttr self "elementID" (.sc (.int elementID))
  return ()

/-- `CommunicationsNodeID.serialize`, /repo/opendis/dis7.py:3493-3496, statement by statement. -/
def CommunicationsNodeID.serializeHeap (self : Ref) : S Unit := do
  S.call self "entityID" EntityIdentifier.serializeHeap
  S.putInt self "elementID" write_unsigned_short

/-- Attributes of a `IOCommunicationsNode` object before `__init__` (/repo/opendis/dis7.py:1675-1705): class attributes have
values. -/
def IOCommunicationsNode.attrs : List (String × Scalar) :=
  [("recordType", .int 5501), ("recordLength", .int 16), ("communcationsNodeType", .absent),
   ("padding", .absent), ("communicationsNodeID", .absent)]

/-- `IOCommunicationsNode.__init__`, /repo/opendis/dis7.py:1683-1689, statement by statement. -/
def IOCommunicationsNode.initHeap (self : Ref) (communicationsNodeType : Val := .sc (.int 0))
    (communicationsNodeID : Val := .sc .none) : H Unit := do
  H.setAttr self "communcationsNodeType" communicationsNodeType
  H.setAttr self "padding" (.sc (.int 0))
  H.setOr self "communicationsNodeID" communicationsNodeID CommunicationsNodeID.newHeap

/-- `IOCommunicationsNode(...)`, /repo/opendis/dis7.py:1683-1689. -/
def IOCommunicationsNode.newHeap (communicationsNodeType : Val := .sc (.int 0))
    (communicationsNodeID : Val := .sc .none) : H Ref :=
  H.new IOCommunicationsNode.attrs fun self => IOCommunicationsNode.initHeap self communicationsNodeType communicationsNodeID

/-- `IOCommunicationsNode.parse`, /repo/opendis/dis7.py:1699-1705, statement by statement. -/
def IOCommunicationsNode.parseHeap (self : Ref) : H Unit := do
  let recordType ← H.read read_unsigned_int
  H.setAttr self "recordType" (.sc (.int recordType))
  let recordLength ← H.read read_unsigned_short
  H.setAttr self "recordLength" (.sc (.int recordLength))
  let communcationsNodeType ← H.read read_unsigned_byte
  H.setAttr self "communcationsNodeType" (.sc (.int communcationsNodeType))
  let padding ← H.read read_unsigned_byte
  H.setAttr self "padding" (.sc (.int padding))
  H.call self "communicationsNodeID" CommunicationsNodeID.parseHeap
  return ()

/-- `IOCommunicationsNode.serialize`, /repo/opendis/dis7.py:1691-1697, statement by statement. -/
def IOCommunicationsNode.serializeHeap (self : Ref) : S Unit := do
  S.putInt self "recordType" write_unsigned_int
  S.putInt self "recordLength" write_unsigned_short
  S.putInt self "communcationsNodeType" write_unsigned_byte
  S.putInt self "padding" write_unsigned_byte
  S.call self "communicationsNodeID" CommunicationsNodeID.serializeHeap

/-- Attributes of a `LinearSegmentParameter` object before `__init__` (/repo/opendis/dis7.py:1708-1774): class attributes have
values. -/
def LinearSegmentParameter.attrs : List (String × Scalar) :=
  [("segmentNumber", .absent), ("segmentModification", .absent),
   ("generalSegmentAppearance", .absent), ("specificSegmentAppearance", .absent),
   ("segmentLocation", .absent), ("segmentOrientation", .absent), ("segmentLength", .absent),
   ("segmentWidth", .absent), ("segmentHeight", .absent), ("segmentDepth", .absent),
   ("padding", .absent)]

/-- `LinearSegmentParameter.__init__`, /repo/opendis/dis7.py:1715-1746, statement by statement. -/
def LinearSegmentParameter.initHeap (self : Ref) (segmentNumber : Val := .sc (.int 0))
    (segmentModification : Val := .sc (.int 0)) (generalSegmentAppearance : Val := .sc (.int 0))
    (specificSegmentAppearance : Val := .sc (.int 0)) (segmentLocation : Val := .sc .none)
    (segmentOrientation : Val := .sc .none)
    (segmentLength : Val := .sc (.float 0x0000000000000000))
    (segmentWidth : Val := .sc (.float 0x0000000000000000))
    (segmentHeight : Val := .sc (.float 0x0000000000000000))
    (segmentDepth : Val := .sc (.float 0x0000000000000000)) : H Unit := do
  H.setAttr self "segmentNumber" segmentNumber
  H.setAttr self "segmentModification" segmentModification
  H.setAttr self "generalSegmentAppearance" generalSegmentAppearance
  H.setAttr self "specificSegmentAppearance" specificSegmentAppearance
  H.setOr self "segmentLocation" segmentLocation WorldCoordinates.newHeap
  H.setOr self "segmentOrientation" segmentOrientation EulerAngles.newHeap
  H.setAttr self "segmentLength" segmentLength
  H.setAttr self "segmentWidth" segmentWidth
  H.setAttr self "segmentHeight" segmentHeight
  H.setAttr self "segmentDepth" segmentDepth
  H.setAttr self "padding" (.sc (.int 0))

/-- `LinearSegmentParameter(...)`, /repo/opendis/dis7.py:1715-1746. -/
def LinearSegmentParameter.newHeap (segmentNumber : Val := .sc (.int 0))
    (segmentModification : Val := .sc (.int 0)) (generalSegmentAppearance : Val := .sc (.int 0))
    (specificSegmentAppearance : Val := .sc (.int 0)) (segmentLocation : Val := .sc .none)
    (segmentOrientation : Val := .sc .none)
    (segmentLength : Val := .sc (.float 0x0000000000000000))
    (segmentWidth : Val := .sc (.float 0x0000000000000000))
    (segmentHeight : Val := .sc (.float 0x0000000000000000))
    (segmentDepth : Val := .sc (.float 0x0000000000000000)) : H Ref :=
  H.new LinearSegmentParameter.attrs fun self => LinearSegmentParameter.initHeap self segmentNumber segmentModification generalSegmentAppearance specificSegmentAppearance segmentLocation segmentOrientation segmentLength segmentWidth segmentHeight segmentDepth

/-- `LinearSegmentParameter.parse`, /repo/opendis/dis7.py:1762-1774, statement by statement. -/
def LinearSegmentParameter.parseHeap (self : Ref) : H Unit := do
  let segmentNumber ← H.read read_unsigned_byte
  H.setAttr self "segmentNumber" (.sc (.int segmentNumber))
  let segmentModification ← H.read read_unsigned_byte
  H.setAttr self "segmentModification" (.sc (.int segmentModification))
  let generalSegmentAppearance ← H.read read_unsigned_short
  H.setAttr self "generalSegmentAppearance" (.sc (.int generalSegmentAppearance))
  let specificSegmentAppearance ← H.read read_unsigned_int
  H.setAttr self "specificSegmentAppearance" (.sc (.int specificSegmentAppearance))
  H.call self "segmentLocation" WorldCoordinates.parseHeap
  H.call self "segmentOrientation" EulerAngles.parseHeap
  let segmentLength ← H.read read_float
  H.setAttr self "segmentLength" (.sc (.float segmentLength))
  let segmentWidth ← H.read read_float
  H.setAttr self "segmentWidth" (.sc (.float segmentWidth))
  let segmentHeight ← H.read read_float
  H.setAttr self "segmentHeight" (.sc (.float segmentHeight))
  let segmentDepth ← H.read read_float
  H.setAttr self "segmentDepth" (.sc (.float segmentDepth))
  let padding ← H.read read_unsigned_int
  H.setAttr self "padding" (.sc (.int padding))
  return ()

/-- `LinearSegmentParameter.serialize`, /repo/opendis/dis7.py:1748-1760, statement by statement. -/
def LinearSegmentParameter.serializeHeap (self : Ref) : S Unit := do
  S.putInt self "segmentNumber" write_unsigned_byte
  S.putInt self "segmentModification" write_unsigned_byte
  S.putInt self "generalSegmentAppearance" write_unsigned_short
  S.putInt self "specificSegmentAppearance" write_unsigned_int
  S.call self "segmentLocation" WorldCoordinates.serializeHeap
  S.call self "segmentOrientation" EulerAngles.serializeHeap
  S.putFloat self "segmentLength" write_float
  S.putFloat self "segmentWidth" write_float
  S.putFloat self "segmentHeight" write_float
  S.putFloat self "segmentDepth" write_float
  S.putInt self "padding" write_unsigned_int

/-- Attributes of a `SystemIdentifier` object before `__init__` (/repo/opendis/dis7.py:1777-1809): class attributes have
values. -/
def SystemIdentifier.attrs : List (String × Scalar) :=
  [("systemType", .absent), ("systemName", .absent), ("systemMode", .absent),
   ("changeOptions", .absent)]

/-- `SystemIdentifier.__init__`, /repo/opendis/dis7.py:1783-1795, statement by statement. -/
def SystemIdentifier.initHeap (self : Ref) (systemType : Val := .sc (.int 0))
    (systemName : Val := .sc (.int 0)) (systemMode : Val := .sc (.int 0))
    (changeOptions : Val := .sc .none) : H Unit := do
  H.setAttr self "systemType" systemType
  H.setAttr self "systemName" systemName
  H.setAttr self "systemMode" systemMode
  H.setOr self "changeOptions" changeOptions ChangeOptions.newHeap

/-- `SystemIdentifier(...)`, /repo/opendis/dis7.py:1783-1795. -/
def SystemIdentifier.newHeap (systemType : Val := .sc (.int 0))
    (systemName : Val := .sc (.int 0)) (systemMode : Val := .sc (.int 0))
    (changeOptions : Val := .sc .none) : H Ref :=
  H.new SystemIdentifier.attrs fun self => SystemIdentifier.initHeap self systemType systemName systemMode changeOptions

/-- `SystemIdentifier.parse`, /repo/opendis/dis7.py:1804-1809, statement by statement. -/
def SystemIdentifier.parseHeap (self : Ref) : H Unit := do
  let systemType ← H.read read_unsigned_short
  H.setAttr self "systemType" (.sc (.int systemType))
  let systemName ← H.read read_unsigned_short
  H.setAttr self "systemName" (.sc (.int systemName))
  let systemMode ← H.read read_unsigned_short
  H.setAttr self "systemMode" (.sc (.int systemMode))
  H.call self "changeOptions" ChangeOptions.parseHeap
  return ()

/-- `SystemIdentifier.serialize`, /repo/opendis/dis7.py:1797-1802, statement by statement. -/
def SystemIdentifier.serializeHeap (self : Ref) : S Unit := do
  S.putInt self "systemType" write_unsigned_short
  S.putInt self "systemName" write_unsigned_short
  S.putInt self "systemMode" write_unsigned_short
  S.call self "changeOptions" ChangeOptions.serializeHeap

/-- Attributes of a `TrackJamData` object before `__init__` (/repo/opendis/dis7.py:1812-1839): class attributes have
values. -/
def TrackJamData.attrs : List (String × Scalar) :=
  [("entityID", .absent), ("emitterNumber", .absent), ("beamNumber", .absent)]

/-- `TrackJamData.__init__`, /repo/opendis/dis7.py:1818-1827, statement by statement. -/
def TrackJamData.initHeap (self : Ref) (entityID : Val := .sc .none)
    (emitterNumber : Val := .sc (.int 0)) (beamNumber : Val := .sc (.int 0)) : H Unit := do
  H.setOr self "entityID" entityID EntityIdentifier.newHeap
  H.setAttr self "emitterNumber" emitterNumber
  H.setAttr self "beamNumber" beamNumber

/-- `TrackJamData(...)`, /repo/opendis/dis7.py:1818-1827. -/
def TrackJamData.newHeap (entityID : Val := .sc .none) (emitterNumber : Val := .sc (.int 0))
    (beamNumber : Val := .sc (.int 0)) : H Ref :=
  H.new TrackJamData.attrs fun self => TrackJamData.initHeap self entityID emitterNumber beamNumber

/-- `TrackJamData.parse`, /repo/opendis/dis7.py:1835-1839, statement by statement. -/
def TrackJamData.parseHeap (self : Ref) : H Unit := do
  H.call self "entityID" EntityIdentifier.parseHeap
  let emitterNumber ← H.read read_unsigned_byte
  H.setAttr self "emitterNumber" (.sc (.int emitterNumber))
  let beamNumber ← H.read read_unsigned_byte
  H.setAttr self "beamNumber" (.sc (.int beamNumber))
  return ()

/-- `TrackJamData.serialize`, /repo/opendis/dis7.py:1829-1833, statement by statement. -/
def TrackJamData.serializeHeap (self : Ref) : S Unit := do
  S.call self "entityID" EntityIdentifier.serializeHeap
  S.putInt self "emitterNumber" write_unsigned_byte
  S.putInt self "beamNumber" write_unsigned_byte

/-- Attributes of a `AggregateType` object before `__init__` (/repo/opendis/dis7.py:1842-1888): class attributes have
values. -/
def AggregateType.attrs : List (String × Scalar) :=
  [("aggregateKind", .absent), ("domain", .absent), ("country", .absent), ("category", .absent),
   ("subcategory", .absent), ("specificInfo", .absent), ("extra", .absent)]

/-- `AggregateType.__init__`, /repo/opendis/dis7.py:1848-1868, statement by statement. -/
def AggregateType.initHeap (self : Ref) (aggregateKind : Val := .sc (.int 0))
    (domain : Val := .sc (.int 0)) (country : Val := .sc (.int 0))
    (category : Val := .sc (.int 0)) (subcategory : Val := .sc (.int 0))
    (specificInfo : Val := .sc (.int 0)) (extra : Val := .sc (.int 0)) : H Unit := do
  H.setAttr self "aggregateKind" aggregateKind
  H.setAttr self "domain" domain
  H.setAttr self "country" country
  H.setAttr self "category" category
  H.setAttr self "subcategory" subcategory
  H.setAttr self "specificInfo" specificInfo
  H.setAttr self "extra" extra

/-- `AggregateType(...)`, /repo/opendis/dis7.py:1848-1868. -/
def AggregateType.newHeap (aggregateKind : Val := .sc (.int 0)) (domain : Val := .sc (.int 0))
    (country : Val := .sc (.int 0)) (category : Val := .sc (.int 0))
    (subcategory : Val := .sc (.int 0)) (specificInfo : Val := .sc (.int 0))
    (extra : Val := .sc (.int 0)) : H Ref :=
  H.new AggregateType.attrs fun self => AggregateType.initHeap self aggregateKind domain country category subcategory specificInfo extra

/-- `AggregateType.parse`, /repo/opendis/dis7.py:1880-1888, statement by statement. -/
def AggregateType.parseHeap (self : Ref) : H Unit := do
  let aggregateKind ← H.read read_unsigned_byte
  H.setAttr self "aggregateKind" (.sc (.int aggregateKind))
  let domain ← H.read read_unsigned_byte
  H.setAttr self "domain" (.sc (.int domain))
  let country ← H.read read_unsigned_short
  H.setAttr self "country" (.sc (.int country))
  let category ← H.read read_unsigned_byte
  H.setAttr self "category" (.sc (.int category))
  let subcategory ← H.read read_unsigned_byte
  H.setAttr self "subcategory" (.sc (.int subcategory))
  let specificInfo ← H.read read_unsigned_byte
  H.setAttr self "specificInfo" (.sc (.int specificInfo))
  let extra ← H.read read_unsigned_byte
  H.setAttr self "extra" (.sc (.int extra))
  return ()

/-- `AggregateType.serialize`, /repo/opendis/dis7.py:1870-1878, statement by statement. -/
def AggregateType.serializeHeap (self : Ref) : S Unit := do
  S.putInt self "aggregateKind" write_unsigned_byte
  S.putInt self "domain" write_unsigned_byte
  S.putInt self "country" write_unsigned_short
  S.putInt self "category" write_unsigned_byte
  S.putInt self "subcategory" write_unsigned_byte
  S.putInt self "specificInfo" write_unsigned_byte
  S.putInt self "extra" write_unsigned_byte

/-- Attributes of a `SimulationIdentifier` object before `__init__` (/repo/opendis/dis7.py:2050-2077): class attributes have
values. -/
def SimulationIdentifier.attrs : List (String × Scalar) :=
  [("simulationAddress", .absent), ("referenceNumber", .absent)]

/-- `SimulationIdentifier.__init__`, /repo/opendis/dis7.py:2061-2067, statement by statement. -/
def SimulationIdentifier.initHeap (self : Ref) (simulationAddress : Val := .sc .none)
    (referenceNumber : Val := .sc (.int 0)) : H Unit := do
  H.setOr self "simulationAddress" simulationAddress SimulationAddress.newHeap
  H.setAttr self "referenceNumber" referenceNumber

/-- `SimulationIdentifier(...)`, /repo/opendis/dis7.py:2061-2067. -/
def SimulationIdentifier.newHeap (simulationAddress : Val := .sc .none)
    (referenceNumber : Val := .sc (.int 0)) : H Ref :=
  H.new SimulationIdentifier.attrs fun self => SimulationIdentifier.initHeap self simulationAddress referenceNumber

/-- `SimulationIdentifier.parse`, /repo/opendis/dis7.py:2074-2077, statement by statement. -/
def SimulationIdentifier.parseHeap (self : Ref) : H Unit := do
  H.call self "simulationAddress" SimulationAddress.parseHeap
  let referenceNumber ← H.read read_unsigned_short
  H.setAttr self "referenceNumber" (.sc (.int referenceNumber))
  return ()

/-- `SimulationIdentifier.serialize`, /repo/opendis/dis7.py:2069-2072, statement by statement. -/
def SimulationIdentifier.serializeHeap (self : Ref) : S Unit := do
  S.call self "simulationAddress" SimulationAddress.serializeHeap
  S.putInt self "referenceNumber" write_unsigned_short

/-- Attributes of a `PduHeader` object before `__init__` (/repo/opendis/dis7.py:3370-3421): class attributes have
values. -/
def PduHeader.attrs : List (String × Scalar) :=
  [("protocolVersion", .absent), ("exerciseID", .absent), ("pduType", .absent),
   ("protocolFamily", .absent), ("timestamp", .absent), ("pduLength", .absent),
   ("pduStatus", .absent), ("padding", .absent)]

/-- `PduHeader.__init__`, /repo/opendis/dis7.py:3377-3399, statement by statement. -/
def PduHeader.initHeap (self : Ref) (protocolVersion : Val := .sc (.int 7))
    (exerciseID : Val := .sc (.int 0)) (pduType : Val := .sc (.int 0))
    (protocolFamily : Val := .sc (.int 0)) (timestamp : Val := .sc (.int 0))
    (pduLength : Val := .sc (.int 0)) (pduStatus : Val := .sc (.int 0)) : H Unit := do
  H.setAttr self "protocolVersion" protocolVersion
  H.setAttr self "exerciseID" exerciseID
  H.setAttr self "pduType" pduType
  H.setAttr self "protocolFamily" protocolFamily
  H.setAttr self "timestamp" timestamp
  H.setAttr self "pduLength" pduLength
  H.setAttr self "pduStatus" pduStatus
  H.setAttr self "padding" (.sc (.int 0))

/-- `PduHeader(...)`, /repo/opendis/dis7.py:3377-3399. -/
def PduHeader.newHeap (protocolVersion : Val := .sc (.int 7)) (exerciseID : Val := .sc (.int 0))
    (pduType : Val := .sc (.int 0)) (protocolFamily : Val := .sc (.int 0))
    (timestamp : Val := .sc (.int 0)) (pduLength : Val := .sc (.int 0))
    (pduStatus : Val := .sc (.int 0)) : H Ref :=
  H.new PduHeader.attrs fun self => PduHeader.initHeap self protocolVersion exerciseID pduType protocolFamily timestamp pduLength pduStatus

/-- `PduHeader.parse`, /repo/opendis/dis7.py:3412-3421, statement by statement. -/
def PduHeader.parseHeap (self : Ref) : H Unit := do
  let protocolVersion ← H.read read_unsigned_byte
  H.setAttr self "protocolVersion" (.sc (.int protocolVersion))
  let exerciseID ← H.read read_unsigned_byte
  H.setAttr self "exerciseID" (.sc (.int exerciseID))
  let pduType ← H.read read_unsigned_byte
  H.setAttr self "pduType" (.sc (.int pduType))
  let protocolFamily ← H.read read_unsigned_byte
  H.setAttr self "protocolFamily" (.sc (.int protocolFamily))
  let timestamp ← H.read read_unsigned_int
  H.setAttr self "timestamp" (.sc (.int timestamp))
  let pduLength ← H.read read_unsigned_byte
  H.setAttr self "pduLength" (.sc (.int pduLength))
  let pduStatus ← H.read read_unsigned_short
  H.setAttr self "pduStatus" (.sc (.int pduStatus))
  let padding ← H.read read_unsigned_byte
  H.setAttr self "padding" (.sc (.int padding))
  return ()

/-- `PduHeader.serialize`, /repo/opendis/dis7.py:3401-3410, statement by statement. -/
def PduHeader.serializeHeap (self : Ref) : S Unit := do
  S.putInt self "protocolVersion" write_unsigned_byte
  S.putInt self "exerciseID" write_unsigned_byte
  S.putInt self "pduType" write_unsigned_byte
  S.putInt self "protocolFamily" write_unsigned_byte
  S.putInt self "timestamp" write_unsigned_int
  S.putInt self "pduLength" write_unsigned_byte
  S.putInt self "pduStatus" write_unsigned_short
  S.putInt self "padding" write_unsigned_byte

/-- Attributes of a `SimulationManagementPduHeader` object before `__init__` (/repo/opendis/dis7.py:1891-1919): class attributes have
values. -/
def SimulationManagementPduHeader.attrs : List (String × Scalar) :=
  [("pduHeader", .absent), ("originatingID", .absent), ("receivingID", .absent)]

/-- `SimulationManagementPduHeader.__init__`, /repo/opendis/dis7.py:1898-1907, statement by statement. -/
def SimulationManagementPduHeader.initHeap (self : Ref) (pduHeader : Val := .sc .none)
    (originatingID : Val := .sc .none) (receivingID : Val := .sc .none) : H Unit := do
  H.setOr self "pduHeader" pduHeader PduHeader.newHeap
  H.setOr self "originatingID" originatingID SimulationIdentifier.newHeap
  H.setOr self "receivingID" receivingID SimulationIdentifier.newHeap

/-- `SimulationManagementPduHeader(...)`, /repo/opendis/dis7.py:1898-1907. -/
def SimulationManagementPduHeader.newHeap (pduHeader : Val := .sc .none)
    (originatingID : Val := .sc .none) (receivingID : Val := .sc .none) : H Ref :=
  H.new SimulationManagementPduHeader.attrs fun self => SimulationManagementPduHeader.initHeap self pduHeader originatingID receivingID

/-- `SimulationManagementPduHeader.parse`, /repo/opendis/dis7.py:1915-1919, statement by statement. -/
def SimulationManagementPduHeader.parseHeap (self : Ref) : H Unit := do
  H.call self "pduHeader" PduHeader.parseHeap
  H.call self "originatingID" SimulationIdentifier.parseHeap
  H.call self "receivingID" SimulationIdentifier.parseHeap
  return ()

/-- `SimulationManagementPduHeader.serialize`, /repo/opendis/dis7.py:1909-1913, statement by statement. -/
def SimulationManagementPduHeader.serializeHeap (self : Ref) : S Unit := do
  S.call self "pduHeader" PduHeader.serializeHeap
  S.call self "originatingID" SimulationIdentifier.serializeHeap
  S.call self "receivingID" SimulationIdentifier.serializeHeap

/-- Attributes of a `BeamData` object before `__init__` (/repo/opendis/dis7.py:1922-1960): class attributes have
values. -/
def BeamData.attrs : List (String × Scalar) :=
  [("beamAzimuthCenter", .absent), ("beamAzimuthSweep", .absent), ("beamElevationCenter", .absent),
   ("beamElevationSweep", .absent), ("beamSweepSync", .absent)]

/-- `BeamData.__init__`, /repo/opendis/dis7.py:1928-1944, statement by statement. -/
def BeamData.initHeap (self : Ref) (beamAzimuthCenter : Val := .sc (.float 0x0000000000000000))
    (beamAzimuthSweep : Val := .sc (.float 0x0000000000000000))
    (beamElevationCenter : Val := .sc (.float 0x0000000000000000))
    (beamElevationSweep : Val := .sc (.float 0x0000000000000000))
    (beamSweepSync : Val := .sc (.float 0x0000000000000000)) : H Unit := do
  H.setAttr self "beamAzimuthCenter" beamAzimuthCenter
  H.setAttr self "beamAzimuthSweep" beamAzimuthSweep
  H.setAttr self "beamElevationCenter" beamElevationCenter
  H.setAttr self "beamElevationSweep" beamElevationSweep
  H.setAttr self "beamSweepSync" beamSweepSync

/-- `BeamData(...)`, /repo/opendis/dis7.py:1928-1944. -/
def BeamData.newHeap (beamAzimuthCenter : Val := .sc (.float 0x0000000000000000))
    (beamAzimuthSweep : Val := .sc (.float 0x0000000000000000))
    (beamElevationCenter : Val := .sc (.float 0x0000000000000000))
    (beamElevationSweep : Val := .sc (.float 0x0000000000000000))
    (beamSweepSync : Val := .sc (.float 0x0000000000000000)) : H Ref :=
  H.new BeamData.attrs fun self => BeamData.initHeap self beamAzimuthCenter beamAzimuthSweep beamElevationCenter beamElevationSweep beamSweepSync

/-- `BeamData.parse`, /repo/opendis/dis7.py:1954-1960, statement by statement. -/
def BeamData.parseHeap (self : Ref) : H Unit := do
  let beamAzimuthCenter ← H.read read_float
  H.setAttr self "beamAzimuthCenter" (.sc (.float beamAzimuthCenter))
  let beamAzimuthSweep ← H.read read_float
  H.setAttr self "beamAzimuthSweep" (.sc (.float beamAzimuthSweep))
  let beamElevationCenter ← H.read read_float
  H.setAttr self "beamElevationCenter" (.sc (.float beamElevationCenter))
  let beamElevationSweep ← H.read read_float
  H.setAttr self "beamElevationSweep" (.sc (.float beamElevationSweep))
  let beamSweepSync ← H.read read_float
  H.setAttr self "beamSweepSync" (.sc (.float beamSweepSync))
  return ()

/-- `BeamData.serialize`, /repo/opendis/dis7.py:1946-1952, statement by statement. -/
def BeamData.serializeHeap (self : Ref) : S Unit := do
  S.putFloat self "beamAzimuthCenter" write_float
  S.putFloat self "beamAzimuthSweep" write_float
  S.putFloat self "beamElevationCenter" write_float
  S.putFloat self "beamElevationSweep" write_float
  S.putFloat self "beamSweepSync" write_float

/-- Attributes of a `EngineFuel` object before `__init__` (/repo/opendis/dis7.py:1963-1998): class attributes have
values. -/
def EngineFuel.attrs : List (String × Scalar) :=
  [("fuelQuantity", .absent), ("fuelMeasurementUnits", .absent), ("fuelType", .absent),
   ("fuelLocation", .absent), ("padding", .absent)]

/-- `EngineFuel.__init__`, /repo/opendis/dis7.py:1969-1982, statement by statement. -/
def EngineFuel.initHeap (self : Ref) (fuelQuantity : Val := .sc (.int 0))
    (fuelMeasurementUnits : Val := .sc (.int 0)) (fuelType : Val := .sc (.int 0))
    (fuelLocation : Val := .sc (.int 0)) : H Unit := do
  H.setAttr self "fuelQuantity" (.sc (.int 0))
  H.setAttr self "fuelMeasurementUnits" (.sc (.int 0))
  H.setAttr self "fuelType" (.sc (.int 0))
  H.setAttr self "fuelLocation" (.sc (.int 0))
  H.setAttr self "padding" (.sc (.int 0))

/-- `EngineFuel(...)`, /repo/opendis/dis7.py:1969-1982. -/
def EngineFuel.newHeap (fuelQuantity : Val := .sc (.int 0))
    (fuelMeasurementUnits : Val := .sc (.int 0)) (fuelType : Val := .sc (.int 0))
    (fuelLocation : Val := .sc (.int 0)) : H Ref :=
  H.new EngineFuel.attrs fun self => EngineFuel.initHeap self fuelQuantity fuelMeasurementUnits fuelType fuelLocation

/-- `EngineFuel.parse`, /repo/opendis/dis7.py:1992-1998, statement by statement. -/
def EngineFuel.parseHeap (self : Ref) : H Unit := do
  let fuelQuantity ← H.read read_unsigned_int
  H.setAttr self "fuelQuantity" (.sc (.int fuelQuantity))
  let fuelMeasurementUnits ← H.read read_unsigned_byte
  H.setAttr self "fuelMeasurementUnits" (.sc (.int fuelMeasurementUnits))
  let fuelType ← H.read read_unsigned_byte
  H.setAttr self "fuelType" (.sc (.int fuelType))
  let fuelLocation ← H.read read_unsigned_byte
  H.setAttr self "fuelLocation" (.sc (.int fuelLocation))
  let padding ← H.read read_unsigned_byte
  H.setAttr self "padding" (.sc (.int padding))
  return ()

/-- `EngineFuel.serialize`, /repo/opendis/dis7.py:1984-1990, statement by statement. -/
def EngineFuel.serializeHeap (self : Ref) : S Unit := do
  S.putInt self "fuelQuantity" write_unsigned_int
  S.putInt self "fuelMeasurementUnits" write_unsigned_byte
  S.putInt self "fuelType" write_unsigned_byte
  S.putInt self "fuelLocation" write_unsigned_byte
  S.putInt self "padding" write_unsigned_byte

/-- Attributes of a `IOEffect` object before `__init__` (/repo/opendis/dis7.py:2001-2047): class attributes have
values. -/
def IOEffect.attrs : List (String × Scalar) :=
  [("recordType", .int 5500), ("recordLength", .int 16), ("ioStatus", .absent),
   ("ioLinkType", .absent), ("ioEffect", .absent), ("ioEffectDutyCycle", .absent),
   ("ioEffectDuration", .absent), ("ioProcess", .absent), ("padding", .absent)]

/-- `IOEffect.__init__`, /repo/opendis/dis7.py:2009-2023, statement by statement. -/
def IOEffect.initHeap (self : Ref) (ioStatus : Val := .sc (.int 0))
    (ioLinkType : Val := .sc (.int 0)) (ioEffect : Val := .sc (.int 0))
    (ioEffectDutyCycle : Val := .sc (.int 0)) (ioEffectDuration : Val := .sc (.int 0))
    (ioProcess : Val := .sc (.int 0)) : H Unit := do
  H.setAttr self "ioStatus" ioStatus
  H.setAttr self "ioLinkType" ioLinkType
  H.setAttr self "ioEffect" ioEffect
  H.setAttr self "ioEffectDutyCycle" ioEffectDutyCycle
  H.setAttr self "ioEffectDuration" ioEffectDuration
  H.setAttr self "ioProcess" ioProcess
  H.setAttr self "padding" (.sc (.int 0))

/-- `IOEffect(...)`, /repo/opendis/dis7.py:2009-2023. -/
def IOEffect.newHeap (ioStatus : Val := .sc (.int 0)) (ioLinkType : Val := .sc (.int 0))
    (ioEffect : Val := .sc (.int 0)) (ioEffectDutyCycle : Val := .sc (.int 0))
    (ioEffectDuration : Val := .sc (.int 0)) (ioProcess : Val := .sc (.int 0)) : H Ref :=
  H.new IOEffect.attrs fun self => IOEffect.initHeap self ioStatus ioLinkType ioEffect ioEffectDutyCycle ioEffectDuration ioProcess

/-- `IOEffect.parse`, /repo/opendis/dis7.py:2037-2047, statement by statement. -/
def IOEffect.parseHeap (self : Ref) : H Unit := do
  let recordType ← H.read read_unsigned_int
  H.setAttr self "recordType" (.sc (.int recordType))
  let recordLength ← H.read read_unsigned_short
  H.setAttr self "recordLength" (.sc (.int recordLength))
  let ioStatus ← H.read read_unsigned_byte
  H.setAttr self "ioStatus" (.sc (.int ioStatus))
  let ioLinkType ← H.read read_unsigned_byte
  H.setAttr self "ioLinkType" (.sc (.int ioLinkType))
  let ioEffect ← H.read read_unsigned_byte
  H.setAttr self "ioEffect" (.sc (.int ioEffect))
  let ioEffectDutyCycle ← H.read read_unsigned_byte
  H.setAttr self "ioEffectDutyCycle" (.sc (.int ioEffectDutyCycle))
  let ioEffectDuration ← H.read read_unsigned_short
  H.setAttr self "ioEffectDuration" (.sc (.int ioEffectDuration))
  let ioProcess ← H.read read_unsigned_short
  H.setAttr self "ioProcess" (.sc (.int ioProcess))
  let padding ← H.read read_unsigned_short
  H.setAttr self "padding" (.sc (.int padding))
  return ()

/-- `IOEffect.serialize`, /repo/opendis/dis7.py:2025-2035, statement by statement. -/
def IOEffect.serializeHeap (self : Ref) : S Unit := do
  S.putInt self "recordType" write_unsigned_int
  S.putInt self "recordLength" write_unsigned_short
  S.putInt self "ioStatus" write_unsigned_byte
  S.putInt self "ioLinkType" write_unsigned_byte
  S.putInt self "ioEffect" write_unsigned_byte
  S.putInt self "ioEffectDutyCycle" write_unsigned_byte
  S.putInt self "ioEffectDuration" write_unsigned_short
  S.putInt self "ioProcess" write_unsigned_short
  S.putInt self "padding" write_unsigned_short

/-- Attributes of a `GridAxisDescriptorVariable` object before `__init__` (/repo/opendis/dis7.py:2080-2155): class attributes have
values. -/
def GridAxisDescriptorVariable.attrs : List (String × Scalar) :=
  [("domainInitialXi", .absent), ("domainFinalXi", .absent), ("domainPointsXi", .absent),
   ("interleafFactor", .absent), ("axisType", .absent), ("numberOfPointsOnXiAxis", .absent),
   ("initialIndex", .absent), ("coordinateScaleXi", .absent), ("coordinateOffsetXi", .absent),
   ("xiValues", .absent)]

/-- `GridAxisDescriptorVariable.__init__`, /repo/opendis/dis7.py:2087-2120, statement by statement. -/
def GridAxisDescriptorVariable.initHeap (self : Ref)
    (domainInitialXi : Val := .sc (.float 0x0000000000000000))
    (domainFinalXi : Val := .sc (.float 0x0000000000000000))
    (domainPointsXi : Val := .sc (.int 0)) (interleafFactor : Val := .sc (.int 0))
    (axisType : Val := .sc (.int 0)) (numberOfPointsOnXiAxis : Val := .sc (.int 0))
    (initialIndex : Val := .sc (.int 0))
    (coordinateScaleXi : Val := .sc (.float 0x0000000000000000))
    (coordinateOffsetXi : Val := .sc (.float 0x0000000000000000)) (xiValues : Val := .sc .none)
    : H Unit := do
  H.setAttr self "domainInitialXi" domainInitialXi
  H.setAttr self "domainFinalXi" domainFinalXi
  H.setAttr self "domainPointsXi" domainPointsXi
  H.setAttr self "interleafFactor" interleafFactor
  H.setAttr self "axisType" axisType
  H.setAttr self "numberOfPointsOnXiAxis" numberOfPointsOnXiAxis
  H.setAttr self "initialIndex" initialIndex
  H.setAttr self "coordinateScaleXi" coordinateScaleXi
  H.setAttr self "coordinateOffsetXi" coordinateOffsetXi
  H.setOr self "xiValues" xiValues (H.alloc (.list []))

/-- `GridAxisDescriptorVariable(...)`, /repo/opendis/dis7.py:2087-2120. -/
def GridAxisDescriptorVariable.newHeap
    (domainInitialXi : Val := .sc (.float 0x0000000000000000))
    (domainFinalXi : Val := .sc (.float 0x0000000000000000))
    (domainPointsXi : Val := .sc (.int 0)) (interleafFactor : Val := .sc (.int 0))
    (axisType : Val := .sc (.int 0)) (numberOfPointsOnXiAxis : Val := .sc (.int 0))
    (initialIndex : Val := .sc (.int 0))
    (coordinateScaleXi : Val := .sc (.float 0x0000000000000000))
    (coordinateOffsetXi : Val := .sc (.float 0x0000000000000000)) (xiValues : Val := .sc .none)
    : H Ref :=
  H.new GridAxisDescriptorVariable.attrs fun self => GridAxisDescriptorVariable.initHeap self domainInitialXi domainFinalXi domainPointsXi interleafFactor axisType numberOfPointsOnXiAxis initialIndex coordinateScaleXi coordinateOffsetXi xiValues

/-- `GridAxisDescriptorVariable.parse`, /repo/opendis/dis7.py:2139-2155, statement by statement. -/
def GridAxisDescriptorVariable.parseHeap (self : Ref) : H Unit := do
  let domainInitialXi ← H.read read_double
  H.setAttr self "domainInitialXi" (.sc (.float domainInitialXi))
  let domainFinalXi ← H.read read_double
  H.setAttr self "domainFinalXi" (.sc (.float domainFinalXi))
  let domainPointsXi ← H.read read_unsigned_short
  H.setAttr self "domainPointsXi" (.sc (.int domainPointsXi))
  let interleafFactor ← H.read read_unsigned_byte
  H.setAttr self "interleafFactor" (.sc (.int interleafFactor))
  let axisType ← H.read read_unsigned_byte
  H.setAttr self "axisType" (.sc (.int axisType))
  let numberOfPointsOnXiAxis ← H.read read_unsigned_short
  H.setAttr self "numberOfPointsOnXiAxis" (.sc (.int numberOfPointsOnXiAxis))
  let initialIndex ← H.read read_unsigned_short
  H.setAttr self "initialIndex" (.sc (.int initialIndex))
  let coordinateScaleXi ← H.read read_double
  H.setAttr self "coordinateScaleXi" (.sc (.float coordinateScaleXi))
  let coordinateOffsetXi ← H.read read_double
  H.setAttr self "coordinateOffsetXi" (.sc (.float coordinateOffsetXi))
  H.appendReads numberOfPointsOnXiAxis.toNat (R.throw .nameError : R Int) .int self "xiValues"
  return ()

/-- `GridAxisDescriptorVariable.serialize`, /repo/opendis/dis7.py:2123-2137, statement by statement. -/
def GridAxisDescriptorVariable.serializeHeap (self : Ref) : S Unit := do
  S.putFloat self "domainInitialXi" write_double
  S.putFloat self "domainFinalXi" write_double
  S.putInt self "domainPointsXi" write_unsigned_short
  S.putInt self "interleafFactor" write_unsigned_byte
  S.putInt self "axisType" write_unsigned_byte
  S.putLen self "xiValues" write_unsigned_short
  S.putInt self "initialIndex" write_unsigned_short
  S.putFloat self "coordinateScaleXi" write_double
  S.putFloat self "coordinateOffsetXi" write_double
  S.each self "xiValues" fun _ => S.throw .attributeError

/-- Attributes of a `SupplyQuantity` object before `__init__` (/repo/opendis/dis7.py:2158-2179): class attributes have
values. -/
def SupplyQuantity.attrs : List (String × Scalar) :=
  [("supplyType", .absent), ("quantity", .absent)]

/-- `SupplyQuantity.__init__`, /repo/opendis/dis7.py:2164-2169, statement by statement. -/
def SupplyQuantity.initHeap (self : Ref) (supplyType : Val := .sc .none)
    (quantity : Val := .sc (.float 0x0000000000000000)) : H Unit := do
  H.setOr self "supplyType" supplyType EntityType.newHeap
  H.setAttr self "quantity" quantity

/-- `SupplyQuantity(...)`, /repo/opendis/dis7.py:2164-2169. -/
def SupplyQuantity.newHeap (supplyType : Val := .sc .none)
    (quantity : Val := .sc (.float 0x0000000000000000)) : H Ref :=
  H.new SupplyQuantity.attrs fun self => SupplyQuantity.initHeap self supplyType quantity

/-- `SupplyQuantity.parse`, /repo/opendis/dis7.py:2176-2179, statement by statement. -/
def SupplyQuantity.parseHeap (self : Ref) : H Unit := do
  H.call self "supplyType" EntityType.parseHeap
  let quantity ← H.read read_float
  H.setAttr self "quantity" (.sc (.float quantity))
  return ()

/-- `SupplyQuantity.serialize`, /repo/opendis/dis7.py:2171-2174, statement by statement. -/
def SupplyQuantity.serializeHeap (self : Ref) : S Unit := do
  S.call self "supplyType" EntityType.serializeHeap
  S.putFloat self "quantity" write_float

/-- Attributes of a `SilentEntitySystem` object before `__init__` (/repo/opendis/dis7.py:2182-2218): class attributes have
values. -/
def SilentEntitySystem.attrs : List (String × Scalar) :=
  [("numberOfEntities", .absent), ("entityType", .absent), ("appearanceRecordList", .absent)]

/-- `SilentEntitySystem.__init__`, /repo/opendis/dis7.py:2188-2196, statement by statement. -/
def SilentEntitySystem.initHeap (self : Ref) (numberOfEntities : Val := .sc (.int 0))
    (entityType : Val := .sc .none) (appearanceRecordList : Val := .sc .none) : H Unit := do
  H.setAttr self "numberOfEntities" numberOfEntities
  H.setOr self "entityType" entityType EntityType.newHeap
  H.setOr self "appearanceRecordList" appearanceRecordList (H.alloc (.list []))

/-- `SilentEntitySystem(...)`, /repo/opendis/dis7.py:2188-2196. -/
def SilentEntitySystem.newHeap (numberOfEntities : Val := .sc (.int 0))
    (entityType : Val := .sc .none) (appearanceRecordList : Val := .sc .none) : H Ref :=
  H.new SilentEntitySystem.attrs fun self => SilentEntitySystem.initHeap self numberOfEntities entityType appearanceRecordList

/-- `SilentEntitySystem.parse`, /repo/opendis/dis7.py:2210-2218, statement by statement. -/
def SilentEntitySystem.parseHeap (self : Ref) : H Unit := do
  let numberOfEntities ← H.read read_unsigned_short
  H.setAttr self "numberOfEntities" (.sc (.int numberOfEntities))
  let numberOfAppearanceRecords ← H.read read_unsigned_short
  H.call self "entityType" EntityType.parseHeap
  H.appendReads numberOfAppearanceRecords.toNat (R.throw .nameError : R Int) .int self "appearanceRecordList"
  return ()

/-- `SilentEntitySystem.serialize`, /repo/opendis/dis7.py:2202-2208, statement by statement. -/
def SilentEntitySystem.serializeHeap (self : Ref) : S Unit := do
  S.putInt self "numberOfEntities" write_unsigned_short
  S.putLen self "appearanceRecordList" write_unsigned_short
  S.call self "entityType" EntityType.serializeHeap
  S.each self "appearanceRecordList" fun _ => S.throw .attributeError

/-- Attributes of a `SilentAggregateSystem` object before `__init__` (/repo/opendis/dis7.py:2221-2242): class attributes have
values. -/
def SilentAggregateSystem.attrs : List (String × Scalar) :=
  [("numberOfAggregates", .absent), ("aggregateType", .absent), ("entityType", .absent)]

/-- `SilentAggregateSystem.__init__`, /repo/opendis/dis7.py:2227-2232, statement by statement. -/
def SilentAggregateSystem.initHeap (self : Ref) (numberOfAggregates : Val := .sc (.int 0))
    (aggregateType : Val := .sc .none) : H Unit := do
  H.setAttr self "numberOfAggregates" numberOfAggregates
  H.setOr self "aggregateType" aggregateType AggregateType.newHeap

/-- `SilentAggregateSystem(...)`, /repo/opendis/dis7.py:2227-2232. -/
def SilentAggregateSystem.newHeap (numberOfAggregates : Val := .sc (.int 0))
    (aggregateType : Val := .sc .none) : H Ref :=
  H.new SilentAggregateSystem.attrs fun self => SilentAggregateSystem.initHeap self numberOfAggregates aggregateType

/-- `SilentAggregateSystem.parse`, /repo/opendis/dis7.py:2239-2242, statement by statement. -/
def SilentAggregateSystem.parseHeap (self : Ref) : H Unit := do
  let numberOfAggregates ← H.read read_unsigned_short
  H.setAttr self "numberOfAggregates" (.sc (.int numberOfAggregates))
  H.call self "aggregateType" AggregateType.parseHeap
  return ()

/-- `SilentAggregateSystem.serialize`, /repo/opendis/dis7.py:2234-2237, statement by statement. -/
def SilentAggregateSystem.serializeHeap (self : Ref) : S Unit := do
  S.putInt self "numberOfAggregates" write_unsigned_short
  S.call self "entityType" AggregateType.serializeHeap

/-- Attributes of a `BlankingSector` object before `__init__` (/repo/opendis/dis7.py:2245-2310): class attributes have
values. -/
def BlankingSector.attrs : List (String × Scalar) :=
  [("recordType", .int 3500), ("recordLength", .int 40), ("padding", .absent),
   ("emitterNumber", .absent), ("beamNumber", .absent), ("stateIndicator", .absent),
   ("padding2", .absent), ("leftAzimuth", .absent), ("rightAzimuth", .absent),
   ("lowerElevation", .absent), ("upperElevation", .absent), ("residualPower", .absent),
   ("padding3", .absent), ("padding4", .absent)]

/-- `BlankingSector.__init__`, /repo/opendis/dis7.py:2254-2275, statement by statement. -/
def BlankingSector.initHeap (self : Ref) (emitterNumber : Val := .sc (.int 0))
    (beamNumber : Val := .sc (.int 0)) (stateIndicator : Val := .sc (.int 0))
    (leftAzimuth : Val := .sc (.float 0x0000000000000000))
    (rightAzimuth : Val := .sc (.float 0x0000000000000000))
    (lowerElevation : Val := .sc (.float 0x0000000000000000))
    (upperElevation : Val := .sc (.float 0x0000000000000000))
    (residualPower : Val := .sc (.float 0x0000000000000000)) : H Unit := do
  H.setAttr self "padding" (.sc (.int 0))
  H.setAttr self "emitterNumber" emitterNumber
  H.setAttr self "beamNumber" beamNumber
  H.setAttr self "stateIndicator" stateIndicator
  H.setAttr self "padding2" (.sc (.int 0))
  H.setAttr self "leftAzimuth" leftAzimuth
  H.setAttr self "rightAzimuth" rightAzimuth
  H.setAttr self "lowerElevation" lowerElevation
  H.setAttr self "upperElevation" upperElevation
  H.setAttr self "residualPower" residualPower
  H.setAttr self "padding3" (.sc (.int 0))
  H.setAttr self "padding4" (.sc (.int 0))

/-- `BlankingSector(...)`, /repo/opendis/dis7.py:2254-2275. -/
def BlankingSector.newHeap (emitterNumber : Val := .sc (.int 0))
    (beamNumber : Val := .sc (.int 0)) (stateIndicator : Val := .sc (.int 0))
    (leftAzimuth : Val := .sc (.float 0x0000000000000000))
    (rightAzimuth : Val := .sc (.float 0x0000000000000000))
    (lowerElevation : Val := .sc (.float 0x0000000000000000))
    (upperElevation : Val := .sc (.float 0x0000000000000000))
    (residualPower : Val := .sc (.float 0x0000000000000000)) : H Ref :=
  H.new BlankingSector.attrs fun self => BlankingSector.initHeap self emitterNumber beamNumber stateIndicator leftAzimuth rightAzimuth lowerElevation upperElevation residualPower

/-- `BlankingSector.parse`, /repo/opendis/dis7.py:2294-2310, statement by statement. -/
def BlankingSector.parseHeap (self : Ref) : H Unit := do
  let recordType ← H.read read_int
  H.setAttr self "recordType" (.sc (.int recordType))
  let recordLength ← H.read read_unsigned_short
  H.setAttr self "recordLength" (.sc (.int recordLength))
  let padding ← H.read read_unsigned_short
  H.setAttr self "padding" (.sc (.int padding))
  let emitterNumber ← H.read read_unsigned_byte
  H.setAttr self "emitterNumber" (.sc (.int emitterNumber))
  let beamNumber ← H.read read_unsigned_byte
  H.setAttr self "beamNumber" (.sc (.int beamNumber))
  let stateIndicator ← H.read read_unsigned_byte
  H.setAttr self "stateIndicator" (.sc (.int stateIndicator))
  let padding2 ← H.read read_unsigned_byte
  H.setAttr self "padding2" (.sc (.int padding2))
  let leftAzimuth ← H.read read_float
  H.setAttr self "leftAzimuth" (.sc (.float leftAzimuth))
  let rightAzimuth ← H.read read_float
  H.setAttr self "rightAzimuth" (.sc (.float rightAzimuth))
  let lowerElevation ← H.read read_float
  H.setAttr self "lowerElevation" (.sc (.float lowerElevation))
  let upperElevation ← H.read read_float
  H.setAttr self "upperElevation" (.sc (.float upperElevation))
  let residualPower ← H.read read_float
  H.setAttr self "residualPower" (.sc (.float residualPower))
  let padding3 ← H.read read_int
  H.setAttr self "padding3" (.sc (.int padding3))
  let padding4 ← H.read read_int
  H.setAttr self "padding4" (.sc (.int padding4))
  return ()

/-- `BlankingSector.serialize`, /repo/opendis/dis7.py:2277-2292, statement by statement. -/
def BlankingSector.serializeHeap (self : Ref) : S Unit := do
  S.putInt self "recordType" write_int
  S.putInt self "recordLength" write_unsigned_short
  S.putInt self "padding" write_unsigned_short
  S.putInt self "emitterNumber" write_unsigned_byte
  S.putInt self "beamNumber" write_unsigned_byte
  S.putInt self "stateIndicator" write_unsigned_byte
  S.putInt self "padding2" write_unsigned_byte
  S.putFloat self "leftAzimuth" write_float
  S.putFloat self "rightAzimuth" write_float
  S.putFloat self "lowerElevation" write_float
  S.putFloat self "upperElevation" write_float
  S.putFloat self "residualPower" write_float
  S.putInt self "padding3" write_int
  S.putInt self "padding4" write_int

/-- Attributes of a `LaunchedMunitionRecord` object before `__init__` (/repo/opendis/dis7.py:2313-2350): class attributes have
values. -/
def LaunchedMunitionRecord.attrs : List (String × Scalar) :=
  [("fireEventID", .absent), ("padding", .absent), ("firingEntityID", .absent),
   ("padding2", .absent), ("targetEntityID", .absent), ("padding3", .absent),
   ("targetLocation", .absent)]

/-- `LaunchedMunitionRecord.__init__`, /repo/opendis/dis7.py:2319-2330, statement by statement. -/
def LaunchedMunitionRecord.initHeap (self : Ref) (fireEventID : Val := .sc .none)
    (firingEntityID : Val := .sc .none) (targetEntityID : Val := .sc .none)
    (targetLocation : Val := .sc .none) : H Unit := do
  H.setOr self "fireEventID" fireEventID EventIdentifier.newHeap
  H.setAttr self "padding" (.sc (.int 0))
  H.setOr self "firingEntityID" firingEntityID EventIdentifier.newHeap
  H.setAttr self "padding2" (.sc (.int 0))
  H.setOr self "targetEntityID" targetEntityID EventIdentifier.newHeap
  H.setAttr self "padding3" (.sc (.int 0))
  H.setOr self "targetLocation" targetLocation WorldCoordinates.newHeap

/-- `LaunchedMunitionRecord(...)`, /repo/opendis/dis7.py:2319-2330. -/
def LaunchedMunitionRecord.newHeap (fireEventID : Val := .sc .none)
    (firingEntityID : Val := .sc .none) (targetEntityID : Val := .sc .none)
    (targetLocation : Val := .sc .none) : H Ref :=
  H.new LaunchedMunitionRecord.attrs fun self => LaunchedMunitionRecord.initHeap self fireEventID firingEntityID targetEntityID targetLocation

/-- `LaunchedMunitionRecord.parse`, /repo/opendis/dis7.py:2342-2350, statement by statement. -/
def LaunchedMunitionRecord.parseHeap (self : Ref) : H Unit := do
  H.call self "fireEventID" EventIdentifier.parseHeap
  let padding ← H.read read_unsigned_short
  H.setAttr self "padding" (.sc (.int padding))
  H.call self "firingEntityID" EventIdentifier.parseHeap
  let padding2 ← H.read read_unsigned_short
  H.setAttr self "padding2" (.sc (.int padding2))
  H.call self "targetEntityID" EventIdentifier.parseHeap
  let padding3 ← H.read read_unsigned_short
  H.setAttr self "padding3" (.sc (.int padding3))
  H.call self "targetLocation" WorldCoordinates.parseHeap
  return ()

/-- `LaunchedMunitionRecord.serialize`, /repo/opendis/dis7.py:2332-2340, statement by statement. -/
def LaunchedMunitionRecord.serializeHeap (self : Ref) : S Unit := do
  S.call self "fireEventID" EventIdentifier.serializeHeap
  S.putInt self "padding" write_unsigned_short
  S.call self "firingEntityID" EventIdentifier.serializeHeap
  S.putInt self "padding2" write_unsigned_short
  S.call self "targetEntityID" EventIdentifier.serializeHeap
  S.putInt self "padding3" write_unsigned_short
  S.call self "targetLocation" WorldCoordinates.serializeHeap

/-- Attributes of a `IFFFundamentalParameterData` object before `__init__` (/repo/opendis/dis7.py:2353-2398): class attributes have
values. -/
def IFFFundamentalParameterData.attrs : List (String × Scalar) :=
  [("erp", .absent), ("frequency", .absent), ("pgrf", .absent), ("pulseWidth", .absent),
   ("burstLength", .absent), ("applicableModes", .absent), ("systemSpecificData", .absent)]

/-- `IFFFundamentalParameterData.__init__`, /repo/opendis/dis7.py:2359-2373, statement by statement. -/
def IFFFundamentalParameterData.initHeap (self : Ref)
    (erp : Val := .sc (.float 0x0000000000000000))
    (frequency : Val := .sc (.float 0x0000000000000000))
    (pgrf : Val := .sc (.float 0x0000000000000000))
    (pulseWidth : Val := .sc (.float 0x0000000000000000)) (burstLength : Val := .sc (.int 0))
    (applicableModes : Val := .sc (.int 0)) (systemSpecificData : Val := .sc .none) : H Unit := do
  H.setAttr self "erp" erp
  H.setAttr self "frequency" frequency
  H.setAttr self "pgrf" pgrf
  H.setAttr self "pulseWidth" pulseWidth
  H.setAttr self "burstLength" burstLength
  H.setAttr self "applicableModes" applicableModes
  H.setOr self "systemSpecificData" systemSpecificData (H.zeros 3)

/-- `IFFFundamentalParameterData(...)`, /repo/opendis/dis7.py:2359-2373. -/
def IFFFundamentalParameterData.newHeap (erp : Val := .sc (.float 0x0000000000000000))
    (frequency : Val := .sc (.float 0x0000000000000000))
    (pgrf : Val := .sc (.float 0x0000000000000000))
    (pulseWidth : Val := .sc (.float 0x0000000000000000)) (burstLength : Val := .sc (.int 0))
    (applicableModes : Val := .sc (.int 0)) (systemSpecificData : Val := .sc .none) : H Ref :=
  H.new IFFFundamentalParameterData.attrs fun self => IFFFundamentalParameterData.initHeap self erp frequency pgrf pulseWidth burstLength applicableModes systemSpecificData

/-- `IFFFundamentalParameterData.parse`, /repo/opendis/dis7.py:2386-2398, statement by statement. -/
def IFFFundamentalParameterData.parseHeap (self : Ref) : H Unit := do
  let erp ← H.read read_float
  H.setAttr self "erp" (.sc (.float erp))
  let frequency ← H.read read_float
  H.setAttr self "frequency" (.sc (.float frequency))
  let pgrf ← H.read read_float
  H.setAttr self "pgrf" (.sc (.float pgrf))
  let pulseWidth ← H.read read_float
  H.setAttr self "pulseWidth" (.sc (.float pulseWidth))
  let burstLength ← H.read read_unsigned_int
  H.setAttr self "burstLength" (.sc (.int burstLength))
  let applicableModes ← H.read read_unsigned_byte
  H.setAttr self "applicableModes" (.sc (.int applicableModes))
  H.fillReads 3 read_unsigned_byte self "systemSpecificData"
  return ()

/-- `IFFFundamentalParameterData.serialize`, /repo/opendis/dis7.py:2375-2384, statement by statement. -/
def IFFFundamentalParameterData.serializeHeap (self : Ref) : S Unit := do
  S.putFloat self "erp" write_float
  S.putFloat self "frequency" write_float
  S.putFloat self "pgrf" write_float
  S.putFloat self "pulseWidth" write_float
  S.putInt self "burstLength" write_unsigned_int
  S.putInt self "applicableModes" write_unsigned_byte
  S.forRange 0 3 fun idx => S.putItem self "systemSpecificData" idx write_unsigned_byte

/-- Attributes of a `FundamentalOperationalData` object before `__init__` (/repo/opendis/dis7.py:2401-2463): class attributes have
values. -/
def FundamentalOperationalData.attrs : List (String × Scalar) :=
  [("systemStatus", .absent), ("dataField1", .absent), ("informationLayers", .absent),
   ("dataField2", .absent), ("parameter1", .absent), ("parameter2", .absent),
   ("parameter3", .absent), ("parameter4", .absent), ("parameter5", .absent),
   ("parameter6", .absent)]

/-- `FundamentalOperationalData.__init__`, /repo/opendis/dis7.py:2407-2437, statement by statement. -/
def FundamentalOperationalData.initHeap (self : Ref) (systemStatus : Val := .sc (.int 0))
    (dataField1 : Val := .sc (.int 0)) (informationLayers : Val := .sc (.int 0))
    (dataField2 : Val := .sc (.int 0)) (parameter1 : Val := .sc (.int 0))
    (parameter2 : Val := .sc (.int 0)) (parameter3 : Val := .sc (.int 0))
    (parameter4 : Val := .sc (.int 0)) (parameter5 : Val := .sc (.int 0))
    (parameter6 : Val := .sc (.int 0)) : H Unit := do
  H.setAttr self "systemStatus" systemStatus
  H.setAttr self "dataField1" dataField1
  H.setAttr self "informationLayers" informationLayers
  H.setAttr self "dataField2" dataField2
  H.setAttr self "parameter1" parameter1
  H.setAttr self "parameter2" parameter2
  H.setAttr self "parameter3" parameter3
  H.setAttr self "parameter4" parameter4
  H.setAttr self "parameter5" parameter5
  H.setAttr self "parameter6" parameter6

/-- `FundamentalOperationalData(...)`, /repo/opendis/dis7.py:2407-2437. -/
def FundamentalOperationalData.newHeap (systemStatus : Val := .sc (.int 0))
    (dataField1 : Val := .sc (.int 0)) (informationLayers : Val := .sc (.int 0))
    (dataField2 : Val := .sc (.int 0)) (parameter1 : Val := .sc (.int 0))
    (parameter2 : Val := .sc (.int 0)) (parameter3 : Val := .sc (.int 0))
    (parameter4 : Val := .sc (.int 0)) (parameter5 : Val := .sc (.int 0))
    (parameter6 : Val := .sc (.int 0)) : H Ref :=
  H.new FundamentalOperationalData.attrs fun self => FundamentalOperationalData.initHeap self systemStatus dataField1 informationLayers dataField2 parameter1 parameter2 parameter3 parameter4 parameter5 parameter6

/-- `FundamentalOperationalData.parse`, /repo/opendis/dis7.py:2452-2463, statement by statement. -/
def FundamentalOperationalData.parseHeap (self : Ref) : H Unit := do
  let systemStatus ← H.read read_unsigned_byte
  H.setAttr self "systemStatus" (.sc (.int systemStatus))
  let dataField1 ← H.read read_unsigned_byte
  H.setAttr self "dataField1" (.sc (.int dataField1))
  let informationLayers ← H.read read_unsigned_byte
  H.setAttr self "informationLayers" (.sc (.int informationLayers))
  let dataField2 ← H.read read_unsigned_byte
  H.setAttr self "dataField2" (.sc (.int dataField2))
  let parameter1 ← H.read read_unsigned_short
  H.setAttr self "parameter1" (.sc (.int parameter1))
  let parameter2 ← H.read read_unsigned_short
  H.setAttr self "parameter2" (.sc (.int parameter2))
  let parameter3 ← H.read read_unsigned_short
  H.setAttr self "parameter3" (.sc (.int parameter3))
  let parameter4 ← H.read read_unsigned_short
  H.setAttr self "parameter4" (.sc (.int parameter4))
  let parameter5 ← H.read read_unsigned_short
  H.setAttr self "parameter5" (.sc (.int parameter5))
  let parameter6 ← H.read read_unsigned_short
  H.setAttr self "parameter6" (.sc (.int parameter6))
  return ()

/-- `FundamentalOperationalData.serialize`, /repo/opendis/dis7.py:2439-2450, statement by statement. -/
def FundamentalOperationalData.serializeHeap (self : Ref) : S Unit := do
  S.putInt self "systemStatus" write_unsigned_byte
  S.putInt self "dataField1" write_unsigned_byte
  S.putInt self "informationLayers" write_unsigned_byte
  S.putInt self "dataField2" write_unsigned_byte
  S.putInt self "parameter1" write_unsigned_short
  S.putInt self "parameter2" write_unsigned_short
  S.putInt self "parameter3" write_unsigned_short
  S.putInt self "parameter4" write_unsigned_short
  S.putInt self "parameter5" write_unsigned_short
  S.putInt self "parameter6" write_unsigned_short

/-- Attributes of a `IntercomCommunicationsParameters` object before `__init__` (/repo/opendis/dis7.py:2466-2494): class attributes have
values. -/
def IntercomCommunicationsParameters.attrs : List (String × Scalar) :=
  [("recordType", .absent), ("recordLength", .absent), ("recordSpecificField", .absent)]

/-- `IntercomCommunicationsParameters.__init__`, /repo/opendis/dis7.py:2472-2481, statement by statement. -/
def IntercomCommunicationsParameters.initHeap (self : Ref) (recordType : Val := .sc (.int 0))
    (recordLength : Val := .sc (.int 0)) (recordSpecificField : Val := .sc (.int 0)) : H Unit := do
  H.setAttr self "recordType" recordType
  H.setAttr self "recordLength" recordLength
  H.setAttr self "recordSpecificField" recordSpecificField

/-- `IntercomCommunicationsParameters(...)`, /repo/opendis/dis7.py:2472-2481. -/
def IntercomCommunicationsParameters.newHeap (recordType : Val := .sc (.int 0))
    (recordLength : Val := .sc (.int 0)) (recordSpecificField : Val := .sc (.int 0)) : H Ref :=
  H.new IntercomCommunicationsParameters.attrs fun self => IntercomCommunicationsParameters.initHeap self recordType recordLength recordSpecificField

/-- `IntercomCommunicationsParameters.parse`, /repo/opendis/dis7.py:2490-2494, statement by statement. -/
def IntercomCommunicationsParameters.parseHeap (self : Ref) : H Unit := do
  let recordType ← H.read read_unsigned_short
  H.setAttr self "recordType" (.sc (.int recordType))
  let recordLength ← H.read read_unsigned_short
  H.setAttr self "recordLength" (.sc (.int recordLength))
  let recordSpecificField ← H.read read_unsigned_int
  H.setAttr self "recordSpecificField" (.sc (.int recordSpecificField))
  return ()

/-- `IntercomCommunicationsParameters.serialize`, /repo/opendis/dis7.py:2484-2488, statement by statement. -/
def IntercomCommunicationsParameters.serializeHeap (self : Ref) : S Unit := do
  S.putInt self "recordType" write_unsigned_short
  S.putInt self "recordLength" write_unsigned_short
  S.putInt self "recordSpecificField" write_unsigned_int

/-- Attributes of a `Munition` object before `__init__` (/repo/opendis/dis7.py:2543-2582): class attributes have
values. -/
def Munition.attrs : List (String × Scalar) :=
  [("munitionType", .absent), ("station", .absent), ("quantity", .absent),
   ("munitionStatus", .absent), ("padding", .absent)]

/-- `Munition.__init__`, /repo/opendis/dis7.py:2552-2566, statement by statement. -/
def Munition.initHeap (self : Ref) (munitionType : Val := .sc .none)
    (station : Val := .sc (.int 0)) (quantity : Val := .sc (.int 0))
    (munitionStatus : Val := .sc (.int 0)) : H Unit := do
  H.setOr self "munitionType" munitionType EntityType.newHeap
  H.setAttr self "station" station
  H.setAttr self "quantity" quantity
  H.setAttr self "munitionStatus" munitionStatus
  H.setAttr self "padding" (.sc (.int 0))

/-- `Munition(...)`, /repo/opendis/dis7.py:2552-2566. -/
def Munition.newHeap (munitionType : Val := .sc .none) (station : Val := .sc (.int 0))
    (quantity : Val := .sc (.int 0)) (munitionStatus : Val := .sc (.int 0)) : H Ref :=
  H.new Munition.attrs fun self => Munition.initHeap self munitionType station quantity munitionStatus

/-- `Munition.parse`, /repo/opendis/dis7.py:2576-2582, statement by statement. -/
def Munition.parseHeap (self : Ref) : H Unit := do
  H.call self "munitionType" EntityType.parseHeap
  let station ← H.read read_unsigned_int
  H.setAttr self "station" (.sc (.int station))
  let quantity ← H.read read_unsigned_short
  H.setAttr self "quantity" (.sc (.int quantity))
  let munitionStatus ← H.read read_unsigned_byte
  H.setAttr self "munitionStatus" (.sc (.int munitionStatus))
  let padding ← H.read read_unsigned_byte
  H.setAttr self "padding" (.sc (.int padding))
  return ()

/-- `Munition.serialize`, /repo/opendis/dis7.py:2568-2574, statement by statement. -/
def Munition.serializeHeap (self : Ref) : S Unit := do
  S.call self "munitionType" EntityType.serializeHeap
  S.putInt self "station" write_unsigned_int
  S.putInt self "quantity" write_unsigned_short
  S.putInt self "munitionStatus" write_unsigned_byte
  S.putInt self "padding" write_unsigned_byte

/-- Attributes of a `StandardVariableSpecification` object before `__init__` (/repo/opendis/dis7.py:2585-2615): class attributes have
values. -/
def StandardVariableSpecification.attrs : List (String × Scalar) :=
  [("standardVariables", .absent)]

/-- `StandardVariableSpecification.__init__`, /repo/opendis/dis7.py:2591-2596, statement by statement. -/
def StandardVariableSpecification.initHeap (self : Ref) (standardVariables : Val := .sc .none)
    : H Unit := do
  H.setOr self "standardVariables" standardVariables (H.alloc (.list []))

/-- `StandardVariableSpecification(...)`, /repo/opendis/dis7.py:2591-2596. -/
def StandardVariableSpecification.newHeap (standardVariables : Val := .sc .none) : H Ref :=
  H.new StandardVariableSpecification.attrs fun self => StandardVariableSpecification.initHeap self standardVariables

/-- `StandardVariableSpecification.parse`, /repo/opendis/dis7.py:2608-2615, statement by statement. -/
def StandardVariableSpecification.parseHeap (self : Ref) : H Unit := do
  let numberOfStandardVariableRecords ← H.read read_unsigned_short
  H.appendReads numberOfStandardVariableRecords.toNat (R.throw .nameError : R Int) .int self "standardVariables"
  return ()

/-- `StandardVariableSpecification.serialize`, /repo/opendis/dis7.py:2602-2606, statement by statement. -/
def StandardVariableSpecification.serializeHeap (self : Ref) : S Unit := do
  S.putLen self "standardVariables" write_unsigned_short
  S.each self "standardVariables" fun _ => S.throw .attributeError

/-- Attributes of a `Vector2Float` object before `__init__` (/repo/opendis/dis7.py:2618-2633): class attributes have
values. -/
def Vector2Float.attrs : List (String × Scalar) :=
  [("x", .absent), ("y", .absent)]

/-- `Vector2Float.__init__`, /repo/opendis/dis7.py:2621-2623, statement by statement. -/
def Vector2Float.initHeap (self : Ref) (x : Val := .sc (.float 0x0000000000000000))
    (y : Val := .sc (.float 0x0000000000000000)) : H Unit := do
  H.setAttr self "x" x
  H.setAttr self "y" y

/-- `Vector2Float(...)`, /repo/opendis/dis7.py:2621-2623. -/
def Vector2Float.newHeap (x : Val := .sc (.float 0x0000000000000000))
    (y : Val := .sc (.float 0x0000000000000000)) : H Ref :=
  H.new Vector2Float.attrs fun self => Vector2Float.initHeap self x y

/-- `Vector2Float.parse`, /repo/opendis/dis7.py:2630-2633, statement by statement. -/
def Vector2Float.parseHeap (self : Ref) : H Unit := do
  let x ← H.read read_float
  H.setAttr self "x" (.sc (.float x))
  let y ← H.read read_float
  H.setAttr self "y" (.sc (.float y))
  return ()

/-- `Vector2Float.serialize`, /repo/opendis/dis7.py:2625-2628, statement by statement. -/
def Vector2Float.serializeHeap (self : Ref) : S Unit := do
  S.putFloat self "x" write_float
  S.putFloat self "y" write_float

/-- Attributes of a `Environment` object before `__init__` (/repo/opendis/dis7.py:2636-2668): class attributes have
values. -/
def Environment.attrs : List (String × Scalar) :=
  [("environmentType", .absent), ("length", .absent), ("index", .absent), ("padding0", .absent),
   ("padding1", .absent), ("padding", .absent)]

/-- `Environment.__init__`, /repo/opendis/dis7.py:2642-2654, statement by statement. -/
def Environment.initHeap (self : Ref) (environmentType : Val := .sc (.int 0))
    (length : Val := .sc (.int 0)) (index : Val := .sc (.int 0)) : H Unit := do
  H.setAttr self "environmentType" environmentType
  H.setAttr self "length" length
  H.setAttr self "index" index
  H.setAttr self "padding0" (.sc (.int 0))
  H.setAttr self "padding1" (.sc (.int 0))

/-- `Environment(...)`, /repo/opendis/dis7.py:2642-2654. -/
def Environment.newHeap (environmentType : Val := .sc (.int 0)) (length : Val := .sc (.int 0))
    (index : Val := .sc (.int 0)) : H Ref :=
  H.new Environment.attrs fun self => Environment.initHeap self environmentType length index

/-- `Environment.parse`, /repo/opendis/dis7.py:2663-2668, statement by statement. -/
def Environment.parseHeap (self : Ref) : H Unit := do
  let environmentType ← H.read read_unsigned_int
  H.setAttr self "environmentType" (.sc (.int environmentType))
  let length ← H.read read_unsigned_short
  H.setAttr self "length" (.sc (.int length))
  let index ← H.read read_unsigned_byte
  H.setAttr self "index" (.sc (.int index))
  let padding ← H.read read_unsigned_byte
  H.setAttr self "padding" (.sc (.int padding))
  return ()

/-- `Environment.serialize`, /repo/opendis/dis7.py:2656-2661, statement by statement. -/
def Environment.serializeHeap (self : Ref) : S Unit := do
  S.putInt self "environmentType" write_unsigned_int
  S.putInt self "length" write_unsigned_short
  S.putInt self "index" write_unsigned_byte
  S.putInt self "padding" write_unsigned_byte

end Dis
