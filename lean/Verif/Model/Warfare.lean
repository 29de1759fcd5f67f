import Verif.Model.Radio
import Verif.Model.Sizes

/-!
# `opendis/record/warfare`, `opendis/record/__init__.py` and `parseStandardVariableRecord`

Hand-written transliteration.
-/

namespace Dis

/-- Fields of `DEFireFlags._struct`, /repo/opendis/record/warfare/enums.py:11-15. -/
def DEFireFlags.fields : List FieldDescription :=
  [{ bits := some 1 }, { bits := some 1 }, { bits := some 14 }]

/-- Widths of the class made by `bitfield` from `DEFireFlags.fields`,
/repo/opendis/record/warfare/enums.py:11-15 (`C25_bitfield_classes` relates the two). -/
def DEFireFlags.struct : List Nat := [1, 1, 14]

/-- Attributes of `DEFireFlags`, /repo/opendis/record/warfare/enums.py:17-23; `weaponOn` is a bool
after construction and an int after parsing, modelled as the int (`False` is 0). -/
structure DEFireFlags where
  weaponOn : Int := 0
  stateUpdateFlag : Int := 0
  padding : Int := 0
  deriving DecidableEq

/-- `DEFireFlags(...)`, /repo/opendis/record/warfare/enums.py:17-23. -/
def DEFireFlags.init (weaponOn stateUpdateFlag : Int := 0) : DEFireFlags :=
  { weaponOn, stateUpdateFlag, padding := 0 }

/-- `DEFireFlags.marshalledSize`, /repo/opendis/record/warfare/enums.py:25-26. -/
def DEFireFlags.marshalledSize (_self : DEFireFlags) : Int :=
  Bitfield.marshalledSize DEFireFlags.struct

/-- `DEFireFlags.serialize`, /repo/opendis/record/warfare/enums.py:28-32: `padding` is not passed. -/
def DEFireFlags.serialize (self : DEFireFlags) : W Unit :=
  Bitfield.serialize DEFireFlags.struct [self.weaponOn, self.stateUpdateFlag]

/-- `DEFireFlags.parse`, /repo/opendis/record/warfare/enums.py:34-38. -/
def DEFireFlags.parse (_self : DEFireFlags) : R DEFireFlags := do
  let record_bitfield ← Bitfield.parse DEFireFlags.struct
  return {
    weaponOn := record_bitfield.getD 0 0
    stateUpdateFlag := record_bitfield.getD 1 0
    padding := record_bitfield.getD 2 0 }

/-- Attributes of `DirectedEnergyDamage`, /repo/opendis/record/warfare/__init__.py:43-70. The default
of `temperature` is -273.15 as a double. -/
structure DirectedEnergyDamage where
  padding : Int := 0
  damageLocation : Vector3Float := Vector3Float.init
  damageDiameter : F64 := 0x0000000000000000
  temperature : F64 := 0xC071126666666666
  componentIdentification : Int := 0
  componentDamageStatus : Int := 0
  componentVisualDamageStatus : Int := 0
  componentVisualSmokeColor : Int := 0
  fireEventID : EventIdentifier := EventIdentifier.init
  padding2 : Int := 0
  deriving DecidableEq

/-- `DirectedEnergyDamage(...)`, /repo/opendis/record/warfare/__init__.py:51-70. -/
def DirectedEnergyDamage.init (damageLocation : Option Vector3Float := none)
    (damageDiameter : F64 := 0x0000000000000000) (temperature : F64 := 0xC071126666666666)
    (componentIdentification componentDamageStatus componentVisualDamageStatus
      componentVisualSmokeColor : Int := 0) (fireEventID : Option EventIdentifier := none) :
    DirectedEnergyDamage :=
  { padding := 0, damageLocation := damageLocation.getD Vector3Float.init, damageDiameter,
    temperature, componentIdentification, componentDamageStatus, componentVisualDamageStatus,
    componentVisualSmokeColor, fireEventID := fireEventID.getD EventIdentifier.init, padding2 := 0 }

/-- `DirectedEnergyDamage.recordType`, /repo/opendis/record/warfare/__init__.py:49. -/
def DirectedEnergyDamage.recordType : Int := 4500

/-- `DirectedEnergyDamage.marshalledSize`, /repo/opendis/record/warfare/__init__.py:72-73. -/
def DirectedEnergyDamage.marshalledSize (_self : DirectedEnergyDamage) : Int := 40

/-- `DirectedEnergyDamage.serialize`, /repo/opendis/record/warfare/__init__.py:75-88. -/
def DirectedEnergyDamage.serialize (self : DirectedEnergyDamage) : W Unit := do
  StandardVariableRecord.serialize DirectedEnergyDamage.recordType self.marshalledSize
  write_uint32 DirectedEnergyDamage.recordType
  write_uint16 self.marshalledSize
  write_uint16 self.padding
  Vector3Float.serialize self.damageLocation
  write_float32 self.damageDiameter
  write_float32 self.temperature
  write_uint8 self.componentIdentification
  write_uint8 self.componentDamageStatus
  write_uint8 self.componentVisualDamageStatus
  write_uint8 self.componentVisualSmokeColor
  EventIdentifier.serialize self.fireEventID
  write_uint16 self.padding2

/-- `DirectedEnergyDamage.parse`, /repo/opendis/record/warfare/__init__.py:90-104. -/
def DirectedEnergyDamage.parse (self : DirectedEnergyDamage) (bytelength : Int) :
    R DirectedEnergyDamage := do
  StandardVariableRecord.parse bytelength
  let padding ← read_unsigned_short
  let damageLocation ← Vector3Float.parse self.damageLocation
  let damageDiameter ← read_float32
  let temperature ← read_float32
  let componentIdentification ← read_uint8
  let componentDamageStatus ← read_uint8
  let componentVisualDamageStatus ← read_uint8
  let componentVisualSmokeColor ← read_uint8
  let fireEventID ← EventIdentifier.parse self.fireEventID
  let padding2 ← read_uint16
  return { padding, damageLocation, damageDiameter, temperature, componentIdentification,
           componentDamageStatus, componentVisualDamageStatus, componentVisualSmokeColor,
           fireEventID, padding2 }

/-- Attributes of `DirectedEnergyTargetEnergyDeposition`,
/repo/opendis/record/warfare/__init__.py:251-265. -/
structure DirectedEnergyTargetEnergyDeposition where
  targetEntityID : EntityIdentifier := EntityIdentifier.init
  padding : Int := 0
  peakIrradiance : F64 := 0x0000000000000000
  deriving DecidableEq

/-- `DirectedEnergyTargetEnergyDeposition(...)`, /repo/opendis/record/warfare/__init__.py:260-265. -/
def DirectedEnergyTargetEnergyDeposition.init (targetEntityID : Option EntityIdentifier := none)
    (peakIrradiance : F64 := 0x0000000000000000) : DirectedEnergyTargetEnergyDeposition :=
  { targetEntityID := targetEntityID.getD EntityIdentifier.init, padding := 0, peakIrradiance }

/-- `DirectedEnergyTargetEnergyDeposition.marshalledSize`,
/repo/opendis/record/warfare/__init__.py:267-268. -/
def DirectedEnergyTargetEnergyDeposition.marshalledSize
    (self : DirectedEnergyTargetEnergyDeposition) : Int := self.targetEntityID.marshalledSize + 6

/-- `DirectedEnergyTargetEnergyDeposition.serialize`, /repo/opendis/record/warfare/__init__.py:270-274. -/
def DirectedEnergyTargetEnergyDeposition.serialize (self : DirectedEnergyTargetEnergyDeposition) :
    W Unit := do
  EntityIdentifier.serialize self.targetEntityID
  write_uint16 self.padding
  write_float32 self.peakIrradiance

/-- `DirectedEnergyTargetEnergyDeposition.parse`, /repo/opendis/record/warfare/__init__.py:276-280. -/
def DirectedEnergyTargetEnergyDeposition.parse (self : DirectedEnergyTargetEnergyDeposition) :
    R DirectedEnergyTargetEnergyDeposition := do
  let targetEntityID ← EntityIdentifier.parse self.targetEntityID
  let padding ← read_uint16
  let peakIrradiance ← read_float32
  return { targetEntityID, padding, peakIrradiance }

/-- Attributes of `DirectedEnergyAreaAimpoint`, /repo/opendis/record/warfare/__init__.py:107-121. -/
structure DirectedEnergyAreaAimpoint where
  padding : Int := 0
  beamAntennaPatterns : List BeamAntennaPattern := []
  directedEnergyTargetEnergyDepositions : List DirectedEnergyTargetEnergyDeposition := []
  deriving DecidableEq

/-- `DirectedEnergyAreaAimpoint(...)`, /repo/opendis/record/warfare/__init__.py:116-121. -/
def DirectedEnergyAreaAimpoint.init (beamAntennaPatterns : List BeamAntennaPattern := [])
    (directedEnergyTargetEnergyDepositions : List DirectedEnergyTargetEnergyDeposition := []) :
    DirectedEnergyAreaAimpoint :=
  { padding := 0, beamAntennaPatterns, directedEnergyTargetEnergyDepositions }

/-- `DirectedEnergyAreaAimpoint.recordType`, /repo/opendis/record/warfare/__init__.py:114. -/
def DirectedEnergyAreaAimpoint.recordType : Int := 4001

/-- `DirectedEnergyAreaAimpoint.marshalledSize`, /repo/opendis/record/warfare/__init__.py:131-137. -/
def DirectedEnergyAreaAimpoint.marshalledSize (self : DirectedEnergyAreaAimpoint) : Int :=
  8 + (self.beamAntennaPatterns.map BeamAntennaPattern.marshalledSize).sum
    + (self.directedEnergyTargetEnergyDepositions.map
        DirectedEnergyTargetEnergyDeposition.marshalledSize).sum

/-- `DirectedEnergyAreaAimpoint.serialize`, /repo/opendis/record/warfare/__init__.py:139-152. -/
def DirectedEnergyAreaAimpoint.serialize (self : DirectedEnergyAreaAimpoint) : W Unit := do
  StandardVariableRecord.serialize DirectedEnergyAreaAimpoint.recordType self.marshalledSize
  write_uint32 DirectedEnergyAreaAimpoint.recordType
  write_uint16 self.marshalledSize
  write_uint16 self.padding
  write_uint16 self.beamAntennaPatterns.length
  write_uint16 self.directedEnergyTargetEnergyDepositions.length
  W.forEach self.beamAntennaPatterns BeamAntennaPattern.serialize
  W.forEach self.directedEnergyTargetEnergyDepositions DirectedEnergyTargetEnergyDeposition.serialize

/-- `DirectedEnergyAreaAimpoint.parse`, /repo/opendis/record/warfare/__init__.py:154-169. -/
def DirectedEnergyAreaAimpoint.parse (self : DirectedEnergyAreaAimpoint) (bytelength : Int) :
    R DirectedEnergyAreaAimpoint := do
  StandardVariableRecord.parse bytelength
  let padding ← read_uint16
  let beamAntennaPatternCount ← read_uint16
  let directedEnergyTargetEnergyDepositionCount ← read_uint16
  let bs ← R.times beamAntennaPatternCount.toNat (BeamAntennaPattern.parse BeamAntennaPattern.init)
  let ds ← R.times directedEnergyTargetEnergyDepositionCount.toNat
    (DirectedEnergyTargetEnergyDeposition.parse DirectedEnergyTargetEnergyDeposition.init)
  return { padding,
           beamAntennaPatterns := self.beamAntennaPatterns ++ bs,
           directedEnergyTargetEnergyDepositions :=
             self.directedEnergyTargetEnergyDepositions ++ ds }

/-- Attributes of `DirectedEnergyPrecisionAimpoint`,
/repo/opendis/record/warfare/__init__.py:172-205. -/
structure DirectedEnergyPrecisionAimpoint where
  padding : Int := 0
  targetSpotLocation : WorldCoordinates := WorldCoordinates.init
  targetSpotEntityLocation : Vector3Float := Vector3Float.init
  targetSpotVelocity : Vector3Float := Vector3Float.init
  targetSpotAcceleration : Vector3Float := Vector3Float.init
  targetEntityID : EntityIdentifier := EntityIdentifier.init
  targetComponentID : Int := 0
  beamSpotType : Int := 0
  beamSpotCrossSectionSemiMajorAxis : F64 := 0x0000000000000000
  beamSpotCrossSectionSemiMinorAxis : F64 := 0x0000000000000000
  beamSpotCrossSectionOrientationAngle : F64 := 0x0000000000000000
  peakIrradiance : F64 := 0x0000000000000000
  padding2 : Int := 0
  deriving DecidableEq

/-- `DirectedEnergyPrecisionAimpoint(...)`, /repo/opendis/record/warfare/__init__.py:181-205. -/
def DirectedEnergyPrecisionAimpoint.init (targetSpotLocation : Option WorldCoordinates := none)
    (targetSpotEntityLocation targetSpotVelocity targetSpotAcceleration : Option Vector3Float := none)
    (targetEntityID : Option EntityIdentifier := none) (targetComponentID beamSpotType : Int := 0)
    (beamSpotCrossSectionSemiMajorAxis beamSpotCrossSectionSemiMinorAxis
      beamSpotCrossSectionOrientationAngle peakIrradiance : F64 := 0x0000000000000000) :
    DirectedEnergyPrecisionAimpoint :=
  { padding := 0, targetSpotLocation := targetSpotLocation.getD WorldCoordinates.init,
    targetSpotEntityLocation := targetSpotEntityLocation.getD Vector3Float.init,
    targetSpotVelocity := targetSpotVelocity.getD Vector3Float.init,
    targetSpotAcceleration := targetSpotAcceleration.getD Vector3Float.init,
    targetEntityID := targetEntityID.getD EntityIdentifier.init, targetComponentID, beamSpotType,
    beamSpotCrossSectionSemiMajorAxis, beamSpotCrossSectionSemiMinorAxis,
    beamSpotCrossSectionOrientationAngle, peakIrradiance, padding2 := 0 }

/-- `DirectedEnergyPrecisionAimpoint.recordType`, /repo/opendis/record/warfare/__init__.py:179. -/
def DirectedEnergyPrecisionAimpoint.recordType : Int := 4000

/-- `DirectedEnergyPrecisionAimpoint.marshalledSize`, /repo/opendis/record/warfare/__init__.py:207-208. -/
def DirectedEnergyPrecisionAimpoint.marshalledSize (_self : DirectedEnergyPrecisionAimpoint) : Int :=
  96

/-- `DirectedEnergyPrecisionAimpoint.serialize`, /repo/opendis/record/warfare/__init__.py:210-226. -/
def DirectedEnergyPrecisionAimpoint.serialize (self : DirectedEnergyPrecisionAimpoint) : W Unit := do
  StandardVariableRecord.serialize DirectedEnergyPrecisionAimpoint.recordType self.marshalledSize
  write_uint32 DirectedEnergyPrecisionAimpoint.recordType
  write_uint16 self.marshalledSize
  write_uint16 self.padding
  WorldCoordinates.serialize self.targetSpotLocation
  Vector3Float.serialize self.targetSpotEntityLocation
  Vector3Float.serialize self.targetSpotVelocity
  Vector3Float.serialize self.targetSpotAcceleration
  EntityIdentifier.serialize self.targetEntityID
  write_uint8 self.targetComponentID
  write_uint8 self.beamSpotType
  write_float32 self.beamSpotCrossSectionSemiMajorAxis
  write_float32 self.beamSpotCrossSectionSemiMinorAxis
  write_float32 self.beamSpotCrossSectionOrientationAngle
  write_float32 self.peakIrradiance
  write_uint32 self.padding2

/-- `DirectedEnergyPrecisionAimpoint.parse`, /repo/opendis/record/warfare/__init__.py:228-248. -/
def DirectedEnergyPrecisionAimpoint.parse (self : DirectedEnergyPrecisionAimpoint)
    (bytelength : Int) : R DirectedEnergyPrecisionAimpoint := do
  StandardVariableRecord.parse bytelength
  let padding ← read_uint16
  let targetSpotLocation ← WorldCoordinates.parse self.targetSpotLocation
  let targetSpotEntityLocation ← Vector3Float.parse self.targetSpotEntityLocation
  let targetSpotVelocity ← Vector3Float.parse self.targetSpotVelocity
  let targetSpotAcceleration ← Vector3Float.parse self.targetSpotAcceleration
  let targetEntityID ← EntityIdentifier.parse self.targetEntityID
  let targetComponentID ← read_uint8
  let beamSpotType ← read_uint8
  let beamSpotCrossSectionSemiMajorAxis ← read_float32
  let beamSpotCrossSectionSemiMinorAxis ← read_float32
  let beamSpotCrossSectionOrientationAngle ← read_float32
  let peakIrradiance ← read_float32
  let padding2 ← read_uint32
  return { padding, targetSpotLocation, targetSpotEntityLocation, targetSpotVelocity,
           targetSpotAcceleration, targetEntityID, targetComponentID, beamSpotType,
           beamSpotCrossSectionSemiMajorAxis, beamSpotCrossSectionSemiMinorAxis,
           beamSpotCrossSectionOrientationAngle, peakIrradiance, padding2 }

/-! ## `opendis/record/__init__.py` -/

/-- Instances of `UnknownStandardVariableRecord`, /repo/opendis/record/__init__.py:48-53; the class
is local to each call of `getStandardVariableClass`, so its class attribute `recordType` (line 75)
is stored with the instance. -/
structure UnknownStandardVariableRecord where
  recordType : Int
  data : Bytes := []
  deriving DecidableEq

/-- `UnknownStandardVariableRecord.marshalledSize`, /repo/opendis/record/__init__.py:55-56. -/
def UnknownStandardVariableRecord.marshalledSize (self : UnknownStandardVariableRecord) : Int :=
  6 + self.data.length

/-- `UnknownStandardVariableRecord.serialize`, /repo/opendis/record/__init__.py:58-62. -/
def UnknownStandardVariableRecord.serialize (self : UnknownStandardVariableRecord) : W Unit := do
  StandardVariableRecord.serialize self.recordType self.marshalledSize
  write_uint32 self.recordType
  write_uint16 self.marshalledSize
  write_bytes self.data

/-- `UnknownStandardVariableRecord.parse`, /repo/opendis/record/__init__.py:64-69. -/
def UnknownStandardVariableRecord.parse (self : UnknownStandardVariableRecord) (bytelength : Int) :
    R UnknownStandardVariableRecord := do
  StandardVariableRecord.parse bytelength
  let data ← read_bytes (bytelength - 6)
  return { self with data := data }

/-- The values of `expectedType` that are used: the base class `StandardVariableRecord` (the default,
/repo/opendis/record/__init__.py:42), `VariableTransmitterParametersRecord`
(/repo/opendis/dis7.py:5114) and `DamageDescriptionRecord` (/repo/opendis/dis7.py:6401, :6675). -/
inductive SVBase where
  | standardVariable | variableTransmitterParameters | damageDescription
  deriving DecidableEq

/-- The classes `getStandardVariableClass` can return, /repo/opendis/record/__init__.py:33-38 and
:48-69. -/
inductive SVClass where
  | highFidelityHAVEQUICKRadio | directedEnergyPrecisionAimpoint | directedEnergyAreaAimpoint
  | directedEnergyDamage | unknown (recordType : Int)
  deriving DecidableEq

/-- The dictionary `__variableRecordClasses` with its default,
/repo/opendis/record/__init__.py:33-38 and :76-79. -/
def variableRecordClass (recordType : Int) : SVClass :=
  if recordType = 3000 then .highFidelityHAVEQUICKRadio
  else if recordType = 4000 then .directedEnergyPrecisionAimpoint
  else if recordType = 4001 then .directedEnergyAreaAimpoint
  else if recordType = 4500 then .directedEnergyDamage
  else .unknown recordType

/-- `issubclass(vrClass, expectedType)`, /repo/opendis/record/__init__.py:80, from the class
statements /repo/opendis/record/radio/__init__.py:256, :452,
/repo/opendis/record/warfare/__init__.py:34, :43, :107, :172, /repo/opendis/record/__init__.py:48. -/
def SVClass.isSubclass : SVClass → SVBase → Bool
  | _, .standardVariable => true
  | .highFidelityHAVEQUICKRadio, .variableTransmitterParameters => true
  | .directedEnergyPrecisionAimpoint, .damageDescription => true
  | .directedEnergyAreaAimpoint, .damageDescription => true
  | .directedEnergyDamage, .damageDescription => true
  | _, _ => false

/-- `getStandardVariableClass`, /repo/opendis/record/__init__.py:40-85. -/
def getStandardVariableClass (recordType : Int) (expectedType : SVBase := .standardVariable) :
    Except PyErr SVClass :=
  if recordType < 0 then .error .valueError
  else
    let vrClass := variableRecordClass recordType
    if vrClass.isSubclass expectedType = false then .error .typeError
    else .ok vrClass

/-- An instance of one of these classes (values of `variableTransmitterParameters`, `dERecords`,
`damageDescriptions`: /repo/opendis/dis7.py:4992, :6355, :6651). -/
inductive SVRecord where
  | highFidelityHAVEQUICKRadio (r : HighFidelityHAVEQUICKRadio)
  | directedEnergyPrecisionAimpoint (r : DirectedEnergyPrecisionAimpoint)
  | directedEnergyAreaAimpoint (r : DirectedEnergyAreaAimpoint)
  | directedEnergyDamage (r : DirectedEnergyDamage)
  | unknown (r : UnknownStandardVariableRecord)
  deriving DecidableEq

/-- Dynamic dispatch of `record.serialize(outputStream)`, /repo/opendis/dis7.py:5050, :6379, :6664. -/
def SVRecord.serialize : SVRecord → W Unit
  | .highFidelityHAVEQUICKRadio r => r.serialize
  | .directedEnergyPrecisionAimpoint r => r.serialize
  | .directedEnergyAreaAimpoint r => r.serialize
  | .directedEnergyDamage r => r.serialize
  | .unknown r => r.serialize

/-- Dynamic dispatch of `record.marshalledSize()`, the value of `record.recordLength`,
/repo/opendis/record/base.py:78-81. -/
def SVRecord.marshalledSize : SVRecord → Int
  | .highFidelityHAVEQUICKRadio r => r.marshalledSize
  | .directedEnergyPrecisionAimpoint r => r.marshalledSize
  | .directedEnergyAreaAimpoint r => r.marshalledSize
  | .directedEnergyDamage r => r.marshalledSize
  | .unknown r => r.marshalledSize

/-- `svClass()` then `parse(inputStream, bytelength)`, /repo/opendis/dis7.py:66-67. -/
def SVClass.parse (c : SVClass) (bytelength : Int) : R SVRecord :=
  match c with
  | .highFidelityHAVEQUICKRadio => do
    let r ← HighFidelityHAVEQUICKRadio.parse HighFidelityHAVEQUICKRadio.init bytelength
    return .highFidelityHAVEQUICKRadio r
  | .directedEnergyPrecisionAimpoint => do
    let r ← DirectedEnergyPrecisionAimpoint.parse DirectedEnergyPrecisionAimpoint.init bytelength
    return .directedEnergyPrecisionAimpoint r
  | .directedEnergyAreaAimpoint => do
    let r ← DirectedEnergyAreaAimpoint.parse DirectedEnergyAreaAimpoint.init bytelength
    return .directedEnergyAreaAimpoint r
  | .directedEnergyDamage => do
    let r ← DirectedEnergyDamage.parse DirectedEnergyDamage.init bytelength
    return .directedEnergyDamage r
  | .unknown t => do
    let r ← UnknownStandardVariableRecord.parse { recordType := t } bytelength
    return .unknown r

/-- `parseStandardVariableRecord`, /repo/opendis/dis7.py:49-68. -/
def parseStandardVariableRecord (expectedType : SVBase) : R SVRecord := do
  let recordType ← read_uint32
  let recordLength ← read_uint16
  let svClass ← R.ofExcept (getStandardVariableClass recordType expectedType)
  SVClass.parse svClass recordLength

end Dis
