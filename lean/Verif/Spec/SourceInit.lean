import Verif.Spec.SourceArgs

/-!
# The constructors with their arguments (C77)

Written by `tools/gensourceinit.py`.
-/

namespace Dis.Src

/-- `DataQueryDatumSpecification(...)`, /repo/opendis/dis7.py:77-83. -/
def Constructor.DataQueryDatumSpecification : Constructor where
  cls := .DataQueryDatumSpecification
  params := DataQueryDatumSpecification.__init__.params
  Args := (Option (List Int)) × (Option (List Int))
  values a := [listArg Val.int a.1, listArg Val.int a.2]
  make a := (Dis.DataQueryDatumSpecification.init (a.1.getD []) (a.2.getD []) : Dis.DataQueryDatumSpecification)

/-- `DatumSpecification(...)`, /repo/opendis/dis7.py:1599-1605. -/
def Constructor.DatumSpecification : Constructor where
  cls := .DatumSpecification
  params := DatumSpecification.__init__.params
  Args := (Option (List Dis.FixedDatum)) × (Option (List Dis.VariableDatum))
  values a := [listArg FixedDatum.enc a.1, listArg VariableDatum.enc a.2]
  make a := (Dis.DatumSpecification.init (a.1.getD []) (a.2.getD []) : Dis.DatumSpecification)

/-- `SimulationAddress(...)`, /repo/opendis/record/common.py:122-128. -/
def Constructor.SimulationAddress : Constructor where
  cls := .SimulationAddress
  params := SimulationAddress.__init__.params
  Args := Int × Int
  values a := [.int a.1, .int a.2]
  make a := (Dis.SimulationAddress.init a.1 a.2 : Dis.SimulationAddress)

/-- `EntityIdentifier(...)`, /repo/opendis/record/common.py:39-43. -/
def Constructor.EntityIdentifier : Constructor where
  cls := .EntityIdentifier
  params := EntityIdentifier.__init__.params
  Args := (Option Dis.SimulationAddress) × Int
  values a := [optArg SimulationAddress.enc a.1, .int a.2]
  make a := (Dis.EntityIdentifier.init a.1 a.2 : Dis.EntityIdentifier)

/-- `EulerAngles(...)`, /repo/opendis/record/common.py:66-72. -/
def Constructor.EulerAngles : Constructor where
  cls := .EulerAngles
  params := EulerAngles.__init__.params
  Args := F64 × F64 × F64
  values a := [.float a.1, .float a.2.1, .float a.2.2]
  make a := (Dis.EulerAngles.init a.1 a.2.1 a.2.2 : Dis.EulerAngles)

/-- `EventIdentifier(...)`, /repo/opendis/record/common.py:96-101. -/
def Constructor.EventIdentifier : Constructor where
  cls := .EventIdentifier
  params := EventIdentifier.__init__.params
  Args := (Option Dis.SimulationAddress) × Int
  values a := [optArg SimulationAddress.enc a.1, .int a.2]
  make a := (Dis.EventIdentifier.init a.1 a.2 : Dis.EventIdentifier)

/-- `Vector3Float(...)`, /repo/opendis/record/common.py:152-155. -/
def Constructor.Vector3Float : Constructor where
  cls := .Vector3Float
  params := Vector3Float.__init__.params
  Args := F64 × F64 × F64
  values a := [.float a.1, .float a.2.1, .float a.2.2]
  make a := (Dis.Vector3Float.init a.1 a.2.1 a.2.2 : Dis.Vector3Float)

/-- `WorldCoordinates(...)`, /repo/opendis/record/common.py:180-183. -/
def Constructor.WorldCoordinates : Constructor where
  cls := .WorldCoordinates
  params := WorldCoordinates.__init__.params
  Args := F64 × F64 × F64
  values a := [.float a.1, .float a.2.1, .float a.2.2]
  make a := (Dis.WorldCoordinates.init a.1 a.2.1 a.2.2 : Dis.WorldCoordinates)

/-- `RadioIdentifier(...)`, /repo/opendis/dis7.py:122-130. -/
def Constructor.RadioIdentifier : Constructor where
  cls := .RadioIdentifier
  params := RadioIdentifier.__init__.params
  Args := Int × Int × Int × Int
  values a := [.int a.1, .int a.2.1, .int a.2.2.1, .int a.2.2.2]
  make a := (Dis.RadioIdentifier.init a.1 a.2.1 a.2.2.1 a.2.2.2 : Dis.RadioIdentifier)

/-- `RequestID(...)`, /repo/opendis/dis7.py:154-156. -/
def Constructor.RequestID : Constructor where
  cls := .RequestID
  params := RequestID.__init__.params
  Args := Int
  values a := [.int a]
  make a := (Dis.RequestID.init a : Dis.RequestID)

/-- `IFFData(...)`, /repo/opendis/dis7.py:173-182. -/
def Constructor.IFFData : Constructor where
  cls := .IFFData
  params := IFFData.__init__.params
  Args := Int × Int × (Option (List Int))
  values a := [.int a.1, .int a.2.1, listArg Val.int a.2.2]
  make a := (Dis.IFFData.init a.1 a.2.1 (a.2.2.getD []) : Dis.IFFData)

/-- `EntityType(...)`, /repo/opendis/dis7.py:2503-2520. -/
def Constructor.EntityType : Constructor where
  cls := .EntityType
  params := EntityType.__init__.params
  Args := Int × Int × Int × Int × Int × Int × Int
  values a := [.int a.1, .int a.2.1, .int a.2.2.1, .int a.2.2.2.1, .int a.2.2.2.2.1, .int a.2.2.2.2.2.1, .int a.2.2.2.2.2.2]
  make a := (Dis.EntityType.init a.1 a.2.1 a.2.2.1 a.2.2.2.1 a.2.2.2.2.1 a.2.2.2.2.2.1 a.2.2.2.2.2.2 : Dis.EntityType)

/-- `MunitionDescriptor(...)`, /repo/opendis/dis7.py:210-227. -/
def Constructor.MunitionDescriptor : Constructor where
  cls := .MunitionDescriptor
  params := MunitionDescriptor.__init__.params
  Args := (Option Dis.EntityType) × Int × Int × Int × Int
  values a := [optArg EntityType.enc a.1, .int a.2.1, .int a.2.2.1, .int a.2.2.2.1, .int a.2.2.2.2]
  make a := (Dis.MunitionDescriptor.init a.1 a.2.1 a.2.2.1 a.2.2.2.1 a.2.2.2.2 : Dis.MunitionDescriptor)

/-- `MinefieldSensorType(...)`, /repo/opendis/dis7.py:252-254. -/
def Constructor.MinefieldSensorType : Constructor where
  cls := .MinefieldSensorType
  params := MinefieldSensorType.__init__.params
  Args := Int
  values a := [.int a]
  make a := (Dis.MinefieldSensorType.init a : Dis.MinefieldSensorType)

/-- `GroupID(...)`, /repo/opendis/dis7.py:273-279. -/
def Constructor.GroupID : Constructor where
  cls := .GroupID
  params := GroupID.__init__.params
  Args := (Option Dis.SimulationAddress) × Int
  values a := [optArg SimulationAddress.enc a.1, .int a.2]
  make a := (Dis.GroupID.init a.1 a.2 : Dis.GroupID)

/-- `LayerHeader(...)`, /repo/opendis/dis7.py:299-307. -/
def Constructor.LayerHeader : Constructor where
  cls := .LayerHeader
  params := LayerHeader.__init__.params
  Args := Int × Int × Int
  values a := [.int a.1, .int a.2.1, .int a.2.2]
  make a := (Dis.LayerHeader.init a.1 a.2.1 a.2.2 : Dis.LayerHeader)

/-- `UnsignedDISInteger(...)`, /repo/opendis/dis7.py:325-327. -/
def Constructor.UnsignedDISInteger : Constructor where
  cls := .UnsignedDISInteger
  params := UnsignedDISInteger.__init__.params
  Args := Int
  values a := [.int a]
  make a := (Dis.UnsignedDISInteger.init a : Dis.UnsignedDISInteger)

/-- `DeadReckoningParameters(...)`, /repo/opendis/dis7.py:341-354. -/
def Constructor.DeadReckoningParameters : Constructor where
  cls := .DeadReckoningParameters
  params := DeadReckoningParameters.__init__.params
  Args := Int × (Option (List Int)) × (Option Dis.Vector3Float) × (Option Dis.Vector3Float)
  values a := [.int a.1, listArg Val.int a.2.1, optArg Vector3Float.enc a.2.2.1, optArg Vector3Float.enc a.2.2.2]
  make a := (Dis.DeadReckoningParameters.init a.1 (a.2.1.getD []) a.2.2.1 a.2.2.2 : Dis.DeadReckoningParameters)

/-- `ProtocolMode(...)`, /repo/opendis/dis7.py:384-386. -/
def Constructor.ProtocolMode : Constructor where
  cls := .ProtocolMode
  params := ProtocolMode.__init__.params
  Args := Int
  values a := [.int a]
  make a := (Dis.ProtocolMode.init a : Dis.ProtocolMode)

/-- `AngleDeception(...)`, /repo/opendis/dis7.py:409-434. -/
def Constructor.AngleDeception : Constructor where
  cls := .AngleDeception
  params := AngleDeception.__init__.params
  Args := Int × Int × Int × F64 × F64 × F64 × F64 × F64 × F64 × F64 × F64
  values a := [.int a.1, .int a.2.1, .int a.2.2.1, .float a.2.2.2.1, .float a.2.2.2.2.1, .float a.2.2.2.2.2.1, .float a.2.2.2.2.2.2.1, .float a.2.2.2.2.2.2.2.1, .float a.2.2.2.2.2.2.2.2.1, .float a.2.2.2.2.2.2.2.2.2.1, .float a.2.2.2.2.2.2.2.2.2.2]
  make a := (Dis.AngleDeception.init a.1 a.2.1 a.2.2.1 a.2.2.2.1 a.2.2.2.2.1 a.2.2.2.2.2.1 a.2.2.2.2.2.2.1 a.2.2.2.2.2.2.2.1 a.2.2.2.2.2.2.2.2.1 a.2.2.2.2.2.2.2.2.2.1 a.2.2.2.2.2.2.2.2.2.2 : Dis.AngleDeception)

/-- `EntityAssociation(...)`, /repo/opendis/dis7.py:482-506. -/
def Constructor.EntityAssociation : Constructor where
  cls := .EntityAssociation
  params := EntityAssociation.__init__.params
  Args := Int × Int × Int × (Option Dis.EntityIdentifier) × Int × Int × Int × Int
  values a := [.int a.1, .int a.2.1, .int a.2.2.1, optArg EntityIdentifier.enc a.2.2.2.1, .int a.2.2.2.2.1, .int a.2.2.2.2.2.1, .int a.2.2.2.2.2.2.1, .int a.2.2.2.2.2.2.2]
  make a := (Dis.EntityAssociation.init a.1 a.2.1 a.2.2.1 a.2.2.2.1 a.2.2.2.2.1 a.2.2.2.2.2.1 a.2.2.2.2.2.2.1 a.2.2.2.2.2.2.2 : Dis.EntityAssociation)

/-- `VectoringNozzleSystem(...)`, /repo/opendis/dis7.py:539-543. -/
def Constructor.VectoringNozzleSystem : Constructor where
  cls := .VectoringNozzleSystem
  params := VectoringNozzleSystem.__init__.params
  Args := F64 × F64
  values a := [.float a.1, .float a.2]
  make a := (Dis.VectoringNozzleSystem.init a.1 a.2 : Dis.VectoringNozzleSystem)

/-- `FalseTargetsAttribute(...)`, /repo/opendis/dis7.py:569-589. -/
def Constructor.FalseTargetsAttribute : Constructor where
  cls := .FalseTargetsAttribute
  params := FalseTargetsAttribute.__init__.params
  Args := Int × Int × Int × Int × F64 × F64 × F64 × F64 × F64
  values a := [.int a.1, .int a.2.1, .int a.2.2.1, .int a.2.2.2.1, .float a.2.2.2.2.1, .float a.2.2.2.2.2.1, .float a.2.2.2.2.2.2.1, .float a.2.2.2.2.2.2.2.1, .float a.2.2.2.2.2.2.2.2]
  make a := (Dis.FalseTargetsAttribute.init a.1 a.2.1 a.2.2.1 a.2.2.2.1 a.2.2.2.2.1 a.2.2.2.2.2.1 a.2.2.2.2.2.2.1 a.2.2.2.2.2.2.2.1 a.2.2.2.2.2.2.2.2 : Dis.FalseTargetsAttribute)

/-- `MinefieldIdentifier(...)`, /repo/opendis/dis7.py:630-634. -/
def Constructor.MinefieldIdentifier : Constructor where
  cls := .MinefieldIdentifier
  params := MinefieldIdentifier.__init__.params
  Args := (Option Dis.SimulationAddress) × Int
  values a := [optArg SimulationAddress.enc a.1, .int a.2]
  make a := (Dis.MinefieldIdentifier.init a.1 a.2 : Dis.MinefieldIdentifier)

/-- `RadioType(...)`, /repo/opendis/dis7.py:654-670. -/
def Constructor.RadioType : Constructor where
  cls := .RadioType
  params := RadioType.__init__.params
  Args := Int × Int × Int × Int × Int × Int
  values a := [.int a.1, .int a.2.1, .int a.2.2.1, .int a.2.2.2.1, .int a.2.2.2.2.1, .int a.2.2.2.2.2]
  make a := (Dis.RadioType.init a.1 a.2.1 a.2.2.1 a.2.2.2.1 a.2.2.2.2.1 a.2.2.2.2.2 : Dis.RadioType)

/-- `NamedLocationIdentification(...)`, /repo/opendis/dis7.py:700-707. -/
def Constructor.NamedLocationIdentification : Constructor where
  cls := .NamedLocationIdentification
  params := NamedLocationIdentification.__init__.params
  Args := Int × Int
  values a := [.int a.1, .int a.2]
  make a := (Dis.NamedLocationIdentification.init a.1 a.2 : Dis.NamedLocationIdentification)

/-- `IFFDataSpecification(...)`, /repo/opendis/dis7.py:726-727. -/
def Constructor.IFFDataSpecification : Constructor where
  cls := .IFFDataSpecification
  params := IFFDataSpecification.__init__.params
  Args := (Option (List Dis.IFFData))
  values a := [listArg IFFData.enc a]
  make a := (Dis.IFFDataSpecification.init (a.getD []) : Dis.IFFDataSpecification)

/-- `OwnershipStatus(...)`, /repo/opendis/dis7.py:754-761. -/
def Constructor.OwnershipStatus : Constructor where
  cls := .OwnershipStatus
  params := OwnershipStatus.__init__.params
  Args := (Option Dis.EntityIdentifier) × Int
  values a := [optArg EntityIdentifier.enc a.1, .int a.2]
  make a := (Dis.OwnershipStatus.init a.1 a.2 : Dis.OwnershipStatus)

/-- `Attribute(...)`, /repo/opendis/dis7.py:821-827. -/
def Constructor.Attribute : Constructor where
  cls := .Attribute
  params := Attribute.__init__.params
  Args := Int × Int × Int
  values a := [.int a.1, .int a.2.1, .int a.2.2]
  make a := (Dis.Attribute.init a.1 a.2.1 a.2.2 : Dis.Attribute)

/-- `RecordQuerySpecification(...)`, /repo/opendis/dis7.py:848-851. -/
def Constructor.RecordQuerySpecification : Constructor where
  cls := .RecordQuerySpecification
  params := RecordQuerySpecification.__init__.params
  Args := (Option (List Int))
  values a := [listArg Val.int a]
  make a := (Dis.RecordQuerySpecification.init (a.getD []) : Dis.RecordQuerySpecification)

/-- `ArticulatedParts(...)`, /repo/opendis/dis7.py:879-891. -/
def Constructor.ArticulatedParts : Constructor where
  cls := .ArticulatedParts
  params := ArticulatedParts.__init__.params
  Args := Int × Int × Int × Int
  values a := [.int a.1, .int a.2.1, .int a.2.2.1, .int a.2.2.2]
  make a := (Dis.ArticulatedParts.init a.1 a.2.1 a.2.2.1 a.2.2.2 : Dis.ArticulatedParts)

/-- `ObjectType(...)`, /repo/opendis/dis7.py:916-928. -/
def Constructor.ObjectType : Constructor where
  cls := .ObjectType
  params := ObjectType.__init__.params
  Args := Int × Int × Int × Int
  values a := [.int a.1, .int a.2.1, .int a.2.2.1, .int a.2.2.2]
  make a := (Dis.ObjectType.init a.1 a.2.1 a.2.2.1 a.2.2.2 : Dis.ObjectType)

/-- `Association(...)`, /repo/opendis/dis7.py:956-965. -/
def Constructor.Association : Constructor where
  cls := .Association
  params := Association.__init__.params
  Args := Int × (Option Dis.EntityIdentifier) × (Option Dis.WorldCoordinates)
  values a := [.int a.1, optArg EntityIdentifier.enc a.2.1, optArg WorldCoordinates.enc a.2.2]
  make a := (Dis.Association.init a.1 a.2.1 a.2.2 : Dis.Association)

/-- `RecordSpecificationElement(...)`, /repo/opendis/dis7.py:987-1004. -/
def Constructor.RecordSpecificationElement : Constructor where
  cls := .RecordSpecificationElement
  params := RecordSpecificationElement.__init__.params
  Args := Int × Int × Int × Int × Int
  values a := [.int a.1, .int a.2.1, .int a.2.2.1, .int a.2.2.2.1, .int a.2.2.2.2]
  make a := (Dis.RecordSpecificationElement.init a.1 a.2.1 a.2.2.1 a.2.2.2.1 a.2.2.2.2 : Dis.RecordSpecificationElement)

/-- `AntennaLocation(...)`, /repo/opendis/dis7.py:1031-1038. -/
def Constructor.AntennaLocation : Constructor where
  cls := .AntennaLocation
  params := AntennaLocation.__init__.params
  Args := (Option Dis.WorldCoordinates) × (Option Dis.Vector3Float)
  values a := [optArg WorldCoordinates.enc a.1, optArg Vector3Float.enc a.2]
  make a := (Dis.AntennaLocation.init a.1 a.2 : Dis.AntennaLocation)

/-- `ObjectIdentifier(...)`, /repo/opendis/dis7.py:1057-1063. -/
def Constructor.ObjectIdentifier : Constructor where
  cls := .ObjectIdentifier
  params := ObjectIdentifier.__init__.params
  Args := (Option Dis.SimulationAddress) × Int
  values a := [optArg SimulationAddress.enc a.1, .int a.2]
  make a := (Dis.ObjectIdentifier.init a.1 a.2 : Dis.ObjectIdentifier)

/-- `AggregateIdentifier(...)`, /repo/opendis/dis7.py:1082-1087. -/
def Constructor.AggregateIdentifier : Constructor where
  cls := .AggregateIdentifier
  params := AggregateIdentifier.__init__.params
  Args := (Option Dis.SimulationAddress) × Int
  values a := [optArg SimulationAddress.enc a.1, .int a.2]
  make a := (Dis.AggregateIdentifier.init a.1 a.2 : Dis.AggregateIdentifier)

/-- `FixedDatum(...)`, /repo/opendis/dis7.py:1106-1112. -/
def Constructor.FixedDatum : Constructor where
  cls := .FixedDatum
  params := FixedDatum.__init__.params
  Args := Int × Int
  values a := [.int a.1, .int a.2]
  make a := (Dis.FixedDatum.init a.1 a.2 : Dis.FixedDatum)

/-- `VariableParameter(...)`, /repo/opendis/dis7.py:1132-1147. -/
def Constructor.VariableParameter : Constructor where
  cls := .VariableParameter
  params := VariableParameter.__init__.params
  Args := Int × F64 × Int × Int × Int
  values a := [.int a.1, .float a.2.1, .int a.2.2.1, .int a.2.2.2.1, .int a.2.2.2.2]
  make a := (Dis.VariableParameter.init a.1 a.2.1 a.2.2.1 a.2.2.2.1 a.2.2.2.2 : Dis.VariableParameter)

/-- `LiveSimulationAddress(...)`, /repo/opendis/dis7.py:1189-1195. -/
def Constructor.LiveSimulationAddress : Constructor where
  cls := .LiveSimulationAddress
  params := LiveSimulationAddress.__init__.params
  Args := Int × Int
  values a := [.int a.1, .int a.2]
  make a := (Dis.LiveSimulationAddress.init a.1 a.2 : Dis.LiveSimulationAddress)

/-- `EntityMarking(...)`, /repo/opendis/dis7.py:1214-1220. -/
def Constructor.EntityMarking : Constructor where
  cls := .EntityMarking
  params := EntityMarking.__init__.params
  Args := Int × (Option (List Int))
  values a := [.int a.1, listArg Val.int a.2]
  make a := (Dis.EntityMarking.init a.1 (a.2.getD []) : Dis.EntityMarking)

/-- `UAFundamentalParameter(...)`, /repo/opendis/dis7.py:1255-1273. -/
def Constructor.UAFundamentalParameter : Constructor where
  cls := .UAFundamentalParameter
  params := UAFundamentalParameter.__init__.params
  Args := Int × Int × F64 × F64 × F64 × F64
  values a := [.int a.1, .int a.2.1, .float a.2.2.1, .float a.2.2.2.1, .float a.2.2.2.2.1, .float a.2.2.2.2.2]
  make a := (Dis.UAFundamentalParameter.init a.1 a.2.1 a.2.2.1 a.2.2.2.1 a.2.2.2.2.1 a.2.2.2.2.2 : Dis.UAFundamentalParameter)

/-- `ExplosionDescriptor(...)`, /repo/opendis/dis7.py:1300-1310. -/
def Constructor.ExplosionDescriptor : Constructor where
  cls := .ExplosionDescriptor
  params := ExplosionDescriptor.__init__.params
  Args := (Option Dis.EntityType) × Int × F64
  values a := [optArg EntityType.enc a.1, .int a.2.1, .float a.2.2]
  make a := (Dis.ExplosionDescriptor.init a.1 a.2.1 a.2.2 : Dis.ExplosionDescriptor)

/-- `ClockTime(...)`, /repo/opendis/dis7.py:1336-1342. -/
def Constructor.ClockTime : Constructor where
  cls := .ClockTime
  params := ClockTime.__init__.params
  Args := Int × Int
  values a := [.int a.1, .int a.2]
  make a := (Dis.ClockTime.init a.1 a.2 : Dis.ClockTime)

/-- `SecondaryOperationalData(...)`, /repo/opendis/dis7.py:1363-1372. -/
def Constructor.SecondaryOperationalData : Constructor where
  cls := .SecondaryOperationalData
  params := SecondaryOperationalData.__init__.params
  Args := Int × Int × Int
  values a := [.int a.1, .int a.2.1, .int a.2.2]
  make a := (Dis.SecondaryOperationalData.init a.1 a.2.1 a.2.2 : Dis.SecondaryOperationalData)

/-- `EnvironmentType(...)`, /repo/opendis/dis7.py:1392-1412. -/
def Constructor.EnvironmentType : Constructor where
  cls := .EnvironmentType
  params := EnvironmentType.__init__.params
  Args := Int × Int × Int × Int × Int × Int × Int
  values a := [.int a.1, .int a.2.1, .int a.2.2.1, .int a.2.2.2.1, .int a.2.2.2.2.1, .int a.2.2.2.2.2.1, .int a.2.2.2.2.2.2]
  make a := (Dis.EnvironmentType.init a.1 a.2.1 a.2.2.1 a.2.2.2.1 a.2.2.2.2.1 a.2.2.2.2.2.1 a.2.2.2.2.2.2 : Dis.EnvironmentType)

/-- `TotalRecordSets(...)`, /repo/opendis/dis7.py:1439-1442. -/
def Constructor.TotalRecordSets : Constructor where
  cls := .TotalRecordSets
  params := TotalRecordSets.__init__.params
  Args := Int
  values a := [.int a]
  make a := (Dis.TotalRecordSets.init a : Dis.TotalRecordSets)

/-- `MineEntityIdentifier(...)`, /repo/opendis/dis7.py:1463-1467. -/
def Constructor.MineEntityIdentifier : Constructor where
  cls := .MineEntityIdentifier
  params := MineEntityIdentifier.__init__.params
  Args := (Option Dis.SimulationAddress) × Int
  values a := [optArg SimulationAddress.enc a.1, .int a.2]
  make a := (Dis.MineEntityIdentifier.init a.1 a.2 : Dis.MineEntityIdentifier)

/-- `Relationship(...)`, /repo/opendis/dis7.py:1486-1492. -/
def Constructor.Relationship : Constructor where
  cls := .Relationship
  params := Relationship.__init__.params
  Args := Int × Int
  values a := [.int a.1, .int a.2]
  make a := (Dis.Relationship.init a.1 a.2 : Dis.Relationship)

/-- `EEFundamentalParameterData(...)`, /repo/opendis/dis7.py:1512-1537. -/
def Constructor.EEFundamentalParameterData : Constructor where
  cls := .EEFundamentalParameterData
  params := EEFundamentalParameterData.__init__.params
  Args := F64 × F64 × F64 × F64 × F64 × F64 × F64 × F64 × F64 × F64
  values a := [.float a.1, .float a.2.1, .float a.2.2.1, .float a.2.2.2.1, .float a.2.2.2.2.1, .float a.2.2.2.2.2.1, .float a.2.2.2.2.2.2.1, .float a.2.2.2.2.2.2.2.1, .float a.2.2.2.2.2.2.2.2.1, .float a.2.2.2.2.2.2.2.2.2]
  make a := (Dis.EEFundamentalParameterData.init a.1 a.2.1 a.2.2.1 a.2.2.2.1 a.2.2.2.2.1 a.2.2.2.2.2.1 a.2.2.2.2.2.2.1 a.2.2.2.2.2.2.2.1 a.2.2.2.2.2.2.2.2.1 a.2.2.2.2.2.2.2.2.2 : Dis.EEFundamentalParameterData)

/-- `JammingTechnique(...)`, /repo/opendis/dis7.py:1572-1576. -/
def Constructor.JammingTechnique : Constructor where
  cls := .JammingTechnique
  params := JammingTechnique.__init__.params
  Args := Int × Int × Int × Int
  values a := [.int a.1, .int a.2.1, .int a.2.2.1, .int a.2.2.2]
  make a := (Dis.JammingTechnique.init a.1 a.2.1 a.2.2.1 a.2.2.2 : Dis.JammingTechnique)

/-- `Expendable(...)`, /repo/opendis/dis7.py:1646-1656. -/
def Constructor.Expendable : Constructor where
  cls := .Expendable
  params := Expendable.__init__.params
  Args := (Option Dis.EntityType) × Int × Int × Int
  values a := [optArg EntityType.enc a.1, .int a.2.1, .int a.2.2.1, .int a.2.2.2]
  make a := (Dis.Expendable.init a.1 a.2.1 a.2.2.1 a.2.2.2 : Dis.Expendable)

/-- `CommunicationsNodeID(...)`, /repo/opendis/dis7.py:3487-3491. -/
def Constructor.CommunicationsNodeID : Constructor where
  cls := .CommunicationsNodeID
  params := CommunicationsNodeID.__init__.params
  Args := (Option Dis.EntityIdentifier) × Int
  values a := [optArg EntityIdentifier.enc a.1, .int a.2]
  make a := (Dis.CommunicationsNodeID.init a.1 a.2 : Dis.CommunicationsNodeID)

/-- `IOCommunicationsNode(...)`, /repo/opendis/dis7.py:1683-1689. -/
def Constructor.IOCommunicationsNode : Constructor where
  cls := .IOCommunicationsNode
  params := IOCommunicationsNode.__init__.params
  Args := Int × (Option Dis.CommunicationsNodeID)
  values a := [.int a.1, optArg CommunicationsNodeID.enc a.2]
  make a := (Dis.IOCommunicationsNode.init a.1 a.2 : Dis.IOCommunicationsNode)

/-- `LinearSegmentParameter(...)`, /repo/opendis/dis7.py:1715-1746. -/
def Constructor.LinearSegmentParameter : Constructor where
  cls := .LinearSegmentParameter
  params := LinearSegmentParameter.__init__.params
  Args := Int × Int × Int × Int × (Option Dis.WorldCoordinates) × (Option Dis.EulerAngles) × F64 × F64 × F64 × F64
  values a := [.int a.1, .int a.2.1, .int a.2.2.1, .int a.2.2.2.1, optArg WorldCoordinates.enc a.2.2.2.2.1, optArg EulerAngles.enc a.2.2.2.2.2.1, .float a.2.2.2.2.2.2.1, .float a.2.2.2.2.2.2.2.1, .float a.2.2.2.2.2.2.2.2.1, .float a.2.2.2.2.2.2.2.2.2]
  make a := (Dis.LinearSegmentParameter.init a.1 a.2.1 a.2.2.1 a.2.2.2.1 a.2.2.2.2.1 a.2.2.2.2.2.1 a.2.2.2.2.2.2.1 a.2.2.2.2.2.2.2.1 a.2.2.2.2.2.2.2.2.1 a.2.2.2.2.2.2.2.2.2 : Dis.LinearSegmentParameter)

/-- `SystemIdentifier(...)`, /repo/opendis/dis7.py:1783-1795. -/
def Constructor.SystemIdentifier : Constructor where
  cls := .SystemIdentifier
  params := SystemIdentifier.__init__.params
  Args := Int × Int × Int × (Option Dis.ChangeOptions)
  values a := [.int a.1, .int a.2.1, .int a.2.2.1, optArg ChangeOptions.enc a.2.2.2]
  make a := (Dis.SystemIdentifier.init a.1 a.2.1 a.2.2.1 a.2.2.2 : Dis.SystemIdentifier)

/-- `TrackJamData(...)`, /repo/opendis/dis7.py:1818-1827. -/
def Constructor.TrackJamData : Constructor where
  cls := .TrackJamData
  params := TrackJamData.__init__.params
  Args := (Option Dis.EntityIdentifier) × Int × Int
  values a := [optArg EntityIdentifier.enc a.1, .int a.2.1, .int a.2.2]
  make a := (Dis.TrackJamData.init a.1 a.2.1 a.2.2 : Dis.TrackJamData)

/-- `AggregateType(...)`, /repo/opendis/dis7.py:1848-1868. -/
def Constructor.AggregateType : Constructor where
  cls := .AggregateType
  params := AggregateType.__init__.params
  Args := Int × Int × Int × Int × Int × Int × Int
  values a := [.int a.1, .int a.2.1, .int a.2.2.1, .int a.2.2.2.1, .int a.2.2.2.2.1, .int a.2.2.2.2.2.1, .int a.2.2.2.2.2.2]
  make a := (Dis.AggregateType.init a.1 a.2.1 a.2.2.1 a.2.2.2.1 a.2.2.2.2.1 a.2.2.2.2.2.1 a.2.2.2.2.2.2 : Dis.AggregateType)

/-- `SimulationIdentifier(...)`, /repo/opendis/dis7.py:2061-2067. -/
def Constructor.SimulationIdentifier : Constructor where
  cls := .SimulationIdentifier
  params := SimulationIdentifier.__init__.params
  Args := (Option Dis.SimulationAddress) × Int
  values a := [optArg SimulationAddress.enc a.1, .int a.2]
  make a := (Dis.SimulationIdentifier.init a.1 a.2 : Dis.SimulationIdentifier)

/-- `PduHeader(...)`, /repo/opendis/dis7.py:3377-3399. -/
def Constructor.PduHeader : Constructor where
  cls := .PduHeader
  params := PduHeader.__init__.params
  Args := Int × Int × Int × Int × Int × Int × Int
  values a := [.int a.1, .int a.2.1, .int a.2.2.1, .int a.2.2.2.1, .int a.2.2.2.2.1, .int a.2.2.2.2.2.1, .int a.2.2.2.2.2.2]
  make a := (Dis.PduHeader.init a.1 a.2.1 a.2.2.1 a.2.2.2.1 a.2.2.2.2.1 a.2.2.2.2.2.1 a.2.2.2.2.2.2 : Dis.PduHeader)

/-- `SimulationManagementPduHeader(...)`, /repo/opendis/dis7.py:1898-1907. -/
def Constructor.SimulationManagementPduHeader : Constructor where
  cls := .SimulationManagementPduHeader
  params := SimulationManagementPduHeader.__init__.params
  Args := (Option Dis.PduHeader) × (Option Dis.SimulationIdentifier) × (Option Dis.SimulationIdentifier)
  values a := [optArg PduHeader.enc a.1, optArg SimulationIdentifier.enc a.2.1, optArg SimulationIdentifier.enc a.2.2]
  make a := (Dis.SimulationManagementPduHeader.init a.1 a.2.1 a.2.2 : Dis.SimulationManagementPduHeader)

/-- `BeamData(...)`, /repo/opendis/dis7.py:1928-1944. -/
def Constructor.BeamData : Constructor where
  cls := .BeamData
  params := BeamData.__init__.params
  Args := F64 × F64 × F64 × F64 × F64
  values a := [.float a.1, .float a.2.1, .float a.2.2.1, .float a.2.2.2.1, .float a.2.2.2.2]
  make a := (Dis.BeamData.init a.1 a.2.1 a.2.2.1 a.2.2.2.1 a.2.2.2.2 : Dis.BeamData)

/-- `EngineFuel(...)`, /repo/opendis/dis7.py:1969-1982. -/
def Constructor.EngineFuel : Constructor where
  cls := .EngineFuel
  params := EngineFuel.__init__.params
  Args := Int × Int × Int × Int
  values a := [.int a.1, .int a.2.1, .int a.2.2.1, .int a.2.2.2]
  make a := (Dis.EngineFuel.init a.1 a.2.1 a.2.2.1 a.2.2.2 : Dis.EngineFuel)

/-- `IOEffect(...)`, /repo/opendis/dis7.py:2009-2023. -/
def Constructor.IOEffect : Constructor where
  cls := .IOEffect
  params := IOEffect.__init__.params
  Args := Int × Int × Int × Int × Int × Int
  values a := [.int a.1, .int a.2.1, .int a.2.2.1, .int a.2.2.2.1, .int a.2.2.2.2.1, .int a.2.2.2.2.2]
  make a := (Dis.IOEffect.init a.1 a.2.1 a.2.2.1 a.2.2.2.1 a.2.2.2.2.1 a.2.2.2.2.2 : Dis.IOEffect)

/-- `GridAxisDescriptorVariable(...)`, /repo/opendis/dis7.py:2087-2120. -/
def Constructor.GridAxisDescriptorVariable : Constructor where
  cls := .GridAxisDescriptorVariable
  params := GridAxisDescriptorVariable.__init__.params
  Args := F64 × F64 × Int × Int × Int × Int × Int × F64 × F64 × (Option (List Int))
  values a := [.float a.1, .float a.2.1, .int a.2.2.1, .int a.2.2.2.1, .int a.2.2.2.2.1, .int a.2.2.2.2.2.1, .int a.2.2.2.2.2.2.1, .float a.2.2.2.2.2.2.2.1, .float a.2.2.2.2.2.2.2.2.1, listArg Val.int a.2.2.2.2.2.2.2.2.2]
  make a := (Dis.GridAxisDescriptorVariable.init a.1 a.2.1 a.2.2.1 a.2.2.2.1 a.2.2.2.2.1 a.2.2.2.2.2.1 a.2.2.2.2.2.2.1 a.2.2.2.2.2.2.2.1 a.2.2.2.2.2.2.2.2.1 (a.2.2.2.2.2.2.2.2.2.getD []) : Dis.GridAxisDescriptorVariable)

/-- `SupplyQuantity(...)`, /repo/opendis/dis7.py:2164-2169. -/
def Constructor.SupplyQuantity : Constructor where
  cls := .SupplyQuantity
  params := SupplyQuantity.__init__.params
  Args := (Option Dis.EntityType) × F64
  values a := [optArg EntityType.enc a.1, .float a.2]
  make a := (Dis.SupplyQuantity.init a.1 a.2 : Dis.SupplyQuantity)

/-- `SilentEntitySystem(...)`, /repo/opendis/dis7.py:2188-2196. -/
def Constructor.SilentEntitySystem : Constructor where
  cls := .SilentEntitySystem
  params := SilentEntitySystem.__init__.params
  Args := Int × (Option Dis.EntityType) × (Option (List Int))
  values a := [.int a.1, optArg EntityType.enc a.2.1, listArg Val.int a.2.2]
  make a := (Dis.SilentEntitySystem.init a.1 a.2.1 (a.2.2.getD []) : Dis.SilentEntitySystem)

/-- `BlankingSector(...)`, /repo/opendis/dis7.py:2254-2275. -/
def Constructor.BlankingSector : Constructor where
  cls := .BlankingSector
  params := BlankingSector.__init__.params
  Args := Int × Int × Int × F64 × F64 × F64 × F64 × F64
  values a := [.int a.1, .int a.2.1, .int a.2.2.1, .float a.2.2.2.1, .float a.2.2.2.2.1, .float a.2.2.2.2.2.1, .float a.2.2.2.2.2.2.1, .float a.2.2.2.2.2.2.2]
  make a := (Dis.BlankingSector.init a.1 a.2.1 a.2.2.1 a.2.2.2.1 a.2.2.2.2.1 a.2.2.2.2.2.1 a.2.2.2.2.2.2.1 a.2.2.2.2.2.2.2 : Dis.BlankingSector)

/-- `LaunchedMunitionRecord(...)`, /repo/opendis/dis7.py:2319-2330. -/
def Constructor.LaunchedMunitionRecord : Constructor where
  cls := .LaunchedMunitionRecord
  params := LaunchedMunitionRecord.__init__.params
  Args := (Option Dis.EventIdentifier) × (Option Dis.EventIdentifier) × (Option Dis.EventIdentifier) × (Option Dis.WorldCoordinates)
  values a := [optArg EventIdentifier.enc a.1, optArg EventIdentifier.enc a.2.1, optArg EventIdentifier.enc a.2.2.1, optArg WorldCoordinates.enc a.2.2.2]
  make a := (Dis.LaunchedMunitionRecord.init a.1 a.2.1 a.2.2.1 a.2.2.2 : Dis.LaunchedMunitionRecord)

/-- `IFFFundamentalParameterData(...)`, /repo/opendis/dis7.py:2359-2373. -/
def Constructor.IFFFundamentalParameterData : Constructor where
  cls := .IFFFundamentalParameterData
  params := IFFFundamentalParameterData.__init__.params
  Args := F64 × F64 × F64 × F64 × Int × Int × (Option (List Int))
  values a := [.float a.1, .float a.2.1, .float a.2.2.1, .float a.2.2.2.1, .int a.2.2.2.2.1, .int a.2.2.2.2.2.1, listArg Val.int a.2.2.2.2.2.2]
  make a := (Dis.IFFFundamentalParameterData.init a.1 a.2.1 a.2.2.1 a.2.2.2.1 a.2.2.2.2.1 a.2.2.2.2.2.1 (a.2.2.2.2.2.2.getD []) : Dis.IFFFundamentalParameterData)

/-- `FundamentalOperationalData(...)`, /repo/opendis/dis7.py:2407-2437. -/
def Constructor.FundamentalOperationalData : Constructor where
  cls := .FundamentalOperationalData
  params := FundamentalOperationalData.__init__.params
  Args := Int × Int × Int × Int × Int × Int × Int × Int × Int × Int
  values a := [.int a.1, .int a.2.1, .int a.2.2.1, .int a.2.2.2.1, .int a.2.2.2.2.1, .int a.2.2.2.2.2.1, .int a.2.2.2.2.2.2.1, .int a.2.2.2.2.2.2.2.1, .int a.2.2.2.2.2.2.2.2.1, .int a.2.2.2.2.2.2.2.2.2]
  make a := (Dis.FundamentalOperationalData.init a.1 a.2.1 a.2.2.1 a.2.2.2.1 a.2.2.2.2.1 a.2.2.2.2.2.1 a.2.2.2.2.2.2.1 a.2.2.2.2.2.2.2.1 a.2.2.2.2.2.2.2.2.1 a.2.2.2.2.2.2.2.2.2 : Dis.FundamentalOperationalData)

/-- `IntercomCommunicationsParameters(...)`, /repo/opendis/dis7.py:2472-2481. -/
def Constructor.IntercomCommunicationsParameters : Constructor where
  cls := .IntercomCommunicationsParameters
  params := IntercomCommunicationsParameters.__init__.params
  Args := Int × Int × Int
  values a := [.int a.1, .int a.2.1, .int a.2.2]
  make a := (Dis.IntercomCommunicationsParameters.init a.1 a.2.1 a.2.2 : Dis.IntercomCommunicationsParameters)

/-- `Munition(...)`, /repo/opendis/dis7.py:2552-2566. -/
def Constructor.Munition : Constructor where
  cls := .Munition
  params := Munition.__init__.params
  Args := (Option Dis.EntityType) × Int × Int × Int
  values a := [optArg EntityType.enc a.1, .int a.2.1, .int a.2.2.1, .int a.2.2.2]
  make a := (Dis.Munition.init a.1 a.2.1 a.2.2.1 a.2.2.2 : Dis.Munition)

/-- `StandardVariableSpecification(...)`, /repo/opendis/dis7.py:2591-2596. -/
def Constructor.StandardVariableSpecification : Constructor where
  cls := .StandardVariableSpecification
  params := StandardVariableSpecification.__init__.params
  Args := (Option (List Int))
  values a := [listArg Val.int a]
  make a := (Dis.StandardVariableSpecification.init (a.getD []) : Dis.StandardVariableSpecification)

/-- `Vector2Float(...)`, /repo/opendis/dis7.py:2621-2623. -/
def Constructor.Vector2Float : Constructor where
  cls := .Vector2Float
  params := Vector2Float.__init__.params
  Args := F64 × F64
  values a := [.float a.1, .float a.2]
  make a := (Dis.Vector2Float.init a.1 a.2 : Dis.Vector2Float)

/-- `AcousticEmitter(...)`, /repo/opendis/dis7.py:2677-2686. -/
def Constructor.AcousticEmitter : Constructor where
  cls := .AcousticEmitter
  params := AcousticEmitter.__init__.params
  Args := Int × Int × Int
  values a := [.int a.1, .int a.2.1, .int a.2.2]
  make a := (Dis.AcousticEmitter.init a.1 a.2.1 a.2.2 : Dis.AcousticEmitter)

/-- `AggregateMarking(...)`, /repo/opendis/dis7.py:2738-2744. -/
def Constructor.AggregateMarking : Constructor where
  cls := .AggregateMarking
  params := AggregateMarking.__init__.params
  Args := Int × (List Int)
  values a := [.int a.1, .list (a.2.map Val.int)]
  make a := (Dis.AggregateMarking.init a.1 a.2 : Dis.AggregateMarking)

/-- `DataFilterRecord(...)`, /repo/opendis/dis7.py:2771-2773. -/
def Constructor.DataFilterRecord : Constructor where
  cls := .DataFilterRecord
  params := DataFilterRecord.__init__.params
  Args := Int
  values a := [.int a]
  make a := (Dis.DataFilterRecord.init a : Dis.DataFilterRecord)

/-- `IntercomIdentifier(...)`, /repo/opendis/dis7.py:2790-2798. -/
def Constructor.IntercomIdentifier : Constructor where
  cls := .IntercomIdentifier
  params := IntercomIdentifier.__init__.params
  Args := Int × Int × Int × Int
  values a := [.int a.1, .int a.2.1, .int a.2.2.1, .int a.2.2.2]
  make a := (Dis.IntercomIdentifier.init a.1 a.2.1 a.2.2.1 a.2.2.2 : Dis.IntercomIdentifier)

/-- `StorageFuel(...)`, /repo/opendis/dis7.py:2821-2834. -/
def Constructor.StorageFuel : Constructor where
  cls := .StorageFuel
  params := StorageFuel.__init__.params
  Args := Int × Int × Int × Int
  values a := [.int a.1, .int a.2.1, .int a.2.2.1, .int a.2.2.2]
  make a := (Dis.StorageFuel.init a.1 a.2.1 a.2.2.1 a.2.2.2 : Dis.StorageFuel)

/-- `Sensor(...)`, /repo/opendis/dis7.py:2859-2875. -/
def Constructor.Sensor : Constructor where
  cls := .Sensor
  params := Sensor.__init__.params
  Args := Int × Int × Int × Int × Int
  values a := [.int a.1, .int a.2.1, .int a.2.2.1, .int a.2.2.2.1, .int a.2.2.2.2]
  make a := (Dis.Sensor.init a.1 a.2.1 a.2.2.1 a.2.2.2.1 a.2.2.2.2 : Dis.Sensor)

/-- `MunitionReload(...)`, /repo/opendis/dis7.py:2903-2922. -/
def Constructor.MunitionReload : Constructor where
  cls := .MunitionReload
  params := MunitionReload.__init__.params
  Args := (Option Dis.EntityType) × Int × Int × Int × Int × Int
  values a := [optArg EntityType.enc a.1, .int a.2.1, .int a.2.2.1, .int a.2.2.2.1, .int a.2.2.2.2.1, .int a.2.2.2.2.2]
  make a := (Dis.MunitionReload.init a.1 a.2.1 a.2.2.1 a.2.2.2.1 a.2.2.2.2.1 a.2.2.2.2.2 : Dis.MunitionReload)

/-- `StorageFuelReload(...)`, /repo/opendis/dis7.py:2952-2974. -/
def Constructor.StorageFuelReload : Constructor where
  cls := .StorageFuelReload
  params := StorageFuelReload.__init__.params
  Args := Int × Int × Int × Int × Int × Int × Int
  values a := [.int a.1, .int a.2.1, .int a.2.2.1, .int a.2.2.2.1, .int a.2.2.2.2.1, .int a.2.2.2.2.2.1, .int a.2.2.2.2.2.2]
  make a := (Dis.StorageFuelReload.init a.1 a.2.1 a.2.2.1 a.2.2.2.1 a.2.2.2.2.1 a.2.2.2.2.2.1 a.2.2.2.2.2.2 : Dis.StorageFuelReload)

/-- `ExpendableReload(...)`, /repo/opendis/dis7.py:3005-3019. -/
def Constructor.ExpendableReload : Constructor where
  cls := .ExpendableReload
  params := ExpendableReload.__init__.params
  Args := (Option Dis.EntityType) × Int × Int × Int × Int × Int
  values a := [optArg EntityType.enc a.1, .int a.2.1, .int a.2.2.1, .int a.2.2.2.1, .int a.2.2.2.2.1, .int a.2.2.2.2.2]
  make a := (Dis.ExpendableReload.init a.1 a.2.1 a.2.2.1 a.2.2.2.1 a.2.2.2.2.1 a.2.2.2.2.2 : Dis.ExpendableReload)

/-- `EngineFuelReload(...)`, /repo/opendis/dis7.py:3043-3062. -/
def Constructor.EngineFuelReload : Constructor where
  cls := .EngineFuelReload
  params := EngineFuelReload.__init__.params
  Args := Int × Int × Int × Int × Int × Int
  values a := [.int a.1, .int a.2.1, .int a.2.2.1, .int a.2.2.2.1, .int a.2.2.2.2.1, .int a.2.2.2.2.2]
  make a := (Dis.EngineFuelReload.init a.1 a.2.1 a.2.2.1 a.2.2.2.1 a.2.2.2.2.1 a.2.2.2.2.2 : Dis.EngineFuelReload)

/-- `UnattachedIdentifier(...)`, /repo/opendis/dis7.py:3093-3099. -/
def Constructor.UnattachedIdentifier : Constructor where
  cls := .UnattachedIdentifier
  params := UnattachedIdentifier.__init__.params
  Args := (Option Dis.SimulationAddress) × Int
  values a := [optArg SimulationAddress.enc a.1, .int a.2]
  make a := (Dis.UnattachedIdentifier.init a.1 a.2 : Dis.UnattachedIdentifier)

/-- `EntityTypeVP(...)`, /repo/opendis/dis7.py:3119-3127. -/
def Constructor.EntityTypeVP : Constructor where
  cls := .EntityTypeVP
  params := EntityTypeVP.__init__.params
  Args := Int × (Option Dis.EntityType)
  values a := [.int a.1, optArg EntityType.enc a.2]
  make a := (Dis.EntityTypeVP.init a.1 a.2 : Dis.EntityTypeVP)

/-- `BeamStatus(...)`, /repo/opendis/dis7.py:3154-3156. -/
def Constructor.BeamStatus : Constructor where
  cls := .BeamStatus
  params := BeamStatus.__init__.params
  Args := Int
  values a := [.int a]
  make a := (Dis.BeamStatus.init a : Dis.BeamStatus)

/-- `GridAxis(...)`, /repo/opendis/dis7.py:3218-3239. -/
def Constructor.GridAxis : Constructor where
  cls := .GridAxis
  params := GridAxis.__init__.params
  Args := F64 × F64 × Int × Int × Int × Int × Int
  values a := [.float a.1, .float a.2.1, .int a.2.2.1, .int a.2.2.2.1, .int a.2.2.2.2.1, .int a.2.2.2.2.2.1, .int a.2.2.2.2.2.2]
  make a := (Dis.GridAxis.init a.1 a.2.1 a.2.2.1 a.2.2.2.1 a.2.2.2.2.1 a.2.2.2.2.2.1 a.2.2.2.2.2.2 : Dis.GridAxis)

/-- `RecordSpecification(...)`, /repo/opendis/dis7.py:3269-3272. -/
def Constructor.RecordSpecification : Constructor where
  cls := .RecordSpecification
  params := RecordSpecification.__init__.params
  Args := (Option (List Dis.RecordSpecificationElement))
  values a := [listArg RecordSpecificationElement.enc a]
  make a := (Dis.RecordSpecification.init (a.getD []) : Dis.RecordSpecification)

/-- `EventIdentifierLiveEntity(...)`, /repo/opendis/dis7.py:3349-3355. -/
def Constructor.EventIdentifierLiveEntity : Constructor where
  cls := .EventIdentifierLiveEntity
  params := EventIdentifierLiveEntity.__init__.params
  Args := Int × Int × Int
  values a := [.int a.1, .int a.2.1, .int a.2.2]
  make a := (Dis.EventIdentifierLiveEntity.init a.1 a.2.1 a.2.2 : Dis.EventIdentifierLiveEntity)

/-- `ExpendableDescriptor(...)`, /repo/opendis/dis7.py:3510-3513. -/
def Constructor.ExpendableDescriptor : Constructor where
  cls := .ExpendableDescriptor
  params := ExpendableDescriptor.__init__.params
  Args := (Option Dis.EntityType)
  values a := [optArg EntityType.enc a]
  make a := (Dis.ExpendableDescriptor.init a : Dis.ExpendableDescriptor)

/-- `PropulsionSystemData(...)`, /repo/opendis/dis7.py:3534-3540. -/
def Constructor.PropulsionSystemData : Constructor where
  cls := .PropulsionSystemData
  params := PropulsionSystemData.__init__.params
  Args := F64 × F64
  values a := [.float a.1, .float a.2]
  make a := (Dis.PropulsionSystemData.init a.1 a.2 : Dis.PropulsionSystemData)

/-- `LiveEntityIdentifier(...)`, /repo/opendis/dis7.py:3560-3567. -/
def Constructor.LiveEntityIdentifier : Constructor where
  cls := .LiveEntityIdentifier
  params := LiveEntityIdentifier.__init__.params
  Args := (Option Dis.LiveSimulationAddress) × Int
  values a := [optArg LiveSimulationAddress.enc a.1, .int a.2]
  make a := (Dis.LiveEntityIdentifier.init a.1 a.2 : Dis.LiveEntityIdentifier)

/-- `EmitterSystem(...)`, /repo/opendis/dis7.py:3630-3636. -/
def Constructor.EmitterSystem : Constructor where
  cls := .EmitterSystem
  params := EmitterSystem.__init__.params
  Args := Int × Int × Int
  values a := [.int a.1, .int a.2.1, .int a.2.2]
  make a := (Dis.EmitterSystem.init a.1 a.2.1 a.2.2 : Dis.EmitterSystem)

/-- `PduStatus(...)`, /repo/opendis/dis7.py:3658-3660. -/
def Constructor.PduStatus : Constructor where
  cls := .PduStatus
  params := PduStatus.__init__.params
  Args := Int
  values a := [.int a]
  make a := (Dis.PduStatus.init a : Dis.PduStatus)

/-- `EmissionSystemBeamRecord(...)`, /repo/opendis/dis7.py:5178-5197. -/
def Constructor.EmissionSystemBeamRecord : Constructor where
  cls := .EmissionSystemBeamRecord
  params := EmissionSystemBeamRecord.__init__.params
  Args := Int × Int × Int × (Dis.EEFundamentalParameterData) × Int × Int × (Option Dis.BeamStatus) × Int × (Option (List Dis.TrackJamData))
  values a := [.int a.1, .int a.2.1, .int a.2.2.1, EEFundamentalParameterData.enc a.2.2.2.1, .int a.2.2.2.2.1, .int a.2.2.2.2.2.1, optArg BeamStatus.enc a.2.2.2.2.2.2.1, .int a.2.2.2.2.2.2.2.1, listArg TrackJamData.enc a.2.2.2.2.2.2.2.2]
  make a := (Dis.EmissionSystemBeamRecord.init a.1 a.2.1 a.2.2.1 (some a.2.2.2.1) a.2.2.2.2.1 a.2.2.2.2.2.1 a.2.2.2.2.2.2.1 a.2.2.2.2.2.2.2.1 (a.2.2.2.2.2.2.2.2.getD []) : Dis.EmissionSystemBeamRecord)

/-- `EmissionSystemRecord(...)`, /repo/opendis/dis7.py:5240-5252. -/
def Constructor.EmissionSystemRecord : Constructor where
  cls := .EmissionSystemRecord
  params := EmissionSystemRecord.__init__.params
  Args := Int × (Option Dis.EmitterSystem) × (Option Dis.Vector3Float) × (Option (List Dis.EmissionSystemBeamRecord))
  values a := [.int a.1, optArg EmitterSystem.enc a.2.1, optArg Vector3Float.enc a.2.2.1, listArg EmissionSystemBeamRecord.enc a.2.2.2]
  make a := (Dis.EmissionSystemRecord.init a.1 a.2.1 a.2.2.1 (a.2.2.2.getD []) : Dis.EmissionSystemRecord)

/-- `EntityStateUpdatePdu(...)`, /repo/opendis/dis7.py:3768-3788. -/
def Constructor.EntityStateUpdatePdu : Constructor where
  cls := .EntityStateUpdatePdu
  params := EntityStateUpdatePdu.__init__.params
  Args := (Option Dis.EntityIdentifier) × (Option Dis.Vector3Float) × (Option Dis.WorldCoordinates) × (Option Dis.EulerAngles) × Int × (Option (List Dis.VariableParameter))
  values a := [optArg EntityIdentifier.enc a.1, optArg Vector3Float.enc a.2.1, optArg WorldCoordinates.enc a.2.2.1, optArg EulerAngles.enc a.2.2.2.1, .int a.2.2.2.2.1, listArg VariableParameter.enc a.2.2.2.2.2]
  make a := (Dis.EntityStateUpdatePdu.init a.1 a.2.1 a.2.2.1 a.2.2.2.1 a.2.2.2.2.1 (a.2.2.2.2.2.getD []) : Dis.EntityStateUpdatePdu)

/-- `ServiceRequestPdu(...)`, /repo/opendis/dis7.py:3831-3844. -/
def Constructor.ServiceRequestPdu : Constructor where
  cls := .ServiceRequestPdu
  params := ServiceRequestPdu.__init__.params
  Args := (Option Dis.EntityIdentifier) × (Option Dis.EntityIdentifier) × Int × (Option (List Dis.SupplyQuantity))
  values a := [optArg EntityIdentifier.enc a.1, optArg EntityIdentifier.enc a.2.1, .int a.2.2.1, listArg SupplyQuantity.enc a.2.2.2]
  make a := (Dis.ServiceRequestPdu.init a.1 a.2.1 a.2.2.1 (a.2.2.2.getD []) : Dis.ServiceRequestPdu)

/-- `RepairCompletePdu(...)`, /repo/opendis/dis7.py:3882-3894. -/
def Constructor.RepairCompletePdu : Constructor where
  cls := .RepairCompletePdu
  params := RepairCompletePdu.__init__.params
  Args := (Option Dis.EntityIdentifier) × (Option Dis.EntityIdentifier) × Int
  values a := [optArg EntityIdentifier.enc a.1, optArg EntityIdentifier.enc a.2.1, .int a.2.2]
  make a := (Dis.RepairCompletePdu.init a.1 a.2.1 a.2.2 : Dis.RepairCompletePdu)

/-- `CollisionPdu(...)`, /repo/opendis/dis7.py:3940-3963. -/
def Constructor.CollisionPdu : Constructor where
  cls := .CollisionPdu
  params := CollisionPdu.__init__.params
  Args := (Option Dis.EntityIdentifier) × (Option Dis.EntityIdentifier) × (Option Dis.EventIdentifier) × Int × (Option Dis.Vector3Float) × F64 × (Option Dis.Vector3Float)
  values a := [optArg EntityIdentifier.enc a.1, optArg EntityIdentifier.enc a.2.1, optArg EventIdentifier.enc a.2.2.1, .int a.2.2.2.1, optArg Vector3Float.enc a.2.2.2.2.1, .float a.2.2.2.2.2.1, optArg Vector3Float.enc a.2.2.2.2.2.2]
  make a := (Dis.CollisionPdu.init a.1 a.2.1 a.2.2.1 a.2.2.2.1 a.2.2.2.2.1 a.2.2.2.2.2.1 a.2.2.2.2.2.2 : Dis.CollisionPdu)

/-- `RepairResponsePdu(...)`, /repo/opendis/dis7.py:3997-4009. -/
def Constructor.RepairResponsePdu : Constructor where
  cls := .RepairResponsePdu
  params := RepairResponsePdu.__init__.params
  Args := (Option Dis.EntityIdentifier) × (Option Dis.EntityIdentifier) × Int
  values a := [optArg EntityIdentifier.enc a.1, optArg EntityIdentifier.enc a.2.1, .int a.2.2]
  make a := (Dis.RepairResponsePdu.init a.1 a.2.1 a.2.2 : Dis.RepairResponsePdu)

/-- `DataQueryPdu(...)`, /repo/opendis/dis7.py:4066-4077. -/
def Constructor.DataQueryPdu : Constructor where
  cls := .DataQueryPdu
  params := DataQueryPdu.__init__.params
  Args := Int × Int × (Option (List Int)) × (Option (List Int))
  values a := [.int a.1, .int a.2.1, listArg Val.int a.2.2.1, listArg Val.int a.2.2.2]
  make a := (Dis.DataQueryPdu.init a.1 a.2.1 (a.2.2.1.getD []) (a.2.2.2.getD []) : Dis.DataQueryPdu)

/-- `CreateEntityPdu(...)`, /repo/opendis/dis7.py:4185-4188. -/
def Constructor.CreateEntityPdu : Constructor where
  cls := .CreateEntityPdu
  params := CreateEntityPdu.__init__.params
  Args := Int
  values a := [.int a]
  make a := (Dis.CreateEntityPdu.init a : Dis.CreateEntityPdu)

/-- `IntercomSignalPdu(...)`, /repo/opendis/dis7.py:4227-4244. -/
def Constructor.IntercomSignalPdu : Constructor where
  cls := .IntercomSignalPdu
  params := IntercomSignalPdu.__init__.params
  Args := (Option Dis.EntityIdentifier) × Int × Int × Int × Int × Int × (Option (List Int))
  values a := [optArg EntityIdentifier.enc a.1, .int a.2.1, .int a.2.2.1, .int a.2.2.2.1, .int a.2.2.2.2.1, .int a.2.2.2.2.2.1, listArg Val.int a.2.2.2.2.2.2]
  make a := (Dis.IntercomSignalPdu.init a.1 a.2.1 a.2.2.1 a.2.2.2.1 a.2.2.2.2.1 a.2.2.2.2.2.1 (a.2.2.2.2.2.2.getD []) : Dis.IntercomSignalPdu)

/-- `RemoveEntityPdu(...)`, /repo/opendis/dis7.py:4291-4295. -/
def Constructor.RemoveEntityPdu : Constructor where
  cls := .RemoveEntityPdu
  params := RemoveEntityPdu.__init__.params
  Args := Int
  values a := [.int a]
  make a := (Dis.RemoveEntityPdu.init a : Dis.RemoveEntityPdu)

/-- `ResupplyReceivedPdu(...)`, /repo/opendis/dis7.py:4315-4327. -/
def Constructor.ResupplyReceivedPdu : Constructor where
  cls := .ResupplyReceivedPdu
  params := ResupplyReceivedPdu.__init__.params
  Args := (Option Dis.EntityIdentifier) × (Option Dis.EntityIdentifier) × (Option (List Dis.SupplyQuantity))
  values a := [optArg EntityIdentifier.enc a.1, optArg EntityIdentifier.enc a.2.1, listArg SupplyQuantity.enc a.2.2]
  make a := (Dis.ResupplyReceivedPdu.init a.1 a.2.1 (a.2.2.getD []) : Dis.ResupplyReceivedPdu)

/-- `CollisionElasticPdu(...)`, /repo/opendis/dis7.py:4396-4436. -/
def Constructor.CollisionElasticPdu : Constructor where
  cls := .CollisionElasticPdu
  params := CollisionElasticPdu.__init__.params
  Args := (Option Dis.EntityIdentifier) × (Option Dis.EntityIdentifier) × (Option Dis.EventIdentifier) × (Option Dis.Vector3Float) × F64 × (Option Dis.Vector3Float) × F64 × F64 × F64 × F64 × F64 × F64 × (Option Dis.Vector3Float) × F64
  values a := [optArg EntityIdentifier.enc a.1, optArg EntityIdentifier.enc a.2.1, optArg EventIdentifier.enc a.2.2.1, optArg Vector3Float.enc a.2.2.2.1, .float a.2.2.2.2.1, optArg Vector3Float.enc a.2.2.2.2.2.1, .float a.2.2.2.2.2.2.1, .float a.2.2.2.2.2.2.2.1, .float a.2.2.2.2.2.2.2.2.1, .float a.2.2.2.2.2.2.2.2.2.1, .float a.2.2.2.2.2.2.2.2.2.2.1, .float a.2.2.2.2.2.2.2.2.2.2.2.1, optArg Vector3Float.enc a.2.2.2.2.2.2.2.2.2.2.2.2.1, .float a.2.2.2.2.2.2.2.2.2.2.2.2.2]
  make a := (Dis.CollisionElasticPdu.init a.1 a.2.1 a.2.2.1 a.2.2.2.1 a.2.2.2.2.1 a.2.2.2.2.2.1 a.2.2.2.2.2.2.1 a.2.2.2.2.2.2.2.1 a.2.2.2.2.2.2.2.2.1 a.2.2.2.2.2.2.2.2.2.1 a.2.2.2.2.2.2.2.2.2.2.1 a.2.2.2.2.2.2.2.2.2.2.2.1 a.2.2.2.2.2.2.2.2.2.2.2.2.1 a.2.2.2.2.2.2.2.2.2.2.2.2.2 : Dis.CollisionElasticPdu)

/-- `AcknowledgePdu(...)`, /repo/opendis/dis7.py:4538-4548. -/
def Constructor.AcknowledgePdu : Constructor where
  cls := .AcknowledgePdu
  params := AcknowledgePdu.__init__.params
  Args := Int × Int × Int
  values a := [.int a.1, .int a.2.1, .int a.2.2]
  make a := (Dis.AcknowledgePdu.init a.1 a.2.1 a.2.2 : Dis.AcknowledgePdu)

/-- `DesignatorPdu(...)`, /repo/opendis/dis7.py:4685-4721. -/
def Constructor.DesignatorPdu : Constructor where
  cls := .DesignatorPdu
  params := DesignatorPdu.__init__.params
  Args := (Option Dis.EntityIdentifier) × Int × (Option Dis.EntityIdentifier) × Int × F64 × F64 × (Option Dis.Vector3Float) × (Option Dis.WorldCoordinates) × Int × (Option Dis.Vector3Float)
  values a := [optArg EntityIdentifier.enc a.1, .int a.2.1, optArg EntityIdentifier.enc a.2.2.1, .int a.2.2.2.1, .float a.2.2.2.2.1, .float a.2.2.2.2.2.1, optArg Vector3Float.enc a.2.2.2.2.2.2.1, optArg WorldCoordinates.enc a.2.2.2.2.2.2.2.1, .int a.2.2.2.2.2.2.2.2.1, optArg Vector3Float.enc a.2.2.2.2.2.2.2.2.2]
  make a := (Dis.DesignatorPdu.init a.1 a.2.1 a.2.2.1 a.2.2.2.1 a.2.2.2.2.1 a.2.2.2.2.2.1 a.2.2.2.2.2.2.1 a.2.2.2.2.2.2.2.1 a.2.2.2.2.2.2.2.2.1 a.2.2.2.2.2.2.2.2.2 : Dis.DesignatorPdu)

/-- `StopFreezePdu(...)`, /repo/opendis/dis7.py:4763-4777. -/
def Constructor.StopFreezePdu : Constructor where
  cls := .StopFreezePdu
  params := StopFreezePdu.__init__.params
  Args := (Option Dis.ClockTime) × Int × Int × Int
  values a := [optArg ClockTime.enc a.1, .int a.2.1, .int a.2.2.1, .int a.2.2.2]
  make a := (Dis.StopFreezePdu.init a.1 a.2.1 a.2.2.1 a.2.2.2 : Dis.StopFreezePdu)

/-- `EntityStatePdu(...)`, /repo/opendis/dis7.py:4805-4842. -/
def Constructor.EntityStatePdu : Constructor where
  cls := .EntityStatePdu
  params := EntityStatePdu.__init__.params
  Args := (Option Dis.EntityIdentifier) × Int × (Option Dis.EntityType) × (Option Dis.EntityType) × (Option Dis.Vector3Float) × (Option Dis.WorldCoordinates) × (Option Dis.EulerAngles) × Int × (Option Dis.DeadReckoningParameters) × (Option Dis.EntityMarking) × Int × (Option (List Dis.VariableParameter))
  values a := [optArg EntityIdentifier.enc a.1, .int a.2.1, optArg EntityType.enc a.2.2.1, optArg EntityType.enc a.2.2.2.1, optArg Vector3Float.enc a.2.2.2.2.1, optArg WorldCoordinates.enc a.2.2.2.2.2.1, optArg EulerAngles.enc a.2.2.2.2.2.2.1, .int a.2.2.2.2.2.2.2.1, optArg DeadReckoningParameters.enc a.2.2.2.2.2.2.2.2.1, optArg EntityMarking.enc a.2.2.2.2.2.2.2.2.2.1, .int a.2.2.2.2.2.2.2.2.2.2.1, listArg VariableParameter.enc a.2.2.2.2.2.2.2.2.2.2.2]
  make a := (Dis.EntityStatePdu.init a.1 a.2.1 a.2.2.1 a.2.2.2.1 a.2.2.2.2.1 a.2.2.2.2.2.1 a.2.2.2.2.2.2.1 a.2.2.2.2.2.2.2.1 a.2.2.2.2.2.2.2.2.1 a.2.2.2.2.2.2.2.2.2.1 a.2.2.2.2.2.2.2.2.2.2.1 (a.2.2.2.2.2.2.2.2.2.2.2.getD []) : Dis.EntityStatePdu)

/-- `StartResumePdu(...)`, /repo/opendis/dis7.py:4916-4926. -/
def Constructor.StartResumePdu : Constructor where
  cls := .StartResumePdu
  params := StartResumePdu.__init__.params
  Args := (Option Dis.ClockTime) × (Option Dis.ClockTime) × Int
  values a := [optArg ClockTime.enc a.1, optArg ClockTime.enc a.2.1, .int a.2.2]
  make a := (Dis.StartResumePdu.init a.1 a.2.1 a.2.2 : Dis.StartResumePdu)

/-- `ElectromagneticEmissionsPdu(...)`, /repo/opendis/dis7.py:5127-5140. -/
def Constructor.ElectromagneticEmissionsPdu : Constructor where
  cls := .ElectromagneticEmissionsPdu
  params := ElectromagneticEmissionsPdu.__init__.params
  Args := (Option Dis.EntityIdentifier) × (Option Dis.EventIdentifier) × Int × (Option (List Dis.EmissionSystemRecord))
  values a := [optArg EntityIdentifier.enc a.1, optArg EventIdentifier.enc a.2.1, .int a.2.2.1, listArg EmissionSystemRecord.enc a.2.2.2]
  make a := (Dis.ElectromagneticEmissionsPdu.init a.1 a.2.1 a.2.2.1 (a.2.2.2.getD []) : Dis.ElectromagneticEmissionsPdu)

/-- `ResupplyOfferPdu(...)`, /repo/opendis/dis7.py:5287-5299. -/
def Constructor.ResupplyOfferPdu : Constructor where
  cls := .ResupplyOfferPdu
  params := ResupplyOfferPdu.__init__.params
  Args := (Option Dis.EntityIdentifier) × (Option Dis.EntityIdentifier) × (Option (List Dis.SupplyQuantity))
  values a := [optArg EntityIdentifier.enc a.1, optArg EntityIdentifier.enc a.2.1, listArg SupplyQuantity.enc a.2.2]
  make a := (Dis.ResupplyOfferPdu.init a.1 a.2.1 (a.2.2.getD []) : Dis.ResupplyOfferPdu)

/-- `PointObjectStatePdu(...)`, /repo/opendis/dis7.py:5513-5550. -/
def Constructor.PointObjectStatePdu : Constructor where
  cls := .PointObjectStatePdu
  params := PointObjectStatePdu.__init__.params
  Args := (Option Dis.EntityIdentifier) × (Option Dis.EntityIdentifier) × Int × Int × Int × (Option Dis.ObjectType) × (Option Dis.WorldCoordinates) × (Option Dis.EulerAngles) × F64 × (Option Dis.SimulationAddress) × (Option Dis.SimulationAddress)
  values a := [optArg EntityIdentifier.enc a.1, optArg EntityIdentifier.enc a.2.1, .int a.2.2.1, .int a.2.2.2.1, .int a.2.2.2.2.1, optArg ObjectType.enc a.2.2.2.2.2.1, optArg WorldCoordinates.enc a.2.2.2.2.2.2.1, optArg EulerAngles.enc a.2.2.2.2.2.2.2.1, .float a.2.2.2.2.2.2.2.2.1, optArg SimulationAddress.enc a.2.2.2.2.2.2.2.2.2.1, optArg SimulationAddress.enc a.2.2.2.2.2.2.2.2.2.2]
  make a := (Dis.PointObjectStatePdu.init a.1 a.2.1 a.2.2.1 a.2.2.2.1 a.2.2.2.2.1 a.2.2.2.2.2.1 a.2.2.2.2.2.2.1 a.2.2.2.2.2.2.2.1 a.2.2.2.2.2.2.2.2.1 a.2.2.2.2.2.2.2.2.2.1 a.2.2.2.2.2.2.2.2.2.2 : Dis.PointObjectStatePdu)

/-- `FastEntityStatePdu(...)`, /repo/opendis/dis7.py:5646-5762. -/
def Constructor.FastEntityStatePdu : Constructor where
  cls := .FastEntityStatePdu
  params := FastEntityStatePdu.__init__.params
  Args := Int × Int × Int × Int × Int × Int × Int × Int × Int × Int × Int × Int × Int × Int × Int × Int × Int × Int × Int × F64 × F64 × F64 × F64 × F64 × F64 × F64 × F64 × F64 × Int × Int × (Option (List Int)) × F64 × F64 × F64 × F64 × F64 × F64 × (Option (List Int)) × Int × (Option (List Dis.VariableParameter))
  values a := [.int a.1, .int a.2.1, .int a.2.2.1, .int a.2.2.2.1, .int a.2.2.2.2.1, .int a.2.2.2.2.2.1, .int a.2.2.2.2.2.2.1, .int a.2.2.2.2.2.2.2.1, .int a.2.2.2.2.2.2.2.2.1, .int a.2.2.2.2.2.2.2.2.2.1, .int a.2.2.2.2.2.2.2.2.2.2.1, .int a.2.2.2.2.2.2.2.2.2.2.2.1, .int a.2.2.2.2.2.2.2.2.2.2.2.2.1, .int a.2.2.2.2.2.2.2.2.2.2.2.2.2.1, .int a.2.2.2.2.2.2.2.2.2.2.2.2.2.2.1, .int a.2.2.2.2.2.2.2.2.2.2.2.2.2.2.2.1, .int a.2.2.2.2.2.2.2.2.2.2.2.2.2.2.2.2.1, .int a.2.2.2.2.2.2.2.2.2.2.2.2.2.2.2.2.2.1, .int a.2.2.2.2.2.2.2.2.2.2.2.2.2.2.2.2.2.2.1, .float a.2.2.2.2.2.2.2.2.2.2.2.2.2.2.2.2.2.2.2.1, .float a.2.2.2.2.2.2.2.2.2.2.2.2.2.2.2.2.2.2.2.2.1, .float a.2.2.2.2.2.2.2.2.2.2.2.2.2.2.2.2.2.2.2.2.2.1, .float a.2.2.2.2.2.2.2.2.2.2.2.2.2.2.2.2.2.2.2.2.2.2.1, .float a.2.2.2.2.2.2.2.2.2.2.2.2.2.2.2.2.2.2.2.2.2.2.2.1, .float a.2.2.2.2.2.2.2.2.2.2.2.2.2.2.2.2.2.2.2.2.2.2.2.2.1, .float a.2.2.2.2.2.2.2.2.2.2.2.2.2.2.2.2.2.2.2.2.2.2.2.2.2.1, .float a.2.2.2.2.2.2.2.2.2.2.2.2.2.2.2.2.2.2.2.2.2.2.2.2.2.2.1, .float a.2.2.2.2.2.2.2.2.2.2.2.2.2.2.2.2.2.2.2.2.2.2.2.2.2.2.2.1, .int a.2.2.2.2.2.2.2.2.2.2.2.2.2.2.2.2.2.2.2.2.2.2.2.2.2.2.2.2.1, .int a.2.2.2.2.2.2.2.2.2.2.2.2.2.2.2.2.2.2.2.2.2.2.2.2.2.2.2.2.2.1, listArg Val.int a.2.2.2.2.2.2.2.2.2.2.2.2.2.2.2.2.2.2.2.2.2.2.2.2.2.2.2.2.2.2.1, .float a.2.2.2.2.2.2.2.2.2.2.2.2.2.2.2.2.2.2.2.2.2.2.2.2.2.2.2.2.2.2.2.1, .float a.2.2.2.2.2.2.2.2.2.2.2.2.2.2.2.2.2.2.2.2.2.2.2.2.2.2.2.2.2.2.2.2.1, .float a.2.2.2.2.2.2.2.2.2.2.2.2.2.2.2.2.2.2.2.2.2.2.2.2.2.2.2.2.2.2.2.2.2.1, .float a.2.2.2.2.2.2.2.2.2.2.2.2.2.2.2.2.2.2.2.2.2.2.2.2.2.2.2.2.2.2.2.2.2.2.1, .float a.2.2.2.2.2.2.2.2.2.2.2.2.2.2.2.2.2.2.2.2.2.2.2.2.2.2.2.2.2.2.2.2.2.2.2.1, .float a.2.2.2.2.2.2.2.2.2.2.2.2.2.2.2.2.2.2.2.2.2.2.2.2.2.2.2.2.2.2.2.2.2.2.2.2.1, listArg Val.int a.2.2.2.2.2.2.2.2.2.2.2.2.2.2.2.2.2.2.2.2.2.2.2.2.2.2.2.2.2.2.2.2.2.2.2.2.2.1, .int a.2.2.2.2.2.2.2.2.2.2.2.2.2.2.2.2.2.2.2.2.2.2.2.2.2.2.2.2.2.2.2.2.2.2.2.2.2.2.1, listArg VariableParameter.enc a.2.2.2.2.2.2.2.2.2.2.2.2.2.2.2.2.2.2.2.2.2.2.2.2.2.2.2.2.2.2.2.2.2.2.2.2.2.2.2]
  make a := (Dis.FastEntityStatePdu.init a.1 a.2.1 a.2.2.1 a.2.2.2.1 a.2.2.2.2.1 a.2.2.2.2.2.1 a.2.2.2.2.2.2.1 a.2.2.2.2.2.2.2.1 a.2.2.2.2.2.2.2.2.1 a.2.2.2.2.2.2.2.2.2.1 a.2.2.2.2.2.2.2.2.2.2.1 a.2.2.2.2.2.2.2.2.2.2.2.1 a.2.2.2.2.2.2.2.2.2.2.2.2.1 a.2.2.2.2.2.2.2.2.2.2.2.2.2.1 a.2.2.2.2.2.2.2.2.2.2.2.2.2.2.1 a.2.2.2.2.2.2.2.2.2.2.2.2.2.2.2.1 a.2.2.2.2.2.2.2.2.2.2.2.2.2.2.2.2.1 a.2.2.2.2.2.2.2.2.2.2.2.2.2.2.2.2.2.1 a.2.2.2.2.2.2.2.2.2.2.2.2.2.2.2.2.2.2.1 a.2.2.2.2.2.2.2.2.2.2.2.2.2.2.2.2.2.2.2.1 a.2.2.2.2.2.2.2.2.2.2.2.2.2.2.2.2.2.2.2.2.1 a.2.2.2.2.2.2.2.2.2.2.2.2.2.2.2.2.2.2.2.2.2.1 a.2.2.2.2.2.2.2.2.2.2.2.2.2.2.2.2.2.2.2.2.2.2.1 a.2.2.2.2.2.2.2.2.2.2.2.2.2.2.2.2.2.2.2.2.2.2.2.1 a.2.2.2.2.2.2.2.2.2.2.2.2.2.2.2.2.2.2.2.2.2.2.2.2.1 a.2.2.2.2.2.2.2.2.2.2.2.2.2.2.2.2.2.2.2.2.2.2.2.2.2.1 a.2.2.2.2.2.2.2.2.2.2.2.2.2.2.2.2.2.2.2.2.2.2.2.2.2.2.1 a.2.2.2.2.2.2.2.2.2.2.2.2.2.2.2.2.2.2.2.2.2.2.2.2.2.2.2.1 a.2.2.2.2.2.2.2.2.2.2.2.2.2.2.2.2.2.2.2.2.2.2.2.2.2.2.2.2.1 a.2.2.2.2.2.2.2.2.2.2.2.2.2.2.2.2.2.2.2.2.2.2.2.2.2.2.2.2.2.1 (a.2.2.2.2.2.2.2.2.2.2.2.2.2.2.2.2.2.2.2.2.2.2.2.2.2.2.2.2.2.2.1.getD []) a.2.2.2.2.2.2.2.2.2.2.2.2.2.2.2.2.2.2.2.2.2.2.2.2.2.2.2.2.2.2.2.1 a.2.2.2.2.2.2.2.2.2.2.2.2.2.2.2.2.2.2.2.2.2.2.2.2.2.2.2.2.2.2.2.2.1 a.2.2.2.2.2.2.2.2.2.2.2.2.2.2.2.2.2.2.2.2.2.2.2.2.2.2.2.2.2.2.2.2.2.1 a.2.2.2.2.2.2.2.2.2.2.2.2.2.2.2.2.2.2.2.2.2.2.2.2.2.2.2.2.2.2.2.2.2.2.1 a.2.2.2.2.2.2.2.2.2.2.2.2.2.2.2.2.2.2.2.2.2.2.2.2.2.2.2.2.2.2.2.2.2.2.2.1 a.2.2.2.2.2.2.2.2.2.2.2.2.2.2.2.2.2.2.2.2.2.2.2.2.2.2.2.2.2.2.2.2.2.2.2.2.1 (a.2.2.2.2.2.2.2.2.2.2.2.2.2.2.2.2.2.2.2.2.2.2.2.2.2.2.2.2.2.2.2.2.2.2.2.2.2.1.getD []) a.2.2.2.2.2.2.2.2.2.2.2.2.2.2.2.2.2.2.2.2.2.2.2.2.2.2.2.2.2.2.2.2.2.2.2.2.2.2.1 (a.2.2.2.2.2.2.2.2.2.2.2.2.2.2.2.2.2.2.2.2.2.2.2.2.2.2.2.2.2.2.2.2.2.2.2.2.2.2.2.getD []) : Dis.FastEntityStatePdu)

/-- `AcknowledgeReliablePdu(...)`, /repo/opendis/dis7.py:5879-5888. -/
def Constructor.AcknowledgeReliablePdu : Constructor where
  cls := .AcknowledgeReliablePdu
  params := AcknowledgeReliablePdu.__init__.params
  Args := Int × Int × Int
  values a := [.int a.1, .int a.2.1, .int a.2.2]
  make a := (Dis.AcknowledgeReliablePdu.init a.1 a.2.1 a.2.2 : Dis.AcknowledgeReliablePdu)

/-- `StartResumeReliablePdu(...)`, /repo/opendis/dis7.py:5912-5926. -/
def Constructor.StartResumeReliablePdu : Constructor where
  cls := .StartResumeReliablePdu
  params := StartResumeReliablePdu.__init__.params
  Args := (Option Dis.ClockTime) × (Option Dis.ClockTime) × Int × Int
  values a := [optArg ClockTime.enc a.1, optArg ClockTime.enc a.2.1, .int a.2.2.1, .int a.2.2.2]
  make a := (Dis.StartResumeReliablePdu.init a.1 a.2.1 a.2.2.1 a.2.2.2 : Dis.StartResumeReliablePdu)

/-- `ArealObjectStatePdu(...)`, /repo/opendis/dis7.py:5958-5985. -/
def Constructor.ArealObjectStatePdu : Constructor where
  cls := .ArealObjectStatePdu
  params := ArealObjectStatePdu.__init__.params
  Args := (Option Dis.EntityIdentifier) × (Option Dis.EntityIdentifier) × Int × Int × Int × (Option Dis.ObjectType) × Int × Int × (Option Dis.SimulationAddress) × (Option Dis.SimulationAddress) × (Option (List Dis.WorldCoordinates))
  values a := [optArg EntityIdentifier.enc a.1, optArg EntityIdentifier.enc a.2.1, .int a.2.2.1, .int a.2.2.2.1, .int a.2.2.2.2.1, optArg ObjectType.enc a.2.2.2.2.2.1, .int a.2.2.2.2.2.2.1, .int a.2.2.2.2.2.2.2.1, optArg SimulationAddress.enc a.2.2.2.2.2.2.2.2.1, optArg SimulationAddress.enc a.2.2.2.2.2.2.2.2.2.1, listArg WorldCoordinates.enc a.2.2.2.2.2.2.2.2.2.2]
  make a := (Dis.ArealObjectStatePdu.init a.1 a.2.1 a.2.2.1 a.2.2.2.1 a.2.2.2.2.1 a.2.2.2.2.2.1 a.2.2.2.2.2.2.1 a.2.2.2.2.2.2.2.1 a.2.2.2.2.2.2.2.2.1 a.2.2.2.2.2.2.2.2.2.1 (a.2.2.2.2.2.2.2.2.2.2.getD []) : Dis.ArealObjectStatePdu)

/-- `DataQueryReliablePdu(...)`, /repo/opendis/dis7.py:6035-6051. -/
def Constructor.DataQueryReliablePdu : Constructor where
  cls := .DataQueryReliablePdu
  params := DataQueryReliablePdu.__init__.params
  Args := Int × Int × Int × (Option (List Int)) × (Option (List Int))
  values a := [.int a.1, .int a.2.1, .int a.2.2.1, listArg Val.int a.2.2.2.1, listArg Val.int a.2.2.2.2]
  make a := (Dis.DataQueryReliablePdu.init a.1 a.2.1 a.2.2.1 (a.2.2.2.1.getD []) (a.2.2.2.2.getD []) : Dis.DataQueryReliablePdu)

/-- `MinefieldStatePdu(...)`, /repo/opendis/dis7.py:6098-6122. -/
def Constructor.MinefieldStatePdu : Constructor where
  cls := .MinefieldStatePdu
  params := MinefieldStatePdu.__init__.params
  Args := (Option Dis.MinefieldIdentifier) × Int × Int × (Option Dis.EntityType) × (Option Dis.WorldCoordinates) × (Option Dis.EulerAngles) × Int × Int × (Option (List Dis.Vector2Float)) × (Option (List Dis.EntityType))
  values a := [optArg MinefieldIdentifier.enc a.1, .int a.2.1, .int a.2.2.1, optArg EntityType.enc a.2.2.2.1, optArg WorldCoordinates.enc a.2.2.2.2.1, optArg EulerAngles.enc a.2.2.2.2.2.1, .int a.2.2.2.2.2.2.1, .int a.2.2.2.2.2.2.2.1, listArg Vector2Float.enc a.2.2.2.2.2.2.2.2.1, listArg EntityType.enc a.2.2.2.2.2.2.2.2.2]
  make a := (Dis.MinefieldStatePdu.init a.1 a.2.1 a.2.2.1 a.2.2.2.1 a.2.2.2.2.1 a.2.2.2.2.2.1 a.2.2.2.2.2.2.1 a.2.2.2.2.2.2.2.1 (a.2.2.2.2.2.2.2.2.1.getD []) (a.2.2.2.2.2.2.2.2.2.getD []) : Dis.MinefieldStatePdu)

/-- `DetonationPdu(...)`, /repo/opendis/dis7.py:6415-6439. -/
def Constructor.DetonationPdu : Constructor where
  cls := .DetonationPdu
  params := DetonationPdu.__init__.params
  Args := (Option Dis.EntityIdentifier) × (Option Dis.EventIdentifier) × (Option Dis.Vector3Float) × (Option Dis.WorldCoordinates) × (Option Dis.MunitionDescriptor) × (Option Dis.Vector3Float) × Int × (Option (List Dis.VariableParameter))
  values a := [optArg EntityIdentifier.enc a.1, optArg EventIdentifier.enc a.2.1, optArg Vector3Float.enc a.2.2.1, optArg WorldCoordinates.enc a.2.2.2.1, optArg MunitionDescriptor.enc a.2.2.2.2.1, optArg Vector3Float.enc a.2.2.2.2.2.1, .int a.2.2.2.2.2.2.1, listArg VariableParameter.enc a.2.2.2.2.2.2.2]
  make a := (Dis.DetonationPdu.init a.1 a.2.1 a.2.2.1 a.2.2.2.1 a.2.2.2.2.1 a.2.2.2.2.2.1 a.2.2.2.2.2.2.1 (a.2.2.2.2.2.2.2.getD []) : Dis.DetonationPdu)

/-- `RecordQueryReliablePdu(...)`, /repo/opendis/dis7.py:6534-6549. -/
def Constructor.RecordQueryReliablePdu : Constructor where
  cls := .RecordQueryReliablePdu
  params := RecordQueryReliablePdu.__init__.params
  Args := Int × Int × Int × Int × (Option (List Int))
  values a := [.int a.1, .int a.2.1, .int a.2.2.1, .int a.2.2.2.1, listArg Val.int a.2.2.2.2]
  make a := (Dis.RecordQueryReliablePdu.init a.1 a.2.1 a.2.2.1 a.2.2.2.1 (a.2.2.2.2.getD []) : Dis.RecordQueryReliablePdu)

/-- `FirePdu(...)`, /repo/opendis/dis7.py:6688-6711. -/
def Constructor.FirePdu : Constructor where
  cls := .FirePdu
  params := FirePdu.__init__.params
  Args := (Option Dis.EntityIdentifier) × (Option Dis.EventIdentifier) × Int × (Option Dis.WorldCoordinates) × (Option Dis.MunitionDescriptor) × (Option Dis.Vector3Float) × F64
  values a := [optArg EntityIdentifier.enc a.1, optArg EventIdentifier.enc a.2.1, .int a.2.2.1, optArg WorldCoordinates.enc a.2.2.2.1, optArg MunitionDescriptor.enc a.2.2.2.2.1, optArg Vector3Float.enc a.2.2.2.2.2.1, .float a.2.2.2.2.2.2]
  make a := (Dis.FirePdu.init a.1 a.2.1 a.2.2.1 a.2.2.2.1 a.2.2.2.2.1 a.2.2.2.2.2.1 a.2.2.2.2.2.2 : Dis.FirePdu)

/-- `ReceiverPdu(...)`, /repo/opendis/dis7.py:6743-6757. -/
def Constructor.ReceiverPdu : Constructor where
  cls := .ReceiverPdu
  params := ReceiverPdu.__init__.params
  Args := Int × F64 × (Option Dis.EntityIdentifier) × Int
  values a := [.int a.1, .float a.2.1, optArg EntityIdentifier.enc a.2.2.1, .int a.2.2.2]
  make a := (Dis.ReceiverPdu.init a.1 a.2.1 a.2.2.1 a.2.2.2 : Dis.ReceiverPdu)

/-- `UaPdu(...)`, /repo/opendis/dis7.py:6787-6814. -/
def Constructor.UaPdu : Constructor where
  cls := .UaPdu
  params := UaPdu.__init__.params
  Args := (Option Dis.EntityIdentifier) × (Option Dis.EventIdentifier) × Int × Int × Int × (Option (List Int)) × (Option (List Int)) × (Option (List Int))
  values a := [optArg EntityIdentifier.enc a.1, optArg EventIdentifier.enc a.2.1, .int a.2.2.1, .int a.2.2.2.1, .int a.2.2.2.2.1, listArg Val.int a.2.2.2.2.2.1, listArg Val.int a.2.2.2.2.2.2.1, listArg Val.int a.2.2.2.2.2.2.2]
  make a := (Dis.UaPdu.init a.1 a.2.1 a.2.2.1 a.2.2.2.1 a.2.2.2.2.1 (a.2.2.2.2.2.1.getD []) (a.2.2.2.2.2.2.1.getD []) (a.2.2.2.2.2.2.2.getD []) : Dis.UaPdu)

/-- `SignalPdu(...)`, /repo/opendis/dis7.py:6966-6982. -/
def Constructor.SignalPdu : Constructor where
  cls := .SignalPdu
  params := SignalPdu.__init__.params
  Args := (Option Dis.EntityIdentifier) × Int × Int × Int × Int × Int × (Option (List Int))
  values a := [optArg EntityIdentifier.enc a.1, .int a.2.1, .int a.2.2.1, .int a.2.2.2.1, .int a.2.2.2.2.1, .int a.2.2.2.2.2.1, listArg Val.int a.2.2.2.2.2.2]
  make a := (Dis.SignalPdu.init a.1 a.2.1 a.2.2.1 a.2.2.2.1 a.2.2.2.2.1 a.2.2.2.2.2.1 (a.2.2.2.2.2.2.getD []) : Dis.SignalPdu)

/-- `RemoveEntityReliablePdu(...)`, /repo/opendis/dis7.py:7025-7033. -/
def Constructor.RemoveEntityReliablePdu : Constructor where
  cls := .RemoveEntityReliablePdu
  params := RemoveEntityReliablePdu.__init__.params
  Args := Int × Int
  values a := [.int a.1, .int a.2]
  make a := (Dis.RemoveEntityReliablePdu.init a.1 a.2 : Dis.RemoveEntityReliablePdu)

/-- `SeesPdu(...)`, /repo/opendis/dis7.py:7059-7072. -/
def Constructor.SeesPdu : Constructor where
  cls := .SeesPdu
  params := SeesPdu.__init__.params
  Args := (Option Dis.EntityIdentifier) × Int × Int × Int × (Option (List Dis.PropulsionSystemData)) × (Option (List Dis.VectoringNozzleSystem))
  values a := [optArg EntityIdentifier.enc a.1, .int a.2.1, .int a.2.2.1, .int a.2.2.2.1, listArg PropulsionSystemData.enc a.2.2.2.2.1, listArg VectoringNozzleSystem.enc a.2.2.2.2.2]
  make a := (Dis.SeesPdu.init a.1 a.2.1 a.2.2.1 a.2.2.2.1 (a.2.2.2.2.1.getD []) (a.2.2.2.2.2.getD []) : Dis.SeesPdu)

/-- `CreateEntityReliablePdu(...)`, /repo/opendis/dis7.py:7129-7137. -/
def Constructor.CreateEntityReliablePdu : Constructor where
  cls := .CreateEntityReliablePdu
  params := CreateEntityReliablePdu.__init__.params
  Args := Int × Int
  values a := [.int a.1, .int a.2]
  make a := (Dis.CreateEntityReliablePdu.init a.1 a.2 : Dis.CreateEntityReliablePdu)

/-- `StopFreezeReliablePdu(...)`, /repo/opendis/dis7.py:7163-7179. -/
def Constructor.StopFreezeReliablePdu : Constructor where
  cls := .StopFreezeReliablePdu
  params := StopFreezeReliablePdu.__init__.params
  Args := (Option Dis.ClockTime) × Int × Int × Int × Int
  values a := [optArg ClockTime.enc a.1, .int a.2.1, .int a.2.2.1, .int a.2.2.2.1, .int a.2.2.2.2]
  make a := (Dis.StopFreezeReliablePdu.init a.1 a.2.1 a.2.2.1 a.2.2.2.1 a.2.2.2.2 : Dis.StopFreezeReliablePdu)

/-- `MinefieldResponseNackPdu(...)`, /repo/opendis/dis7.py:7260-7271. -/
def Constructor.MinefieldResponseNackPdu : Constructor where
  cls := .MinefieldResponseNackPdu
  params := MinefieldResponseNackPdu.__init__.params
  Args := (Option Dis.EntityIdentifier) × (Option Dis.EntityIdentifier) × Int × (Option (List Int))
  values a := [optArg EntityIdentifier.enc a.1, optArg EntityIdentifier.enc a.2.1, .int a.2.2.1, listArg Val.int a.2.2.2]
  make a := (Dis.MinefieldResponseNackPdu.init a.1 a.2.1 a.2.2.1 (a.2.2.2.getD []) : Dis.MinefieldResponseNackPdu)

/-- `IsPartOfPdu(...)`, /repo/opendis/dis7.py:7360-7377. -/
def Constructor.IsPartOfPdu : Constructor where
  cls := .IsPartOfPdu
  params := IsPartOfPdu.__init__.params
  Args := (Option Dis.EntityIdentifier) × (Option Dis.EntityIdentifier) × (Option Dis.Relationship) × (Option Dis.Vector3Float) × (Option Dis.NamedLocationIdentification) × (Option Dis.EntityType)
  values a := [optArg EntityIdentifier.enc a.1, optArg EntityIdentifier.enc a.2.1, optArg Relationship.enc a.2.2.1, optArg Vector3Float.enc a.2.2.2.1, optArg NamedLocationIdentification.enc a.2.2.2.2.1, optArg EntityType.enc a.2.2.2.2.2]
  make a := (Dis.IsPartOfPdu.init a.1 a.2.1 a.2.2.1 a.2.2.2.1 a.2.2.2.2.1 a.2.2.2.2.2 : Dis.IsPartOfPdu)

/-- `AttachedParts(...)`, /repo/opendis/dis7.py:783-795. -/
def Constructor.AttachedParts : Constructor where
  cls := .AttachedParts
  params := AttachedParts.__init__.params
  Args := Int × Int × Int × (Option Dis.EntityType)
  values a := [.int a.1, .int a.2.1, .int a.2.2.1, optArg EntityType.enc a.2.2.2]
  make a := (Dis.AttachedParts.init a.1 a.2.1 a.2.2.1 a.2.2.2 : Dis.AttachedParts)

/-- `VariableDatum(...)`, /repo/opendis/dis7.py:3300-3309. -/
def Constructor.VariableDatum : Constructor where
  cls := .VariableDatum
  params := VariableDatum.__init__.params
  Args := Int × Int × (Option (List Int))
  values a := [.int a.1, .int a.2.1, listArg Val.int a.2.2]
  make a := (Dis.VariableDatum.init a.1 a.2.1 (a.2.2.getD []) : Dis.VariableDatum)

/-- `SilentAggregateSystem(...)`, /repo/opendis/dis7.py:2227-2232. -/
def Constructor.SilentAggregateSystem : Constructor where
  cls := .SilentAggregateSystem
  params := SilentAggregateSystem.__init__.params
  Args := Int × (Option Dis.AggregateType)
  values a := [.int a.1, optArg AggregateType.enc a.2]
  make a := (Dis.SilentAggregateSystem.init a.1 a.2 : Dis.SilentAggregateSystem)

/-- `Environment(...)`, /repo/opendis/dis7.py:2642-2654. -/
def Constructor.Environment : Constructor where
  cls := .Environment
  params := Environment.__init__.params
  Args := Int × Int × Int
  values a := [.int a.1, .int a.2.1, .int a.2.2]
  make a := (Dis.Environment.init a.1 a.2.1 a.2.2 : Dis.Environment)

/-- `EnvironmentGeneral(...)`, /repo/opendis/dis7.py:3176-3191. -/
def Constructor.EnvironmentGeneral : Constructor where
  cls := .EnvironmentGeneral
  params := EnvironmentGeneral.__init__.params
  Args := Int × Int × Int × (Option Int)
  values a := [.int a.1, .int a.2.1, .int a.2.2.1, optArg Val.int a.2.2.2]
  make a := (Dis.EnvironmentGeneral.init a.1 a.2.1 a.2.2.1 a.2.2.2 : Dis.EnvironmentGeneral)

/-- `SeparationVP(...)`, /repo/opendis/dis7.py:3587-3601. -/
def Constructor.SeparationVP : Constructor where
  cls := .SeparationVP
  params := SeparationVP.__init__.params
  Args := Int × Int × (Option Dis.EntityIdentifier) × (Option Dis.NamedLocationIdentification)
  values a := [.int a.1, .int a.2.1, optArg EntityIdentifier.enc a.2.2.1, optArg NamedLocationIdentification.enc a.2.2.2]
  make a := (Dis.SeparationVP.init a.1 a.2.1 a.2.2.1 a.2.2.2 : Dis.SeparationVP)

/-- `ActionRequestPdu(...)`, /repo/opendis/dis7.py:4485-4497. -/
def Constructor.ActionRequestPdu : Constructor where
  cls := .ActionRequestPdu
  params := ActionRequestPdu.__init__.params
  Args := Int × Int × (Option (List Dis.FixedDatum)) × (Option (List Dis.VariableDatum))
  values a := [.int a.1, .int a.2.1, listArg FixedDatum.enc a.2.2.1, listArg VariableDatum.enc a.2.2.2]
  make a := (Dis.ActionRequestPdu.init a.1 a.2.1 (a.2.2.1.getD []) (a.2.2.2.getD []) : Dis.ActionRequestPdu)

/-- `ActionRequestReliablePdu(...)`, /repo/opendis/dis7.py:4621-4637. -/
def Constructor.ActionRequestReliablePdu : Constructor where
  cls := .ActionRequestReliablePdu
  params := ActionRequestReliablePdu.__init__.params
  Args := Int × Int × Int × (Option (List Dis.FixedDatum)) × (Option (List Dis.VariableDatum))
  values a := [.int a.1, .int a.2.1, .int a.2.2.1, listArg FixedDatum.enc a.2.2.2.1, listArg VariableDatum.enc a.2.2.2.2]
  make a := (Dis.ActionRequestReliablePdu.init a.1 a.2.1 a.2.2.1 (a.2.2.2.1.getD []) (a.2.2.2.2.getD []) : Dis.ActionRequestReliablePdu)

/-- `SetDataReliablePdu(...)`, /repo/opendis/dis7.py:5421-5434. -/
def Constructor.SetDataReliablePdu : Constructor where
  cls := .SetDataReliablePdu
  params := SetDataReliablePdu.__init__.params
  Args := Int × Int × (Option (List Dis.FixedDatum)) × (Option (List Dis.VariableDatum))
  values a := [.int a.1, .int a.2.1, listArg FixedDatum.enc a.2.2.1, listArg VariableDatum.enc a.2.2.2]
  make a := (Dis.SetDataReliablePdu.init a.1 a.2.1 (a.2.2.1.getD []) (a.2.2.2.getD []) : Dis.SetDataReliablePdu)

/-- `EventReportPdu(...)`, /repo/opendis/dis7.py:5479-5488. -/
def Constructor.EventReportPdu : Constructor where
  cls := .EventReportPdu
  params := EventReportPdu.__init__.params
  Args := Int × (Option (List Dis.FixedDatum)) × (Option (List Dis.VariableDatum))
  values a := [.int a.1, listArg FixedDatum.enc a.2.1, listArg VariableDatum.enc a.2.2]
  make a := (Dis.EventReportPdu.init a.1 (a.2.1.getD []) (a.2.2.getD []) : Dis.EventReportPdu)

/-- `DataPdu(...)`, /repo/opendis/dis7.py:5593-5603. -/
def Constructor.DataPdu : Constructor where
  cls := .DataPdu
  params := DataPdu.__init__.params
  Args := Int × (Option (List Dis.FixedDatum)) × (Option (List Dis.VariableDatum))
  values a := [.int a.1, listArg FixedDatum.enc a.2.1, listArg VariableDatum.enc a.2.2]
  make a := (Dis.DataPdu.init a.1 (a.2.1.getD []) (a.2.2.getD []) : Dis.DataPdu)

/-- `DataReliablePdu(...)`, /repo/opendis/dis7.py:6183-6196. -/
def Constructor.DataReliablePdu : Constructor where
  cls := .DataReliablePdu
  params := DataReliablePdu.__init__.params
  Args := Int × Int × (Option (List Dis.FixedDatum)) × (Option (List Dis.VariableDatum))
  values a := [.int a.1, .int a.2.1, listArg FixedDatum.enc a.2.2.1, listArg VariableDatum.enc a.2.2.2]
  make a := (Dis.DataReliablePdu.init a.1 a.2.1 (a.2.2.1.getD []) (a.2.2.2.getD []) : Dis.DataReliablePdu)

/-- `CommentPdu(...)`, /repo/opendis/dis7.py:6240-6246. -/
def Constructor.CommentPdu : Constructor where
  cls := .CommentPdu
  params := CommentPdu.__init__.params
  Args := (Option (List Dis.FixedDatum)) × (Option (List Dis.VariableDatum))
  values a := [listArg FixedDatum.enc a.1, listArg VariableDatum.enc a.2]
  make a := (Dis.CommentPdu.init (a.1.getD []) (a.2.getD []) : Dis.CommentPdu)

/-- `CommentReliablePdu(...)`, /repo/opendis/dis7.py:6283-6289. -/
def Constructor.CommentReliablePdu : Constructor where
  cls := .CommentReliablePdu
  params := CommentReliablePdu.__init__.params
  Args := (Option (List Dis.FixedDatum)) × (Option (List Dis.VariableDatum))
  values a := [listArg FixedDatum.enc a.1, listArg VariableDatum.enc a.2]
  make a := (Dis.CommentReliablePdu.init (a.1.getD []) (a.2.getD []) : Dis.CommentReliablePdu)

/-- `SetDataPdu(...)`, /repo/opendis/dis7.py:6485-6494. -/
def Constructor.SetDataPdu : Constructor where
  cls := .SetDataPdu
  params := SetDataPdu.__init__.params
  Args := Int × (Option (List Dis.FixedDatum)) × (Option (List Dis.VariableDatum))
  values a := [.int a.1, listArg FixedDatum.enc a.2.1, listArg VariableDatum.enc a.2.2]
  make a := (Dis.SetDataPdu.init a.1 (a.2.1.getD []) (a.2.2.getD []) : Dis.SetDataPdu)

/-- `ActionResponsePdu(...)`, /repo/opendis/dis7.py:6591-6602. -/
def Constructor.ActionResponsePdu : Constructor where
  cls := .ActionResponsePdu
  params := ActionResponsePdu.__init__.params
  Args := Int × Int × (Option (List Dis.FixedDatum)) × (Option (List Dis.VariableDatum))
  values a := [.int a.1, .int a.2.1, listArg FixedDatum.enc a.2.2.1, listArg VariableDatum.enc a.2.2.2]
  make a := (Dis.ActionResponsePdu.init a.1 a.2.1 (a.2.2.1.getD []) (a.2.2.2.getD []) : Dis.ActionResponsePdu)

/-- `EventReportReliablePdu(...)`, /repo/opendis/dis7.py:7210-7220. -/
def Constructor.EventReportReliablePdu : Constructor where
  cls := .EventReportReliablePdu
  params := EventReportReliablePdu.__init__.params
  Args := Int × (Option (List Dis.FixedDatum)) × (Option (List Dis.VariableDatum))
  values a := [.int a.1, listArg FixedDatum.enc a.2.1, listArg VariableDatum.enc a.2.2]
  make a := (Dis.EventReportReliablePdu.init a.1 (a.2.1.getD []) (a.2.2.getD []) : Dis.EventReportReliablePdu)

/-- `ActionResponseReliablePdu(...)`, /repo/opendis/dis7.py:7309-7319. -/
def Constructor.ActionResponseReliablePdu : Constructor where
  cls := .ActionResponseReliablePdu
  params := ActionResponseReliablePdu.__init__.params
  Args := Int × Int × (Option (List Dis.FixedDatum)) × (Option (List Dis.VariableDatum))
  values a := [.int a.1, .int a.2.1, listArg FixedDatum.enc a.2.2.1, listArg VariableDatum.enc a.2.2.2]
  make a := (Dis.ActionResponseReliablePdu.init a.1 a.2.1 (a.2.2.1.getD []) (a.2.2.2.getD []) : Dis.ActionResponseReliablePdu)

/-- `AggregateStatePdu(...)`, /repo/opendis/dis7.py:7409-7449. -/
def Constructor.AggregateStatePdu : Constructor where
  cls := .AggregateStatePdu
  params := AggregateStatePdu.__init__.params
  Args := (Option Dis.AggregateIdentifier) × Int × Int × (Option Dis.AggregateType) × Int × (Option Dis.AggregateMarking) × (Option Dis.Vector3Float) × (Option Dis.EulerAngles) × (Option Dis.Vector3Float) × (Option Dis.WorldCoordinates) × (Option (List Dis.AggregateIdentifier)) × (Option (List Dis.EntityIdentifier)) × (Option (List Dis.SilentAggregateSystem)) × (Option (List Dis.SilentEntitySystem)) × (Option (List Dis.VariableDatum))
  values a := [optArg AggregateIdentifier.enc a.1, .int a.2.1, .int a.2.2.1, optArg AggregateType.enc a.2.2.2.1, .int a.2.2.2.2.1, optArg AggregateMarking.enc a.2.2.2.2.2.1, optArg Vector3Float.enc a.2.2.2.2.2.2.1, optArg EulerAngles.enc a.2.2.2.2.2.2.2.1, optArg Vector3Float.enc a.2.2.2.2.2.2.2.2.1, optArg WorldCoordinates.enc a.2.2.2.2.2.2.2.2.2.1, listArg AggregateIdentifier.enc a.2.2.2.2.2.2.2.2.2.2.1, listArg EntityIdentifier.enc a.2.2.2.2.2.2.2.2.2.2.2.1, listArg SilentAggregateSystem.enc a.2.2.2.2.2.2.2.2.2.2.2.2.1, listArg SilentEntitySystem.enc a.2.2.2.2.2.2.2.2.2.2.2.2.2.1, listArg VariableDatum.enc a.2.2.2.2.2.2.2.2.2.2.2.2.2.2]
  make a := (Dis.AggregateStatePdu.init a.1 a.2.1 a.2.2.1 a.2.2.2.1 a.2.2.2.2.1 a.2.2.2.2.2.1 a.2.2.2.2.2.2.1 a.2.2.2.2.2.2.2.1 a.2.2.2.2.2.2.2.2.1 a.2.2.2.2.2.2.2.2.2.1 (a.2.2.2.2.2.2.2.2.2.2.1.getD []) (a.2.2.2.2.2.2.2.2.2.2.2.1.getD []) (a.2.2.2.2.2.2.2.2.2.2.2.2.1.getD []) (a.2.2.2.2.2.2.2.2.2.2.2.2.2.1.getD []) (a.2.2.2.2.2.2.2.2.2.2.2.2.2.2.getD []) : Dis.AggregateStatePdu)

/-- `SpreadSpectrum(...)`, /repo/opendis/record/radio/__init__.py:189-197. -/
def Constructor.SpreadSpectrum : Constructor where
  cls := .SpreadSpectrum
  params := SpreadSpectrum.__init__.params
  Args := Bool × Bool × Bool × Int
  values a := [.bool a.1, .bool a.2.1, .bool a.2.2.1, .int a.2.2.2]
  make a := (Dis.SpreadSpectrum.init a.1 a.2.1 a.2.2.1 a.2.2.2 : Dis.SpreadSpectrum)

/-- `ModulationType(...)`, /repo/opendis/record/radio/__init__.py:224-233. -/
def Constructor.ModulationType : Constructor where
  cls := .ModulationType
  params := ModulationType.__init__.params
  Args := (Option Dis.SpreadSpectrum) × Int × Int × Int
  values a := [optArg SpreadSpectrum.enc a.1, .int a.2.1, .int a.2.2.1, .int a.2.2.2]
  make a := (Dis.ModulationType.init a.1 a.2.1 a.2.2.1 a.2.2.2 : Dis.ModulationType)

/-- `NetId(...)`, /repo/opendis/record/radio/__init__.py:283-292. -/
def Constructor.NetId : Constructor where
  cls := .NetId
  params := NetId.__init__.params
  Args := Int × Int × Int × Int
  values a := [.int a.1, .int a.2.1, .int a.2.2.1, .int a.2.2.2]
  make a := (Dis.NetId.init a.1 a.2.1 a.2.2.1 a.2.2.2 : Dis.NetId)

/-- `BeamAntennaPattern(...)`, /repo/opendis/record/radio/__init__.py:111-132. -/
def Constructor.BeamAntennaPattern : Constructor where
  cls := .BeamAntennaPattern
  params := BeamAntennaPattern.__init__.params
  Args := (Option Dis.EulerAngles) × F64 × F64 × Int × F64 × F64 × F64
  values a := [optArg EulerAngles.enc a.1, .float a.2.1, .float a.2.2.1, .int a.2.2.2.1, .float a.2.2.2.2.1, .float a.2.2.2.2.2.1, .float a.2.2.2.2.2.2]
  make a := (Dis.BeamAntennaPattern.init a.1 a.2.1 a.2.2.1 a.2.2.2.1 a.2.2.2.2.1 a.2.2.2.2.2.1 a.2.2.2.2.2.2 : Dis.BeamAntennaPattern)

/-- `BasicHaveQuickMP(...)`, /repo/opendis/record/radio/__init__.py:360-374. -/
def Constructor.BasicHaveQuickMP : Constructor where
  cls := .BasicHaveQuickMP
  params := BasicHaveQuickMP.__init__.params
  Args := (Option Dis.NetId) × Int × Int × Int × Int × Int × Int
  values a := [optArg NetId.enc a.1, .int a.2.1, .int a.2.2.1, .int a.2.2.2.1, .int a.2.2.2.2.1, .int a.2.2.2.2.2.1, .int a.2.2.2.2.2.2]
  make a := (Dis.BasicHaveQuickMP.init a.1 a.2.1 a.2.2.1 a.2.2.2.1 a.2.2.2.2.1 a.2.2.2.2.2.1 a.2.2.2.2.2.2 : Dis.BasicHaveQuickMP)

/-- `CCTTSincgarsMP(...)`, /repo/opendis/record/radio/__init__.py:406-421. -/
def Constructor.CCTTSincgarsMP : Constructor where
  cls := .CCTTSincgarsMP
  params := CCTTSincgarsMP.__init__.params
  Args := Int × Int × Int × Int × Int × Int × Int
  values a := [.int a.1, .int a.2.1, .int a.2.2.1, .int a.2.2.2.1, .int a.2.2.2.2.1, .int a.2.2.2.2.2.1, .int a.2.2.2.2.2.2]
  make a := (Dis.CCTTSincgarsMP.init a.1 a.2.1 a.2.2.1 a.2.2.2.1 a.2.2.2.2.1 a.2.2.2.2.2.1 a.2.2.2.2.2.2 : Dis.CCTTSincgarsMP)

/-- `DEFireFlags(...)`, /repo/opendis/record/warfare/enums.py:17-23. -/
def Constructor.DEFireFlags : Constructor where
  cls := .DEFireFlags
  params := DEFireFlags.__init__.params
  Args := Int × Int
  values a := [.int a.1, .int a.2]
  make a := (Dis.DEFireFlags.init a.1 a.2 : Dis.DEFireFlags)

/-- `DirectedEnergyTargetEnergyDeposition(...)`, /repo/opendis/record/warfare/__init__.py:260-265. -/
def Constructor.DirectedEnergyTargetEnergyDeposition : Constructor where
  cls := .DirectedEnergyTargetEnergyDeposition
  params := DirectedEnergyTargetEnergyDeposition.__init__.params
  Args := (Option Dis.EntityIdentifier) × F64
  values a := [optArg EntityIdentifier.enc a.1, .float a.2]
  make a := (Dis.DirectedEnergyTargetEnergyDeposition.init a.1 a.2 : Dis.DirectedEnergyTargetEnergyDeposition)

/-- `DirectedEnergyFirePdu(...)`, /repo/opendis/dis7.py:6326-6355. -/
def Constructor.DirectedEnergyFirePdu : Constructor where
  cls := .DirectedEnergyFirePdu
  params := DirectedEnergyFirePdu.__init__.params
  Args := (Option Dis.EntityType) × (Option Dis.ClockTime) × F64 × (Option Dis.Vector3Float) × F64 × F64 × F64 × F64 × (Dis.DEFireFlags) × Int × (Option (List Dis.SVRecord))
  values a := [optArg EntityType.enc a.1, optArg ClockTime.enc a.2.1, .float a.2.2.1, optArg Vector3Float.enc a.2.2.2.1, .float a.2.2.2.2.1, .float a.2.2.2.2.2.1, .float a.2.2.2.2.2.2.1, .float a.2.2.2.2.2.2.2.1, DEFireFlags.enc a.2.2.2.2.2.2.2.2.1, .int a.2.2.2.2.2.2.2.2.2.1, listArg svEnc a.2.2.2.2.2.2.2.2.2.2]
  make a := (Dis.DirectedEnergyFirePdu.init a.1 a.2.1 a.2.2.1 a.2.2.2.1 a.2.2.2.2.1 a.2.2.2.2.2.1 a.2.2.2.2.2.2.1 a.2.2.2.2.2.2.2.1 (some a.2.2.2.2.2.2.2.2.1) a.2.2.2.2.2.2.2.2.2.1 (a.2.2.2.2.2.2.2.2.2.2.getD []) : Dis.DirectedEnergyFirePdu)

/-- `EntityDamageStatusPdu(...)`, /repo/opendis/dis7.py:6643-6651. -/
def Constructor.EntityDamageStatusPdu : Constructor where
  cls := .EntityDamageStatusPdu
  params := EntityDamageStatusPdu.__init__.params
  Args := (Option Dis.EntityIdentifier) × (Option (List Dis.SVRecord))
  values a := [optArg EntityIdentifier.enc a.1, listArg svEnc a.2]
  make a := (Dis.EntityDamageStatusPdu.init a.1 (a.2.getD []) : Dis.EntityDamageStatusPdu)

/-- The constructors that are compared with the source, with all their arguments (/repo/opendis). -/
def constructors : List Constructor :=
  [.DataQueryDatumSpecification,
   .DatumSpecification,
   .SimulationAddress,
   .EntityIdentifier,
   .EulerAngles,
   .EventIdentifier,
   .Vector3Float,
   .WorldCoordinates,
   .RadioIdentifier,
   .RequestID,
   .IFFData,
   .EntityType,
   .MunitionDescriptor,
   .MinefieldSensorType,
   .GroupID,
   .LayerHeader,
   .UnsignedDISInteger,
   .DeadReckoningParameters,
   .ProtocolMode,
   .AngleDeception,
   .EntityAssociation,
   .VectoringNozzleSystem,
   .FalseTargetsAttribute,
   .MinefieldIdentifier,
   .RadioType,
   .NamedLocationIdentification,
   .IFFDataSpecification,
   .OwnershipStatus,
   .Attribute,
   .RecordQuerySpecification,
   .ArticulatedParts,
   .ObjectType,
   .Association,
   .RecordSpecificationElement,
   .AntennaLocation,
   .ObjectIdentifier,
   .AggregateIdentifier,
   .FixedDatum,
   .VariableParameter,
   .LiveSimulationAddress,
   .EntityMarking,
   .UAFundamentalParameter,
   .ExplosionDescriptor,
   .ClockTime,
   .SecondaryOperationalData,
   .EnvironmentType,
   .TotalRecordSets,
   .MineEntityIdentifier,
   .Relationship,
   .EEFundamentalParameterData,
   .JammingTechnique,
   .Expendable,
   .CommunicationsNodeID,
   .IOCommunicationsNode,
   .LinearSegmentParameter,
   .SystemIdentifier,
   .TrackJamData,
   .AggregateType,
   .SimulationIdentifier,
   .PduHeader,
   .SimulationManagementPduHeader,
   .BeamData,
   .EngineFuel,
   .IOEffect,
   .GridAxisDescriptorVariable,
   .SupplyQuantity,
   .SilentEntitySystem,
   .BlankingSector,
   .LaunchedMunitionRecord,
   .IFFFundamentalParameterData,
   .FundamentalOperationalData,
   .IntercomCommunicationsParameters,
   .Munition,
   .StandardVariableSpecification,
   .Vector2Float,
   .AcousticEmitter,
   .AggregateMarking,
   .DataFilterRecord,
   .IntercomIdentifier,
   .StorageFuel,
   .Sensor,
   .MunitionReload,
   .StorageFuelReload,
   .ExpendableReload,
   .EngineFuelReload,
   .UnattachedIdentifier,
   .EntityTypeVP,
   .BeamStatus,
   .GridAxis,
   .RecordSpecification,
   .EventIdentifierLiveEntity,
   .ExpendableDescriptor,
   .PropulsionSystemData,
   .LiveEntityIdentifier,
   .EmitterSystem,
   .PduStatus,
   .EmissionSystemBeamRecord,
   .EmissionSystemRecord,
   .EntityStateUpdatePdu,
   .ServiceRequestPdu,
   .RepairCompletePdu,
   .CollisionPdu,
   .RepairResponsePdu,
   .DataQueryPdu,
   .CreateEntityPdu,
   .IntercomSignalPdu,
   .RemoveEntityPdu,
   .ResupplyReceivedPdu,
   .CollisionElasticPdu,
   .AcknowledgePdu,
   .DesignatorPdu,
   .StopFreezePdu,
   .EntityStatePdu,
   .StartResumePdu,
   .ElectromagneticEmissionsPdu,
   .ResupplyOfferPdu,
   .PointObjectStatePdu,
   .FastEntityStatePdu,
   .AcknowledgeReliablePdu,
   .StartResumeReliablePdu,
   .ArealObjectStatePdu,
   .DataQueryReliablePdu,
   .MinefieldStatePdu,
   .DetonationPdu,
   .RecordQueryReliablePdu,
   .FirePdu,
   .ReceiverPdu,
   .UaPdu,
   .SignalPdu,
   .RemoveEntityReliablePdu,
   .SeesPdu,
   .CreateEntityReliablePdu,
   .StopFreezeReliablePdu,
   .MinefieldResponseNackPdu,
   .IsPartOfPdu,
   .AttachedParts,
   .VariableDatum,
   .SilentAggregateSystem,
   .Environment,
   .EnvironmentGeneral,
   .SeparationVP,
   .ActionRequestPdu,
   .ActionRequestReliablePdu,
   .SetDataReliablePdu,
   .EventReportPdu,
   .DataPdu,
   .DataReliablePdu,
   .CommentPdu,
   .CommentReliablePdu,
   .SetDataPdu,
   .ActionResponsePdu,
   .EventReportReliablePdu,
   .ActionResponseReliablePdu,
   .AggregateStatePdu,
   .SpreadSpectrum,
   .ModulationType,
   .NetId,
   .BeamAntennaPattern,
   .BasicHaveQuickMP,
   .CCTTSincgarsMP,
   .DEFireFlags,
   .DirectedEnergyTargetEnergyDeposition,
   .DirectedEnergyFirePdu,
   .EntityDamageStatusPdu]

end Dis.Src
