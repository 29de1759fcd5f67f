import Verif.Spec.InPlaceCatalog
import Verif.Spec.HeapFieldsSpecial
import Verif.Model.HeapSpecial

/-!
# The catalogue with methods on a memory of objects

Generated by `tools/genheap.py`.
-/

set_option linter.unusedVariables false
set_option linter.unusedSimpArgs false

namespace Dis

/-- A wire class with its methods on values (/repo/opendis/dis7.py and /repo/opendis/record). -/
structure ValueClass where
  /-- name of the Python class -/
  name : String
  /-- its objects -/
  Obj : Type
  /-- the object made by the constructor without arguments -/
  fresh : Obj
  /-- the method `parse` -/
  parse : P Obj Unit
  /-- the method `serialize` -/
  serialize : Obj → W Unit

/-- The class of an entry of `inPlace` (/repo/opendis/dis7.py and /repo/opendis/record). -/
def InPlace.value (c : InPlace) : ValueClass := ⟨c.codec.name, c.codec.Obj, c.codec.fresh, c.into, c.codec.serialize⟩

/-- A wire class with its constructor and methods as programs on a memory of objects (/repo/opendis/dis7.py
and /repo/opendis/record). -/
structure HeapClass where
  /-- the class with its methods on values -/
  value : ValueClass
  /-- the attributes of an object by name -/
  members : value.Obj → List (String × Tree)
  /-- the constructor without arguments -/
  new : H Ref
  /-- the method `parse` -/
  parse : Ref → H Unit
  /-- the method `serialize` -/
  serialize : Ref → S Unit

/-- Entry of `SimulationAddress` (/repo/opendis/record/common.py:133-135). -/
def HeapClass.SimulationAddress : HeapClass where
  value := InPlace.SimulationAddress.value
  members := Dis.SimulationAddress.members
  new := Dis.SimulationAddress.newHeap
  parse := Dis.SimulationAddress.parseHeap
  serialize := Dis.SimulationAddress.serializeHeap

/-- Entry of `EntityIdentifier` (/repo/opendis/record/common.py:48-50). -/
def HeapClass.EntityIdentifier : HeapClass where
  value := InPlace.EntityIdentifier.value
  members := Dis.EntityIdentifier.members
  new := Dis.EntityIdentifier.newHeap
  parse := Dis.EntityIdentifier.parseHeap
  serialize := Dis.EntityIdentifier.serializeHeap

/-- Entry of `EulerAngles` (/repo/opendis/record/common.py:77-80). -/
def HeapClass.EulerAngles : HeapClass where
  value := InPlace.EulerAngles.value
  members := Dis.EulerAngles.members
  new := Dis.EulerAngles.newHeap
  parse := Dis.EulerAngles.parseHeap
  serialize := Dis.EulerAngles.serializeHeap

/-- Entry of `EventIdentifier` (/repo/opendis/record/common.py:106-108). -/
def HeapClass.EventIdentifier : HeapClass where
  value := InPlace.EventIdentifier.value
  members := Dis.EventIdentifier.members
  new := Dis.EventIdentifier.newHeap
  parse := Dis.EventIdentifier.parseHeap
  serialize := Dis.EventIdentifier.serializeHeap

/-- Entry of `Vector3Float` (/repo/opendis/record/common.py:160-163). -/
def HeapClass.Vector3Float : HeapClass where
  value := InPlace.Vector3Float.value
  members := Dis.Vector3Float.members
  new := Dis.Vector3Float.newHeap
  parse := Dis.Vector3Float.parseHeap
  serialize := Dis.Vector3Float.serializeHeap

/-- Entry of `WorldCoordinates` (/repo/opendis/record/common.py:188-191). -/
def HeapClass.WorldCoordinates : HeapClass where
  value := InPlace.WorldCoordinates.value
  members := Dis.WorldCoordinates.members
  new := Dis.WorldCoordinates.newHeap
  parse := Dis.WorldCoordinates.parseHeap
  serialize := Dis.WorldCoordinates.serializeHeap

/-- Classes of `catalogCommon` (/repo/opendis). -/
def heapCommon : List HeapClass :=
  [.SimulationAddress,
   .EntityIdentifier,
   .EulerAngles,
   .EventIdentifier,
   .Vector3Float,
   .WorldCoordinates]

/-- Entry of `DataQueryDatumSpecification` (/repo/opendis/dis7.py:93-101). -/
def HeapClass.DataQueryDatumSpecification : HeapClass where
  value := InPlace.DataQueryDatumSpecification.value
  members := Dis.DataQueryDatumSpecification.members
  new := Dis.DataQueryDatumSpecification.newHeap
  parse := Dis.DataQueryDatumSpecification.parseHeap
  serialize := Dis.DataQueryDatumSpecification.serializeHeap

/-- Entry of `RadioIdentifier` (/repo/opendis/dis7.py:132-137). -/
def HeapClass.RadioIdentifier : HeapClass where
  value := InPlace.RadioIdentifier.value
  members := Dis.RadioIdentifier.members
  new := Dis.RadioIdentifier.newHeap
  parse := Dis.RadioIdentifier.parseHeap
  serialize := Dis.RadioIdentifier.serializeHeap

/-- Entry of `RequestID` (/repo/opendis/dis7.py:158-160). -/
def HeapClass.RequestID : HeapClass where
  value := InPlace.RequestID.value
  members := Dis.RequestID.members
  new := Dis.RequestID.newHeap
  parse := Dis.RequestID.parseHeap
  serialize := Dis.RequestID.serializeHeap

/-- Entry of `IFFData` (/repo/opendis/dis7.py:184-190). -/
def HeapClass.IFFData : HeapClass where
  value := InPlace.IFFData.value
  members := Dis.IFFData.members
  new := Dis.IFFData.newHeap
  parse := Dis.IFFData.parseHeap
  serialize := Dis.IFFData.serializeHeap

/-- Entry of `EntityType` (/repo/opendis/dis7.py:2522-2530). -/
def HeapClass.EntityType : HeapClass where
  value := InPlace.EntityType.value
  members := Dis.EntityType.members
  new := Dis.EntityType.newHeap
  parse := Dis.EntityType.parseHeap
  serialize := Dis.EntityType.serializeHeap

/-- Entry of `MunitionDescriptor` (/repo/opendis/dis7.py:229-235). -/
def HeapClass.MunitionDescriptor : HeapClass where
  value := InPlace.MunitionDescriptor.value
  members := Dis.MunitionDescriptor.members
  new := Dis.MunitionDescriptor.newHeap
  parse := Dis.MunitionDescriptor.parseHeap
  serialize := Dis.MunitionDescriptor.serializeHeap

/-- Entry of `MinefieldSensorType` (/repo/opendis/dis7.py:257-259). -/
def HeapClass.MinefieldSensorType : HeapClass where
  value := InPlace.MinefieldSensorType.value
  members := Dis.MinefieldSensorType.members
  new := Dis.MinefieldSensorType.newHeap
  parse := Dis.MinefieldSensorType.parseHeap
  serialize := Dis.MinefieldSensorType.serializeHeap

/-- Entry of `GroupID` (/repo/opendis/dis7.py:281-284). -/
def HeapClass.GroupID : HeapClass where
  value := InPlace.GroupID.value
  members := Dis.GroupID.members
  new := Dis.GroupID.newHeap
  parse := Dis.GroupID.parseHeap
  serialize := Dis.GroupID.serializeHeap

/-- Entry of `LayerHeader` (/repo/opendis/dis7.py:309-313). -/
def HeapClass.LayerHeader : HeapClass where
  value := InPlace.LayerHeader.value
  members := Dis.LayerHeader.members
  new := Dis.LayerHeader.newHeap
  parse := Dis.LayerHeader.parseHeap
  serialize := Dis.LayerHeader.serializeHeap

/-- Entry of `UnsignedDISInteger` (/repo/opendis/dis7.py:329-331). -/
def HeapClass.UnsignedDISInteger : HeapClass where
  value := InPlace.UnsignedDISInteger.value
  members := Dis.UnsignedDISInteger.members
  new := Dis.UnsignedDISInteger.newHeap
  parse := Dis.UnsignedDISInteger.parseHeap
  serialize := Dis.UnsignedDISInteger.serializeHeap

/-- Entry of `DeadReckoningParameters` (/repo/opendis/dis7.py:356-363). -/
def HeapClass.DeadReckoningParameters : HeapClass where
  value := InPlace.DeadReckoningParameters.value
  members := Dis.DeadReckoningParameters.members
  new := Dis.DeadReckoningParameters.newHeap
  parse := Dis.DeadReckoningParameters.parseHeap
  serialize := Dis.DeadReckoningParameters.serializeHeap

/-- Entry of `ProtocolMode` (/repo/opendis/dis7.py:388-390). -/
def HeapClass.ProtocolMode : HeapClass where
  value := InPlace.ProtocolMode.value
  members := Dis.ProtocolMode.members
  new := Dis.ProtocolMode.newHeap
  parse := Dis.ProtocolMode.parseHeap
  serialize := Dis.ProtocolMode.serializeHeap

/-- Entry of `AngleDeception` (/repo/opendis/dis7.py:436-453). -/
def HeapClass.AngleDeception : HeapClass where
  value := InPlace.AngleDeception.value
  members := Dis.AngleDeception.members
  new := Dis.AngleDeception.newHeap
  parse := Dis.AngleDeception.parseHeap
  serialize := Dis.AngleDeception.serializeHeap

/-- Entry of `EntityAssociation` (/repo/opendis/dis7.py:508-518). -/
def HeapClass.EntityAssociation : HeapClass where
  value := InPlace.EntityAssociation.value
  members := Dis.EntityAssociation.members
  new := Dis.EntityAssociation.newHeap
  parse := Dis.EntityAssociation.parseHeap
  serialize := Dis.EntityAssociation.serializeHeap

/-- Entry of `VectoringNozzleSystem` (/repo/opendis/dis7.py:545-548). -/
def HeapClass.VectoringNozzleSystem : HeapClass where
  value := InPlace.VectoringNozzleSystem.value
  members := Dis.VectoringNozzleSystem.members
  new := Dis.VectoringNozzleSystem.newHeap
  parse := Dis.VectoringNozzleSystem.parseHeap
  serialize := Dis.VectoringNozzleSystem.serializeHeap

/-- Entry of `FalseTargetsAttribute` (/repo/opendis/dis7.py:591-605). -/
def HeapClass.FalseTargetsAttribute : HeapClass where
  value := InPlace.FalseTargetsAttribute.value
  members := Dis.FalseTargetsAttribute.members
  new := Dis.FalseTargetsAttribute.newHeap
  parse := Dis.FalseTargetsAttribute.parseHeap
  serialize := Dis.FalseTargetsAttribute.serializeHeap

/-- Entry of `MinefieldIdentifier` (/repo/opendis/dis7.py:636-639). -/
def HeapClass.MinefieldIdentifier : HeapClass where
  value := InPlace.MinefieldIdentifier.value
  members := Dis.MinefieldIdentifier.members
  new := Dis.MinefieldIdentifier.newHeap
  parse := Dis.MinefieldIdentifier.parseHeap
  serialize := Dis.MinefieldIdentifier.serializeHeap

/-- Entry of `RadioType` (/repo/opendis/dis7.py:672-680). -/
def HeapClass.RadioType : HeapClass where
  value := InPlace.RadioType.value
  members := Dis.RadioType.members
  new := Dis.RadioType.newHeap
  parse := Dis.RadioType.parseHeap
  serialize := Dis.RadioType.serializeHeap

/-- Entry of `NamedLocationIdentification` (/repo/opendis/dis7.py:709-712). -/
def HeapClass.NamedLocationIdentification : HeapClass where
  value := InPlace.NamedLocationIdentification.value
  members := Dis.NamedLocationIdentification.members
  new := Dis.NamedLocationIdentification.newHeap
  parse := Dis.NamedLocationIdentification.parseHeap
  serialize := Dis.NamedLocationIdentification.serializeHeap

/-- Entry of `IFFDataSpecification` (/repo/opendis/dis7.py:733-737). -/
def HeapClass.IFFDataSpecification : HeapClass where
  value := InPlace.IFFDataSpecification.value
  members := Dis.IFFDataSpecification.members
  new := Dis.IFFDataSpecification.newHeap
  parse := Dis.IFFDataSpecification.parseHeap
  serialize := Dis.IFFDataSpecification.serializeHeap

/-- Entry of `OwnershipStatus` (/repo/opendis/dis7.py:763-767). -/
def HeapClass.OwnershipStatus : HeapClass where
  value := InPlace.OwnershipStatus.value
  members := Dis.OwnershipStatus.members
  new := Dis.OwnershipStatus.newHeap
  parse := Dis.OwnershipStatus.parseHeap
  serialize := Dis.OwnershipStatus.serializeHeap

/-- Entry of `AttachedParts` (/repo/opendis/dis7.py:797-803). -/
def HeapClass.AttachedParts : HeapClass where
  value := InPlace.AttachedParts.value
  members := Dis.AttachedParts.members
  new := Dis.AttachedParts.newHeap
  parse := Dis.AttachedParts.parseHeap
  serialize := Dis.AttachedParts.serializeHeap

/-- Classes of `catalogRecords1` (/repo/opendis). -/
def heapRecords1 : List HeapClass :=
  [.DataQueryDatumSpecification,
   .RadioIdentifier,
   .RequestID,
   .IFFData,
   .EntityType,
   .MunitionDescriptor,
   .MinefieldSensorType,
   .GroupID,
   .LayerHeader,
   .UnsignedDISInteger,
   .DeadReckoningParameters,
   .ProtocolMode,
   .AngleDeception,
   .EntityAssociation,
   .VectoringNozzleSystem,
   .FalseTargetsAttribute,
   .MinefieldIdentifier,
   .RadioType,
   .NamedLocationIdentification,
   .IFFDataSpecification,
   .OwnershipStatus,
   .AttachedParts]

/-- Entry of `Attribute` (/repo/opendis/dis7.py:829-833). -/
def HeapClass.Attribute : HeapClass where
  value := InPlace.Attribute.value
  members := Dis.Attribute.members
  new := Dis.Attribute.newHeap
  parse := Dis.Attribute.parseHeap
  serialize := Dis.Attribute.serializeHeap

/-- Entry of `RecordQuerySpecification` (/repo/opendis/dis7.py:857-861). -/
def HeapClass.RecordQuerySpecification : HeapClass where
  value := InPlace.RecordQuerySpecification.value
  members := Dis.RecordQuerySpecification.members
  new := Dis.RecordQuerySpecification.newHeap
  parse := Dis.RecordQuerySpecification.parseHeap
  serialize := Dis.RecordQuerySpecification.serializeHeap

/-- Entry of `ArticulatedParts` (/repo/opendis/dis7.py:893-899). -/
def HeapClass.ArticulatedParts : HeapClass where
  value := InPlace.ArticulatedParts.value
  members := Dis.ArticulatedParts.members
  new := Dis.ArticulatedParts.newHeap
  parse := Dis.ArticulatedParts.parseHeap
  serialize := Dis.ArticulatedParts.serializeHeap

/-- Entry of `ObjectType` (/repo/opendis/dis7.py:930-935). -/
def HeapClass.ObjectType : HeapClass where
  value := InPlace.ObjectType.value
  members := Dis.ObjectType.members
  new := Dis.ObjectType.newHeap
  parse := Dis.ObjectType.parseHeap
  serialize := Dis.ObjectType.serializeHeap

/-- Entry of `Association` (/repo/opendis/dis7.py:967-972). -/
def HeapClass.Association : HeapClass where
  value := InPlace.Association.value
  members := Dis.Association.members
  new := Dis.Association.newHeap
  parse := Dis.Association.parseHeap
  serialize := Dis.Association.serializeHeap

/-- Entry of `RecordSpecificationElement` (/repo/opendis/dis7.py:1006-1013). -/
def HeapClass.RecordSpecificationElement : HeapClass where
  value := InPlace.RecordSpecificationElement.value
  members := Dis.RecordSpecificationElement.members
  new := Dis.RecordSpecificationElement.newHeap
  parse := Dis.RecordSpecificationElement.parseHeap
  serialize := Dis.RecordSpecificationElement.serializeHeap

/-- Entry of `AntennaLocation` (/repo/opendis/dis7.py:1040-1043). -/
def HeapClass.AntennaLocation : HeapClass where
  value := InPlace.AntennaLocation.value
  members := Dis.AntennaLocation.members
  new := Dis.AntennaLocation.newHeap
  parse := Dis.AntennaLocation.parseHeap
  serialize := Dis.AntennaLocation.serializeHeap

/-- Entry of `ObjectIdentifier` (/repo/opendis/dis7.py:1065-1068). -/
def HeapClass.ObjectIdentifier : HeapClass where
  value := InPlace.ObjectIdentifier.value
  members := Dis.ObjectIdentifier.members
  new := Dis.ObjectIdentifier.newHeap
  parse := Dis.ObjectIdentifier.parseHeap
  serialize := Dis.ObjectIdentifier.serializeHeap

/-- Entry of `AggregateIdentifier` (/repo/opendis/dis7.py:1089-1092). -/
def HeapClass.AggregateIdentifier : HeapClass where
  value := InPlace.AggregateIdentifier.value
  members := Dis.AggregateIdentifier.members
  new := Dis.AggregateIdentifier.newHeap
  parse := Dis.AggregateIdentifier.parseHeap
  serialize := Dis.AggregateIdentifier.serializeHeap

/-- Entry of `FixedDatum` (/repo/opendis/dis7.py:1114-1117). -/
def HeapClass.FixedDatum : HeapClass where
  value := InPlace.FixedDatum.value
  members := Dis.FixedDatum.members
  new := Dis.FixedDatum.newHeap
  parse := Dis.FixedDatum.parseHeap
  serialize := Dis.FixedDatum.serializeHeap

/-- Entry of `VariableParameter` (/repo/opendis/dis7.py:1149-1155). -/
def HeapClass.VariableParameter : HeapClass where
  value := InPlace.VariableParameter.value
  members := Dis.VariableParameter.members
  new := Dis.VariableParameter.newHeap
  parse := Dis.VariableParameter.parseHeap
  serialize := Dis.VariableParameter.serializeHeap

/-- Entry of `ChangeOptions` (/repo/opendis/dis7.py:1173-1175). -/
def HeapClass.ChangeOptions : HeapClass where
  value := InPlace.ChangeOptions.value
  members := Dis.ChangeOptions.members
  new := Dis.ChangeOptions.newHeap
  parse := Dis.ChangeOptions.parseHeap
  serialize := Dis.ChangeOptions.serializeHeap

/-- Entry of `LiveSimulationAddress` (/repo/opendis/dis7.py:1197-1200). -/
def HeapClass.LiveSimulationAddress : HeapClass where
  value := InPlace.LiveSimulationAddress.value
  members := Dis.LiveSimulationAddress.members
  new := Dis.LiveSimulationAddress.newHeap
  parse := Dis.LiveSimulationAddress.parseHeap
  serialize := Dis.LiveSimulationAddress.serializeHeap

/-- Entry of `EntityMarking` (/repo/opendis/dis7.py:1233-1237). -/
def HeapClass.EntityMarking : HeapClass where
  value := InPlace.EntityMarking.value
  members := Dis.EntityMarking.members
  new := Dis.EntityMarking.newHeap
  parse := Dis.EntityMarking.parseHeap
  serialize := Dis.EntityMarking.serializeHeap

/-- Entry of `UAFundamentalParameter` (/repo/opendis/dis7.py:1275-1282). -/
def HeapClass.UAFundamentalParameter : HeapClass where
  value := InPlace.UAFundamentalParameter.value
  members := Dis.UAFundamentalParameter.members
  new := Dis.UAFundamentalParameter.newHeap
  parse := Dis.UAFundamentalParameter.parseHeap
  serialize := Dis.UAFundamentalParameter.serializeHeap

/-- Entry of `ExplosionDescriptor` (/repo/opendis/dis7.py:1312-1317). -/
def HeapClass.ExplosionDescriptor : HeapClass where
  value := InPlace.ExplosionDescriptor.value
  members := Dis.ExplosionDescriptor.members
  new := Dis.ExplosionDescriptor.newHeap
  parse := Dis.ExplosionDescriptor.parseHeap
  serialize := Dis.ExplosionDescriptor.serializeHeap

/-- Entry of `ClockTime` (/repo/opendis/dis7.py:1344-1347). -/
def HeapClass.ClockTime : HeapClass where
  value := InPlace.ClockTime.value
  members := Dis.ClockTime.members
  new := Dis.ClockTime.newHeap
  parse := Dis.ClockTime.parseHeap
  serialize := Dis.ClockTime.serializeHeap

/-- Entry of `SecondaryOperationalData` (/repo/opendis/dis7.py:1374-1380). -/
def HeapClass.SecondaryOperationalData : HeapClass where
  value := InPlace.SecondaryOperationalData.value
  members := Dis.SecondaryOperationalData.members
  new := Dis.SecondaryOperationalData.newHeap
  parse := Dis.SecondaryOperationalData.parseHeap
  serialize := Dis.SecondaryOperationalData.serializeHeap

/-- Entry of `EnvironmentType` (/repo/opendis/dis7.py:1414-1422). -/
def HeapClass.EnvironmentType : HeapClass where
  value := InPlace.EnvironmentType.value
  members := Dis.EnvironmentType.members
  new := Dis.EnvironmentType.newHeap
  parse := Dis.EnvironmentType.parseHeap
  serialize := Dis.EnvironmentType.serializeHeap

/-- Entry of `TotalRecordSets` (/repo/opendis/dis7.py:1444-1447). -/
def HeapClass.TotalRecordSets : HeapClass where
  value := InPlace.TotalRecordSets.value
  members := Dis.TotalRecordSets.members
  new := Dis.TotalRecordSets.newHeap
  parse := Dis.TotalRecordSets.parseHeap
  serialize := Dis.TotalRecordSets.serializeHeap

/-- Entry of `MineEntityIdentifier` (/repo/opendis/dis7.py:1469-1472). -/
def HeapClass.MineEntityIdentifier : HeapClass where
  value := InPlace.MineEntityIdentifier.value
  members := Dis.MineEntityIdentifier.members
  new := Dis.MineEntityIdentifier.newHeap
  parse := Dis.MineEntityIdentifier.parseHeap
  serialize := Dis.MineEntityIdentifier.serializeHeap

/-- Entry of `Relationship` (/repo/opendis/dis7.py:1494-1497). -/
def HeapClass.Relationship : HeapClass where
  value := InPlace.Relationship.value
  members := Dis.Relationship.members
  new := Dis.Relationship.newHeap
  parse := Dis.Relationship.parseHeap
  serialize := Dis.Relationship.serializeHeap

/-- Classes of `catalogRecords2` (/repo/opendis). -/
def heapRecords2 : List HeapClass :=
  [.Attribute,
   .RecordQuerySpecification,
   .ArticulatedParts,
   .ObjectType,
   .Association,
   .RecordSpecificationElement,
   .AntennaLocation,
   .ObjectIdentifier,
   .AggregateIdentifier,
   .FixedDatum,
   .VariableParameter,
   .ChangeOptions,
   .LiveSimulationAddress,
   .EntityMarking,
   .UAFundamentalParameter,
   .ExplosionDescriptor,
   .ClockTime,
   .SecondaryOperationalData,
   .EnvironmentType,
   .TotalRecordSets,
   .MineEntityIdentifier,
   .Relationship]

/-- Entry of `EEFundamentalParameterData` (/repo/opendis/dis7.py:1539-1550). -/
def HeapClass.EEFundamentalParameterData : HeapClass where
  value := InPlace.EEFundamentalParameterData.value
  members := Dis.EEFundamentalParameterData.members
  new := Dis.EEFundamentalParameterData.newHeap
  parse := Dis.EEFundamentalParameterData.parseHeap
  serialize := Dis.EEFundamentalParameterData.serializeHeap

/-- Entry of `JammingTechnique` (/repo/opendis/dis7.py:1578-1583). -/
def HeapClass.JammingTechnique : HeapClass where
  value := InPlace.JammingTechnique.value
  members := Dis.JammingTechnique.members
  new := Dis.JammingTechnique.newHeap
  parse := Dis.JammingTechnique.parseHeap
  serialize := Dis.JammingTechnique.serializeHeap

/-- Entry of `VariableDatum` (/repo/opendis/dis7.py:3318-3327). -/
def HeapClass.VariableDatum : HeapClass where
  value := InPlace.VariableDatum.value
  members := Dis.VariableDatum.members
  new := Dis.VariableDatum.newHeap
  parse := Dis.VariableDatum.parseHeap
  serialize := Dis.VariableDatum.serializeHeap

/-- Entry of `DatumSpecification` (/repo/opendis/dis7.py:1615-1623). -/
def HeapClass.DatumSpecification : HeapClass where
  value := InPlace.DatumSpecification.value
  members := Dis.DatumSpecification.members
  new := Dis.DatumSpecification.newHeap
  parse := Dis.DatumSpecification.parseHeap
  serialize := Dis.DatumSpecification.serializeHeap

/-- Entry of `Expendable` (/repo/opendis/dis7.py:1658-1664). -/
def HeapClass.Expendable : HeapClass where
  value := InPlace.Expendable.value
  members := Dis.Expendable.members
  new := Dis.Expendable.newHeap
  parse := Dis.Expendable.parseHeap
  serialize := Dis.Expendable.serializeHeap

/-- Entry of `CommunicationsNodeID` (/repo/opendis/dis7.py:3493-3496). -/
def HeapClass.CommunicationsNodeID : HeapClass where
  value := InPlace.CommunicationsNodeID.value
  members := Dis.CommunicationsNodeID.members
  new := Dis.CommunicationsNodeID.newHeap
  parse := Dis.CommunicationsNodeID.parseHeap
  serialize := Dis.CommunicationsNodeID.serializeHeap

/-- Entry of `IOCommunicationsNode` (/repo/opendis/dis7.py:1691-1697). -/
def HeapClass.IOCommunicationsNode : HeapClass where
  value := InPlace.IOCommunicationsNode.value
  members := Dis.IOCommunicationsNode.members
  new := Dis.IOCommunicationsNode.newHeap
  parse := Dis.IOCommunicationsNode.parseHeap
  serialize := Dis.IOCommunicationsNode.serializeHeap

/-- Entry of `LinearSegmentParameter` (/repo/opendis/dis7.py:1748-1760). -/
def HeapClass.LinearSegmentParameter : HeapClass where
  value := InPlace.LinearSegmentParameter.value
  members := Dis.LinearSegmentParameter.members
  new := Dis.LinearSegmentParameter.newHeap
  parse := Dis.LinearSegmentParameter.parseHeap
  serialize := Dis.LinearSegmentParameter.serializeHeap

/-- Entry of `SystemIdentifier` (/repo/opendis/dis7.py:1797-1802). -/
def HeapClass.SystemIdentifier : HeapClass where
  value := InPlace.SystemIdentifier.value
  members := Dis.SystemIdentifier.members
  new := Dis.SystemIdentifier.newHeap
  parse := Dis.SystemIdentifier.parseHeap
  serialize := Dis.SystemIdentifier.serializeHeap

/-- Entry of `TrackJamData` (/repo/opendis/dis7.py:1829-1833). -/
def HeapClass.TrackJamData : HeapClass where
  value := InPlace.TrackJamData.value
  members := Dis.TrackJamData.members
  new := Dis.TrackJamData.newHeap
  parse := Dis.TrackJamData.parseHeap
  serialize := Dis.TrackJamData.serializeHeap

/-- Entry of `AggregateType` (/repo/opendis/dis7.py:1870-1878). -/
def HeapClass.AggregateType : HeapClass where
  value := InPlace.AggregateType.value
  members := Dis.AggregateType.members
  new := Dis.AggregateType.newHeap
  parse := Dis.AggregateType.parseHeap
  serialize := Dis.AggregateType.serializeHeap

/-- Entry of `SimulationIdentifier` (/repo/opendis/dis7.py:2069-2072). -/
def HeapClass.SimulationIdentifier : HeapClass where
  value := InPlace.SimulationIdentifier.value
  members := Dis.SimulationIdentifier.members
  new := Dis.SimulationIdentifier.newHeap
  parse := Dis.SimulationIdentifier.parseHeap
  serialize := Dis.SimulationIdentifier.serializeHeap

/-- Entry of `PduHeader` (/repo/opendis/dis7.py:3401-3410). -/
def HeapClass.PduHeader : HeapClass where
  value := InPlace.PduHeader.value
  members := Dis.PduHeader.members
  new := Dis.PduHeader.newHeap
  parse := Dis.PduHeader.parseHeap
  serialize := Dis.PduHeader.serializeHeap

/-- Entry of `SimulationManagementPduHeader` (/repo/opendis/dis7.py:1909-1913). -/
def HeapClass.SimulationManagementPduHeader : HeapClass where
  value := InPlace.SimulationManagementPduHeader.value
  members := Dis.SimulationManagementPduHeader.members
  new := Dis.SimulationManagementPduHeader.newHeap
  parse := Dis.SimulationManagementPduHeader.parseHeap
  serialize := Dis.SimulationManagementPduHeader.serializeHeap

/-- Entry of `BeamData` (/repo/opendis/dis7.py:1946-1952). -/
def HeapClass.BeamData : HeapClass where
  value := InPlace.BeamData.value
  members := Dis.BeamData.members
  new := Dis.BeamData.newHeap
  parse := Dis.BeamData.parseHeap
  serialize := Dis.BeamData.serializeHeap

/-- Entry of `EngineFuel` (/repo/opendis/dis7.py:1984-1990). -/
def HeapClass.EngineFuel : HeapClass where
  value := InPlace.EngineFuel.value
  members := Dis.EngineFuel.members
  new := Dis.EngineFuel.newHeap
  parse := Dis.EngineFuel.parseHeap
  serialize := Dis.EngineFuel.serializeHeap

/-- Entry of `IOEffect` (/repo/opendis/dis7.py:2025-2035). -/
def HeapClass.IOEffect : HeapClass where
  value := InPlace.IOEffect.value
  members := Dis.IOEffect.members
  new := Dis.IOEffect.newHeap
  parse := Dis.IOEffect.parseHeap
  serialize := Dis.IOEffect.serializeHeap

/-- Entry of `GridAxisDescriptorVariable` (/repo/opendis/dis7.py:2123-2137). -/
def HeapClass.GridAxisDescriptorVariable : HeapClass where
  value := InPlace.GridAxisDescriptorVariable.value
  members := Dis.GridAxisDescriptorVariable.members
  new := Dis.GridAxisDescriptorVariable.newHeap
  parse := Dis.GridAxisDescriptorVariable.parseHeap
  serialize := Dis.GridAxisDescriptorVariable.serializeHeap

/-- Entry of `SupplyQuantity` (/repo/opendis/dis7.py:2171-2174). -/
def HeapClass.SupplyQuantity : HeapClass where
  value := InPlace.SupplyQuantity.value
  members := Dis.SupplyQuantity.members
  new := Dis.SupplyQuantity.newHeap
  parse := Dis.SupplyQuantity.parseHeap
  serialize := Dis.SupplyQuantity.serializeHeap

/-- Entry of `SilentEntitySystem` (/repo/opendis/dis7.py:2202-2208). -/
def HeapClass.SilentEntitySystem : HeapClass where
  value := InPlace.SilentEntitySystem.value
  members := Dis.SilentEntitySystem.members
  new := Dis.SilentEntitySystem.newHeap
  parse := Dis.SilentEntitySystem.parseHeap
  serialize := Dis.SilentEntitySystem.serializeHeap

/-- Entry of `SilentAggregateSystem` (/repo/opendis/dis7.py:2234-2237). -/
def HeapClass.SilentAggregateSystem : HeapClass where
  value := InPlace.SilentAggregateSystem.value
  members := Dis.SilentAggregateSystem.members
  new := Dis.SilentAggregateSystem.newHeap
  parse := Dis.SilentAggregateSystem.parseHeap
  serialize := Dis.SilentAggregateSystem.serializeHeap

/-- Entry of `BlankingSector` (/repo/opendis/dis7.py:2277-2292). -/
def HeapClass.BlankingSector : HeapClass where
  value := InPlace.BlankingSector.value
  members := Dis.BlankingSector.members
  new := Dis.BlankingSector.newHeap
  parse := Dis.BlankingSector.parseHeap
  serialize := Dis.BlankingSector.serializeHeap

/-- Classes of `catalogRecords3` (/repo/opendis). -/
def heapRecords3 : List HeapClass :=
  [.EEFundamentalParameterData,
   .JammingTechnique,
   .VariableDatum,
   .DatumSpecification,
   .Expendable,
   .CommunicationsNodeID,
   .IOCommunicationsNode,
   .LinearSegmentParameter,
   .SystemIdentifier,
   .TrackJamData,
   .AggregateType,
   .SimulationIdentifier,
   .PduHeader,
   .SimulationManagementPduHeader,
   .BeamData,
   .EngineFuel,
   .IOEffect,
   .GridAxisDescriptorVariable,
   .SupplyQuantity,
   .SilentEntitySystem,
   .SilentAggregateSystem,
   .BlankingSector]

/-- Entry of `LaunchedMunitionRecord` (/repo/opendis/dis7.py:2332-2340). -/
def HeapClass.LaunchedMunitionRecord : HeapClass where
  value := InPlace.LaunchedMunitionRecord.value
  members := Dis.LaunchedMunitionRecord.members
  new := Dis.LaunchedMunitionRecord.newHeap
  parse := Dis.LaunchedMunitionRecord.parseHeap
  serialize := Dis.LaunchedMunitionRecord.serializeHeap

/-- Entry of `IFFFundamentalParameterData` (/repo/opendis/dis7.py:2375-2384). -/
def HeapClass.IFFFundamentalParameterData : HeapClass where
  value := InPlace.IFFFundamentalParameterData.value
  members := Dis.IFFFundamentalParameterData.members
  new := Dis.IFFFundamentalParameterData.newHeap
  parse := Dis.IFFFundamentalParameterData.parseHeap
  serialize := Dis.IFFFundamentalParameterData.serializeHeap

/-- Entry of `FundamentalOperationalData` (/repo/opendis/dis7.py:2439-2450). -/
def HeapClass.FundamentalOperationalData : HeapClass where
  value := InPlace.FundamentalOperationalData.value
  members := Dis.FundamentalOperationalData.members
  new := Dis.FundamentalOperationalData.newHeap
  parse := Dis.FundamentalOperationalData.parseHeap
  serialize := Dis.FundamentalOperationalData.serializeHeap

/-- Entry of `IntercomCommunicationsParameters` (/repo/opendis/dis7.py:2484-2488). -/
def HeapClass.IntercomCommunicationsParameters : HeapClass where
  value := InPlace.IntercomCommunicationsParameters.value
  members := Dis.IntercomCommunicationsParameters.members
  new := Dis.IntercomCommunicationsParameters.newHeap
  parse := Dis.IntercomCommunicationsParameters.parseHeap
  serialize := Dis.IntercomCommunicationsParameters.serializeHeap

/-- Entry of `Munition` (/repo/opendis/dis7.py:2568-2574). -/
def HeapClass.Munition : HeapClass where
  value := InPlace.Munition.value
  members := Dis.Munition.members
  new := Dis.Munition.newHeap
  parse := Dis.Munition.parseHeap
  serialize := Dis.Munition.serializeHeap

/-- Entry of `StandardVariableSpecification` (/repo/opendis/dis7.py:2602-2606). -/
def HeapClass.StandardVariableSpecification : HeapClass where
  value := InPlace.StandardVariableSpecification.value
  members := Dis.StandardVariableSpecification.members
  new := Dis.StandardVariableSpecification.newHeap
  parse := Dis.StandardVariableSpecification.parseHeap
  serialize := Dis.StandardVariableSpecification.serializeHeap

/-- Entry of `Vector2Float` (/repo/opendis/dis7.py:2625-2628). -/
def HeapClass.Vector2Float : HeapClass where
  value := InPlace.Vector2Float.value
  members := Dis.Vector2Float.members
  new := Dis.Vector2Float.newHeap
  parse := Dis.Vector2Float.parseHeap
  serialize := Dis.Vector2Float.serializeHeap

/-- Entry of `Environment` (/repo/opendis/dis7.py:2656-2661). -/
def HeapClass.Environment : HeapClass where
  value := InPlace.Environment.value
  members := Dis.Environment.members
  new := Dis.Environment.newHeap
  parse := Dis.Environment.parseHeap
  serialize := Dis.Environment.serializeHeap

/-- Entry of `AcousticEmitter` (/repo/opendis/dis7.py:2688-2692). -/
def HeapClass.AcousticEmitter : HeapClass where
  value := InPlace.AcousticEmitter.value
  members := Dis.AcousticEmitter.members
  new := Dis.AcousticEmitter.newHeap
  parse := Dis.AcousticEmitter.parseHeap
  serialize := Dis.AcousticEmitter.serializeHeap

/-- Entry of `AngularVelocityVector` (/repo/opendis/dis7.py:2718-2722). -/
def HeapClass.AngularVelocityVector : HeapClass where
  value := InPlace.AngularVelocityVector.value
  members := Dis.AngularVelocityVector.members
  new := Dis.AngularVelocityVector.newHeap
  parse := Dis.AngularVelocityVector.parseHeap
  serialize := Dis.AngularVelocityVector.serializeHeap

/-- Entry of `AggregateMarking` (/repo/opendis/dis7.py:2746-2750). -/
def HeapClass.AggregateMarking : HeapClass where
  value := InPlace.AggregateMarking.value
  members := Dis.AggregateMarking.members
  new := Dis.AggregateMarking.newHeap
  parse := Dis.AggregateMarking.parseHeap
  serialize := Dis.AggregateMarking.serializeHeap

/-- Entry of `DataFilterRecord` (/repo/opendis/dis7.py:2775-2777). -/
def HeapClass.DataFilterRecord : HeapClass where
  value := InPlace.DataFilterRecord.value
  members := Dis.DataFilterRecord.members
  new := Dis.DataFilterRecord.newHeap
  parse := Dis.DataFilterRecord.parseHeap
  serialize := Dis.DataFilterRecord.serializeHeap

/-- Entry of `IntercomIdentifier` (/repo/opendis/dis7.py:2800-2805). -/
def HeapClass.IntercomIdentifier : HeapClass where
  value := InPlace.IntercomIdentifier.value
  members := Dis.IntercomIdentifier.members
  new := Dis.IntercomIdentifier.newHeap
  parse := Dis.IntercomIdentifier.parseHeap
  serialize := Dis.IntercomIdentifier.serializeHeap

/-- Entry of `StorageFuel` (/repo/opendis/dis7.py:2836-2842). -/
def HeapClass.StorageFuel : HeapClass where
  value := InPlace.StorageFuel.value
  members := Dis.StorageFuel.members
  new := Dis.StorageFuel.newHeap
  parse := Dis.StorageFuel.parseHeap
  serialize := Dis.StorageFuel.serializeHeap

/-- Entry of `Sensor` (/repo/opendis/dis7.py:2877-2884). -/
def HeapClass.Sensor : HeapClass where
  value := InPlace.Sensor.value
  members := Dis.Sensor.members
  new := Dis.Sensor.newHeap
  parse := Dis.Sensor.parseHeap
  serialize := Dis.Sensor.serializeHeap

/-- Entry of `MunitionReload` (/repo/opendis/dis7.py:2924-2931). -/
def HeapClass.MunitionReload : HeapClass where
  value := InPlace.MunitionReload.value
  members := Dis.MunitionReload.members
  new := Dis.MunitionReload.newHeap
  parse := Dis.MunitionReload.parseHeap
  serialize := Dis.MunitionReload.serializeHeap

/-- Entry of `StorageFuelReload` (/repo/opendis/dis7.py:2976-2985). -/
def HeapClass.StorageFuelReload : HeapClass where
  value := InPlace.StorageFuelReload.value
  members := Dis.StorageFuelReload.members
  new := Dis.StorageFuelReload.newHeap
  parse := Dis.StorageFuelReload.parseHeap
  serialize := Dis.StorageFuelReload.serializeHeap

/-- Entry of `ExpendableReload` (/repo/opendis/dis7.py:3021-3028). -/
def HeapClass.ExpendableReload : HeapClass where
  value := InPlace.ExpendableReload.value
  members := Dis.ExpendableReload.members
  new := Dis.ExpendableReload.newHeap
  parse := Dis.ExpendableReload.parseHeap
  serialize := Dis.ExpendableReload.serializeHeap

/-- Entry of `EngineFuelReload` (/repo/opendis/dis7.py:3064-3072). -/
def HeapClass.EngineFuelReload : HeapClass where
  value := InPlace.EngineFuelReload.value
  members := Dis.EngineFuelReload.members
  new := Dis.EngineFuelReload.newHeap
  parse := Dis.EngineFuelReload.parseHeap
  serialize := Dis.EngineFuelReload.serializeHeap

/-- Entry of `UnattachedIdentifier` (/repo/opendis/dis7.py:3101-3104). -/
def HeapClass.UnattachedIdentifier : HeapClass where
  value := InPlace.UnattachedIdentifier.value
  members := Dis.UnattachedIdentifier.members
  new := Dis.UnattachedIdentifier.newHeap
  parse := Dis.UnattachedIdentifier.parseHeap
  serialize := Dis.UnattachedIdentifier.serializeHeap

/-- Entry of `EntityTypeVP` (/repo/opendis/dis7.py:3129-3135). -/
def HeapClass.EntityTypeVP : HeapClass where
  value := InPlace.EntityTypeVP.value
  members := Dis.EntityTypeVP.members
  new := Dis.EntityTypeVP.newHeap
  parse := Dis.EntityTypeVP.parseHeap
  serialize := Dis.EntityTypeVP.serializeHeap

/-- Entry of `BeamStatus` (/repo/opendis/dis7.py:3158-3160). -/
def HeapClass.BeamStatus : HeapClass where
  value := InPlace.BeamStatus.value
  members := Dis.BeamStatus.members
  new := Dis.BeamStatus.newHeap
  parse := Dis.BeamStatus.parseHeap
  serialize := Dis.BeamStatus.serializeHeap

/-- Classes of `catalogRecords4` (/repo/opendis). -/
def heapRecords4 : List HeapClass :=
  [.LaunchedMunitionRecord,
   .IFFFundamentalParameterData,
   .FundamentalOperationalData,
   .IntercomCommunicationsParameters,
   .Munition,
   .StandardVariableSpecification,
   .Vector2Float,
   .Environment,
   .AcousticEmitter,
   .AngularVelocityVector,
   .AggregateMarking,
   .DataFilterRecord,
   .IntercomIdentifier,
   .StorageFuel,
   .Sensor,
   .MunitionReload,
   .StorageFuelReload,
   .ExpendableReload,
   .EngineFuelReload,
   .UnattachedIdentifier,
   .EntityTypeVP,
   .BeamStatus]

/-- Entry of `EnvironmentGeneral` (/repo/opendis/dis7.py:3193-3200). -/
def HeapClass.EnvironmentGeneral : HeapClass where
  value := InPlace.EnvironmentGeneral.value
  members := Dis.EnvironmentGeneral.members
  new := Dis.EnvironmentGeneral.newHeap
  parse := Dis.EnvironmentGeneral.parseHeap
  serialize := Dis.EnvironmentGeneral.serializeHeap

/-- Entry of `GridAxis` (/repo/opendis/dis7.py:3241-3249). -/
def HeapClass.GridAxis : HeapClass where
  value := InPlace.GridAxis.value
  members := Dis.GridAxis.members
  new := Dis.GridAxis.newHeap
  parse := Dis.GridAxis.parseHeap
  serialize := Dis.GridAxis.serializeHeap

/-- Entry of `RecordSpecification` (/repo/opendis/dis7.py:3278-3282). -/
def HeapClass.RecordSpecification : HeapClass where
  value := InPlace.RecordSpecification.value
  members := Dis.RecordSpecification.members
  new := Dis.RecordSpecification.newHeap
  parse := Dis.RecordSpecification.parseHeap
  serialize := Dis.RecordSpecification.serializeHeap

/-- Entry of `EventIdentifierLiveEntity` (/repo/opendis/dis7.py:3357-3361). -/
def HeapClass.EventIdentifierLiveEntity : HeapClass where
  value := InPlace.EventIdentifierLiveEntity.value
  members := Dis.EventIdentifierLiveEntity.members
  new := Dis.EventIdentifierLiveEntity.newHeap
  parse := Dis.EventIdentifierLiveEntity.parseHeap
  serialize := Dis.EventIdentifierLiveEntity.serializeHeap

/-- Entry of `ExpendableDescriptor` (/repo/opendis/dis7.py:3515-3518). -/
def HeapClass.ExpendableDescriptor : HeapClass where
  value := InPlace.ExpendableDescriptor.value
  members := Dis.ExpendableDescriptor.members
  new := Dis.ExpendableDescriptor.newHeap
  parse := Dis.ExpendableDescriptor.parseHeap
  serialize := Dis.ExpendableDescriptor.serializeHeap

/-- Entry of `PropulsionSystemData` (/repo/opendis/dis7.py:3542-3545). -/
def HeapClass.PropulsionSystemData : HeapClass where
  value := InPlace.PropulsionSystemData.value
  members := Dis.PropulsionSystemData.members
  new := Dis.PropulsionSystemData.newHeap
  parse := Dis.PropulsionSystemData.parseHeap
  serialize := Dis.PropulsionSystemData.serializeHeap

/-- Entry of `LiveEntityIdentifier` (/repo/opendis/dis7.py:3569-3572). -/
def HeapClass.LiveEntityIdentifier : HeapClass where
  value := InPlace.LiveEntityIdentifier.value
  members := Dis.LiveEntityIdentifier.members
  new := Dis.LiveEntityIdentifier.newHeap
  parse := Dis.LiveEntityIdentifier.parseHeap
  serialize := Dis.LiveEntityIdentifier.serializeHeap

/-- Entry of `SeparationVP` (/repo/opendis/dis7.py:3603-3611). -/
def HeapClass.SeparationVP : HeapClass where
  value := InPlace.SeparationVP.value
  members := Dis.SeparationVP.members
  new := Dis.SeparationVP.newHeap
  parse := Dis.SeparationVP.parseHeap
  serialize := Dis.SeparationVP.serializeHeap

/-- Entry of `EmitterSystem` (/repo/opendis/dis7.py:3638-3642). -/
def HeapClass.EmitterSystem : HeapClass where
  value := InPlace.EmitterSystem.value
  members := Dis.EmitterSystem.members
  new := Dis.EmitterSystem.newHeap
  parse := Dis.EmitterSystem.parseHeap
  serialize := Dis.EmitterSystem.serializeHeap

/-- Entry of `PduStatus` (/repo/opendis/dis7.py:3662-3664). -/
def HeapClass.PduStatus : HeapClass where
  value := InPlace.PduStatus.value
  members := Dis.PduStatus.members
  new := Dis.PduStatus.newHeap
  parse := Dis.PduStatus.parseHeap
  serialize := Dis.PduStatus.serializeHeap

/-- Entry of `EmissionSystemBeamRecord` (/repo/opendis/dis7.py:5203-5215). -/
def HeapClass.EmissionSystemBeamRecord : HeapClass where
  value := InPlace.EmissionSystemBeamRecord.value
  members := Dis.EmissionSystemBeamRecord.members
  new := Dis.EmissionSystemBeamRecord.newHeap
  parse := Dis.EmissionSystemBeamRecord.parseHeap
  serialize := Dis.EmissionSystemBeamRecord.serializeHeap

/-- Entry of `EmissionSystemRecord` (/repo/opendis/dis7.py:5258-5265). -/
def HeapClass.EmissionSystemRecord : HeapClass where
  value := InPlace.EmissionSystemRecord.value
  members := Dis.EmissionSystemRecord.members
  new := Dis.EmissionSystemRecord.newHeap
  parse := Dis.EmissionSystemRecord.parseHeap
  serialize := Dis.EmissionSystemRecord.serializeHeap

/-- Classes of `catalogRecords5` (/repo/opendis). -/
def heapRecords5 : List HeapClass :=
  [.EnvironmentGeneral,
   .GridAxis,
   .RecordSpecification,
   .EventIdentifierLiveEntity,
   .ExpendableDescriptor,
   .PropulsionSystemData,
   .LiveEntityIdentifier,
   .SeparationVP,
   .EmitterSystem,
   .PduStatus,
   .EmissionSystemBeamRecord,
   .EmissionSystemRecord]

/-- Entry of `EntityStateUpdatePdu` (/repo/opendis/dis7.py:3794-3805). -/
def HeapClass.EntityStateUpdatePdu : HeapClass where
  value := InPlace.EntityStateUpdatePdu.value
  members := Dis.EntityStateUpdatePdu.members
  new := Dis.EntityStateUpdatePdu.newHeap
  parse := Dis.EntityStateUpdatePdu.parseHeap
  serialize := Dis.EntityStateUpdatePdu.serializeHeap

/-- Entry of `ServiceRequestPdu` (/repo/opendis/dis7.py:3850-3859). -/
def HeapClass.ServiceRequestPdu : HeapClass where
  value := InPlace.ServiceRequestPdu.value
  members := Dis.ServiceRequestPdu.members
  new := Dis.ServiceRequestPdu.newHeap
  parse := Dis.ServiceRequestPdu.parseHeap
  serialize := Dis.ServiceRequestPdu.serializeHeap

/-- Entry of `RepairCompletePdu` (/repo/opendis/dis7.py:3896-3902). -/
def HeapClass.RepairCompletePdu : HeapClass where
  value := InPlace.RepairCompletePdu.value
  members := Dis.RepairCompletePdu.members
  new := Dis.RepairCompletePdu.newHeap
  parse := Dis.RepairCompletePdu.parseHeap
  serialize := Dis.RepairCompletePdu.serializeHeap

/-- Entry of `CollisionPdu` (/repo/opendis/dis7.py:3965-3975). -/
def HeapClass.CollisionPdu : HeapClass where
  value := InPlace.CollisionPdu.value
  members := Dis.CollisionPdu.members
  new := Dis.CollisionPdu.newHeap
  parse := Dis.CollisionPdu.parseHeap
  serialize := Dis.CollisionPdu.serializeHeap

/-- Entry of `RepairResponsePdu` (/repo/opendis/dis7.py:4011-4018). -/
def HeapClass.RepairResponsePdu : HeapClass where
  value := InPlace.RepairResponsePdu.value
  members := Dis.RepairResponsePdu.members
  new := Dis.RepairResponsePdu.newHeap
  parse := Dis.RepairResponsePdu.parseHeap
  serialize := Dis.RepairResponsePdu.serializeHeap

/-- Entry of `DataQueryPdu` (/repo/opendis/dis7.py:4095-4100). -/
def HeapClass.DataQueryPdu : HeapClass where
  value := InPlace.DataQueryPdu.value
  members := Dis.DataQueryPdu.members
  new := Dis.DataQueryPdu.newHeap
  parse := Dis.DataQueryPdu.parseHeap
  serialize := Dis.DataQueryPdu.serializeHeap

/-- Classes of `catalogPdus1` (/repo/opendis). -/
def heapPdus1 : List HeapClass :=
  [.EntityStateUpdatePdu,
   .ServiceRequestPdu,
   .RepairCompletePdu,
   .CollisionPdu,
   .RepairResponsePdu,
   .DataQueryPdu]

/-- Entry of `CreateEntityPdu` (/repo/opendis/dis7.py:4190-4193). -/
def HeapClass.CreateEntityPdu : HeapClass where
  value := InPlace.CreateEntityPdu.value
  members := Dis.CreateEntityPdu.members
  new := Dis.CreateEntityPdu.newHeap
  parse := Dis.CreateEntityPdu.parseHeap
  serialize := Dis.CreateEntityPdu.serializeHeap

/-- Entry of `IntercomSignalPdu` (/repo/opendis/dis7.py:4252-4263). -/
def HeapClass.IntercomSignalPdu : HeapClass where
  value := InPlace.IntercomSignalPdu.value
  members := Dis.IntercomSignalPdu.members
  new := Dis.IntercomSignalPdu.newHeap
  parse := Dis.IntercomSignalPdu.parseHeap
  serialize := Dis.IntercomSignalPdu.serializeHeap

/-- Entry of `RemoveEntityPdu` (/repo/opendis/dis7.py:4297-4300). -/
def HeapClass.RemoveEntityPdu : HeapClass where
  value := InPlace.RemoveEntityPdu.value
  members := Dis.RemoveEntityPdu.members
  new := Dis.RemoveEntityPdu.newHeap
  parse := Dis.RemoveEntityPdu.parseHeap
  serialize := Dis.RemoveEntityPdu.serializeHeap

/-- Entry of `ResupplyReceivedPdu` (/repo/opendis/dis7.py:4333-4342). -/
def HeapClass.ResupplyReceivedPdu : HeapClass where
  value := InPlace.ResupplyReceivedPdu.value
  members := Dis.ResupplyReceivedPdu.members
  new := Dis.ResupplyReceivedPdu.newHeap
  parse := Dis.ResupplyReceivedPdu.parseHeap
  serialize := Dis.ResupplyReceivedPdu.serializeHeap

/-- Entry of `CollisionElasticPdu` (/repo/opendis/dis7.py:4438-4455). -/
def HeapClass.CollisionElasticPdu : HeapClass where
  value := InPlace.CollisionElasticPdu.value
  members := Dis.CollisionElasticPdu.members
  new := Dis.CollisionElasticPdu.newHeap
  parse := Dis.CollisionElasticPdu.parseHeap
  serialize := Dis.CollisionElasticPdu.serializeHeap

/-- Entry of `ActionRequestPdu` (/repo/opendis/dis7.py:4515-4520). -/
def HeapClass.ActionRequestPdu : HeapClass where
  value := InPlace.ActionRequestPdu.value
  members := Dis.ActionRequestPdu.members
  new := Dis.ActionRequestPdu.newHeap
  parse := Dis.ActionRequestPdu.parseHeap
  serialize := Dis.ActionRequestPdu.serializeHeap

/-- Entry of `AcknowledgePdu` (/repo/opendis/dis7.py:4550-4555). -/
def HeapClass.AcknowledgePdu : HeapClass where
  value := InPlace.AcknowledgePdu.value
  members := Dis.AcknowledgePdu.members
  new := Dis.AcknowledgePdu.newHeap
  parse := Dis.AcknowledgePdu.parseHeap
  serialize := Dis.AcknowledgePdu.serializeHeap

/-- Entry of `ActionRequestReliablePdu` (/repo/opendis/dis7.py:4655-4664). -/
def HeapClass.ActionRequestReliablePdu : HeapClass where
  value := InPlace.ActionRequestReliablePdu.value
  members := Dis.ActionRequestReliablePdu.members
  new := Dis.ActionRequestReliablePdu.newHeap
  parse := Dis.ActionRequestReliablePdu.parseHeap
  serialize := Dis.ActionRequestReliablePdu.serializeHeap

/-- Classes of `catalogPdus2` (/repo/opendis). -/
def heapPdus2 : List HeapClass :=
  [.CreateEntityPdu,
   .IntercomSignalPdu,
   .RemoveEntityPdu,
   .ResupplyReceivedPdu,
   .CollisionElasticPdu,
   .ActionRequestPdu,
   .AcknowledgePdu,
   .ActionRequestReliablePdu]

/-- Entry of `DesignatorPdu` (/repo/opendis/dis7.py:4723-4737). -/
def HeapClass.DesignatorPdu : HeapClass where
  value := InPlace.DesignatorPdu.value
  members := Dis.DesignatorPdu.members
  new := Dis.DesignatorPdu.newHeap
  parse := Dis.DesignatorPdu.parseHeap
  serialize := Dis.DesignatorPdu.serializeHeap

/-- Entry of `StopFreezePdu` (/repo/opendis/dis7.py:4779-4786). -/
def HeapClass.StopFreezePdu : HeapClass where
  value := InPlace.StopFreezePdu.value
  members := Dis.StopFreezePdu.members
  new := Dis.StopFreezePdu.newHeap
  parse := Dis.StopFreezePdu.parseHeap
  serialize := Dis.StopFreezePdu.serializeHeap

/-- Entry of `EntityStatePdu` (/repo/opendis/dis7.py:4851-4867). -/
def HeapClass.EntityStatePdu : HeapClass where
  value := InPlace.EntityStatePdu.value
  members := Dis.EntityStatePdu.members
  new := Dis.EntityStatePdu.newHeap
  parse := Dis.EntityStatePdu.parseHeap
  serialize := Dis.EntityStatePdu.serializeHeap

/-- Entry of `StartResumePdu` (/repo/opendis/dis7.py:4928-4933). -/
def HeapClass.StartResumePdu : HeapClass where
  value := InPlace.StartResumePdu.value
  members := Dis.StartResumePdu.members
  new := Dis.StartResumePdu.newHeap
  parse := Dis.StartResumePdu.parseHeap
  serialize := Dis.StartResumePdu.serializeHeap

/-- Entry of `ElectromagneticEmissionsPdu` (/repo/opendis/dis7.py:5146-5155). -/
def HeapClass.ElectromagneticEmissionsPdu : HeapClass where
  value := InPlace.ElectromagneticEmissionsPdu.value
  members := Dis.ElectromagneticEmissionsPdu.members
  new := Dis.ElectromagneticEmissionsPdu.newHeap
  parse := Dis.ElectromagneticEmissionsPdu.parseHeap
  serialize := Dis.ElectromagneticEmissionsPdu.serializeHeap

/-- Entry of `ResupplyOfferPdu` (/repo/opendis/dis7.py:5305-5314). -/
def HeapClass.ResupplyOfferPdu : HeapClass where
  value := InPlace.ResupplyOfferPdu.value
  members := Dis.ResupplyOfferPdu.members
  new := Dis.ResupplyOfferPdu.newHeap
  parse := Dis.ResupplyOfferPdu.parseHeap
  serialize := Dis.ResupplyOfferPdu.serializeHeap

/-- Entry of `SetDataReliablePdu` (/repo/opendis/dis7.py:5452-5459). -/
def HeapClass.SetDataReliablePdu : HeapClass where
  value := InPlace.SetDataReliablePdu.value
  members := Dis.SetDataReliablePdu.members
  new := Dis.SetDataReliablePdu.newHeap
  parse := Dis.SetDataReliablePdu.parseHeap
  serialize := Dis.SetDataReliablePdu.serializeHeap

/-- Entry of `EventReportPdu` (/repo/opendis/dis7.py:5490-5495). -/
def HeapClass.EventReportPdu : HeapClass where
  value := InPlace.EventReportPdu.value
  members := Dis.EventReportPdu.members
  new := Dis.EventReportPdu.newHeap
  parse := Dis.EventReportPdu.parseHeap
  serialize := Dis.EventReportPdu.serializeHeap

/-- Entry of `PointObjectStatePdu` (/repo/opendis/dis7.py:5552-5566). -/
def HeapClass.PointObjectStatePdu : HeapClass where
  value := InPlace.PointObjectStatePdu.value
  members := Dis.PointObjectStatePdu.members
  new := Dis.PointObjectStatePdu.newHeap
  parse := Dis.PointObjectStatePdu.parseHeap
  serialize := Dis.PointObjectStatePdu.serializeHeap

/-- Entry of `DataPdu` (/repo/opendis/dis7.py:5621-5626). -/
def HeapClass.DataPdu : HeapClass where
  value := InPlace.DataPdu.value
  members := Dis.DataPdu.members
  new := Dis.DataPdu.newHeap
  parse := Dis.DataPdu.parseHeap
  serialize := Dis.DataPdu.serializeHeap

/-- Classes of `catalogPdus3` (/repo/opendis). -/
def heapPdus3 : List HeapClass :=
  [.DesignatorPdu,
   .StopFreezePdu,
   .EntityStatePdu,
   .StartResumePdu,
   .ElectromagneticEmissionsPdu,
   .ResupplyOfferPdu,
   .SetDataReliablePdu,
   .EventReportPdu,
   .PointObjectStatePdu,
   .DataPdu]

/-- Entry of `FastEntityStatePdu` (/repo/opendis/dis7.py:5764-5811). -/
def HeapClass.FastEntityStatePdu : HeapClass where
  value := InPlace.FastEntityStatePdu.value
  members := Dis.FastEntityStatePdu.members
  new := Dis.FastEntityStatePdu.newHeap
  parse := Dis.FastEntityStatePdu.parseHeap
  serialize := Dis.FastEntityStatePdu.serializeHeap

/-- Entry of `AcknowledgeReliablePdu` (/repo/opendis/dis7.py:5890-5895). -/
def HeapClass.AcknowledgeReliablePdu : HeapClass where
  value := InPlace.AcknowledgeReliablePdu.value
  members := Dis.AcknowledgeReliablePdu.members
  new := Dis.AcknowledgeReliablePdu.newHeap
  parse := Dis.AcknowledgeReliablePdu.parseHeap
  serialize := Dis.AcknowledgeReliablePdu.serializeHeap

/-- Entry of `StartResumeReliablePdu` (/repo/opendis/dis7.py:5928-5936). -/
def HeapClass.StartResumeReliablePdu : HeapClass where
  value := InPlace.StartResumeReliablePdu.value
  members := Dis.StartResumeReliablePdu.members
  new := Dis.StartResumeReliablePdu.newHeap
  parse := Dis.StartResumeReliablePdu.parseHeap
  serialize := Dis.StartResumeReliablePdu.serializeHeap

/-- Entry of `ArealObjectStatePdu` (/repo/opendis/dis7.py:5991-6006). -/
def HeapClass.ArealObjectStatePdu : HeapClass where
  value := InPlace.ArealObjectStatePdu.value
  members := Dis.ArealObjectStatePdu.members
  new := Dis.ArealObjectStatePdu.newHeap
  parse := Dis.ArealObjectStatePdu.parseHeap
  serialize := Dis.ArealObjectStatePdu.serializeHeap

/-- Entry of `DataQueryReliablePdu` (/repo/opendis/dis7.py:6069-6077). -/
def HeapClass.DataQueryReliablePdu : HeapClass where
  value := InPlace.DataQueryReliablePdu.value
  members := Dis.DataQueryReliablePdu.members
  new := Dis.DataQueryReliablePdu.newHeap
  parse := Dis.DataQueryReliablePdu.parseHeap
  serialize := Dis.DataQueryReliablePdu.serializeHeap

/-- Entry of `MinefieldStatePdu` (/repo/opendis/dis7.py:6132-6149). -/
def HeapClass.MinefieldStatePdu : HeapClass where
  value := InPlace.MinefieldStatePdu.value
  members := Dis.MinefieldStatePdu.members
  new := Dis.MinefieldStatePdu.newHeap
  parse := Dis.MinefieldStatePdu.parseHeap
  serialize := Dis.MinefieldStatePdu.serializeHeap

/-- Entry of `DataReliablePdu` (/repo/opendis/dis7.py:6214-6221). -/
def HeapClass.DataReliablePdu : HeapClass where
  value := InPlace.DataReliablePdu.value
  members := Dis.DataReliablePdu.members
  new := Dis.DataReliablePdu.newHeap
  parse := Dis.DataReliablePdu.parseHeap
  serialize := Dis.DataReliablePdu.serializeHeap

/-- Entry of `CommentPdu` (/repo/opendis/dis7.py:6264-6267). -/
def HeapClass.CommentPdu : HeapClass where
  value := InPlace.CommentPdu.value
  members := Dis.CommentPdu.members
  new := Dis.CommentPdu.newHeap
  parse := Dis.CommentPdu.parseHeap
  serialize := Dis.CommentPdu.serializeHeap

/-- Entry of `CommentReliablePdu` (/repo/opendis/dis7.py:6307-6310). -/
def HeapClass.CommentReliablePdu : HeapClass where
  value := InPlace.CommentReliablePdu.value
  members := Dis.CommentReliablePdu.members
  new := Dis.CommentReliablePdu.newHeap
  parse := Dis.CommentReliablePdu.parseHeap
  serialize := Dis.CommentReliablePdu.serializeHeap

/-- Entry of `DetonationPdu` (/repo/opendis/dis7.py:6445-6458). -/
def HeapClass.DetonationPdu : HeapClass where
  value := InPlace.DetonationPdu.value
  members := Dis.DetonationPdu.members
  new := Dis.DetonationPdu.newHeap
  parse := Dis.DetonationPdu.parseHeap
  serialize := Dis.DetonationPdu.serializeHeap

/-- Entry of `SetDataPdu` (/repo/opendis/dis7.py:6512-6517). -/
def HeapClass.SetDataPdu : HeapClass where
  value := InPlace.SetDataPdu.value
  members := Dis.SetDataPdu.members
  new := Dis.SetDataPdu.newHeap
  parse := Dis.SetDataPdu.parseHeap
  serialize := Dis.SetDataPdu.serializeHeap

/-- Entry of `RecordQueryReliablePdu` (/repo/opendis/dis7.py:6555-6566). -/
def HeapClass.RecordQueryReliablePdu : HeapClass where
  value := InPlace.RecordQueryReliablePdu.value
  members := Dis.RecordQueryReliablePdu.members
  new := Dis.RecordQueryReliablePdu.newHeap
  parse := Dis.RecordQueryReliablePdu.parseHeap
  serialize := Dis.RecordQueryReliablePdu.serializeHeap

/-- Entry of `ActionResponsePdu` (/repo/opendis/dis7.py:6620-6625). -/
def HeapClass.ActionResponsePdu : HeapClass where
  value := InPlace.ActionResponsePdu.value
  members := Dis.ActionResponsePdu.members
  new := Dis.ActionResponsePdu.newHeap
  parse := Dis.ActionResponsePdu.parseHeap
  serialize := Dis.ActionResponsePdu.serializeHeap

/-- Classes of `catalogPdus4` (/repo/opendis). -/
def heapPdus4 : List HeapClass :=
  [.FastEntityStatePdu,
   .AcknowledgeReliablePdu,
   .StartResumeReliablePdu,
   .ArealObjectStatePdu,
   .DataQueryReliablePdu,
   .MinefieldStatePdu,
   .DataReliablePdu,
   .CommentPdu,
   .CommentReliablePdu,
   .DetonationPdu,
   .SetDataPdu,
   .RecordQueryReliablePdu,
   .ActionResponsePdu]

/-- Entry of `FirePdu` (/repo/opendis/dis7.py:6713-6722). -/
def HeapClass.FirePdu : HeapClass where
  value := InPlace.FirePdu.value
  members := Dis.FirePdu.members
  new := Dis.FirePdu.newHeap
  parse := Dis.FirePdu.parseHeap
  serialize := Dis.FirePdu.serializeHeap

/-- Entry of `ReceiverPdu` (/repo/opendis/dis7.py:6759-6766). -/
def HeapClass.ReceiverPdu : HeapClass where
  value := InPlace.ReceiverPdu.value
  members := Dis.ReceiverPdu.members
  new := Dis.ReceiverPdu.newHeap
  parse := Dis.ReceiverPdu.parseHeap
  serialize := Dis.ReceiverPdu.serializeHeap

/-- Entry of `UaPdu` (/repo/opendis/dis7.py:6828-6845). -/
def HeapClass.UaPdu : HeapClass where
  value := InPlace.UaPdu.value
  members := Dis.UaPdu.members
  new := Dis.UaPdu.newHeap
  parse := Dis.UaPdu.parseHeap
  serialize := Dis.UaPdu.serializeHeap

/-- Entry of `SignalPdu` (/repo/opendis/dis7.py:6990-7001). -/
def HeapClass.SignalPdu : HeapClass where
  value := InPlace.SignalPdu.value
  members := Dis.SignalPdu.members
  new := Dis.SignalPdu.newHeap
  parse := Dis.SignalPdu.parseHeap
  serialize := Dis.SignalPdu.serializeHeap

/-- Entry of `RemoveEntityReliablePdu` (/repo/opendis/dis7.py:7035-7041). -/
def HeapClass.RemoveEntityReliablePdu : HeapClass where
  value := InPlace.RemoveEntityReliablePdu.value
  members := Dis.RemoveEntityReliablePdu.members
  new := Dis.RemoveEntityReliablePdu.newHeap
  parse := Dis.RemoveEntityReliablePdu.parseHeap
  serialize := Dis.RemoveEntityReliablePdu.serializeHeap

/-- Entry of `SeesPdu` (/repo/opendis/dis7.py:7082-7097). -/
def HeapClass.SeesPdu : HeapClass where
  value := InPlace.SeesPdu.value
  members := Dis.SeesPdu.members
  new := Dis.SeesPdu.newHeap
  parse := Dis.SeesPdu.parseHeap
  serialize := Dis.SeesPdu.serializeHeap

/-- Entry of `CreateEntityReliablePdu` (/repo/opendis/dis7.py:7139-7145). -/
def HeapClass.CreateEntityReliablePdu : HeapClass where
  value := InPlace.CreateEntityReliablePdu.value
  members := Dis.CreateEntityReliablePdu.members
  new := Dis.CreateEntityReliablePdu.newHeap
  parse := Dis.CreateEntityReliablePdu.parseHeap
  serialize := Dis.CreateEntityReliablePdu.serializeHeap

/-- Entry of `StopFreezeReliablePdu` (/repo/opendis/dis7.py:7181-7189). -/
def HeapClass.StopFreezeReliablePdu : HeapClass where
  value := InPlace.StopFreezeReliablePdu.value
  members := Dis.StopFreezeReliablePdu.members
  new := Dis.StopFreezeReliablePdu.newHeap
  parse := Dis.StopFreezeReliablePdu.parseHeap
  serialize := Dis.StopFreezeReliablePdu.serializeHeap

/-- Entry of `EventReportReliablePdu` (/repo/opendis/dis7.py:7238-7243). -/
def HeapClass.EventReportReliablePdu : HeapClass where
  value := InPlace.EventReportReliablePdu.value
  members := Dis.EventReportReliablePdu.members
  new := Dis.EventReportReliablePdu.newHeap
  parse := Dis.EventReportReliablePdu.parseHeap
  serialize := Dis.EventReportReliablePdu.serializeHeap

/-- Entry of `MinefieldResponseNackPdu` (/repo/opendis/dis7.py:7278-7286). -/
def HeapClass.MinefieldResponseNackPdu : HeapClass where
  value := InPlace.MinefieldResponseNackPdu.value
  members := Dis.MinefieldResponseNackPdu.members
  new := Dis.MinefieldResponseNackPdu.newHeap
  parse := Dis.MinefieldResponseNackPdu.parseHeap
  serialize := Dis.MinefieldResponseNackPdu.serializeHeap

/-- Entry of `ActionResponseReliablePdu` (/repo/opendis/dis7.py:7337-7342). -/
def HeapClass.ActionResponseReliablePdu : HeapClass where
  value := InPlace.ActionResponseReliablePdu.value
  members := Dis.ActionResponseReliablePdu.members
  new := Dis.ActionResponseReliablePdu.newHeap
  parse := Dis.ActionResponseReliablePdu.parseHeap
  serialize := Dis.ActionResponseReliablePdu.serializeHeap

/-- Entry of `IsPartOfPdu` (/repo/opendis/dis7.py:7379-7387). -/
def HeapClass.IsPartOfPdu : HeapClass where
  value := InPlace.IsPartOfPdu.value
  members := Dis.IsPartOfPdu.members
  new := Dis.IsPartOfPdu.newHeap
  parse := Dis.IsPartOfPdu.parseHeap
  serialize := Dis.IsPartOfPdu.serializeHeap

/-- Entry of `AggregateStatePdu` (/repo/opendis/dis7.py:7471-7498). -/
def HeapClass.AggregateStatePdu : HeapClass where
  value := InPlace.AggregateStatePdu.value
  members := Dis.AggregateStatePdu.members
  new := Dis.AggregateStatePdu.newHeap
  parse := Dis.AggregateStatePdu.parseHeap
  serialize := Dis.AggregateStatePdu.serializeHeap

/-- Classes of `catalogPdus5` (/repo/opendis). -/
def heapPdus5 : List HeapClass :=
  [.FirePdu,
   .ReceiverPdu,
   .UaPdu,
   .SignalPdu,
   .RemoveEntityReliablePdu,
   .SeesPdu,
   .CreateEntityReliablePdu,
   .StopFreezeReliablePdu,
   .EventReportReliablePdu,
   .MinefieldResponseNackPdu,
   .ActionResponseReliablePdu,
   .IsPartOfPdu,
   .AggregateStatePdu]

/-- Entry of `BeamAntennaPattern` (/repo/opendis/record/radio/__init__.py:137-148). -/
def HeapClass.BeamAntennaPattern : HeapClass where
  value := InPlace.BeamAntennaPattern.value
  members := Dis.BeamAntennaPattern.members
  new := Dis.BeamAntennaPattern.newHeap
  parse := Dis.BeamAntennaPattern.parseHeap (some 40)
  serialize := Dis.BeamAntennaPattern.serializeHeap

/-- Entry of `SpreadSpectrum` (/repo/opendis/record/radio/__init__.py:202-209). -/
def HeapClass.SpreadSpectrum : HeapClass where
  value := InPlace.SpreadSpectrum.value
  members := Dis.SpreadSpectrum.members
  new := Dis.SpreadSpectrum.newHeap
  parse := Dis.SpreadSpectrum.parseHeap
  serialize := Dis.SpreadSpectrum.serializeHeap

/-- Entry of `ModulationType` (/repo/opendis/record/radio/__init__.py:243-247). -/
def HeapClass.ModulationType : HeapClass where
  value := InPlace.ModulationType.value
  members := Dis.ModulationType.members
  new := Dis.ModulationType.newHeap
  parse := Dis.ModulationType.parseHeap
  serialize := Dis.ModulationType.serializeHeap

/-- Entry of `NetId` (/repo/opendis/record/radio/__init__.py:297-303). -/
def HeapClass.NetId : HeapClass where
  value := InPlace.NetId.value
  members := Dis.NetId.members
  new := Dis.NetId.newHeap
  parse := Dis.NetId.parseHeap
  serialize := Dis.NetId.serializeHeap

/-- Entry of `BasicHaveQuickMP` (/repo/opendis/record/radio/__init__.py:379-387). -/
def HeapClass.BasicHaveQuickMP : HeapClass where
  value := InPlace.BasicHaveQuickMP.value
  members := Dis.BasicHaveQuickMP.members
  new := Dis.BasicHaveQuickMP.newHeap
  parse := Dis.BasicHaveQuickMP.parseHeap none
  serialize := Dis.BasicHaveQuickMP.serializeHeap

/-- Entry of `CCTTSincgarsMP` (/repo/opendis/record/radio/__init__.py:426-435). -/
def HeapClass.CCTTSincgarsMP : HeapClass where
  value := InPlace.CCTTSincgarsMP.value
  members := Dis.CCTTSincgarsMP.members
  new := Dis.CCTTSincgarsMP.newHeap
  parse := Dis.CCTTSincgarsMP.parseHeap none
  serialize := Dis.CCTTSincgarsMP.serializeHeap

/-- Classes of `catalogRadio` (/repo/opendis). -/
def heapRadio : List HeapClass :=
  [.BeamAntennaPattern,
   .SpreadSpectrum,
   .ModulationType,
   .NetId,
   .BasicHaveQuickMP,
   .CCTTSincgarsMP]

/-- Entry of `DEFireFlags` (/repo/opendis/record/warfare/enums.py:28-32). -/
def HeapClass.DEFireFlags : HeapClass where
  value := InPlace.DEFireFlags.value
  members := Dis.DEFireFlags.members
  new := Dis.DEFireFlags.newHeap
  parse := Dis.DEFireFlags.parseHeap
  serialize := Dis.DEFireFlags.serializeHeap

/-- Entry of `DirectedEnergyTargetEnergyDeposition` (/repo/opendis/record/warfare/__init__.py:270-274). -/
def HeapClass.DirectedEnergyTargetEnergyDeposition : HeapClass where
  value := InPlace.DirectedEnergyTargetEnergyDeposition.value
  members := Dis.DirectedEnergyTargetEnergyDeposition.members
  new := Dis.DirectedEnergyTargetEnergyDeposition.newHeap
  parse := Dis.DirectedEnergyTargetEnergyDeposition.parseHeap
  serialize := Dis.DirectedEnergyTargetEnergyDeposition.serializeHeap

/-- Classes of `catalogWarfare` (/repo/opendis). -/
def heapWarfare : List HeapClass :=
  [.DEFireFlags,
   .DirectedEnergyTargetEnergyDeposition]

/-- Entry of `DirectedEnergyFirePdu` (/repo/opendis/dis7.py:6361-6379). -/
def HeapClass.DirectedEnergyFirePdu : HeapClass where
  value := InPlace.DirectedEnergyFirePdu.value
  members := Dis.DirectedEnergyFirePdu.members
  new := Dis.DirectedEnergyFirePdu.newHeap
  parse := Dis.DirectedEnergyFirePdu.parseHeap
  serialize := Dis.DirectedEnergyFirePdu.serializeHeap

/-- Entry of `EntityDamageStatusPdu` (/repo/opendis/dis7.py:6657-6664). -/
def HeapClass.EntityDamageStatusPdu : HeapClass where
  value := InPlace.EntityDamageStatusPdu.value
  members := Dis.EntityDamageStatusPdu.members
  new := Dis.EntityDamageStatusPdu.newHeap
  parse := Dis.EntityDamageStatusPdu.parseHeap
  serialize := Dis.EntityDamageStatusPdu.serializeHeap

/-- Classes of `catalogSpecial` (/repo/opendis). -/
def heapSpecial : List HeapClass :=
  [.DirectedEnergyFirePdu,
   .EntityDamageStatusPdu]

/-- `TransmitterPdu` (/repo/opendis/dis7.py:4943-5116), which is not in `inPlace`. -/
def HeapClass.TransmitterPdu : HeapClass where
  value := ⟨"TransmitterPdu", Dis.TransmitterPdu, Dis.TransmitterPdu.init, Dis.TransmitterPdu.parseInto, Dis.TransmitterPdu.serialize⟩
  members := Dis.TransmitterPdu.members
  new := Dis.TransmitterPdu.newHeap
  parse := Dis.TransmitterPdu.parseHeap
  serialize := Dis.TransmitterPdu.serializeHeap

/-- `IntercomControlPdu` (/repo/opendis/dis7.py:6873-6954), which is not in `inPlace`. -/
def HeapClass.IntercomControlPdu : HeapClass where
  value := ⟨"IntercomControlPdu", Dis.IntercomControlPdu, Dis.IntercomControlPdu.init, Dis.IntercomControlPdu.parseInto, Dis.IntercomControlPdu.serialize⟩
  members := Dis.IntercomControlPdu.members
  new := Dis.IntercomControlPdu.newHeap
  parse := Dis.IntercomControlPdu.parseHeap
  serialize := Dis.IntercomControlPdu.serializeHeap

/-- PDU classes that are not in `inPlace` (/repo/opendis/dis7.py). -/
def heapAlone : List HeapClass :=
  [.TransmitterPdu, .IntercomControlPdu]

/-- The classes with a memory model (/repo/opendis). -/
def heapClasses : List HeapClass :=
  heapCommon ++
  heapRecords1 ++
  heapRecords2 ++
  heapRecords3 ++
  heapRecords4 ++
  heapRecords5 ++
  heapPdus1 ++
  heapPdus2 ++
  heapPdus3 ++
  heapPdus4 ++
  heapPdus5 ++
  heapRadio ++
  heapWarfare ++
  heapSpecial ++
  heapAlone

end Dis
