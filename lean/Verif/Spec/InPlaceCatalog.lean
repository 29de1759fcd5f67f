import Verif.Spec.Catalog
import Verif.Model.InPlaceSpecial
import Verif.Spec.InPlaceSpecial

/-!
# The catalogue with parses in place

Generated by `tools/geninplace.py`.
-/

set_option linter.unusedVariables false
set_option linter.unusedSimpArgs false

namespace Dis

/-- A wire class with its `parse` as a program that changes its object (methods `parse` of
/repo/opendis/dis7.py and /repo/opendis/record). -/
structure InPlace where
  /-- the class -/
  codec : Codec
  /-- its method `parse` -/
  into : P codec.Obj Unit
  /-- the second object may be the first one after parses -/
  Since : codec.Obj → codec.Obj → Prop
  /-- the class, or a class of its parts, has lists that `parse` appends to -/
  lists : Bool
  /-- the second object with its lists cut back to their lengths in the first -/
  trim : codec.Obj → codec.Obj → codec.Obj

/-- Entry of `SimulationAddress` (/repo/opendis/record/common.py:133-135). -/
def InPlace.SimulationAddress : InPlace where
  codec := .SimulationAddress
  into := Dis.SimulationAddress.parseInto
  Since := Dis.SimulationAddress.Since
  lists := false
  trim := fun _ x => x

/-- Entry of `EntityIdentifier` (/repo/opendis/record/common.py:48-50). -/
def InPlace.EntityIdentifier : InPlace where
  codec := .EntityIdentifier
  into := Dis.EntityIdentifier.parseInto
  Since := Dis.EntityIdentifier.Since
  lists := false
  trim := fun _ x => x

/-- Entry of `EulerAngles` (/repo/opendis/record/common.py:77-80). -/
def InPlace.EulerAngles : InPlace where
  codec := .EulerAngles
  into := Dis.EulerAngles.parseInto
  Since := Dis.EulerAngles.Since
  lists := false
  trim := fun _ x => x

/-- Entry of `EventIdentifier` (/repo/opendis/record/common.py:106-108). -/
def InPlace.EventIdentifier : InPlace where
  codec := .EventIdentifier
  into := Dis.EventIdentifier.parseInto
  Since := Dis.EventIdentifier.Since
  lists := false
  trim := fun _ x => x

/-- Entry of `Vector3Float` (/repo/opendis/record/common.py:160-163). -/
def InPlace.Vector3Float : InPlace where
  codec := .Vector3Float
  into := Dis.Vector3Float.parseInto
  Since := Dis.Vector3Float.Since
  lists := false
  trim := fun _ x => x

/-- Entry of `WorldCoordinates` (/repo/opendis/record/common.py:188-191). -/
def InPlace.WorldCoordinates : InPlace where
  codec := .WorldCoordinates
  into := Dis.WorldCoordinates.parseInto
  Since := Dis.WorldCoordinates.Since
  lists := false
  trim := fun _ x => x

/-- The classes of `catalogCommon`, in the same order (/repo/opendis). -/
def inPlaceCommon : List InPlace :=
  [.SimulationAddress,
   .EntityIdentifier,
   .EulerAngles,
   .EventIdentifier,
   .Vector3Float,
   .WorldCoordinates]

/-- Entry of `DataQueryDatumSpecification` (/repo/opendis/dis7.py:93-101). -/
def InPlace.DataQueryDatumSpecification : InPlace where
  codec := .DataQueryDatumSpecification
  into := Dis.DataQueryDatumSpecification.parseInto
  Since := Dis.DataQueryDatumSpecification.Since
  lists := true
  trim := Dis.DataQueryDatumSpecification.trim

/-- Entry of `RadioIdentifier` (/repo/opendis/dis7.py:132-137). -/
def InPlace.RadioIdentifier : InPlace where
  codec := .RadioIdentifier
  into := Dis.RadioIdentifier.parseInto
  Since := Dis.RadioIdentifier.Since
  lists := false
  trim := fun _ x => x

/-- Entry of `RequestID` (/repo/opendis/dis7.py:158-160). -/
def InPlace.RequestID : InPlace where
  codec := .RequestID
  into := Dis.RequestID.parseInto
  Since := Dis.RequestID.Since
  lists := false
  trim := fun _ x => x

/-- Entry of `IFFData` (/repo/opendis/dis7.py:184-190). -/
def InPlace.IFFData : InPlace where
  codec := .IFFData
  into := Dis.IFFData.parseInto
  Since := Dis.IFFData.Since
  lists := true
  trim := Dis.IFFData.trim

/-- Entry of `EntityType` (/repo/opendis/dis7.py:2522-2530). -/
def InPlace.EntityType : InPlace where
  codec := .EntityType
  into := Dis.EntityType.parseInto
  Since := Dis.EntityType.Since
  lists := false
  trim := fun _ x => x

/-- Entry of `MunitionDescriptor` (/repo/opendis/dis7.py:229-235). -/
def InPlace.MunitionDescriptor : InPlace where
  codec := .MunitionDescriptor
  into := Dis.MunitionDescriptor.parseInto
  Since := Dis.MunitionDescriptor.Since
  lists := false
  trim := fun _ x => x

/-- Entry of `MinefieldSensorType` (/repo/opendis/dis7.py:257-259). -/
def InPlace.MinefieldSensorType : InPlace where
  codec := .MinefieldSensorType
  into := Dis.MinefieldSensorType.parseInto
  Since := Dis.MinefieldSensorType.Since
  lists := false
  trim := fun _ x => x

/-- Entry of `GroupID` (/repo/opendis/dis7.py:281-284). -/
def InPlace.GroupID : InPlace where
  codec := .GroupID
  into := Dis.GroupID.parseInto
  Since := Dis.GroupID.Since
  lists := false
  trim := fun _ x => x

/-- Entry of `LayerHeader` (/repo/opendis/dis7.py:309-313). -/
def InPlace.LayerHeader : InPlace where
  codec := .LayerHeader
  into := Dis.LayerHeader.parseInto
  Since := Dis.LayerHeader.Since
  lists := false
  trim := fun _ x => x

/-- Entry of `UnsignedDISInteger` (/repo/opendis/dis7.py:329-331). -/
def InPlace.UnsignedDISInteger : InPlace where
  codec := .UnsignedDISInteger
  into := Dis.UnsignedDISInteger.parseInto
  Since := Dis.UnsignedDISInteger.Since
  lists := false
  trim := fun _ x => x

/-- Entry of `DeadReckoningParameters` (/repo/opendis/dis7.py:356-363). -/
def InPlace.DeadReckoningParameters : InPlace where
  codec := .DeadReckoningParameters
  into := Dis.DeadReckoningParameters.parseInto
  Since := Dis.DeadReckoningParameters.Since
  lists := false
  trim := fun _ x => x

/-- Entry of `ProtocolMode` (/repo/opendis/dis7.py:388-390). -/
def InPlace.ProtocolMode : InPlace where
  codec := .ProtocolMode
  into := Dis.ProtocolMode.parseInto
  Since := Dis.ProtocolMode.Since
  lists := false
  trim := fun _ x => x

/-- Entry of `AngleDeception` (/repo/opendis/dis7.py:436-453). -/
def InPlace.AngleDeception : InPlace where
  codec := .AngleDeception
  into := Dis.AngleDeception.parseInto
  Since := Dis.AngleDeception.Since
  lists := false
  trim := fun _ x => x

/-- Entry of `EntityAssociation` (/repo/opendis/dis7.py:508-518). -/
def InPlace.EntityAssociation : InPlace where
  codec := .EntityAssociation
  into := Dis.EntityAssociation.parseInto
  Since := Dis.EntityAssociation.Since
  lists := false
  trim := fun _ x => x

/-- Entry of `VectoringNozzleSystem` (/repo/opendis/dis7.py:545-548). -/
def InPlace.VectoringNozzleSystem : InPlace where
  codec := .VectoringNozzleSystem
  into := Dis.VectoringNozzleSystem.parseInto
  Since := Dis.VectoringNozzleSystem.Since
  lists := false
  trim := fun _ x => x

/-- Entry of `FalseTargetsAttribute` (/repo/opendis/dis7.py:591-605). -/
def InPlace.FalseTargetsAttribute : InPlace where
  codec := .FalseTargetsAttribute
  into := Dis.FalseTargetsAttribute.parseInto
  Since := Dis.FalseTargetsAttribute.Since
  lists := false
  trim := fun _ x => x

/-- Entry of `MinefieldIdentifier` (/repo/opendis/dis7.py:636-639). -/
def InPlace.MinefieldIdentifier : InPlace where
  codec := .MinefieldIdentifier
  into := Dis.MinefieldIdentifier.parseInto
  Since := Dis.MinefieldIdentifier.Since
  lists := false
  trim := fun _ x => x

/-- Entry of `RadioType` (/repo/opendis/dis7.py:672-680). -/
def InPlace.RadioType : InPlace where
  codec := .RadioType
  into := Dis.RadioType.parseInto
  Since := Dis.RadioType.Since
  lists := false
  trim := fun _ x => x

/-- Entry of `NamedLocationIdentification` (/repo/opendis/dis7.py:709-712). -/
def InPlace.NamedLocationIdentification : InPlace where
  codec := .NamedLocationIdentification
  into := Dis.NamedLocationIdentification.parseInto
  Since := Dis.NamedLocationIdentification.Since
  lists := false
  trim := fun _ x => x

/-- Entry of `IFFDataSpecification` (/repo/opendis/dis7.py:733-737). -/
def InPlace.IFFDataSpecification : InPlace where
  codec := .IFFDataSpecification
  into := Dis.IFFDataSpecification.parseInto
  Since := Dis.IFFDataSpecification.Since
  lists := true
  trim := Dis.IFFDataSpecification.trim

/-- Entry of `OwnershipStatus` (/repo/opendis/dis7.py:763-767). -/
def InPlace.OwnershipStatus : InPlace where
  codec := .OwnershipStatus
  into := Dis.OwnershipStatus.parseInto
  Since := Dis.OwnershipStatus.Since
  lists := false
  trim := fun _ x => x

/-- Entry of `AttachedParts` (/repo/opendis/dis7.py:797-803). -/
def InPlace.AttachedParts : InPlace where
  codec := .AttachedParts
  into := Dis.AttachedParts.parseInto
  Since := Dis.AttachedParts.Since
  lists := false
  trim := fun _ x => x

/-- The classes of `catalogRecords1`, in the same order (/repo/opendis). -/
def inPlaceRecords1 : List InPlace :=
  [.DataQueryDatumSpecification,
   .RadioIdentifier,
   .RequestID,
   .IFFData,
   .EntityType,
   .MunitionDescriptor,
   .MinefieldSensorType,
   .GroupID,
   .LayerHeader,
   .UnsignedDISInteger,
   .DeadReckoningParameters,
   .ProtocolMode,
   .AngleDeception,
   .EntityAssociation,
   .VectoringNozzleSystem,
   .FalseTargetsAttribute,
   .MinefieldIdentifier,
   .RadioType,
   .NamedLocationIdentification,
   .IFFDataSpecification,
   .OwnershipStatus,
   .AttachedParts]

/-- Entry of `Attribute` (/repo/opendis/dis7.py:829-833). -/
def InPlace.Attribute : InPlace where
  codec := .Attribute
  into := Dis.Attribute.parseInto
  Since := Dis.Attribute.Since
  lists := false
  trim := fun _ x => x

/-- Entry of `RecordQuerySpecification` (/repo/opendis/dis7.py:857-861). -/
def InPlace.RecordQuerySpecification : InPlace where
  codec := .RecordQuerySpecification
  into := Dis.RecordQuerySpecification.parseInto
  Since := Dis.RecordQuerySpecification.Since
  lists := true
  trim := Dis.RecordQuerySpecification.trim

/-- Entry of `ArticulatedParts` (/repo/opendis/dis7.py:893-899). -/
def InPlace.ArticulatedParts : InPlace where
  codec := .ArticulatedParts
  into := Dis.ArticulatedParts.parseInto
  Since := Dis.ArticulatedParts.Since
  lists := false
  trim := fun _ x => x

/-- Entry of `ObjectType` (/repo/opendis/dis7.py:930-935). -/
def InPlace.ObjectType : InPlace where
  codec := .ObjectType
  into := Dis.ObjectType.parseInto
  Since := Dis.ObjectType.Since
  lists := false
  trim := fun _ x => x

/-- Entry of `Association` (/repo/opendis/dis7.py:967-972). -/
def InPlace.Association : InPlace where
  codec := .Association
  into := Dis.Association.parseInto
  Since := Dis.Association.Since
  lists := false
  trim := fun _ x => x

/-- Entry of `RecordSpecificationElement` (/repo/opendis/dis7.py:1006-1013). -/
def InPlace.RecordSpecificationElement : InPlace where
  codec := .RecordSpecificationElement
  into := Dis.RecordSpecificationElement.parseInto
  Since := Dis.RecordSpecificationElement.Since
  lists := false
  trim := fun _ x => x

/-- Entry of `AntennaLocation` (/repo/opendis/dis7.py:1040-1043). -/
def InPlace.AntennaLocation : InPlace where
  codec := .AntennaLocation
  into := Dis.AntennaLocation.parseInto
  Since := Dis.AntennaLocation.Since
  lists := false
  trim := fun _ x => x

/-- Entry of `ObjectIdentifier` (/repo/opendis/dis7.py:1065-1068). -/
def InPlace.ObjectIdentifier : InPlace where
  codec := .ObjectIdentifier
  into := Dis.ObjectIdentifier.parseInto
  Since := Dis.ObjectIdentifier.Since
  lists := false
  trim := fun _ x => x

/-- Entry of `AggregateIdentifier` (/repo/opendis/dis7.py:1089-1092). -/
def InPlace.AggregateIdentifier : InPlace where
  codec := .AggregateIdentifier
  into := Dis.AggregateIdentifier.parseInto
  Since := Dis.AggregateIdentifier.Since
  lists := false
  trim := fun _ x => x

/-- Entry of `FixedDatum` (/repo/opendis/dis7.py:1114-1117). -/
def InPlace.FixedDatum : InPlace where
  codec := .FixedDatum
  into := Dis.FixedDatum.parseInto
  Since := Dis.FixedDatum.Since
  lists := false
  trim := fun _ x => x

/-- Entry of `VariableParameter` (/repo/opendis/dis7.py:1149-1155). -/
def InPlace.VariableParameter : InPlace where
  codec := .VariableParameter
  into := Dis.VariableParameter.parseInto
  Since := Dis.VariableParameter.Since
  lists := false
  trim := fun _ x => x

/-- Entry of `ChangeOptions` (/repo/opendis/dis7.py:1173-1175). -/
def InPlace.ChangeOptions : InPlace where
  codec := .ChangeOptions
  into := Dis.ChangeOptions.parseInto
  Since := Dis.ChangeOptions.Since
  lists := false
  trim := fun _ x => x

/-- Entry of `LiveSimulationAddress` (/repo/opendis/dis7.py:1197-1200). -/
def InPlace.LiveSimulationAddress : InPlace where
  codec := .LiveSimulationAddress
  into := Dis.LiveSimulationAddress.parseInto
  Since := Dis.LiveSimulationAddress.Since
  lists := false
  trim := fun _ x => x

/-- Entry of `EntityMarking` (/repo/opendis/dis7.py:1233-1237). -/
def InPlace.EntityMarking : InPlace where
  codec := .EntityMarking
  into := Dis.EntityMarking.parseInto
  Since := Dis.EntityMarking.Since
  lists := false
  trim := fun _ x => x

/-- Entry of `UAFundamentalParameter` (/repo/opendis/dis7.py:1275-1282). -/
def InPlace.UAFundamentalParameter : InPlace where
  codec := .UAFundamentalParameter
  into := Dis.UAFundamentalParameter.parseInto
  Since := Dis.UAFundamentalParameter.Since
  lists := false
  trim := fun _ x => x

/-- Entry of `ExplosionDescriptor` (/repo/opendis/dis7.py:1312-1317). -/
def InPlace.ExplosionDescriptor : InPlace where
  codec := .ExplosionDescriptor
  into := Dis.ExplosionDescriptor.parseInto
  Since := Dis.ExplosionDescriptor.Since
  lists := false
  trim := fun _ x => x

/-- Entry of `ClockTime` (/repo/opendis/dis7.py:1344-1347). -/
def InPlace.ClockTime : InPlace where
  codec := .ClockTime
  into := Dis.ClockTime.parseInto
  Since := Dis.ClockTime.Since
  lists := false
  trim := fun _ x => x

/-- Entry of `SecondaryOperationalData` (/repo/opendis/dis7.py:1374-1380). -/
def InPlace.SecondaryOperationalData : InPlace where
  codec := .SecondaryOperationalData
  into := Dis.SecondaryOperationalData.parseInto
  Since := Dis.SecondaryOperationalData.Since
  lists := false
  trim := fun _ x => x

/-- Entry of `EnvironmentType` (/repo/opendis/dis7.py:1414-1422). -/
def InPlace.EnvironmentType : InPlace where
  codec := .EnvironmentType
  into := Dis.EnvironmentType.parseInto
  Since := Dis.EnvironmentType.Since
  lists := false
  trim := fun _ x => x

/-- Entry of `TotalRecordSets` (/repo/opendis/dis7.py:1444-1447). -/
def InPlace.TotalRecordSets : InPlace where
  codec := .TotalRecordSets
  into := Dis.TotalRecordSets.parseInto
  Since := Dis.TotalRecordSets.Since
  lists := false
  trim := fun _ x => x

/-- Entry of `MineEntityIdentifier` (/repo/opendis/dis7.py:1469-1472). -/
def InPlace.MineEntityIdentifier : InPlace where
  codec := .MineEntityIdentifier
  into := Dis.MineEntityIdentifier.parseInto
  Since := Dis.MineEntityIdentifier.Since
  lists := false
  trim := fun _ x => x

/-- Entry of `Relationship` (/repo/opendis/dis7.py:1494-1497). -/
def InPlace.Relationship : InPlace where
  codec := .Relationship
  into := Dis.Relationship.parseInto
  Since := Dis.Relationship.Since
  lists := false
  trim := fun _ x => x

/-- The classes of `catalogRecords2`, in the same order (/repo/opendis). -/
def inPlaceRecords2 : List InPlace :=
  [.Attribute,
   .RecordQuerySpecification,
   .ArticulatedParts,
   .ObjectType,
   .Association,
   .RecordSpecificationElement,
   .AntennaLocation,
   .ObjectIdentifier,
   .AggregateIdentifier,
   .FixedDatum,
   .VariableParameter,
   .ChangeOptions,
   .LiveSimulationAddress,
   .EntityMarking,
   .UAFundamentalParameter,
   .ExplosionDescriptor,
   .ClockTime,
   .SecondaryOperationalData,
   .EnvironmentType,
   .TotalRecordSets,
   .MineEntityIdentifier,
   .Relationship]

/-- Entry of `EEFundamentalParameterData` (/repo/opendis/dis7.py:1539-1550). -/
def InPlace.EEFundamentalParameterData : InPlace where
  codec := .EEFundamentalParameterData
  into := Dis.EEFundamentalParameterData.parseInto
  Since := Dis.EEFundamentalParameterData.Since
  lists := false
  trim := fun _ x => x

/-- Entry of `JammingTechnique` (/repo/opendis/dis7.py:1578-1583). -/
def InPlace.JammingTechnique : InPlace where
  codec := .JammingTechnique
  into := Dis.JammingTechnique.parseInto
  Since := Dis.JammingTechnique.Since
  lists := false
  trim := fun _ x => x

/-- Entry of `VariableDatum` (/repo/opendis/dis7.py:3318-3327). -/
def InPlace.VariableDatum : InPlace where
  codec := .VariableDatum
  into := Dis.VariableDatum.parseInto
  Since := Dis.VariableDatum.Since
  lists := true
  trim := Dis.VariableDatum.trim

/-- Entry of `DatumSpecification` (/repo/opendis/dis7.py:1615-1623). -/
def InPlace.DatumSpecification : InPlace where
  codec := .DatumSpecification
  into := Dis.DatumSpecification.parseInto
  Since := Dis.DatumSpecification.Since
  lists := true
  trim := Dis.DatumSpecification.trim

/-- Entry of `Expendable` (/repo/opendis/dis7.py:1658-1664). -/
def InPlace.Expendable : InPlace where
  codec := .Expendable
  into := Dis.Expendable.parseInto
  Since := Dis.Expendable.Since
  lists := false
  trim := fun _ x => x

/-- Entry of `CommunicationsNodeID` (/repo/opendis/dis7.py:3493-3496). -/
def InPlace.CommunicationsNodeID : InPlace where
  codec := .CommunicationsNodeID
  into := Dis.CommunicationsNodeID.parseInto
  Since := Dis.CommunicationsNodeID.Since
  lists := false
  trim := fun _ x => x

/-- Entry of `IOCommunicationsNode` (/repo/opendis/dis7.py:1691-1697). -/
def InPlace.IOCommunicationsNode : InPlace where
  codec := .IOCommunicationsNode
  into := Dis.IOCommunicationsNode.parseInto
  Since := Dis.IOCommunicationsNode.Since
  lists := false
  trim := fun _ x => x

/-- Entry of `LinearSegmentParameter` (/repo/opendis/dis7.py:1748-1760). -/
def InPlace.LinearSegmentParameter : InPlace where
  codec := .LinearSegmentParameter
  into := Dis.LinearSegmentParameter.parseInto
  Since := Dis.LinearSegmentParameter.Since
  lists := false
  trim := fun _ x => x

/-- Entry of `SystemIdentifier` (/repo/opendis/dis7.py:1797-1802). -/
def InPlace.SystemIdentifier : InPlace where
  codec := .SystemIdentifier
  into := Dis.SystemIdentifier.parseInto
  Since := Dis.SystemIdentifier.Since
  lists := false
  trim := fun _ x => x

/-- Entry of `TrackJamData` (/repo/opendis/dis7.py:1829-1833). -/
def InPlace.TrackJamData : InPlace where
  codec := .TrackJamData
  into := Dis.TrackJamData.parseInto
  Since := Dis.TrackJamData.Since
  lists := false
  trim := fun _ x => x

/-- Entry of `AggregateType` (/repo/opendis/dis7.py:1870-1878). -/
def InPlace.AggregateType : InPlace where
  codec := .AggregateType
  into := Dis.AggregateType.parseInto
  Since := Dis.AggregateType.Since
  lists := false
  trim := fun _ x => x

/-- Entry of `SimulationIdentifier` (/repo/opendis/dis7.py:2069-2072). -/
def InPlace.SimulationIdentifier : InPlace where
  codec := .SimulationIdentifier
  into := Dis.SimulationIdentifier.parseInto
  Since := Dis.SimulationIdentifier.Since
  lists := false
  trim := fun _ x => x

/-- Entry of `PduHeader` (/repo/opendis/dis7.py:3401-3410). -/
def InPlace.PduHeader : InPlace where
  codec := .PduHeader
  into := Dis.PduHeader.parseInto
  Since := Dis.PduHeader.Since
  lists := false
  trim := fun _ x => x

/-- Entry of `SimulationManagementPduHeader` (/repo/opendis/dis7.py:1909-1913). -/
def InPlace.SimulationManagementPduHeader : InPlace where
  codec := .SimulationManagementPduHeader
  into := Dis.SimulationManagementPduHeader.parseInto
  Since := Dis.SimulationManagementPduHeader.Since
  lists := false
  trim := fun _ x => x

/-- Entry of `BeamData` (/repo/opendis/dis7.py:1946-1952). -/
def InPlace.BeamData : InPlace where
  codec := .BeamData
  into := Dis.BeamData.parseInto
  Since := Dis.BeamData.Since
  lists := false
  trim := fun _ x => x

/-- Entry of `EngineFuel` (/repo/opendis/dis7.py:1984-1990). -/
def InPlace.EngineFuel : InPlace where
  codec := .EngineFuel
  into := Dis.EngineFuel.parseInto
  Since := Dis.EngineFuel.Since
  lists := false
  trim := fun _ x => x

/-- Entry of `IOEffect` (/repo/opendis/dis7.py:2025-2035). -/
def InPlace.IOEffect : InPlace where
  codec := .IOEffect
  into := Dis.IOEffect.parseInto
  Since := Dis.IOEffect.Since
  lists := false
  trim := fun _ x => x

/-- Entry of `GridAxisDescriptorVariable` (/repo/opendis/dis7.py:2123-2137). -/
def InPlace.GridAxisDescriptorVariable : InPlace where
  codec := .GridAxisDescriptorVariable
  into := Dis.GridAxisDescriptorVariable.parseInto
  Since := Dis.GridAxisDescriptorVariable.Since
  lists := true
  trim := Dis.GridAxisDescriptorVariable.trim

/-- Entry of `SupplyQuantity` (/repo/opendis/dis7.py:2171-2174). -/
def InPlace.SupplyQuantity : InPlace where
  codec := .SupplyQuantity
  into := Dis.SupplyQuantity.parseInto
  Since := Dis.SupplyQuantity.Since
  lists := false
  trim := fun _ x => x

/-- Entry of `SilentEntitySystem` (/repo/opendis/dis7.py:2202-2208). -/
def InPlace.SilentEntitySystem : InPlace where
  codec := .SilentEntitySystem
  into := Dis.SilentEntitySystem.parseInto
  Since := Dis.SilentEntitySystem.Since
  lists := true
  trim := Dis.SilentEntitySystem.trim

/-- Entry of `SilentAggregateSystem` (/repo/opendis/dis7.py:2234-2237). -/
def InPlace.SilentAggregateSystem : InPlace where
  codec := .SilentAggregateSystem
  into := Dis.SilentAggregateSystem.parseInto
  Since := Dis.SilentAggregateSystem.Since
  lists := false
  trim := fun _ x => x

/-- Entry of `BlankingSector` (/repo/opendis/dis7.py:2277-2292). -/
def InPlace.BlankingSector : InPlace where
  codec := .BlankingSector
  into := Dis.BlankingSector.parseInto
  Since := Dis.BlankingSector.Since
  lists := false
  trim := fun _ x => x

/-- The classes of `catalogRecords3`, in the same order (/repo/opendis). -/
def inPlaceRecords3 : List InPlace :=
  [.EEFundamentalParameterData,
   .JammingTechnique,
   .VariableDatum,
   .DatumSpecification,
   .Expendable,
   .CommunicationsNodeID,
   .IOCommunicationsNode,
   .LinearSegmentParameter,
   .SystemIdentifier,
   .TrackJamData,
   .AggregateType,
   .SimulationIdentifier,
   .PduHeader,
   .SimulationManagementPduHeader,
   .BeamData,
   .EngineFuel,
   .IOEffect,
   .GridAxisDescriptorVariable,
   .SupplyQuantity,
   .SilentEntitySystem,
   .SilentAggregateSystem,
   .BlankingSector]

/-- Entry of `LaunchedMunitionRecord` (/repo/opendis/dis7.py:2332-2340). -/
def InPlace.LaunchedMunitionRecord : InPlace where
  codec := .LaunchedMunitionRecord
  into := Dis.LaunchedMunitionRecord.parseInto
  Since := Dis.LaunchedMunitionRecord.Since
  lists := false
  trim := fun _ x => x

/-- Entry of `IFFFundamentalParameterData` (/repo/opendis/dis7.py:2375-2384). -/
def InPlace.IFFFundamentalParameterData : InPlace where
  codec := .IFFFundamentalParameterData
  into := Dis.IFFFundamentalParameterData.parseInto
  Since := Dis.IFFFundamentalParameterData.Since
  lists := false
  trim := fun _ x => x

/-- Entry of `FundamentalOperationalData` (/repo/opendis/dis7.py:2439-2450). -/
def InPlace.FundamentalOperationalData : InPlace where
  codec := .FundamentalOperationalData
  into := Dis.FundamentalOperationalData.parseInto
  Since := Dis.FundamentalOperationalData.Since
  lists := false
  trim := fun _ x => x

/-- Entry of `IntercomCommunicationsParameters` (/repo/opendis/dis7.py:2484-2488). -/
def InPlace.IntercomCommunicationsParameters : InPlace where
  codec := .IntercomCommunicationsParameters
  into := Dis.IntercomCommunicationsParameters.parseInto
  Since := Dis.IntercomCommunicationsParameters.Since
  lists := false
  trim := fun _ x => x

/-- Entry of `Munition` (/repo/opendis/dis7.py:2568-2574). -/
def InPlace.Munition : InPlace where
  codec := .Munition
  into := Dis.Munition.parseInto
  Since := Dis.Munition.Since
  lists := false
  trim := fun _ x => x

/-- Entry of `StandardVariableSpecification` (/repo/opendis/dis7.py:2602-2606). -/
def InPlace.StandardVariableSpecification : InPlace where
  codec := .StandardVariableSpecification
  into := Dis.StandardVariableSpecification.parseInto
  Since := Dis.StandardVariableSpecification.Since
  lists := true
  trim := Dis.StandardVariableSpecification.trim

/-- Entry of `Vector2Float` (/repo/opendis/dis7.py:2625-2628). -/
def InPlace.Vector2Float : InPlace where
  codec := .Vector2Float
  into := Dis.Vector2Float.parseInto
  Since := Dis.Vector2Float.Since
  lists := false
  trim := fun _ x => x

/-- Entry of `Environment` (/repo/opendis/dis7.py:2656-2661). -/
def InPlace.Environment : InPlace where
  codec := .Environment
  into := Dis.Environment.parseInto
  Since := Dis.Environment.Since
  lists := false
  trim := fun _ x => x

/-- Entry of `AcousticEmitter` (/repo/opendis/dis7.py:2688-2692). -/
def InPlace.AcousticEmitter : InPlace where
  codec := .AcousticEmitter
  into := Dis.AcousticEmitter.parseInto
  Since := Dis.AcousticEmitter.Since
  lists := false
  trim := fun _ x => x

/-- Entry of `AngularVelocityVector` (/repo/opendis/dis7.py:2718-2722). -/
def InPlace.AngularVelocityVector : InPlace where
  codec := .AngularVelocityVector
  into := Dis.AngularVelocityVector.parseInto
  Since := Dis.AngularVelocityVector.Since
  lists := false
  trim := fun _ x => x

/-- Entry of `AggregateMarking` (/repo/opendis/dis7.py:2746-2750). -/
def InPlace.AggregateMarking : InPlace where
  codec := .AggregateMarking
  into := Dis.AggregateMarking.parseInto
  Since := Dis.AggregateMarking.Since
  lists := false
  trim := fun _ x => x

/-- Entry of `DataFilterRecord` (/repo/opendis/dis7.py:2775-2777). -/
def InPlace.DataFilterRecord : InPlace where
  codec := .DataFilterRecord
  into := Dis.DataFilterRecord.parseInto
  Since := Dis.DataFilterRecord.Since
  lists := false
  trim := fun _ x => x

/-- Entry of `IntercomIdentifier` (/repo/opendis/dis7.py:2800-2805). -/
def InPlace.IntercomIdentifier : InPlace where
  codec := .IntercomIdentifier
  into := Dis.IntercomIdentifier.parseInto
  Since := Dis.IntercomIdentifier.Since
  lists := false
  trim := fun _ x => x

/-- Entry of `StorageFuel` (/repo/opendis/dis7.py:2836-2842). -/
def InPlace.StorageFuel : InPlace where
  codec := .StorageFuel
  into := Dis.StorageFuel.parseInto
  Since := Dis.StorageFuel.Since
  lists := false
  trim := fun _ x => x

/-- Entry of `Sensor` (/repo/opendis/dis7.py:2877-2884). -/
def InPlace.Sensor : InPlace where
  codec := .Sensor
  into := Dis.Sensor.parseInto
  Since := Dis.Sensor.Since
  lists := false
  trim := fun _ x => x

/-- Entry of `MunitionReload` (/repo/opendis/dis7.py:2924-2931). -/
def InPlace.MunitionReload : InPlace where
  codec := .MunitionReload
  into := Dis.MunitionReload.parseInto
  Since := Dis.MunitionReload.Since
  lists := false
  trim := fun _ x => x

/-- Entry of `StorageFuelReload` (/repo/opendis/dis7.py:2976-2985). -/
def InPlace.StorageFuelReload : InPlace where
  codec := .StorageFuelReload
  into := Dis.StorageFuelReload.parseInto
  Since := Dis.StorageFuelReload.Since
  lists := false
  trim := fun _ x => x

/-- Entry of `ExpendableReload` (/repo/opendis/dis7.py:3021-3028). -/
def InPlace.ExpendableReload : InPlace where
  codec := .ExpendableReload
  into := Dis.ExpendableReload.parseInto
  Since := Dis.ExpendableReload.Since
  lists := false
  trim := fun _ x => x

/-- Entry of `EngineFuelReload` (/repo/opendis/dis7.py:3064-3072). -/
def InPlace.EngineFuelReload : InPlace where
  codec := .EngineFuelReload
  into := Dis.EngineFuelReload.parseInto
  Since := Dis.EngineFuelReload.Since
  lists := false
  trim := fun _ x => x

/-- Entry of `UnattachedIdentifier` (/repo/opendis/dis7.py:3101-3104). -/
def InPlace.UnattachedIdentifier : InPlace where
  codec := .UnattachedIdentifier
  into := Dis.UnattachedIdentifier.parseInto
  Since := Dis.UnattachedIdentifier.Since
  lists := false
  trim := fun _ x => x

/-- Entry of `EntityTypeVP` (/repo/opendis/dis7.py:3129-3135). -/
def InPlace.EntityTypeVP : InPlace where
  codec := .EntityTypeVP
  into := Dis.EntityTypeVP.parseInto
  Since := Dis.EntityTypeVP.Since
  lists := false
  trim := fun _ x => x

/-- Entry of `BeamStatus` (/repo/opendis/dis7.py:3158-3160). -/
def InPlace.BeamStatus : InPlace where
  codec := .BeamStatus
  into := Dis.BeamStatus.parseInto
  Since := Dis.BeamStatus.Since
  lists := false
  trim := fun _ x => x

/-- The classes of `catalogRecords4`, in the same order (/repo/opendis). -/
def inPlaceRecords4 : List InPlace :=
  [.LaunchedMunitionRecord,
   .IFFFundamentalParameterData,
   .FundamentalOperationalData,
   .IntercomCommunicationsParameters,
   .Munition,
   .StandardVariableSpecification,
   .Vector2Float,
   .Environment,
   .AcousticEmitter,
   .AngularVelocityVector,
   .AggregateMarking,
   .DataFilterRecord,
   .IntercomIdentifier,
   .StorageFuel,
   .Sensor,
   .MunitionReload,
   .StorageFuelReload,
   .ExpendableReload,
   .EngineFuelReload,
   .UnattachedIdentifier,
   .EntityTypeVP,
   .BeamStatus]

/-- Entry of `EnvironmentGeneral` (/repo/opendis/dis7.py:3193-3200). -/
def InPlace.EnvironmentGeneral : InPlace where
  codec := .EnvironmentGeneral
  into := Dis.EnvironmentGeneral.parseInto
  Since := Dis.EnvironmentGeneral.Since
  lists := false
  trim := fun _ x => x

/-- Entry of `GridAxis` (/repo/opendis/dis7.py:3241-3249). -/
def InPlace.GridAxis : InPlace where
  codec := .GridAxis
  into := Dis.GridAxis.parseInto
  Since := Dis.GridAxis.Since
  lists := false
  trim := fun _ x => x

/-- Entry of `RecordSpecification` (/repo/opendis/dis7.py:3278-3282). -/
def InPlace.RecordSpecification : InPlace where
  codec := .RecordSpecification
  into := Dis.RecordSpecification.parseInto
  Since := Dis.RecordSpecification.Since
  lists := true
  trim := Dis.RecordSpecification.trim

/-- Entry of `EventIdentifierLiveEntity` (/repo/opendis/dis7.py:3357-3361). -/
def InPlace.EventIdentifierLiveEntity : InPlace where
  codec := .EventIdentifierLiveEntity
  into := Dis.EventIdentifierLiveEntity.parseInto
  Since := Dis.EventIdentifierLiveEntity.Since
  lists := false
  trim := fun _ x => x

/-- Entry of `ExpendableDescriptor` (/repo/opendis/dis7.py:3515-3518). -/
def InPlace.ExpendableDescriptor : InPlace where
  codec := .ExpendableDescriptor
  into := Dis.ExpendableDescriptor.parseInto
  Since := Dis.ExpendableDescriptor.Since
  lists := false
  trim := fun _ x => x

/-- Entry of `PropulsionSystemData` (/repo/opendis/dis7.py:3542-3545). -/
def InPlace.PropulsionSystemData : InPlace where
  codec := .PropulsionSystemData
  into := Dis.PropulsionSystemData.parseInto
  Since := Dis.PropulsionSystemData.Since
  lists := false
  trim := fun _ x => x

/-- Entry of `LiveEntityIdentifier` (/repo/opendis/dis7.py:3569-3572). -/
def InPlace.LiveEntityIdentifier : InPlace where
  codec := .LiveEntityIdentifier
  into := Dis.LiveEntityIdentifier.parseInto
  Since := Dis.LiveEntityIdentifier.Since
  lists := false
  trim := fun _ x => x

/-- Entry of `SeparationVP` (/repo/opendis/dis7.py:3603-3611). -/
def InPlace.SeparationVP : InPlace where
  codec := .SeparationVP
  into := Dis.SeparationVP.parseInto
  Since := Dis.SeparationVP.Since
  lists := false
  trim := fun _ x => x

/-- Entry of `EmitterSystem` (/repo/opendis/dis7.py:3638-3642). -/
def InPlace.EmitterSystem : InPlace where
  codec := .EmitterSystem
  into := Dis.EmitterSystem.parseInto
  Since := Dis.EmitterSystem.Since
  lists := false
  trim := fun _ x => x

/-- Entry of `PduStatus` (/repo/opendis/dis7.py:3662-3664). -/
def InPlace.PduStatus : InPlace where
  codec := .PduStatus
  into := Dis.PduStatus.parseInto
  Since := Dis.PduStatus.Since
  lists := false
  trim := fun _ x => x

/-- Entry of `EmissionSystemBeamRecord` (/repo/opendis/dis7.py:5203-5215). -/
def InPlace.EmissionSystemBeamRecord : InPlace where
  codec := .EmissionSystemBeamRecord
  into := Dis.EmissionSystemBeamRecord.parseInto
  Since := Dis.EmissionSystemBeamRecord.Since
  lists := true
  trim := Dis.EmissionSystemBeamRecord.trim

/-- Entry of `EmissionSystemRecord` (/repo/opendis/dis7.py:5258-5265). -/
def InPlace.EmissionSystemRecord : InPlace where
  codec := .EmissionSystemRecord
  into := Dis.EmissionSystemRecord.parseInto
  Since := Dis.EmissionSystemRecord.Since
  lists := true
  trim := Dis.EmissionSystemRecord.trim

/-- The classes of `catalogRecords5`, in the same order (/repo/opendis). -/
def inPlaceRecords5 : List InPlace :=
  [.EnvironmentGeneral,
   .GridAxis,
   .RecordSpecification,
   .EventIdentifierLiveEntity,
   .ExpendableDescriptor,
   .PropulsionSystemData,
   .LiveEntityIdentifier,
   .SeparationVP,
   .EmitterSystem,
   .PduStatus,
   .EmissionSystemBeamRecord,
   .EmissionSystemRecord]

/-- Entry of `EntityStateUpdatePdu` (/repo/opendis/dis7.py:3794-3805). -/
def InPlace.EntityStateUpdatePdu : InPlace where
  codec := .EntityStateUpdatePdu
  into := Dis.EntityStateUpdatePdu.parseInto
  Since := Dis.EntityStateUpdatePdu.Since
  lists := true
  trim := Dis.EntityStateUpdatePdu.trim

/-- Entry of `ServiceRequestPdu` (/repo/opendis/dis7.py:3850-3859). -/
def InPlace.ServiceRequestPdu : InPlace where
  codec := .ServiceRequestPdu
  into := Dis.ServiceRequestPdu.parseInto
  Since := Dis.ServiceRequestPdu.Since
  lists := true
  trim := Dis.ServiceRequestPdu.trim

/-- Entry of `RepairCompletePdu` (/repo/opendis/dis7.py:3896-3902). -/
def InPlace.RepairCompletePdu : InPlace where
  codec := .RepairCompletePdu
  into := Dis.RepairCompletePdu.parseInto
  Since := Dis.RepairCompletePdu.Since
  lists := false
  trim := fun _ x => x

/-- Entry of `CollisionPdu` (/repo/opendis/dis7.py:3965-3975). -/
def InPlace.CollisionPdu : InPlace where
  codec := .CollisionPdu
  into := Dis.CollisionPdu.parseInto
  Since := Dis.CollisionPdu.Since
  lists := false
  trim := fun _ x => x

/-- Entry of `RepairResponsePdu` (/repo/opendis/dis7.py:4011-4018). -/
def InPlace.RepairResponsePdu : InPlace where
  codec := .RepairResponsePdu
  into := Dis.RepairResponsePdu.parseInto
  Since := Dis.RepairResponsePdu.Since
  lists := false
  trim := fun _ x => x

/-- Entry of `DataQueryPdu` (/repo/opendis/dis7.py:4095-4100). -/
def InPlace.DataQueryPdu : InPlace where
  codec := .DataQueryPdu
  into := Dis.DataQueryPdu.parseInto
  Since := Dis.DataQueryPdu.Since
  lists := true
  trim := Dis.DataQueryPdu.trim

/-- The classes of `catalogPdus1`, in the same order (/repo/opendis). -/
def inPlacePdus1 : List InPlace :=
  [.EntityStateUpdatePdu,
   .ServiceRequestPdu,
   .RepairCompletePdu,
   .CollisionPdu,
   .RepairResponsePdu,
   .DataQueryPdu]

/-- Entry of `CreateEntityPdu` (/repo/opendis/dis7.py:4190-4193). -/
def InPlace.CreateEntityPdu : InPlace where
  codec := .CreateEntityPdu
  into := Dis.CreateEntityPdu.parseInto
  Since := Dis.CreateEntityPdu.Since
  lists := false
  trim := fun _ x => x

/-- Entry of `IntercomSignalPdu` (/repo/opendis/dis7.py:4252-4263). -/
def InPlace.IntercomSignalPdu : InPlace where
  codec := .IntercomSignalPdu
  into := Dis.IntercomSignalPdu.parseInto
  Since := Dis.IntercomSignalPdu.Since
  lists := true
  trim := Dis.IntercomSignalPdu.trim

/-- Entry of `RemoveEntityPdu` (/repo/opendis/dis7.py:4297-4300). -/
def InPlace.RemoveEntityPdu : InPlace where
  codec := .RemoveEntityPdu
  into := Dis.RemoveEntityPdu.parseInto
  Since := Dis.RemoveEntityPdu.Since
  lists := false
  trim := fun _ x => x

/-- Entry of `ResupplyReceivedPdu` (/repo/opendis/dis7.py:4333-4342). -/
def InPlace.ResupplyReceivedPdu : InPlace where
  codec := .ResupplyReceivedPdu
  into := Dis.ResupplyReceivedPdu.parseInto
  Since := Dis.ResupplyReceivedPdu.Since
  lists := true
  trim := Dis.ResupplyReceivedPdu.trim

/-- Entry of `CollisionElasticPdu` (/repo/opendis/dis7.py:4438-4455). -/
def InPlace.CollisionElasticPdu : InPlace where
  codec := .CollisionElasticPdu
  into := Dis.CollisionElasticPdu.parseInto
  Since := Dis.CollisionElasticPdu.Since
  lists := false
  trim := fun _ x => x

/-- Entry of `ActionRequestPdu` (/repo/opendis/dis7.py:4515-4520). -/
def InPlace.ActionRequestPdu : InPlace where
  codec := .ActionRequestPdu
  into := Dis.ActionRequestPdu.parseInto
  Since := Dis.ActionRequestPdu.Since
  lists := true
  trim := Dis.ActionRequestPdu.trim

/-- Entry of `AcknowledgePdu` (/repo/opendis/dis7.py:4550-4555). -/
def InPlace.AcknowledgePdu : InPlace where
  codec := .AcknowledgePdu
  into := Dis.AcknowledgePdu.parseInto
  Since := Dis.AcknowledgePdu.Since
  lists := false
  trim := fun _ x => x

/-- Entry of `ActionRequestReliablePdu` (/repo/opendis/dis7.py:4655-4664). -/
def InPlace.ActionRequestReliablePdu : InPlace where
  codec := .ActionRequestReliablePdu
  into := Dis.ActionRequestReliablePdu.parseInto
  Since := Dis.ActionRequestReliablePdu.Since
  lists := true
  trim := Dis.ActionRequestReliablePdu.trim

/-- The classes of `catalogPdus2`, in the same order (/repo/opendis). -/
def inPlacePdus2 : List InPlace :=
  [.CreateEntityPdu,
   .IntercomSignalPdu,
   .RemoveEntityPdu,
   .ResupplyReceivedPdu,
   .CollisionElasticPdu,
   .ActionRequestPdu,
   .AcknowledgePdu,
   .ActionRequestReliablePdu]

/-- Entry of `DesignatorPdu` (/repo/opendis/dis7.py:4723-4737). -/
def InPlace.DesignatorPdu : InPlace where
  codec := .DesignatorPdu
  into := Dis.DesignatorPdu.parseInto
  Since := Dis.DesignatorPdu.Since
  lists := false
  trim := fun _ x => x

/-- Entry of `StopFreezePdu` (/repo/opendis/dis7.py:4779-4786). -/
def InPlace.StopFreezePdu : InPlace where
  codec := .StopFreezePdu
  into := Dis.StopFreezePdu.parseInto
  Since := Dis.StopFreezePdu.Since
  lists := false
  trim := fun _ x => x

/-- Entry of `EntityStatePdu` (/repo/opendis/dis7.py:4851-4867). -/
def InPlace.EntityStatePdu : InPlace where
  codec := .EntityStatePdu
  into := Dis.EntityStatePdu.parseInto
  Since := Dis.EntityStatePdu.Since
  lists := true
  trim := Dis.EntityStatePdu.trim

/-- Entry of `StartResumePdu` (/repo/opendis/dis7.py:4928-4933). -/
def InPlace.StartResumePdu : InPlace where
  codec := .StartResumePdu
  into := Dis.StartResumePdu.parseInto
  Since := Dis.StartResumePdu.Since
  lists := false
  trim := fun _ x => x

/-- Entry of `ElectromagneticEmissionsPdu` (/repo/opendis/dis7.py:5146-5155). -/
def InPlace.ElectromagneticEmissionsPdu : InPlace where
  codec := .ElectromagneticEmissionsPdu
  into := Dis.ElectromagneticEmissionsPdu.parseInto
  Since := Dis.ElectromagneticEmissionsPdu.Since
  lists := true
  trim := Dis.ElectromagneticEmissionsPdu.trim

/-- Entry of `ResupplyOfferPdu` (/repo/opendis/dis7.py:5305-5314). -/
def InPlace.ResupplyOfferPdu : InPlace where
  codec := .ResupplyOfferPdu
  into := Dis.ResupplyOfferPdu.parseInto
  Since := Dis.ResupplyOfferPdu.Since
  lists := true
  trim := Dis.ResupplyOfferPdu.trim

/-- Entry of `SetDataReliablePdu` (/repo/opendis/dis7.py:5452-5459). -/
def InPlace.SetDataReliablePdu : InPlace where
  codec := .SetDataReliablePdu
  into := Dis.SetDataReliablePdu.parseInto
  Since := Dis.SetDataReliablePdu.Since
  lists := true
  trim := Dis.SetDataReliablePdu.trim

/-- Entry of `EventReportPdu` (/repo/opendis/dis7.py:5490-5495). -/
def InPlace.EventReportPdu : InPlace where
  codec := .EventReportPdu
  into := Dis.EventReportPdu.parseInto
  Since := Dis.EventReportPdu.Since
  lists := true
  trim := Dis.EventReportPdu.trim

/-- Entry of `PointObjectStatePdu` (/repo/opendis/dis7.py:5552-5566). -/
def InPlace.PointObjectStatePdu : InPlace where
  codec := .PointObjectStatePdu
  into := Dis.PointObjectStatePdu.parseInto
  Since := Dis.PointObjectStatePdu.Since
  lists := false
  trim := fun _ x => x

/-- Entry of `DataPdu` (/repo/opendis/dis7.py:5621-5626). -/
def InPlace.DataPdu : InPlace where
  codec := .DataPdu
  into := Dis.DataPdu.parseInto
  Since := Dis.DataPdu.Since
  lists := true
  trim := Dis.DataPdu.trim

/-- The classes of `catalogPdus3`, in the same order (/repo/opendis). -/
def inPlacePdus3 : List InPlace :=
  [.DesignatorPdu,
   .StopFreezePdu,
   .EntityStatePdu,
   .StartResumePdu,
   .ElectromagneticEmissionsPdu,
   .ResupplyOfferPdu,
   .SetDataReliablePdu,
   .EventReportPdu,
   .PointObjectStatePdu,
   .DataPdu]

/-- Entry of `FastEntityStatePdu` (/repo/opendis/dis7.py:5764-5811). -/
def InPlace.FastEntityStatePdu : InPlace where
  codec := .FastEntityStatePdu
  into := Dis.FastEntityStatePdu.parseInto
  Since := Dis.FastEntityStatePdu.Since
  lists := true
  trim := Dis.FastEntityStatePdu.trim

/-- Entry of `AcknowledgeReliablePdu` (/repo/opendis/dis7.py:5890-5895). -/
def InPlace.AcknowledgeReliablePdu : InPlace where
  codec := .AcknowledgeReliablePdu
  into := Dis.AcknowledgeReliablePdu.parseInto
  Since := Dis.AcknowledgeReliablePdu.Since
  lists := false
  trim := fun _ x => x

/-- Entry of `StartResumeReliablePdu` (/repo/opendis/dis7.py:5928-5936). -/
def InPlace.StartResumeReliablePdu : InPlace where
  codec := .StartResumeReliablePdu
  into := Dis.StartResumeReliablePdu.parseInto
  Since := Dis.StartResumeReliablePdu.Since
  lists := false
  trim := fun _ x => x

/-- Entry of `ArealObjectStatePdu` (/repo/opendis/dis7.py:5991-6006). -/
def InPlace.ArealObjectStatePdu : InPlace where
  codec := .ArealObjectStatePdu
  into := Dis.ArealObjectStatePdu.parseInto
  Since := Dis.ArealObjectStatePdu.Since
  lists := true
  trim := Dis.ArealObjectStatePdu.trim

/-- Entry of `DataQueryReliablePdu` (/repo/opendis/dis7.py:6069-6077). -/
def InPlace.DataQueryReliablePdu : InPlace where
  codec := .DataQueryReliablePdu
  into := Dis.DataQueryReliablePdu.parseInto
  Since := Dis.DataQueryReliablePdu.Since
  lists := true
  trim := Dis.DataQueryReliablePdu.trim

/-- Entry of `MinefieldStatePdu` (/repo/opendis/dis7.py:6132-6149). -/
def InPlace.MinefieldStatePdu : InPlace where
  codec := .MinefieldStatePdu
  into := Dis.MinefieldStatePdu.parseInto
  Since := Dis.MinefieldStatePdu.Since
  lists := true
  trim := Dis.MinefieldStatePdu.trim

/-- Entry of `DataReliablePdu` (/repo/opendis/dis7.py:6214-6221). -/
def InPlace.DataReliablePdu : InPlace where
  codec := .DataReliablePdu
  into := Dis.DataReliablePdu.parseInto
  Since := Dis.DataReliablePdu.Since
  lists := true
  trim := Dis.DataReliablePdu.trim

/-- Entry of `CommentPdu` (/repo/opendis/dis7.py:6264-6267). -/
def InPlace.CommentPdu : InPlace where
  codec := .CommentPdu
  into := Dis.CommentPdu.parseInto
  Since := Dis.CommentPdu.Since
  lists := true
  trim := Dis.CommentPdu.trim

/-- Entry of `CommentReliablePdu` (/repo/opendis/dis7.py:6307-6310). -/
def InPlace.CommentReliablePdu : InPlace where
  codec := .CommentReliablePdu
  into := Dis.CommentReliablePdu.parseInto
  Since := Dis.CommentReliablePdu.Since
  lists := true
  trim := Dis.CommentReliablePdu.trim

/-- Entry of `DetonationPdu` (/repo/opendis/dis7.py:6445-6458). -/
def InPlace.DetonationPdu : InPlace where
  codec := .DetonationPdu
  into := Dis.DetonationPdu.parseInto
  Since := Dis.DetonationPdu.Since
  lists := true
  trim := Dis.DetonationPdu.trim

/-- Entry of `SetDataPdu` (/repo/opendis/dis7.py:6512-6517). -/
def InPlace.SetDataPdu : InPlace where
  codec := .SetDataPdu
  into := Dis.SetDataPdu.parseInto
  Since := Dis.SetDataPdu.Since
  lists := true
  trim := Dis.SetDataPdu.trim

/-- Entry of `RecordQueryReliablePdu` (/repo/opendis/dis7.py:6555-6566). -/
def InPlace.RecordQueryReliablePdu : InPlace where
  codec := .RecordQueryReliablePdu
  into := Dis.RecordQueryReliablePdu.parseInto
  Since := Dis.RecordQueryReliablePdu.Since
  lists := true
  trim := Dis.RecordQueryReliablePdu.trim

/-- Entry of `ActionResponsePdu` (/repo/opendis/dis7.py:6620-6625). -/
def InPlace.ActionResponsePdu : InPlace where
  codec := .ActionResponsePdu
  into := Dis.ActionResponsePdu.parseInto
  Since := Dis.ActionResponsePdu.Since
  lists := true
  trim := Dis.ActionResponsePdu.trim

/-- The classes of `catalogPdus4`, in the same order (/repo/opendis). -/
def inPlacePdus4 : List InPlace :=
  [.FastEntityStatePdu,
   .AcknowledgeReliablePdu,
   .StartResumeReliablePdu,
   .ArealObjectStatePdu,
   .DataQueryReliablePdu,
   .MinefieldStatePdu,
   .DataReliablePdu,
   .CommentPdu,
   .CommentReliablePdu,
   .DetonationPdu,
   .SetDataPdu,
   .RecordQueryReliablePdu,
   .ActionResponsePdu]

/-- Entry of `FirePdu` (/repo/opendis/dis7.py:6713-6722). -/
def InPlace.FirePdu : InPlace where
  codec := .FirePdu
  into := Dis.FirePdu.parseInto
  Since := Dis.FirePdu.Since
  lists := false
  trim := fun _ x => x

/-- Entry of `ReceiverPdu` (/repo/opendis/dis7.py:6759-6766). -/
def InPlace.ReceiverPdu : InPlace where
  codec := .ReceiverPdu
  into := Dis.ReceiverPdu.parseInto
  Since := Dis.ReceiverPdu.Since
  lists := false
  trim := fun _ x => x

/-- Entry of `UaPdu` (/repo/opendis/dis7.py:6828-6845). -/
def InPlace.UaPdu : InPlace where
  codec := .UaPdu
  into := Dis.UaPdu.parseInto
  Since := Dis.UaPdu.Since
  lists := true
  trim := Dis.UaPdu.trim

/-- Entry of `SignalPdu` (/repo/opendis/dis7.py:6990-7001). -/
def InPlace.SignalPdu : InPlace where
  codec := .SignalPdu
  into := Dis.SignalPdu.parseInto
  Since := Dis.SignalPdu.Since
  lists := true
  trim := Dis.SignalPdu.trim

/-- Entry of `RemoveEntityReliablePdu` (/repo/opendis/dis7.py:7035-7041). -/
def InPlace.RemoveEntityReliablePdu : InPlace where
  codec := .RemoveEntityReliablePdu
  into := Dis.RemoveEntityReliablePdu.parseInto
  Since := Dis.RemoveEntityReliablePdu.Since
  lists := false
  trim := fun _ x => x

/-- Entry of `SeesPdu` (/repo/opendis/dis7.py:7082-7097). -/
def InPlace.SeesPdu : InPlace where
  codec := .SeesPdu
  into := Dis.SeesPdu.parseInto
  Since := Dis.SeesPdu.Since
  lists := true
  trim := Dis.SeesPdu.trim

/-- Entry of `CreateEntityReliablePdu` (/repo/opendis/dis7.py:7139-7145). -/
def InPlace.CreateEntityReliablePdu : InPlace where
  codec := .CreateEntityReliablePdu
  into := Dis.CreateEntityReliablePdu.parseInto
  Since := Dis.CreateEntityReliablePdu.Since
  lists := false
  trim := fun _ x => x

/-- Entry of `StopFreezeReliablePdu` (/repo/opendis/dis7.py:7181-7189). -/
def InPlace.StopFreezeReliablePdu : InPlace where
  codec := .StopFreezeReliablePdu
  into := Dis.StopFreezeReliablePdu.parseInto
  Since := Dis.StopFreezeReliablePdu.Since
  lists := false
  trim := fun _ x => x

/-- Entry of `EventReportReliablePdu` (/repo/opendis/dis7.py:7238-7243). -/
def InPlace.EventReportReliablePdu : InPlace where
  codec := .EventReportReliablePdu
  into := Dis.EventReportReliablePdu.parseInto
  Since := Dis.EventReportReliablePdu.Since
  lists := true
  trim := Dis.EventReportReliablePdu.trim

/-- Entry of `MinefieldResponseNackPdu` (/repo/opendis/dis7.py:7278-7286). -/
def InPlace.MinefieldResponseNackPdu : InPlace where
  codec := .MinefieldResponseNackPdu
  into := Dis.MinefieldResponseNackPdu.parseInto
  Since := Dis.MinefieldResponseNackPdu.Since
  lists := true
  trim := Dis.MinefieldResponseNackPdu.trim

/-- Entry of `ActionResponseReliablePdu` (/repo/opendis/dis7.py:7337-7342). -/
def InPlace.ActionResponseReliablePdu : InPlace where
  codec := .ActionResponseReliablePdu
  into := Dis.ActionResponseReliablePdu.parseInto
  Since := Dis.ActionResponseReliablePdu.Since
  lists := true
  trim := Dis.ActionResponseReliablePdu.trim

/-- Entry of `IsPartOfPdu` (/repo/opendis/dis7.py:7379-7387). -/
def InPlace.IsPartOfPdu : InPlace where
  codec := .IsPartOfPdu
  into := Dis.IsPartOfPdu.parseInto
  Since := Dis.IsPartOfPdu.Since
  lists := false
  trim := fun _ x => x

/-- Entry of `AggregateStatePdu` (/repo/opendis/dis7.py:7471-7498). -/
def InPlace.AggregateStatePdu : InPlace where
  codec := .AggregateStatePdu
  into := Dis.AggregateStatePdu.parseInto
  Since := Dis.AggregateStatePdu.Since
  lists := true
  trim := Dis.AggregateStatePdu.trim

/-- The classes of `catalogPdus5`, in the same order (/repo/opendis). -/
def inPlacePdus5 : List InPlace :=
  [.FirePdu,
   .ReceiverPdu,
   .UaPdu,
   .SignalPdu,
   .RemoveEntityReliablePdu,
   .SeesPdu,
   .CreateEntityReliablePdu,
   .StopFreezeReliablePdu,
   .EventReportReliablePdu,
   .MinefieldResponseNackPdu,
   .ActionResponseReliablePdu,
   .IsPartOfPdu,
   .AggregateStatePdu]

/-- Entry of `BeamAntennaPattern` (/repo/opendis/record/radio/__init__.py:137-148). -/
def InPlace.BeamAntennaPattern : InPlace where
  codec := .BeamAntennaPattern
  into := Dis.BeamAntennaPattern.parseInto (some 40)
  Since := Dis.BeamAntennaPattern.Since
  lists := false
  trim := fun _ x => x

/-- Entry of `SpreadSpectrum` (/repo/opendis/record/radio/__init__.py:202-209). -/
def InPlace.SpreadSpectrum : InPlace where
  codec := .SpreadSpectrum
  into := Dis.SpreadSpectrum.parseInto
  Since := Dis.SpreadSpectrum.Since
  lists := false
  trim := fun _ x => x

/-- Entry of `ModulationType` (/repo/opendis/record/radio/__init__.py:243-247). -/
def InPlace.ModulationType : InPlace where
  codec := .ModulationType
  into := Dis.ModulationType.parseInto
  Since := Dis.ModulationType.Since
  lists := false
  trim := fun _ x => x

/-- Entry of `NetId` (/repo/opendis/record/radio/__init__.py:297-303). -/
def InPlace.NetId : InPlace where
  codec := .NetId
  into := Dis.NetId.parseInto
  Since := Dis.NetId.Since
  lists := false
  trim := fun _ x => x

/-- Entry of `BasicHaveQuickMP` (/repo/opendis/record/radio/__init__.py:379-387). -/
def InPlace.BasicHaveQuickMP : InPlace where
  codec := .BasicHaveQuickMP
  into := Dis.BasicHaveQuickMP.parseInto none
  Since := Dis.BasicHaveQuickMP.Since
  lists := false
  trim := fun _ x => x

/-- Entry of `CCTTSincgarsMP` (/repo/opendis/record/radio/__init__.py:426-435). -/
def InPlace.CCTTSincgarsMP : InPlace where
  codec := .CCTTSincgarsMP
  into := Dis.CCTTSincgarsMP.parseInto none
  Since := Dis.CCTTSincgarsMP.Since
  lists := false
  trim := fun _ x => x

/-- The classes of `catalogRadio`, in the same order (/repo/opendis). -/
def inPlaceRadio : List InPlace :=
  [.BeamAntennaPattern,
   .SpreadSpectrum,
   .ModulationType,
   .NetId,
   .BasicHaveQuickMP,
   .CCTTSincgarsMP]

/-- Entry of `DEFireFlags` (/repo/opendis/record/warfare/enums.py:28-32). -/
def InPlace.DEFireFlags : InPlace where
  codec := .DEFireFlags
  into := Dis.DEFireFlags.parseInto
  Since := Dis.DEFireFlags.Since
  lists := false
  trim := fun _ x => x

/-- Entry of `DirectedEnergyTargetEnergyDeposition` (/repo/opendis/record/warfare/__init__.py:270-274). -/
def InPlace.DirectedEnergyTargetEnergyDeposition : InPlace where
  codec := .DirectedEnergyTargetEnergyDeposition
  into := Dis.DirectedEnergyTargetEnergyDeposition.parseInto
  Since := Dis.DirectedEnergyTargetEnergyDeposition.Since
  lists := false
  trim := fun _ x => x

/-- The classes of `catalogWarfare`, in the same order (/repo/opendis). -/
def inPlaceWarfare : List InPlace :=
  [.DEFireFlags,
   .DirectedEnergyTargetEnergyDeposition]

/-- Entry of `DirectedEnergyFirePdu` (/repo/opendis/dis7.py:6361-6379). -/
def InPlace.DirectedEnergyFirePdu : InPlace where
  codec := .DirectedEnergyFirePdu
  into := Dis.DirectedEnergyFirePdu.parseInto
  Since := Dis.DirectedEnergyFirePdu.Since
  lists := true
  trim := Dis.DirectedEnergyFirePdu.trim

/-- Entry of `EntityDamageStatusPdu` (/repo/opendis/dis7.py:6657-6664). -/
def InPlace.EntityDamageStatusPdu : InPlace where
  codec := .EntityDamageStatusPdu
  into := Dis.EntityDamageStatusPdu.parseInto
  Since := Dis.EntityDamageStatusPdu.Since
  lists := true
  trim := Dis.EntityDamageStatusPdu.trim

/-- The classes of `catalogSpecial`, in the same order (/repo/opendis). -/
def inPlaceSpecial : List InPlace :=
  [.DirectedEnergyFirePdu,
   .EntityDamageStatusPdu]

/-- All classes of `catalog`, in the same order (/repo/opendis). -/
def inPlace : List InPlace :=
  inPlaceCommon ++
  inPlaceRecords1 ++
  inPlaceRecords2 ++
  inPlaceRecords3 ++
  inPlaceRecords4 ++
  inPlaceRecords5 ++
  inPlacePdus1 ++
  inPlacePdus2 ++
  inPlacePdus3 ++
  inPlacePdus4 ++
  inPlacePdus5 ++
  inPlaceRadio ++
  inPlaceWarfare ++
  inPlaceSpecial

end Dis
