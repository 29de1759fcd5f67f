import Verif.Spec.Source
import Verif.Source.Encode5
import Verif.Spec.SourceSpecial
import Verif.Spec.SourceDirected

/-!
# The classes compared with the source

Written by `tools/gensourceproof.py`.
-/

set_option linter.unusedVariables false
set_option linter.unusedSimpArgs false

namespace Dis.Src

/-- `SimulationAddress` (/repo/opendis/record/common.py:115-139). -/
def Sourced.SimulationAddress : Sourced where
  entry := .SimulationAddress
  cls := I.SimulationAddress
  fields := SimulationAddress.fields
  makes := true

/-- `EntityIdentifier` (/repo/opendis/record/common.py:32-54). -/
def Sourced.EntityIdentifier : Sourced where
  entry := .EntityIdentifier
  cls := I.EntityIdentifier
  fields := EntityIdentifier.fields
  makes := true

/-- `EulerAngles` (/repo/opendis/record/common.py:57-85). -/
def Sourced.EulerAngles : Sourced where
  entry := .EulerAngles
  cls := I.EulerAngles
  fields := EulerAngles.fields
  makes := true

/-- `EventIdentifier` (/repo/opendis/record/common.py:88-112). -/
def Sourced.EventIdentifier : Sourced where
  entry := .EventIdentifier
  cls := I.EventIdentifier
  fields := EventIdentifier.fields
  makes := true

/-- `Vector3Float` (/repo/opendis/record/common.py:142-168). -/
def Sourced.Vector3Float : Sourced where
  entry := .Vector3Float
  cls := I.Vector3Float
  fields := Vector3Float.fields
  makes := true

/-- `WorldCoordinates` (/repo/opendis/record/common.py:171-196). -/
def Sourced.WorldCoordinates : Sourced where
  entry := .WorldCoordinates
  cls := I.WorldCoordinates
  fields := WorldCoordinates.fields
  makes := true

/-- `DataQueryDatumSpecification` (/repo/opendis/dis7.py:71-112). -/
def Sourced.DataQueryDatumSpecification : Sourced where
  entry := .DataQueryDatumSpecification
  cls := I.DataQueryDatumSpecification
  fields := DataQueryDatumSpecification.fields
  makes := true

/-- `RadioIdentifier` (/repo/opendis/dis7.py:115-144). -/
def Sourced.RadioIdentifier : Sourced where
  entry := .RadioIdentifier
  cls := I.RadioIdentifier
  fields := RadioIdentifier.fields
  makes := true

/-- `RequestID` (/repo/opendis/dis7.py:147-164). -/
def Sourced.RequestID : Sourced where
  entry := .RequestID
  cls := I.RequestID
  fields := RequestID.fields
  makes := true

/-- `IFFData` (/repo/opendis/dis7.py:167-201). -/
def Sourced.IFFData : Sourced where
  entry := .IFFData
  cls := I.IFFData
  fields := IFFData.fields
  makes := true

/-- `EntityType` (/repo/opendis/dis7.py:2497-2540). -/
def Sourced.EntityType : Sourced where
  entry := .EntityType
  cls := I.EntityType
  fields := EntityType.fields
  makes := true

/-- `MunitionDescriptor` (/repo/opendis/dis7.py:204-243). -/
def Sourced.MunitionDescriptor : Sourced where
  entry := .MunitionDescriptor
  cls := I.MunitionDescriptor
  fields := MunitionDescriptor.fields
  makes := true

/-- `MinefieldSensorType` (/repo/opendis/dis7.py:246-263). -/
def Sourced.MinefieldSensorType : Sourced where
  entry := .MinefieldSensorType
  cls := I.MinefieldSensorType
  fields := MinefieldSensorType.fields
  makes := true

/-- `GroupID` (/repo/opendis/dis7.py:266-289). -/
def Sourced.GroupID : Sourced where
  entry := .GroupID
  cls := I.GroupID
  fields := GroupID.fields
  makes := true

/-- `LayerHeader` (/repo/opendis/dis7.py:292-319). -/
def Sourced.LayerHeader : Sourced where
  entry := .LayerHeader
  cls := I.LayerHeader
  fields := LayerHeader.fields
  makes := true

/-- `UnsignedDISInteger` (/repo/opendis/dis7.py:322-335). -/
def Sourced.UnsignedDISInteger : Sourced where
  entry := .UnsignedDISInteger
  cls := I.UnsignedDISInteger
  fields := UnsignedDISInteger.fields
  makes := true

/-- `DeadReckoningParameters` (/repo/opendis/dis7.py:338-375). -/
def Sourced.DeadReckoningParameters : Sourced where
  entry := .DeadReckoningParameters
  cls := I.DeadReckoningParameters
  fields := DeadReckoningParameters.fields
  makes := true

/-- `ProtocolMode` (/repo/opendis/dis7.py:378-394). -/
def Sourced.ProtocolMode : Sourced where
  entry := .ProtocolMode
  cls := I.ProtocolMode
  fields := ProtocolMode.fields
  makes := true

/-- `AngleDeception` (/repo/opendis/dis7.py:397-472). -/
def Sourced.AngleDeception : Sourced where
  entry := .AngleDeception
  cls := I.AngleDeception
  fields := AngleDeception.fields
  makes := true

/-- `EntityAssociation` (/repo/opendis/dis7.py:475-530). -/
def Sourced.EntityAssociation : Sourced where
  entry := .EntityAssociation
  cls := I.EntityAssociation
  fields := EntityAssociation.fields
  makes := true

/-- `VectoringNozzleSystem` (/repo/opendis/dis7.py:533-553). -/
def Sourced.VectoringNozzleSystem : Sourced where
  entry := .VectoringNozzleSystem
  cls := I.VectoringNozzleSystem
  fields := VectoringNozzleSystem.fields
  makes := true

/-- `FalseTargetsAttribute` (/repo/opendis/dis7.py:556-621). -/
def Sourced.FalseTargetsAttribute : Sourced where
  entry := .FalseTargetsAttribute
  cls := I.FalseTargetsAttribute
  fields := FalseTargetsAttribute.fields
  makes := true

/-- `MinefieldIdentifier` (/repo/opendis/dis7.py:624-644). -/
def Sourced.MinefieldIdentifier : Sourced where
  entry := .MinefieldIdentifier
  cls := I.MinefieldIdentifier
  fields := MinefieldIdentifier.fields
  makes := true

/-- `RadioType` (/repo/opendis/dis7.py:647-690). -/
def Sourced.RadioType : Sourced where
  entry := .RadioType
  cls := I.RadioType
  fields := RadioType.fields
  makes := true

/-- `NamedLocationIdentification` (/repo/opendis/dis7.py:693-717). -/
def Sourced.NamedLocationIdentification : Sourced where
  entry := .NamedLocationIdentification
  cls := I.NamedLocationIdentification
  fields := NamedLocationIdentification.fields
  makes := true

/-- `IFFDataSpecification` (/repo/opendis/dis7.py:720-745). -/
def Sourced.IFFDataSpecification : Sourced where
  entry := .IFFDataSpecification
  cls := I.IFFDataSpecification
  fields := IFFDataSpecification.fields
  makes := true

/-- `OwnershipStatus` (/repo/opendis/dis7.py:748-773). -/
def Sourced.OwnershipStatus : Sourced where
  entry := .OwnershipStatus
  cls := I.OwnershipStatus
  fields := OwnershipStatus.fields
  makes := true

/-- `Attribute` (/repo/opendis/dis7.py:814-839). -/
def Sourced.Attribute : Sourced where
  entry := .Attribute
  cls := I.Attribute
  fields := Attribute.fields
  makes := true

/-- `RecordQuerySpecification` (/repo/opendis/dis7.py:842-868). -/
def Sourced.RecordQuerySpecification : Sourced where
  entry := .RecordQuerySpecification
  cls := I.RecordQuerySpecification
  fields := RecordQuerySpecification.fields
  makes := true

/-- `ArticulatedParts` (/repo/opendis/dis7.py:871-907). -/
def Sourced.ArticulatedParts : Sourced where
  entry := .ArticulatedParts
  cls := I.ArticulatedParts
  fields := ArticulatedParts.fields
  makes := true

/-- `ObjectType` (/repo/opendis/dis7.py:910-942). -/
def Sourced.ObjectType : Sourced where
  entry := .ObjectType
  cls := I.ObjectType
  fields := ObjectType.fields
  makes := true

/-- `Association` (/repo/opendis/dis7.py:945-979). -/
def Sourced.Association : Sourced where
  entry := .Association
  cls := I.Association
  fields := Association.fields
  makes := true

/-- `RecordSpecificationElement` (/repo/opendis/dis7.py:982-1022). -/
def Sourced.RecordSpecificationElement : Sourced where
  entry := .RecordSpecificationElement
  cls := I.RecordSpecificationElement
  fields := RecordSpecificationElement.fields
  makes := true

/-- `AntennaLocation` (/repo/opendis/dis7.py:1025-1048). -/
def Sourced.AntennaLocation : Sourced where
  entry := .AntennaLocation
  cls := I.AntennaLocation
  fields := AntennaLocation.fields
  makes := true

/-- `ObjectIdentifier` (/repo/opendis/dis7.py:1051-1073). -/
def Sourced.ObjectIdentifier : Sourced where
  entry := .ObjectIdentifier
  cls := I.ObjectIdentifier
  fields := ObjectIdentifier.fields
  makes := true

/-- `AggregateIdentifier` (/repo/opendis/dis7.py:1076-1097). -/
def Sourced.AggregateIdentifier : Sourced where
  entry := .AggregateIdentifier
  cls := I.AggregateIdentifier
  fields := AggregateIdentifier.fields
  makes := true

/-- `FixedDatum` (/repo/opendis/dis7.py:1100-1122). -/
def Sourced.FixedDatum : Sourced where
  entry := .FixedDatum
  cls := I.FixedDatum
  fields := FixedDatum.fields
  makes := true

/-- `VariableParameter` (/repo/opendis/dis7.py:1125-1163). -/
def Sourced.VariableParameter : Sourced where
  entry := .VariableParameter
  cls := I.VariableParameter
  fields := VariableParameter.fields
  makes := true

/-- `ChangeOptions` (/repo/opendis/dis7.py:1166-1179). -/
def Sourced.ChangeOptions : Sourced where
  entry := .ChangeOptions
  cls := I.ChangeOptions
  fields := ChangeOptions.fields
  makes := true

/-- `LiveSimulationAddress` (/repo/opendis/dis7.py:1182-1205). -/
def Sourced.LiveSimulationAddress : Sourced where
  entry := .LiveSimulationAddress
  cls := I.LiveSimulationAddress
  fields := LiveSimulationAddress.fields
  makes := true

/-- Classes of part 1 (/repo/opendis). -/
def sourced1 : List Sourced :=
  [.SimulationAddress,
   .EntityIdentifier,
   .EulerAngles,
   .EventIdentifier,
   .Vector3Float,
   .WorldCoordinates,
   .DataQueryDatumSpecification,
   .RadioIdentifier,
   .RequestID,
   .IFFData,
   .EntityType,
   .MunitionDescriptor,
   .MinefieldSensorType,
   .GroupID,
   .LayerHeader,
   .UnsignedDISInteger,
   .DeadReckoningParameters,
   .ProtocolMode,
   .AngleDeception,
   .EntityAssociation,
   .VectoringNozzleSystem,
   .FalseTargetsAttribute,
   .MinefieldIdentifier,
   .RadioType,
   .NamedLocationIdentification,
   .IFFDataSpecification,
   .OwnershipStatus,
   .Attribute,
   .RecordQuerySpecification,
   .ArticulatedParts,
   .ObjectType,
   .Association,
   .RecordSpecificationElement,
   .AntennaLocation,
   .ObjectIdentifier,
   .AggregateIdentifier,
   .FixedDatum,
   .VariableParameter,
   .ChangeOptions,
   .LiveSimulationAddress]

/-- `EntityMarking` (/repo/opendis/dis7.py:1208-1245). -/
def Sourced.EntityMarking : Sourced where
  entry := .EntityMarking
  cls := I.EntityMarking
  fields := EntityMarking.fields
  makes := true

/-- `UAFundamentalParameter` (/repo/opendis/dis7.py:1248-1291). -/
def Sourced.UAFundamentalParameter : Sourced where
  entry := .UAFundamentalParameter
  cls := I.UAFundamentalParameter
  fields := UAFundamentalParameter.fields
  makes := true

/-- `ExplosionDescriptor` (/repo/opendis/dis7.py:1294-1324). -/
def Sourced.ExplosionDescriptor : Sourced where
  entry := .ExplosionDescriptor
  cls := I.ExplosionDescriptor
  fields := ExplosionDescriptor.fields
  makes := true

/-- `ClockTime` (/repo/opendis/dis7.py:1327-1352). -/
def Sourced.ClockTime : Sourced where
  entry := .ClockTime
  cls := I.ClockTime
  fields := ClockTime.fields
  makes := true

/-- `SecondaryOperationalData` (/repo/opendis/dis7.py:1355-1386). -/
def Sourced.SecondaryOperationalData : Sourced where
  entry := .SecondaryOperationalData
  cls := I.SecondaryOperationalData
  fields := SecondaryOperationalData.fields
  makes := true

/-- `EnvironmentType` (/repo/opendis/dis7.py:1389-1433). -/
def Sourced.EnvironmentType : Sourced where
  entry := .EnvironmentType
  cls := I.EnvironmentType
  fields := EnvironmentType.fields
  makes := true

/-- `TotalRecordSets` (/repo/opendis/dis7.py:1436-1453). -/
def Sourced.TotalRecordSets : Sourced where
  entry := .TotalRecordSets
  cls := I.TotalRecordSets
  fields := TotalRecordSets.fields
  makes := true

/-- `MineEntityIdentifier` (/repo/opendis/dis7.py:1456-1477). -/
def Sourced.MineEntityIdentifier : Sourced where
  entry := .MineEntityIdentifier
  cls := I.MineEntityIdentifier
  fields := MineEntityIdentifier.fields
  makes := true

/-- `Relationship` (/repo/opendis/dis7.py:1480-1502). -/
def Sourced.Relationship : Sourced where
  entry := .Relationship
  cls := I.Relationship
  fields := Relationship.fields
  makes := true

/-- `EEFundamentalParameterData` (/repo/opendis/dis7.py:1505-1563). -/
def Sourced.EEFundamentalParameterData : Sourced where
  entry := .EEFundamentalParameterData
  cls := I.EEFundamentalParameterData
  fields := EEFundamentalParameterData.fields
  makes := true

/-- `JammingTechnique` (/repo/opendis/dis7.py:1566-1590). -/
def Sourced.JammingTechnique : Sourced where
  entry := .JammingTechnique
  cls := I.JammingTechnique
  fields := JammingTechnique.fields
  makes := true

/-- `Expendable` (/repo/opendis/dis7.py:1640-1672). -/
def Sourced.Expendable : Sourced where
  entry := .Expendable
  cls := I.Expendable
  fields := Expendable.fields
  makes := true

/-- `CommunicationsNodeID` (/repo/opendis/dis7.py:3481-3501). -/
def Sourced.CommunicationsNodeID : Sourced where
  entry := .CommunicationsNodeID
  cls := I.CommunicationsNodeID
  fields := CommunicationsNodeID.fields
  makes := true

/-- `IOCommunicationsNode` (/repo/opendis/dis7.py:1675-1705). -/
def Sourced.IOCommunicationsNode : Sourced where
  entry := .IOCommunicationsNode
  cls := I.IOCommunicationsNode
  fields := IOCommunicationsNode.fields
  makes := true

/-- `LinearSegmentParameter` (/repo/opendis/dis7.py:1708-1774). -/
def Sourced.LinearSegmentParameter : Sourced where
  entry := .LinearSegmentParameter
  cls := I.LinearSegmentParameter
  fields := LinearSegmentParameter.fields
  makes := true

/-- `SystemIdentifier` (/repo/opendis/dis7.py:1777-1809). -/
def Sourced.SystemIdentifier : Sourced where
  entry := .SystemIdentifier
  cls := I.SystemIdentifier
  fields := SystemIdentifier.fields
  makes := true

/-- `TrackJamData` (/repo/opendis/dis7.py:1812-1839). -/
def Sourced.TrackJamData : Sourced where
  entry := .TrackJamData
  cls := I.TrackJamData
  fields := TrackJamData.fields
  makes := true

/-- `AggregateType` (/repo/opendis/dis7.py:1842-1888). -/
def Sourced.AggregateType : Sourced where
  entry := .AggregateType
  cls := I.AggregateType
  fields := AggregateType.fields
  makes := true

/-- `SimulationIdentifier` (/repo/opendis/dis7.py:2050-2077). -/
def Sourced.SimulationIdentifier : Sourced where
  entry := .SimulationIdentifier
  cls := I.SimulationIdentifier
  fields := SimulationIdentifier.fields
  makes := true

/-- `PduHeader` (/repo/opendis/dis7.py:3370-3421). -/
def Sourced.PduHeader : Sourced where
  entry := .PduHeader
  cls := I.PduHeader
  fields := PduHeader.fields
  makes := true

/-- `SimulationManagementPduHeader` (/repo/opendis/dis7.py:1891-1919). -/
def Sourced.SimulationManagementPduHeader : Sourced where
  entry := .SimulationManagementPduHeader
  cls := I.SimulationManagementPduHeader
  fields := SimulationManagementPduHeader.fields
  makes := true

/-- `BeamData` (/repo/opendis/dis7.py:1922-1960). -/
def Sourced.BeamData : Sourced where
  entry := .BeamData
  cls := I.BeamData
  fields := BeamData.fields
  makes := true

/-- `EngineFuel` (/repo/opendis/dis7.py:1963-1998). -/
def Sourced.EngineFuel : Sourced where
  entry := .EngineFuel
  cls := I.EngineFuel
  fields := EngineFuel.fields
  makes := true

/-- `IOEffect` (/repo/opendis/dis7.py:2001-2047). -/
def Sourced.IOEffect : Sourced where
  entry := .IOEffect
  cls := I.IOEffect
  fields := IOEffect.fields
  makes := true

/-- `GridAxisDescriptorVariable` (/repo/opendis/dis7.py:2080-2155). -/
def Sourced.GridAxisDescriptorVariable : Sourced where
  entry := .GridAxisDescriptorVariable
  cls := I.GridAxisDescriptorVariable
  fields := GridAxisDescriptorVariable.fields
  makes := true

/-- `SupplyQuantity` (/repo/opendis/dis7.py:2158-2179). -/
def Sourced.SupplyQuantity : Sourced where
  entry := .SupplyQuantity
  cls := I.SupplyQuantity
  fields := SupplyQuantity.fields
  makes := true

/-- `SilentEntitySystem` (/repo/opendis/dis7.py:2182-2218). -/
def Sourced.SilentEntitySystem : Sourced where
  entry := .SilentEntitySystem
  cls := I.SilentEntitySystem
  fields := SilentEntitySystem.fields
  makes := true

/-- `BlankingSector` (/repo/opendis/dis7.py:2245-2310). -/
def Sourced.BlankingSector : Sourced where
  entry := .BlankingSector
  cls := I.BlankingSector
  fields := BlankingSector.fields
  makes := true

/-- `LaunchedMunitionRecord` (/repo/opendis/dis7.py:2313-2350). -/
def Sourced.LaunchedMunitionRecord : Sourced where
  entry := .LaunchedMunitionRecord
  cls := I.LaunchedMunitionRecord
  fields := LaunchedMunitionRecord.fields
  makes := true

/-- `IFFFundamentalParameterData` (/repo/opendis/dis7.py:2353-2398). -/
def Sourced.IFFFundamentalParameterData : Sourced where
  entry := .IFFFundamentalParameterData
  cls := I.IFFFundamentalParameterData
  fields := IFFFundamentalParameterData.fields
  makes := true

/-- `FundamentalOperationalData` (/repo/opendis/dis7.py:2401-2463). -/
def Sourced.FundamentalOperationalData : Sourced where
  entry := .FundamentalOperationalData
  cls := I.FundamentalOperationalData
  fields := FundamentalOperationalData.fields
  makes := true

/-- `IntercomCommunicationsParameters` (/repo/opendis/dis7.py:2466-2494). -/
def Sourced.IntercomCommunicationsParameters : Sourced where
  entry := .IntercomCommunicationsParameters
  cls := I.IntercomCommunicationsParameters
  fields := IntercomCommunicationsParameters.fields
  makes := true

/-- `Munition` (/repo/opendis/dis7.py:2543-2582). -/
def Sourced.Munition : Sourced where
  entry := .Munition
  cls := I.Munition
  fields := Munition.fields
  makes := true

/-- `StandardVariableSpecification` (/repo/opendis/dis7.py:2585-2615). -/
def Sourced.StandardVariableSpecification : Sourced where
  entry := .StandardVariableSpecification
  cls := I.StandardVariableSpecification
  fields := StandardVariableSpecification.fields
  makes := true

/-- `Vector2Float` (/repo/opendis/dis7.py:2618-2633). -/
def Sourced.Vector2Float : Sourced where
  entry := .Vector2Float
  cls := I.Vector2Float
  fields := Vector2Float.fields
  makes := true

/-- `AcousticEmitter` (/repo/opendis/dis7.py:2671-2698). -/
def Sourced.AcousticEmitter : Sourced where
  entry := .AcousticEmitter
  cls := I.AcousticEmitter
  fields := AcousticEmitter.fields
  makes := true

/-- `AngularVelocityVector` (/repo/opendis/dis7.py:2701-2728). -/
def Sourced.AngularVelocityVector : Sourced where
  entry := .AngularVelocityVector
  cls := I.AngularVelocityVector
  fields := AngularVelocityVector.fields
  makes := true

/-- `AggregateMarking` (/repo/opendis/dis7.py:2731-2759). -/
def Sourced.AggregateMarking : Sourced where
  entry := .AggregateMarking
  cls := I.AggregateMarking
  fields := AggregateMarking.fields
  makes := true

/-- `DataFilterRecord` (/repo/opendis/dis7.py:2762-2781). -/
def Sourced.DataFilterRecord : Sourced where
  entry := .DataFilterRecord
  cls := I.DataFilterRecord
  fields := DataFilterRecord.fields
  makes := true

/-- `IntercomIdentifier` (/repo/opendis/dis7.py:2784-2812). -/
def Sourced.IntercomIdentifier : Sourced where
  entry := .IntercomIdentifier
  cls := I.IntercomIdentifier
  fields := IntercomIdentifier.fields
  makes := true

/-- Classes of part 2 (/repo/opendis). -/
def sourced2 : List Sourced :=
  [.EntityMarking,
   .UAFundamentalParameter,
   .ExplosionDescriptor,
   .ClockTime,
   .SecondaryOperationalData,
   .EnvironmentType,
   .TotalRecordSets,
   .MineEntityIdentifier,
   .Relationship,
   .EEFundamentalParameterData,
   .JammingTechnique,
   .Expendable,
   .CommunicationsNodeID,
   .IOCommunicationsNode,
   .LinearSegmentParameter,
   .SystemIdentifier,
   .TrackJamData,
   .AggregateType,
   .SimulationIdentifier,
   .PduHeader,
   .SimulationManagementPduHeader,
   .BeamData,
   .EngineFuel,
   .IOEffect,
   .GridAxisDescriptorVariable,
   .SupplyQuantity,
   .SilentEntitySystem,
   .BlankingSector,
   .LaunchedMunitionRecord,
   .IFFFundamentalParameterData,
   .FundamentalOperationalData,
   .IntercomCommunicationsParameters,
   .Munition,
   .StandardVariableSpecification,
   .Vector2Float,
   .AcousticEmitter,
   .AngularVelocityVector,
   .AggregateMarking,
   .DataFilterRecord,
   .IntercomIdentifier]

/-- `StorageFuel` (/repo/opendis/dis7.py:2815-2850). -/
def Sourced.StorageFuel : Sourced where
  entry := .StorageFuel
  cls := I.StorageFuel
  fields := StorageFuel.fields
  makes := true

/-- `Sensor` (/repo/opendis/dis7.py:2853-2893). -/
def Sourced.Sensor : Sourced where
  entry := .Sensor
  cls := I.Sensor
  fields := Sensor.fields
  makes := true

/-- `MunitionReload` (/repo/opendis/dis7.py:2896-2940). -/
def Sourced.MunitionReload : Sourced where
  entry := .MunitionReload
  cls := I.MunitionReload
  fields := MunitionReload.fields
  makes := true

/-- `StorageFuelReload` (/repo/opendis/dis7.py:2943-2996). -/
def Sourced.StorageFuelReload : Sourced where
  entry := .StorageFuelReload
  cls := I.StorageFuelReload
  fields := StorageFuelReload.fields
  makes := true

/-- `ExpendableReload` (/repo/opendis/dis7.py:2999-3037). -/
def Sourced.ExpendableReload : Sourced where
  entry := .ExpendableReload
  cls := I.ExpendableReload
  fields := ExpendableReload.fields
  makes := true

/-- `EngineFuelReload` (/repo/opendis/dis7.py:3040-3083). -/
def Sourced.EngineFuelReload : Sourced where
  entry := .EngineFuelReload
  cls := I.EngineFuelReload
  fields := EngineFuelReload.fields
  makes := true

/-- `UnattachedIdentifier` (/repo/opendis/dis7.py:3086-3109). -/
def Sourced.UnattachedIdentifier : Sourced where
  entry := .UnattachedIdentifier
  cls := I.UnattachedIdentifier
  fields := UnattachedIdentifier.fields
  makes := true

/-- `EntityTypeVP` (/repo/opendis/dis7.py:3112-3143). -/
def Sourced.EntityTypeVP : Sourced where
  entry := .EntityTypeVP
  cls := I.EntityTypeVP
  fields := EntityTypeVP.fields
  makes := true

/-- `BeamStatus` (/repo/opendis/dis7.py:3146-3165). -/
def Sourced.BeamStatus : Sourced where
  entry := .BeamStatus
  cls := I.BeamStatus
  fields := BeamStatus.fields
  makes := true

/-- `GridAxis` (/repo/opendis/dis7.py:3212-3259). -/
def Sourced.GridAxis : Sourced where
  entry := .GridAxis
  cls := I.GridAxis
  fields := GridAxis.fields
  makes := true

/-- `RecordSpecification` (/repo/opendis/dis7.py:3262-3290). -/
def Sourced.RecordSpecification : Sourced where
  entry := .RecordSpecification
  cls := I.RecordSpecification
  fields := RecordSpecification.fields
  makes := true

/-- `EventIdentifierLiveEntity` (/repo/opendis/dis7.py:3342-3367). -/
def Sourced.EventIdentifierLiveEntity : Sourced where
  entry := .EventIdentifierLiveEntity
  cls := I.EventIdentifierLiveEntity
  fields := EventIdentifierLiveEntity.fields
  makes := true

/-- `ExpendableDescriptor` (/repo/opendis/dis7.py:3504-3523). -/
def Sourced.ExpendableDescriptor : Sourced where
  entry := .ExpendableDescriptor
  cls := I.ExpendableDescriptor
  fields := ExpendableDescriptor.fields
  makes := true

/-- `PropulsionSystemData` (/repo/opendis/dis7.py:3526-3550). -/
def Sourced.PropulsionSystemData : Sourced where
  entry := .PropulsionSystemData
  cls := I.PropulsionSystemData
  fields := PropulsionSystemData.fields
  makes := true

/-- `LiveEntityIdentifier` (/repo/opendis/dis7.py:3553-3577). -/
def Sourced.LiveEntityIdentifier : Sourced where
  entry := .LiveEntityIdentifier
  cls := I.LiveEntityIdentifier
  fields := LiveEntityIdentifier.fields
  makes := true

/-- `EmitterSystem` (/repo/opendis/dis7.py:3624-3648). -/
def Sourced.EmitterSystem : Sourced where
  entry := .EmitterSystem
  cls := I.EmitterSystem
  fields := EmitterSystem.fields
  makes := true

/-- `PduStatus` (/repo/opendis/dis7.py:3651-3668). -/
def Sourced.PduStatus : Sourced where
  entry := .PduStatus
  cls := I.PduStatus
  fields := PduStatus.fields
  makes := true

/-- `EmissionSystemBeamRecord` (/repo/opendis/dis7.py:5172-5231). -/
def Sourced.EmissionSystemBeamRecord : Sourced where
  entry := .EmissionSystemBeamRecord
  cls := I.EmissionSystemBeamRecord
  fields := EmissionSystemBeamRecord.fields
  makes := true

/-- `EmissionSystemRecord` (/repo/opendis/dis7.py:5234-5276). -/
def Sourced.EmissionSystemRecord : Sourced where
  entry := .EmissionSystemRecord
  cls := I.EmissionSystemRecord
  fields := EmissionSystemRecord.fields
  makes := true

/-- `EntityStateUpdatePdu` (/repo/opendis/dis7.py:3760-3820). -/
def Sourced.EntityStateUpdatePdu : Sourced where
  entry := .EntityStateUpdatePdu
  cls := I.EntityStateUpdatePdu
  fields := EntityStateUpdatePdu.fields
  makes := true

/-- `ServiceRequestPdu` (/repo/opendis/dis7.py:3823-3872). -/
def Sourced.ServiceRequestPdu : Sourced where
  entry := .ServiceRequestPdu
  cls := I.ServiceRequestPdu
  fields := ServiceRequestPdu.fields
  makes := true

/-- `RepairCompletePdu` (/repo/opendis/dis7.py:3875-3910). -/
def Sourced.RepairCompletePdu : Sourced where
  entry := .RepairCompletePdu
  cls := I.RepairCompletePdu
  fields := RepairCompletePdu.fields
  makes := true

/-- `CollisionPdu` (/repo/opendis/dis7.py:3932-3987). -/
def Sourced.CollisionPdu : Sourced where
  entry := .CollisionPdu
  cls := I.CollisionPdu
  fields := CollisionPdu.fields
  makes := true

/-- `RepairResponsePdu` (/repo/opendis/dis7.py:3990-4027). -/
def Sourced.RepairResponsePdu : Sourced where
  entry := .RepairResponsePdu
  cls := I.RepairResponsePdu
  fields := RepairResponsePdu.fields
  makes := true

/-- `DataQueryPdu` (/repo/opendis/dis7.py:4059-4107). -/
def Sourced.DataQueryPdu : Sourced where
  entry := .DataQueryPdu
  cls := I.DataQueryPdu
  fields := DataQueryPdu.fields
  makes := true

/-- `CreateEntityPdu` (/repo/opendis/dis7.py:4178-4198). -/
def Sourced.CreateEntityPdu : Sourced where
  entry := .CreateEntityPdu
  cls := I.CreateEntityPdu
  fields := CreateEntityPdu.fields
  makes := true

/-- `IntercomSignalPdu` (/repo/opendis/dis7.py:4220-4280). -/
def Sourced.IntercomSignalPdu : Sourced where
  entry := .IntercomSignalPdu
  cls := I.IntercomSignalPdu
  fields := IntercomSignalPdu.fields
  makes := true

/-- `RemoveEntityPdu` (/repo/opendis/dis7.py:4283-4305). -/
def Sourced.RemoveEntityPdu : Sourced where
  entry := .RemoveEntityPdu
  cls := I.RemoveEntityPdu
  fields := RemoveEntityPdu.fields
  makes := true

/-- `ResupplyReceivedPdu` (/repo/opendis/dis7.py:4308-4355). -/
def Sourced.ResupplyReceivedPdu : Sourced where
  entry := .ResupplyReceivedPdu
  cls := I.ResupplyReceivedPdu
  fields := ResupplyReceivedPdu.fields
  makes := true

/-- `CollisionElasticPdu` (/repo/opendis/dis7.py:4388-4474). -/
def Sourced.CollisionElasticPdu : Sourced where
  entry := .CollisionElasticPdu
  cls := I.CollisionElasticPdu
  fields := CollisionElasticPdu.fields
  makes := true

/-- Classes of part 3 (/repo/opendis). -/
def sourced3 : List Sourced :=
  [.StorageFuel,
   .Sensor,
   .MunitionReload,
   .StorageFuelReload,
   .ExpendableReload,
   .EngineFuelReload,
   .UnattachedIdentifier,
   .EntityTypeVP,
   .BeamStatus,
   .GridAxis,
   .RecordSpecification,
   .EventIdentifierLiveEntity,
   .ExpendableDescriptor,
   .PropulsionSystemData,
   .LiveEntityIdentifier,
   .EmitterSystem,
   .PduStatus,
   .EmissionSystemBeamRecord,
   .EmissionSystemRecord,
   .EntityStateUpdatePdu,
   .ServiceRequestPdu,
   .RepairCompletePdu,
   .CollisionPdu,
   .RepairResponsePdu,
   .DataQueryPdu,
   .CreateEntityPdu,
   .IntercomSignalPdu,
   .RemoveEntityPdu,
   .ResupplyReceivedPdu,
   .CollisionElasticPdu]

/-- `AcknowledgePdu` (/repo/opendis/dis7.py:4530-4562). -/
def Sourced.AcknowledgePdu : Sourced where
  entry := .AcknowledgePdu
  cls := I.AcknowledgePdu
  fields := AcknowledgePdu.fields
  makes := true

/-- `DesignatorPdu` (/repo/opendis/dis7.py:4678-4753). -/
def Sourced.DesignatorPdu : Sourced where
  entry := .DesignatorPdu
  cls := I.DesignatorPdu
  fields := DesignatorPdu.fields
  makes := true

/-- `StopFreezePdu` (/repo/opendis/dis7.py:4756-4795). -/
def Sourced.StopFreezePdu : Sourced where
  entry := .StopFreezePdu
  cls := I.StopFreezePdu
  fields := StopFreezePdu.fields
  makes := true

/-- `EntityStatePdu` (/repo/opendis/dis7.py:4798-4887). -/
def Sourced.EntityStatePdu : Sourced where
  entry := .EntityStatePdu
  cls := I.EntityStatePdu
  fields := EntityStatePdu.fields
  makes := true

/-- `StartResumePdu` (/repo/opendis/dis7.py:4909-4940). -/
def Sourced.StartResumePdu : Sourced where
  entry := .StartResumePdu
  cls := I.StartResumePdu
  fields := StartResumePdu.fields
  makes := true

/-- `ElectromagneticEmissionsPdu` (/repo/opendis/dis7.py:5119-5169). -/
def Sourced.ElectromagneticEmissionsPdu : Sourced where
  entry := .ElectromagneticEmissionsPdu
  cls := I.ElectromagneticEmissionsPdu
  fields := ElectromagneticEmissionsPdu.fields
  makes := true

/-- `ResupplyOfferPdu` (/repo/opendis/dis7.py:5279-5327). -/
def Sourced.ResupplyOfferPdu : Sourced where
  entry := .ResupplyOfferPdu
  cls := I.ResupplyOfferPdu
  fields := ResupplyOfferPdu.fields
  makes := true

/-- `PointObjectStatePdu` (/repo/opendis/dis7.py:5505-5582). -/
def Sourced.PointObjectStatePdu : Sourced where
  entry := .PointObjectStatePdu
  cls := I.PointObjectStatePdu
  fields := PointObjectStatePdu.fields
  makes := true

/-- `FastEntityStatePdu` (/repo/opendis/dis7.py:5637-5868). -/
def Sourced.FastEntityStatePdu : Sourced where
  entry := .FastEntityStatePdu
  cls := I.FastEntityStatePdu
  fields := FastEntityStatePdu.fields
  makes := true

/-- `AcknowledgeReliablePdu` (/repo/opendis/dis7.py:5871-5902). -/
def Sourced.AcknowledgeReliablePdu : Sourced where
  entry := .AcknowledgeReliablePdu
  cls := I.AcknowledgeReliablePdu
  fields := AcknowledgeReliablePdu.fields
  makes := true

/-- `StartResumeReliablePdu` (/repo/opendis/dis7.py:5905-5946). -/
def Sourced.StartResumeReliablePdu : Sourced where
  entry := .StartResumeReliablePdu
  cls := I.StartResumeReliablePdu
  fields := StartResumeReliablePdu.fields
  makes := true

/-- `ArealObjectStatePdu` (/repo/opendis/dis7.py:5949-6025). -/
def Sourced.ArealObjectStatePdu : Sourced where
  entry := .ArealObjectStatePdu
  cls := I.ArealObjectStatePdu
  fields := ArealObjectStatePdu.fields
  makes := true

/-- `DataQueryReliablePdu` (/repo/opendis/dis7.py:6028-6087). -/
def Sourced.DataQueryReliablePdu : Sourced where
  entry := .DataQueryReliablePdu
  cls := I.DataQueryReliablePdu
  fields := DataQueryReliablePdu.fields
  makes := true

/-- `MinefieldStatePdu` (/repo/opendis/dis7.py:6090-6172). -/
def Sourced.MinefieldStatePdu : Sourced where
  entry := .MinefieldStatePdu
  cls := I.MinefieldStatePdu
  fields := MinefieldStatePdu.fields
  makes := true

/-- `DetonationPdu` (/repo/opendis/dis7.py:6406-6475). -/
def Sourced.DetonationPdu : Sourced where
  entry := .DetonationPdu
  cls := I.DetonationPdu
  fields := DetonationPdu.fields
  makes := true

/-- `RecordQueryReliablePdu` (/repo/opendis/dis7.py:6527-6581). -/
def Sourced.RecordQueryReliablePdu : Sourced where
  entry := .RecordQueryReliablePdu
  cls := I.RecordQueryReliablePdu
  fields := RecordQueryReliablePdu.fields
  makes := true

/-- `FirePdu` (/repo/opendis/dis7.py:6680-6733). -/
def Sourced.FirePdu : Sourced where
  entry := .FirePdu
  cls := I.FirePdu
  fields := FirePdu.fields
  makes := true

/-- `ReceiverPdu` (/repo/opendis/dis7.py:6736-6775). -/
def Sourced.ReceiverPdu : Sourced where
  entry := .ReceiverPdu
  cls := I.ReceiverPdu
  fields := ReceiverPdu.fields
  makes := true

/-- `UaPdu` (/repo/opendis/dis7.py:6778-6870). -/
def Sourced.UaPdu : Sourced where
  entry := .UaPdu
  cls := I.UaPdu
  fields := UaPdu.fields
  makes := true

/-- `SignalPdu` (/repo/opendis/dis7.py:6957-7015). -/
def Sourced.SignalPdu : Sourced where
  entry := .SignalPdu
  cls := I.SignalPdu
  fields := SignalPdu.fields
  makes := true

/-- `RemoveEntityReliablePdu` (/repo/opendis/dis7.py:7018-7049). -/
def Sourced.RemoveEntityReliablePdu : Sourced where
  entry := .RemoveEntityReliablePdu
  cls := I.RemoveEntityReliablePdu
  fields := RemoveEntityReliablePdu.fields
  makes := true

/-- `SeesPdu` (/repo/opendis/dis7.py:7052-7119). -/
def Sourced.SeesPdu : Sourced where
  entry := .SeesPdu
  cls := I.SeesPdu
  fields := SeesPdu.fields
  makes := true

/-- `CreateEntityReliablePdu` (/repo/opendis/dis7.py:7122-7153). -/
def Sourced.CreateEntityReliablePdu : Sourced where
  entry := .CreateEntityReliablePdu
  cls := I.CreateEntityReliablePdu
  fields := CreateEntityReliablePdu.fields
  makes := true

/-- `StopFreezeReliablePdu` (/repo/opendis/dis7.py:7156-7199). -/
def Sourced.StopFreezeReliablePdu : Sourced where
  entry := .StopFreezeReliablePdu
  cls := I.StopFreezeReliablePdu
  fields := StopFreezeReliablePdu.fields
  makes := true

/-- `MinefieldResponseNackPdu` (/repo/opendis/dis7.py:7253-7299). -/
def Sourced.MinefieldResponseNackPdu : Sourced where
  entry := .MinefieldResponseNackPdu
  cls := I.MinefieldResponseNackPdu
  fields := MinefieldResponseNackPdu.fields
  makes := true

/-- `IsPartOfPdu` (/repo/opendis/dis7.py:7352-7397). -/
def Sourced.IsPartOfPdu : Sourced where
  entry := .IsPartOfPdu
  cls := I.IsPartOfPdu
  fields := IsPartOfPdu.fields
  makes := true

/-- Classes of part 4 (/repo/opendis). -/
def sourced4 : List Sourced :=
  [.AcknowledgePdu,
   .DesignatorPdu,
   .StopFreezePdu,
   .EntityStatePdu,
   .StartResumePdu,
   .ElectromagneticEmissionsPdu,
   .ResupplyOfferPdu,
   .PointObjectStatePdu,
   .FastEntityStatePdu,
   .AcknowledgeReliablePdu,
   .StartResumeReliablePdu,
   .ArealObjectStatePdu,
   .DataQueryReliablePdu,
   .MinefieldStatePdu,
   .DetonationPdu,
   .RecordQueryReliablePdu,
   .FirePdu,
   .ReceiverPdu,
   .UaPdu,
   .SignalPdu,
   .RemoveEntityReliablePdu,
   .SeesPdu,
   .CreateEntityReliablePdu,
   .StopFreezeReliablePdu,
   .MinefieldResponseNackPdu,
   .IsPartOfPdu]

/-- `AttachedParts` (/repo/opendis/dis7.py:776-811). -/
def Sourced.AttachedParts : Sourced where
  entry := .AttachedParts
  cls := I.AttachedParts
  fields := AttachedParts.fields
  makes := true

/-- `VariableDatum` (/repo/opendis/dis7.py:3293-3339). -/
def Sourced.VariableDatum : Sourced where
  entry := .VariableDatum
  cls := I.VariableDatum
  fields := VariableDatum.fields
  makes := true

/-- `DatumSpecification` (/repo/opendis/dis7.py:1593-1637). -/
def Sourced.DatumSpecification : Sourced where
  entry := .DatumSpecification
  cls := I.DatumSpecification
  fields := DatumSpecification.fields
  makes := true

/-- `SilentAggregateSystem` (/repo/opendis/dis7.py:2221-2242). -/
def Sourced.SilentAggregateSystem : Sourced where
  entry := .SilentAggregateSystem
  cls := I.SilentAggregateSystem
  fields := SilentAggregateSystem.fields
  makes := true

/-- `Environment` (/repo/opendis/dis7.py:2636-2668). -/
def Sourced.Environment : Sourced where
  entry := .Environment
  cls := I.Environment
  fields := Environment.fields
  makes := true

/-- `EnvironmentGeneral` (/repo/opendis/dis7.py:3168-3209). -/
def Sourced.EnvironmentGeneral : Sourced where
  entry := .EnvironmentGeneral
  cls := I.EnvironmentGeneral
  fields := EnvironmentGeneral.fields
  makes := true

/-- `SeparationVP` (/repo/opendis/dis7.py:3580-3621). -/
def Sourced.SeparationVP : Sourced where
  entry := .SeparationVP
  cls := I.SeparationVP
  fields := SeparationVP.fields
  makes := true

/-- `ActionRequestPdu` (/repo/opendis/dis7.py:4477-4527). -/
def Sourced.ActionRequestPdu : Sourced where
  entry := .ActionRequestPdu
  cls := I.ActionRequestPdu
  fields := ActionRequestPdu.fields
  makes := true

/-- `ActionRequestReliablePdu` (/repo/opendis/dis7.py:4613-4675). -/
def Sourced.ActionRequestReliablePdu : Sourced where
  entry := .ActionRequestReliablePdu
  cls := I.ActionRequestReliablePdu
  fields := ActionRequestReliablePdu.fields
  makes := true

/-- `SetDataReliablePdu` (/repo/opendis/dis7.py:5413-5468). -/
def Sourced.SetDataReliablePdu : Sourced where
  entry := .SetDataReliablePdu
  cls := I.SetDataReliablePdu
  fields := SetDataReliablePdu.fields
  makes := true

/-- `EventReportPdu` (/repo/opendis/dis7.py:5471-5502). -/
def Sourced.EventReportPdu : Sourced where
  entry := .EventReportPdu
  cls := I.EventReportPdu
  fields := EventReportPdu.fields
  makes := true

/-- `DataPdu` (/repo/opendis/dis7.py:5585-5634). -/
def Sourced.DataPdu : Sourced where
  entry := .DataPdu
  cls := I.DataPdu
  fields := DataPdu.fields
  makes := true

/-- `DataReliablePdu` (/repo/opendis/dis7.py:6175-6230). -/
def Sourced.DataReliablePdu : Sourced where
  entry := .DataReliablePdu
  cls := I.DataReliablePdu
  fields := DataReliablePdu.fields
  makes := true

/-- `CommentPdu` (/repo/opendis/dis7.py:6233-6272). -/
def Sourced.CommentPdu : Sourced where
  entry := .CommentPdu
  cls := I.CommentPdu
  fields := CommentPdu.fields
  makes := true

/-- `CommentReliablePdu` (/repo/opendis/dis7.py:6275-6315). -/
def Sourced.CommentReliablePdu : Sourced where
  entry := .CommentReliablePdu
  cls := I.CommentReliablePdu
  fields := CommentReliablePdu.fields
  makes := true

/-- `SetDataPdu` (/repo/opendis/dis7.py:6478-6524). -/
def Sourced.SetDataPdu : Sourced where
  entry := .SetDataPdu
  cls := I.SetDataPdu
  fields := SetDataPdu.fields
  makes := true

/-- `ActionResponsePdu` (/repo/opendis/dis7.py:6584-6632). -/
def Sourced.ActionResponsePdu : Sourced where
  entry := .ActionResponsePdu
  cls := I.ActionResponsePdu
  fields := ActionResponsePdu.fields
  makes := true

/-- `EventReportReliablePdu` (/repo/opendis/dis7.py:7202-7250). -/
def Sourced.EventReportReliablePdu : Sourced where
  entry := .EventReportReliablePdu
  cls := I.EventReportReliablePdu
  fields := EventReportReliablePdu.fields
  makes := true

/-- `ActionResponseReliablePdu` (/repo/opendis/dis7.py:7302-7349). -/
def Sourced.ActionResponseReliablePdu : Sourced where
  entry := .ActionResponseReliablePdu
  cls := I.ActionResponseReliablePdu
  fields := ActionResponseReliablePdu.fields
  makes := true

/-- `AggregateStatePdu` (/repo/opendis/dis7.py:7400-7537). -/
def Sourced.AggregateStatePdu : Sourced where
  entry := .AggregateStatePdu
  cls := I.AggregateStatePdu
  fields := AggregateStatePdu.fields
  makes := true

/-- Classes of part 5 (/repo/opendis). -/
def sourced5 : List Sourced :=
  [.AttachedParts,
   .VariableDatum,
   .DatumSpecification,
   .SilentAggregateSystem,
   .Environment,
   .EnvironmentGeneral,
   .SeparationVP,
   .ActionRequestPdu,
   .ActionRequestReliablePdu,
   .SetDataReliablePdu,
   .EventReportPdu,
   .DataPdu,
   .DataReliablePdu,
   .CommentPdu,
   .CommentReliablePdu,
   .SetDataPdu,
   .ActionResponsePdu,
   .EventReportReliablePdu,
   .ActionResponseReliablePdu,
   .AggregateStatePdu]

/-- The classes of the model that are compared with the source (/repo/opendis). -/
def sourced : List Sourced :=
  sourced1 ++ sourced2 ++ sourced3 ++ sourced4 ++ sourced5 ++ sourced6 ++ sourced7

end Dis.Src
