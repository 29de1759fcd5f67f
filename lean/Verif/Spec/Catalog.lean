import Verif.Spec.Special
import Verif.Spec.Variable
import Verif.Spec.LayoutSpecial
import Verif.Spec.Pdus5
import Verif.Spec.Codec

/-!
# Catalogue of the wire classes

Generated by `tools/gencatalog.py`.
-/

namespace Dis

/-- Catalogue entry of `SimulationAddress` (/repo/opendis/record/common.py:133-135). -/
def Codec.SimulationAddress : Codec where
  name := "SimulationAddress"
  Obj := Dis.SimulationAddress
  fresh := Dis.SimulationAddress.init
  serialize := Dis.SimulationAddress.serialize
  parse s := Dis.SimulationAddress.parse s
  wire := Dis.SimulationAddress.wire
  Fits := Dis.SimulationAddress.WireOk
  Canon := Dis.SimulationAddress.Canon
  NoNaN := Dis.SimulationAddress.NoNaN
  size := Dis.SimulationAddress.wireSize
  after := Dis.SimulationAddress.after

/-- Catalogue entry of `EntityIdentifier` (/repo/opendis/record/common.py:48-50). -/
def Codec.EntityIdentifier : Codec where
  name := "EntityIdentifier"
  Obj := Dis.EntityIdentifier
  fresh := Dis.EntityIdentifier.init
  serialize := Dis.EntityIdentifier.serialize
  parse s := Dis.EntityIdentifier.parse s
  wire := Dis.EntityIdentifier.wire
  Fits := Dis.EntityIdentifier.WireOk
  Canon := Dis.EntityIdentifier.Canon
  NoNaN := Dis.EntityIdentifier.NoNaN
  size := Dis.EntityIdentifier.wireSize
  after := Dis.EntityIdentifier.after

/-- Catalogue entry of `EulerAngles` (/repo/opendis/record/common.py:77-80). -/
def Codec.EulerAngles : Codec where
  name := "EulerAngles"
  Obj := Dis.EulerAngles
  fresh := Dis.EulerAngles.init
  serialize := Dis.EulerAngles.serialize
  parse s := Dis.EulerAngles.parse s
  wire := Dis.EulerAngles.wire
  Fits := Dis.EulerAngles.WireOk
  Canon := Dis.EulerAngles.Canon
  NoNaN := Dis.EulerAngles.NoNaN
  size := Dis.EulerAngles.wireSize
  after := Dis.EulerAngles.after

/-- Catalogue entry of `EventIdentifier` (/repo/opendis/record/common.py:106-108). -/
def Codec.EventIdentifier : Codec where
  name := "EventIdentifier"
  Obj := Dis.EventIdentifier
  fresh := Dis.EventIdentifier.init
  serialize := Dis.EventIdentifier.serialize
  parse s := Dis.EventIdentifier.parse s
  wire := Dis.EventIdentifier.wire
  Fits := Dis.EventIdentifier.WireOk
  Canon := Dis.EventIdentifier.Canon
  NoNaN := Dis.EventIdentifier.NoNaN
  size := Dis.EventIdentifier.wireSize
  after := Dis.EventIdentifier.after

/-- Catalogue entry of `Vector3Float` (/repo/opendis/record/common.py:160-163). -/
def Codec.Vector3Float : Codec where
  name := "Vector3Float"
  Obj := Dis.Vector3Float
  fresh := Dis.Vector3Float.init
  serialize := Dis.Vector3Float.serialize
  parse s := Dis.Vector3Float.parse s
  wire := Dis.Vector3Float.wire
  Fits := Dis.Vector3Float.WireOk
  Canon := Dis.Vector3Float.Canon
  NoNaN := Dis.Vector3Float.NoNaN
  size := Dis.Vector3Float.wireSize
  after := Dis.Vector3Float.after

/-- Catalogue entry of `WorldCoordinates` (/repo/opendis/record/common.py:188-191). -/
def Codec.WorldCoordinates : Codec where
  name := "WorldCoordinates"
  Obj := Dis.WorldCoordinates
  fresh := Dis.WorldCoordinates.init
  serialize := Dis.WorldCoordinates.serialize
  parse s := Dis.WorldCoordinates.parse s
  wire := Dis.WorldCoordinates.wire
  Fits := Dis.WorldCoordinates.WireOk
  Canon := Dis.WorldCoordinates.Canon
  NoNaN := Dis.WorldCoordinates.NoNaN
  size := Dis.WorldCoordinates.wireSize
  after := Dis.WorldCoordinates.after

/-- Catalogue entries for the classes of `Verif.Model.Common` (class statements of
/repo/opendis). -/
def catalogCommon : List Codec :=
  [.SimulationAddress,
   .EntityIdentifier,
   .EulerAngles,
   .EventIdentifier,
   .Vector3Float,
   .WorldCoordinates]

/-- Catalogue entry of `DataQueryDatumSpecification` (/repo/opendis/dis7.py:93-101). -/
def Codec.DataQueryDatumSpecification : Codec where
  name := "DataQueryDatumSpecification"
  Obj := Dis.DataQueryDatumSpecification
  fresh := Dis.DataQueryDatumSpecification.init
  serialize := Dis.DataQueryDatumSpecification.serialize
  parse s := Dis.DataQueryDatumSpecification.parse s
  wire := Dis.DataQueryDatumSpecification.wire
  Fits := Dis.DataQueryDatumSpecification.WireOk
  Canon := Dis.DataQueryDatumSpecification.Canon
  NoNaN := Dis.DataQueryDatumSpecification.NoNaN
  size := Dis.DataQueryDatumSpecification.wireSize
  after := Dis.DataQueryDatumSpecification.after
  counts := [{ offset := 0, width := 4, max := 4294967295, scale := 1, len := fun o => o.fixedDatumIDs.length },
    { offset := 4, width := 4, max := 4294967295, scale := 1, len := fun o => o.variableDatumIDs.length }]

/-- Catalogue entry of `RadioIdentifier` (/repo/opendis/dis7.py:132-137). -/
def Codec.RadioIdentifier : Codec where
  name := "RadioIdentifier"
  Obj := Dis.RadioIdentifier
  fresh := Dis.RadioIdentifier.init
  serialize := Dis.RadioIdentifier.serialize
  parse s := Dis.RadioIdentifier.parse s
  wire := Dis.RadioIdentifier.wire
  Fits := Dis.RadioIdentifier.WireOk
  Canon := Dis.RadioIdentifier.Canon
  NoNaN := Dis.RadioIdentifier.NoNaN
  size := Dis.RadioIdentifier.wireSize
  after := Dis.RadioIdentifier.after

/-- Catalogue entry of `RequestID` (/repo/opendis/dis7.py:158-160). -/
def Codec.RequestID : Codec where
  name := "RequestID"
  Obj := Dis.RequestID
  fresh := Dis.RequestID.init
  serialize := Dis.RequestID.serialize
  parse s := Dis.RequestID.parse s
  wire := Dis.RequestID.wire
  Fits := Dis.RequestID.WireOk
  Canon := Dis.RequestID.Canon
  NoNaN := Dis.RequestID.NoNaN
  size := Dis.RequestID.wireSize
  after := Dis.RequestID.after

/-- Catalogue entry of `IFFData` (/repo/opendis/dis7.py:184-190). -/
def Codec.IFFData : Codec where
  name := "IFFData"
  Obj := Dis.IFFData
  fresh := Dis.IFFData.init
  serialize := Dis.IFFData.serialize
  parse s := Dis.IFFData.parse s
  wire := Dis.IFFData.wire
  Fits := Dis.IFFData.WireOk
  Canon := Dis.IFFData.Canon
  NoNaN := Dis.IFFData.NoNaN
  size := Dis.IFFData.wireSize
  after := Dis.IFFData.after
  Decodable := Dis.IFFData.Decodable
  Live := Dis.IFFData.Live
  counts := [{ offset := 4, width := 2, max := 65535, scale := 1, len := fun o => o.iffData.length }]

/-- Catalogue entry of `EntityType` (/repo/opendis/dis7.py:2522-2530). -/
def Codec.EntityType : Codec where
  name := "EntityType"
  Obj := Dis.EntityType
  fresh := Dis.EntityType.init
  serialize := Dis.EntityType.serialize
  parse s := Dis.EntityType.parse s
  wire := Dis.EntityType.wire
  Fits := Dis.EntityType.WireOk
  Canon := Dis.EntityType.Canon
  NoNaN := Dis.EntityType.NoNaN
  size := Dis.EntityType.wireSize
  after := Dis.EntityType.after

/-- Catalogue entry of `MunitionDescriptor` (/repo/opendis/dis7.py:229-235). -/
def Codec.MunitionDescriptor : Codec where
  name := "MunitionDescriptor"
  Obj := Dis.MunitionDescriptor
  fresh := Dis.MunitionDescriptor.init
  serialize := Dis.MunitionDescriptor.serialize
  parse s := Dis.MunitionDescriptor.parse s
  wire := Dis.MunitionDescriptor.wire
  Fits := Dis.MunitionDescriptor.WireOk
  Canon := Dis.MunitionDescriptor.Canon
  NoNaN := Dis.MunitionDescriptor.NoNaN
  size := Dis.MunitionDescriptor.wireSize
  after := Dis.MunitionDescriptor.after

/-- Catalogue entry of `MinefieldSensorType` (/repo/opendis/dis7.py:257-259). -/
def Codec.MinefieldSensorType : Codec where
  name := "MinefieldSensorType"
  Obj := Dis.MinefieldSensorType
  fresh := Dis.MinefieldSensorType.init
  serialize := Dis.MinefieldSensorType.serialize
  parse s := Dis.MinefieldSensorType.parse s
  wire := Dis.MinefieldSensorType.wire
  Fits := Dis.MinefieldSensorType.WireOk
  Canon := Dis.MinefieldSensorType.Canon
  NoNaN := Dis.MinefieldSensorType.NoNaN
  size := Dis.MinefieldSensorType.wireSize
  after := Dis.MinefieldSensorType.after

/-- Catalogue entry of `GroupID` (/repo/opendis/dis7.py:281-284). -/
def Codec.GroupID : Codec where
  name := "GroupID"
  Obj := Dis.GroupID
  fresh := Dis.GroupID.init
  serialize := Dis.GroupID.serialize
  parse s := Dis.GroupID.parse s
  wire := Dis.GroupID.wire
  Fits := Dis.GroupID.WireOk
  Canon := Dis.GroupID.Canon
  NoNaN := Dis.GroupID.NoNaN
  size := Dis.GroupID.wireSize
  after := Dis.GroupID.after

/-- Catalogue entry of `LayerHeader` (/repo/opendis/dis7.py:309-313). -/
def Codec.LayerHeader : Codec where
  name := "LayerHeader"
  Obj := Dis.LayerHeader
  fresh := Dis.LayerHeader.init
  serialize := Dis.LayerHeader.serialize
  parse s := Dis.LayerHeader.parse s
  wire := Dis.LayerHeader.wire
  Fits := Dis.LayerHeader.WireOk
  Canon := Dis.LayerHeader.Canon
  NoNaN := Dis.LayerHeader.NoNaN
  size := Dis.LayerHeader.wireSize
  after := Dis.LayerHeader.after

/-- Catalogue entry of `UnsignedDISInteger` (/repo/opendis/dis7.py:329-331). -/
def Codec.UnsignedDISInteger : Codec where
  name := "UnsignedDISInteger"
  Obj := Dis.UnsignedDISInteger
  fresh := Dis.UnsignedDISInteger.init
  serialize := Dis.UnsignedDISInteger.serialize
  parse s := Dis.UnsignedDISInteger.parse s
  wire := Dis.UnsignedDISInteger.wire
  Fits := Dis.UnsignedDISInteger.WireOk
  Canon := Dis.UnsignedDISInteger.Canon
  NoNaN := Dis.UnsignedDISInteger.NoNaN
  size := Dis.UnsignedDISInteger.wireSize
  after := Dis.UnsignedDISInteger.after

/-- Catalogue entry of `DeadReckoningParameters` (/repo/opendis/dis7.py:356-363). -/
def Codec.DeadReckoningParameters : Codec where
  name := "DeadReckoningParameters"
  Obj := Dis.DeadReckoningParameters
  fresh := Dis.DeadReckoningParameters.init
  serialize := Dis.DeadReckoningParameters.serialize
  parse s := Dis.DeadReckoningParameters.parse s
  wire := Dis.DeadReckoningParameters.wire
  Fits := Dis.DeadReckoningParameters.WireOk
  Canon := Dis.DeadReckoningParameters.Canon
  NoNaN := Dis.DeadReckoningParameters.NoNaN
  size := Dis.DeadReckoningParameters.wireSize
  after := Dis.DeadReckoningParameters.after

/-- Catalogue entry of `ProtocolMode` (/repo/opendis/dis7.py:388-390). -/
def Codec.ProtocolMode : Codec where
  name := "ProtocolMode"
  Obj := Dis.ProtocolMode
  fresh := Dis.ProtocolMode.init
  serialize := Dis.ProtocolMode.serialize
  parse s := Dis.ProtocolMode.parse s
  wire := Dis.ProtocolMode.wire
  Fits := Dis.ProtocolMode.WireOk
  Canon := Dis.ProtocolMode.Canon
  NoNaN := Dis.ProtocolMode.NoNaN
  size := Dis.ProtocolMode.wireSize
  after := Dis.ProtocolMode.after

/-- Catalogue entry of `AngleDeception` (/repo/opendis/dis7.py:436-453). -/
def Codec.AngleDeception : Codec where
  name := "AngleDeception"
  Obj := Dis.AngleDeception
  fresh := Dis.AngleDeception.init
  serialize := Dis.AngleDeception.serialize
  parse s := Dis.AngleDeception.parse s
  wire := Dis.AngleDeception.wire
  Fits := Dis.AngleDeception.WireOk
  Canon := Dis.AngleDeception.Canon
  NoNaN := Dis.AngleDeception.NoNaN
  size := Dis.AngleDeception.wireSize
  after := Dis.AngleDeception.after

/-- Catalogue entry of `EntityAssociation` (/repo/opendis/dis7.py:508-518). -/
def Codec.EntityAssociation : Codec where
  name := "EntityAssociation"
  Obj := Dis.EntityAssociation
  fresh := Dis.EntityAssociation.init
  serialize := Dis.EntityAssociation.serialize
  parse s := Dis.EntityAssociation.parse s
  wire := Dis.EntityAssociation.wire
  Fits := Dis.EntityAssociation.WireOk
  Canon := Dis.EntityAssociation.Canon
  NoNaN := Dis.EntityAssociation.NoNaN
  size := Dis.EntityAssociation.wireSize
  after := Dis.EntityAssociation.after

/-- Catalogue entry of `VectoringNozzleSystem` (/repo/opendis/dis7.py:545-548). -/
def Codec.VectoringNozzleSystem : Codec where
  name := "VectoringNozzleSystem"
  Obj := Dis.VectoringNozzleSystem
  fresh := Dis.VectoringNozzleSystem.init
  serialize := Dis.VectoringNozzleSystem.serialize
  parse s := Dis.VectoringNozzleSystem.parse s
  wire := Dis.VectoringNozzleSystem.wire
  Fits := Dis.VectoringNozzleSystem.WireOk
  Canon := Dis.VectoringNozzleSystem.Canon
  NoNaN := Dis.VectoringNozzleSystem.NoNaN
  size := Dis.VectoringNozzleSystem.wireSize
  after := Dis.VectoringNozzleSystem.after

/-- Catalogue entry of `FalseTargetsAttribute` (/repo/opendis/dis7.py:591-605). -/
def Codec.FalseTargetsAttribute : Codec where
  name := "FalseTargetsAttribute"
  Obj := Dis.FalseTargetsAttribute
  fresh := Dis.FalseTargetsAttribute.init
  serialize := Dis.FalseTargetsAttribute.serialize
  parse s := Dis.FalseTargetsAttribute.parse s
  wire := Dis.FalseTargetsAttribute.wire
  Fits := Dis.FalseTargetsAttribute.WireOk
  Canon := Dis.FalseTargetsAttribute.Canon
  NoNaN := Dis.FalseTargetsAttribute.NoNaN
  size := Dis.FalseTargetsAttribute.wireSize
  after := Dis.FalseTargetsAttribute.after

/-- Catalogue entry of `MinefieldIdentifier` (/repo/opendis/dis7.py:636-639). -/
def Codec.MinefieldIdentifier : Codec where
  name := "MinefieldIdentifier"
  Obj := Dis.MinefieldIdentifier
  fresh := Dis.MinefieldIdentifier.init
  serialize := Dis.MinefieldIdentifier.serialize
  parse s := Dis.MinefieldIdentifier.parse s
  wire := Dis.MinefieldIdentifier.wire
  Fits := Dis.MinefieldIdentifier.WireOk
  Canon := Dis.MinefieldIdentifier.Canon
  NoNaN := Dis.MinefieldIdentifier.NoNaN
  size := Dis.MinefieldIdentifier.wireSize
  after := Dis.MinefieldIdentifier.after

/-- Catalogue entry of `RadioType` (/repo/opendis/dis7.py:672-680). -/
def Codec.RadioType : Codec where
  name := "RadioType"
  Obj := Dis.RadioType
  fresh := Dis.RadioType.init
  serialize := Dis.RadioType.serialize
  parse s := Dis.RadioType.parse s
  wire := Dis.RadioType.wire
  Fits := Dis.RadioType.WireOk
  Canon := Dis.RadioType.Canon
  NoNaN := Dis.RadioType.NoNaN
  size := Dis.RadioType.wireSize
  after := Dis.RadioType.after

/-- Catalogue entry of `NamedLocationIdentification` (/repo/opendis/dis7.py:709-712). -/
def Codec.NamedLocationIdentification : Codec where
  name := "NamedLocationIdentification"
  Obj := Dis.NamedLocationIdentification
  fresh := Dis.NamedLocationIdentification.init
  serialize := Dis.NamedLocationIdentification.serialize
  parse s := Dis.NamedLocationIdentification.parse s
  wire := Dis.NamedLocationIdentification.wire
  Fits := Dis.NamedLocationIdentification.WireOk
  Canon := Dis.NamedLocationIdentification.Canon
  NoNaN := Dis.NamedLocationIdentification.NoNaN
  size := Dis.NamedLocationIdentification.wireSize
  after := Dis.NamedLocationIdentification.after

/-- Catalogue entry of `IFFDataSpecification` (/repo/opendis/dis7.py:733-737). -/
def Codec.IFFDataSpecification : Codec where
  name := "IFFDataSpecification"
  Obj := Dis.IFFDataSpecification
  fresh := Dis.IFFDataSpecification.init
  serialize := Dis.IFFDataSpecification.serialize
  parse s := Dis.IFFDataSpecification.parse s
  wire := Dis.IFFDataSpecification.wire
  Fits := Dis.IFFDataSpecification.WireOk
  Canon := Dis.IFFDataSpecification.Canon
  NoNaN := Dis.IFFDataSpecification.NoNaN
  size := Dis.IFFDataSpecification.wireSize
  after := Dis.IFFDataSpecification.after
  Decodable := Dis.IFFDataSpecification.Decodable
  Live := Dis.IFFDataSpecification.Live
  counts := [{ offset := 0, width := 2, max := 65535, scale := 1, len := fun o => o.iffDataRecords.length }]

/-- Catalogue entry of `OwnershipStatus` (/repo/opendis/dis7.py:763-767). -/
def Codec.OwnershipStatus : Codec where
  name := "OwnershipStatus"
  Obj := Dis.OwnershipStatus
  fresh := Dis.OwnershipStatus.init
  serialize := Dis.OwnershipStatus.serialize
  parse s := Dis.OwnershipStatus.parse s
  wire := Dis.OwnershipStatus.wire
  Fits := Dis.OwnershipStatus.WireOk
  Canon := Dis.OwnershipStatus.Canon
  NoNaN := Dis.OwnershipStatus.NoNaN
  size := Dis.OwnershipStatus.wireSize
  after := Dis.OwnershipStatus.after

/-- Catalogue entry of `AttachedParts` (/repo/opendis/dis7.py:797-803). -/
def Codec.AttachedParts : Codec where
  name := "AttachedParts"
  Obj := Dis.AttachedParts
  fresh := Dis.AttachedParts.init
  serialize := Dis.AttachedParts.serialize
  parse s := Dis.AttachedParts.parse s
  wire := Dis.AttachedParts.wire
  Fits := Dis.AttachedParts.WireOk
  Canon := Dis.AttachedParts.Canon
  NoNaN := Dis.AttachedParts.NoNaN
  size := Dis.AttachedParts.wireSize
  after := Dis.AttachedParts.after

/-- Catalogue entries for the classes of `Verif.Model.Records1` (class statements of
/repo/opendis). -/
def catalogRecords1 : List Codec :=
  [.DataQueryDatumSpecification,
   .RadioIdentifier,
   .RequestID,
   .IFFData,
   .EntityType,
   .MunitionDescriptor,
   .MinefieldSensorType,
   .GroupID,
   .LayerHeader,
   .UnsignedDISInteger,
   .DeadReckoningParameters,
   .ProtocolMode,
   .AngleDeception,
   .EntityAssociation,
   .VectoringNozzleSystem,
   .FalseTargetsAttribute,
   .MinefieldIdentifier,
   .RadioType,
   .NamedLocationIdentification,
   .IFFDataSpecification,
   .OwnershipStatus,
   .AttachedParts]

/-- Catalogue entry of `Attribute` (/repo/opendis/dis7.py:829-833). -/
def Codec.Attribute : Codec where
  name := "Attribute"
  Obj := Dis.Attribute
  fresh := Dis.Attribute.init
  serialize := Dis.Attribute.serialize
  parse s := Dis.Attribute.parse s
  wire := Dis.Attribute.wire
  Fits := Dis.Attribute.WireOk
  Canon := Dis.Attribute.Canon
  NoNaN := Dis.Attribute.NoNaN
  size := Dis.Attribute.wireSize
  after := Dis.Attribute.after

/-- Catalogue entry of `RecordQuerySpecification` (/repo/opendis/dis7.py:857-861). -/
def Codec.RecordQuerySpecification : Codec where
  name := "RecordQuerySpecification"
  Obj := Dis.RecordQuerySpecification
  fresh := Dis.RecordQuerySpecification.init
  serialize := Dis.RecordQuerySpecification.serialize
  parse s := Dis.RecordQuerySpecification.parse s
  wire := Dis.RecordQuerySpecification.wire
  Fits := Dis.RecordQuerySpecification.WireOk
  Canon := Dis.RecordQuerySpecification.Canon
  NoNaN := Dis.RecordQuerySpecification.NoNaN
  size := Dis.RecordQuerySpecification.wireSize
  after := Dis.RecordQuerySpecification.after
  counts := [{ offset := 0, width := 4, max := 4294967295, scale := 1, len := fun o => o.recordIDs.length }]

/-- Catalogue entry of `ArticulatedParts` (/repo/opendis/dis7.py:893-899). -/
def Codec.ArticulatedParts : Codec where
  name := "ArticulatedParts"
  Obj := Dis.ArticulatedParts
  fresh := Dis.ArticulatedParts.init
  serialize := Dis.ArticulatedParts.serialize
  parse s := Dis.ArticulatedParts.parse s
  wire := Dis.ArticulatedParts.wire
  Fits := Dis.ArticulatedParts.WireOk
  Canon := Dis.ArticulatedParts.Canon
  NoNaN := Dis.ArticulatedParts.NoNaN
  size := Dis.ArticulatedParts.wireSize
  after := Dis.ArticulatedParts.after

/-- Catalogue entry of `ObjectType` (/repo/opendis/dis7.py:930-935). -/
def Codec.ObjectType : Codec where
  name := "ObjectType"
  Obj := Dis.ObjectType
  fresh := Dis.ObjectType.init
  serialize := Dis.ObjectType.serialize
  parse s := Dis.ObjectType.parse s
  wire := Dis.ObjectType.wire
  Fits := Dis.ObjectType.WireOk
  Canon := Dis.ObjectType.Canon
  NoNaN := Dis.ObjectType.NoNaN
  size := Dis.ObjectType.wireSize
  after := Dis.ObjectType.after

/-- Catalogue entry of `Association` (/repo/opendis/dis7.py:967-972). -/
def Codec.Association : Codec where
  name := "Association"
  Obj := Dis.Association
  fresh := Dis.Association.init
  serialize := Dis.Association.serialize
  parse s := Dis.Association.parse s
  wire := Dis.Association.wire
  Fits := Dis.Association.WireOk
  Canon := Dis.Association.Canon
  NoNaN := Dis.Association.NoNaN
  size := Dis.Association.wireSize
  after := Dis.Association.after

/-- Catalogue entry of `RecordSpecificationElement` (/repo/opendis/dis7.py:1006-1013). -/
def Codec.RecordSpecificationElement : Codec where
  name := "RecordSpecificationElement"
  Obj := Dis.RecordSpecificationElement
  fresh := Dis.RecordSpecificationElement.init
  serialize := Dis.RecordSpecificationElement.serialize
  parse s := Dis.RecordSpecificationElement.parse s
  wire := Dis.RecordSpecificationElement.wire
  Fits := Dis.RecordSpecificationElement.WireOk
  Canon := Dis.RecordSpecificationElement.Canon
  NoNaN := Dis.RecordSpecificationElement.NoNaN
  size := Dis.RecordSpecificationElement.wireSize
  after := Dis.RecordSpecificationElement.after

/-- Catalogue entry of `AntennaLocation` (/repo/opendis/dis7.py:1040-1043). -/
def Codec.AntennaLocation : Codec where
  name := "AntennaLocation"
  Obj := Dis.AntennaLocation
  fresh := Dis.AntennaLocation.init
  serialize := Dis.AntennaLocation.serialize
  parse s := Dis.AntennaLocation.parse s
  wire := Dis.AntennaLocation.wire
  Fits := Dis.AntennaLocation.WireOk
  Canon := Dis.AntennaLocation.Canon
  NoNaN := Dis.AntennaLocation.NoNaN
  size := Dis.AntennaLocation.wireSize
  after := Dis.AntennaLocation.after

/-- Catalogue entry of `ObjectIdentifier` (/repo/opendis/dis7.py:1065-1068). -/
def Codec.ObjectIdentifier : Codec where
  name := "ObjectIdentifier"
  Obj := Dis.ObjectIdentifier
  fresh := Dis.ObjectIdentifier.init
  serialize := Dis.ObjectIdentifier.serialize
  parse s := Dis.ObjectIdentifier.parse s
  wire := Dis.ObjectIdentifier.wire
  Fits := Dis.ObjectIdentifier.WireOk
  Canon := Dis.ObjectIdentifier.Canon
  NoNaN := Dis.ObjectIdentifier.NoNaN
  size := Dis.ObjectIdentifier.wireSize
  after := Dis.ObjectIdentifier.after

/-- Catalogue entry of `AggregateIdentifier` (/repo/opendis/dis7.py:1089-1092). -/
def Codec.AggregateIdentifier : Codec where
  name := "AggregateIdentifier"
  Obj := Dis.AggregateIdentifier
  fresh := Dis.AggregateIdentifier.init
  serialize := Dis.AggregateIdentifier.serialize
  parse s := Dis.AggregateIdentifier.parse s
  wire := Dis.AggregateIdentifier.wire
  Fits := Dis.AggregateIdentifier.WireOk
  Canon := Dis.AggregateIdentifier.Canon
  NoNaN := Dis.AggregateIdentifier.NoNaN
  size := Dis.AggregateIdentifier.wireSize
  after := Dis.AggregateIdentifier.after

/-- Catalogue entry of `FixedDatum` (/repo/opendis/dis7.py:1114-1117). -/
def Codec.FixedDatum : Codec where
  name := "FixedDatum"
  Obj := Dis.FixedDatum
  fresh := Dis.FixedDatum.init
  serialize := Dis.FixedDatum.serialize
  parse s := Dis.FixedDatum.parse s
  wire := Dis.FixedDatum.wire
  Fits := Dis.FixedDatum.WireOk
  Canon := Dis.FixedDatum.Canon
  NoNaN := Dis.FixedDatum.NoNaN
  size := Dis.FixedDatum.wireSize
  after := Dis.FixedDatum.after

/-- Catalogue entry of `VariableParameter` (/repo/opendis/dis7.py:1149-1155). -/
def Codec.VariableParameter : Codec where
  name := "VariableParameter"
  Obj := Dis.VariableParameter
  fresh := Dis.VariableParameter.init
  serialize := Dis.VariableParameter.serialize
  parse s := Dis.VariableParameter.parse s
  wire := Dis.VariableParameter.wire
  Fits := Dis.VariableParameter.WireOk
  Canon := Dis.VariableParameter.Canon
  NoNaN := Dis.VariableParameter.NoNaN
  size := Dis.VariableParameter.wireSize
  after := Dis.VariableParameter.after

/-- Catalogue entry of `ChangeOptions` (/repo/opendis/dis7.py:1173-1175). -/
def Codec.ChangeOptions : Codec where
  name := "ChangeOptions"
  Obj := Dis.ChangeOptions
  fresh := Dis.ChangeOptions.init
  serialize := Dis.ChangeOptions.serialize
  parse s := Dis.ChangeOptions.parse s
  wire := Dis.ChangeOptions.wire
  Fits := Dis.ChangeOptions.WireOk
  Canon := Dis.ChangeOptions.Canon
  NoNaN := Dis.ChangeOptions.NoNaN
  size := Dis.ChangeOptions.wireSize
  after := Dis.ChangeOptions.after

/-- Catalogue entry of `LiveSimulationAddress` (/repo/opendis/dis7.py:1197-1200). -/
def Codec.LiveSimulationAddress : Codec where
  name := "LiveSimulationAddress"
  Obj := Dis.LiveSimulationAddress
  fresh := Dis.LiveSimulationAddress.init
  serialize := Dis.LiveSimulationAddress.serialize
  parse s := Dis.LiveSimulationAddress.parse s
  wire := Dis.LiveSimulationAddress.wire
  Fits := Dis.LiveSimulationAddress.WireOk
  Canon := Dis.LiveSimulationAddress.Canon
  NoNaN := Dis.LiveSimulationAddress.NoNaN
  size := Dis.LiveSimulationAddress.wireSize
  after := Dis.LiveSimulationAddress.after

/-- Catalogue entry of `EntityMarking` (/repo/opendis/dis7.py:1233-1237). -/
def Codec.EntityMarking : Codec where
  name := "EntityMarking"
  Obj := Dis.EntityMarking
  fresh := Dis.EntityMarking.init
  serialize := Dis.EntityMarking.serialize
  parse s := Dis.EntityMarking.parse s
  wire := Dis.EntityMarking.wire
  Fits := Dis.EntityMarking.WireOk
  Canon := Dis.EntityMarking.Canon
  NoNaN := Dis.EntityMarking.NoNaN
  size := Dis.EntityMarking.wireSize
  after := Dis.EntityMarking.after

/-- Catalogue entry of `UAFundamentalParameter` (/repo/opendis/dis7.py:1275-1282). -/
def Codec.UAFundamentalParameter : Codec where
  name := "UAFundamentalParameter"
  Obj := Dis.UAFundamentalParameter
  fresh := Dis.UAFundamentalParameter.init
  serialize := Dis.UAFundamentalParameter.serialize
  parse s := Dis.UAFundamentalParameter.parse s
  wire := Dis.UAFundamentalParameter.wire
  Fits := Dis.UAFundamentalParameter.WireOk
  Canon := Dis.UAFundamentalParameter.Canon
  NoNaN := Dis.UAFundamentalParameter.NoNaN
  size := Dis.UAFundamentalParameter.wireSize
  after := Dis.UAFundamentalParameter.after

/-- Catalogue entry of `ExplosionDescriptor` (/repo/opendis/dis7.py:1312-1317). -/
def Codec.ExplosionDescriptor : Codec where
  name := "ExplosionDescriptor"
  Obj := Dis.ExplosionDescriptor
  fresh := Dis.ExplosionDescriptor.init
  serialize := Dis.ExplosionDescriptor.serialize
  parse s := Dis.ExplosionDescriptor.parse s
  wire := Dis.ExplosionDescriptor.wire
  Fits := Dis.ExplosionDescriptor.WireOk
  Canon := Dis.ExplosionDescriptor.Canon
  NoNaN := Dis.ExplosionDescriptor.NoNaN
  size := Dis.ExplosionDescriptor.wireSize
  after := Dis.ExplosionDescriptor.after

/-- Catalogue entry of `ClockTime` (/repo/opendis/dis7.py:1344-1347). -/
def Codec.ClockTime : Codec where
  name := "ClockTime"
  Obj := Dis.ClockTime
  fresh := Dis.ClockTime.init
  serialize := Dis.ClockTime.serialize
  parse s := Dis.ClockTime.parse s
  wire := Dis.ClockTime.wire
  Fits := Dis.ClockTime.WireOk
  Canon := Dis.ClockTime.Canon
  NoNaN := Dis.ClockTime.NoNaN
  size := Dis.ClockTime.wireSize
  after := Dis.ClockTime.after

/-- Catalogue entry of `SecondaryOperationalData` (/repo/opendis/dis7.py:1374-1380). -/
def Codec.SecondaryOperationalData : Codec where
  name := "SecondaryOperationalData"
  Obj := Dis.SecondaryOperationalData
  fresh := Dis.SecondaryOperationalData.init
  serialize := Dis.SecondaryOperationalData.serialize
  parse s := Dis.SecondaryOperationalData.parse s
  wire := Dis.SecondaryOperationalData.wire
  Fits := Dis.SecondaryOperationalData.WireOk
  Canon := Dis.SecondaryOperationalData.Canon
  NoNaN := Dis.SecondaryOperationalData.NoNaN
  size := Dis.SecondaryOperationalData.wireSize
  after := Dis.SecondaryOperationalData.after

/-- Catalogue entry of `EnvironmentType` (/repo/opendis/dis7.py:1414-1422). -/
def Codec.EnvironmentType : Codec where
  name := "EnvironmentType"
  Obj := Dis.EnvironmentType
  fresh := Dis.EnvironmentType.init
  serialize := Dis.EnvironmentType.serialize
  parse s := Dis.EnvironmentType.parse s
  wire := Dis.EnvironmentType.wire
  Fits := Dis.EnvironmentType.WireOk
  Canon := Dis.EnvironmentType.Canon
  NoNaN := Dis.EnvironmentType.NoNaN
  size := Dis.EnvironmentType.wireSize
  after := Dis.EnvironmentType.after

/-- Catalogue entry of `TotalRecordSets` (/repo/opendis/dis7.py:1444-1447). -/
def Codec.TotalRecordSets : Codec where
  name := "TotalRecordSets"
  Obj := Dis.TotalRecordSets
  fresh := Dis.TotalRecordSets.init
  serialize := Dis.TotalRecordSets.serialize
  parse s := Dis.TotalRecordSets.parse s
  wire := Dis.TotalRecordSets.wire
  Fits := Dis.TotalRecordSets.WireOk
  Canon := Dis.TotalRecordSets.Canon
  NoNaN := Dis.TotalRecordSets.NoNaN
  size := Dis.TotalRecordSets.wireSize
  after := Dis.TotalRecordSets.after

/-- Catalogue entry of `MineEntityIdentifier` (/repo/opendis/dis7.py:1469-1472). -/
def Codec.MineEntityIdentifier : Codec where
  name := "MineEntityIdentifier"
  Obj := Dis.MineEntityIdentifier
  fresh := Dis.MineEntityIdentifier.init
  serialize := Dis.MineEntityIdentifier.serialize
  parse s := Dis.MineEntityIdentifier.parse s
  wire := Dis.MineEntityIdentifier.wire
  Fits := Dis.MineEntityIdentifier.WireOk
  Canon := Dis.MineEntityIdentifier.Canon
  NoNaN := Dis.MineEntityIdentifier.NoNaN
  size := Dis.MineEntityIdentifier.wireSize
  after := Dis.MineEntityIdentifier.after

/-- Catalogue entry of `Relationship` (/repo/opendis/dis7.py:1494-1497). -/
def Codec.Relationship : Codec where
  name := "Relationship"
  Obj := Dis.Relationship
  fresh := Dis.Relationship.init
  serialize := Dis.Relationship.serialize
  parse s := Dis.Relationship.parse s
  wire := Dis.Relationship.wire
  Fits := Dis.Relationship.WireOk
  Canon := Dis.Relationship.Canon
  NoNaN := Dis.Relationship.NoNaN
  size := Dis.Relationship.wireSize
  after := Dis.Relationship.after

/-- Catalogue entries for the classes of `Verif.Model.Records2` (class statements of
/repo/opendis). -/
def catalogRecords2 : List Codec :=
  [.Attribute,
   .RecordQuerySpecification,
   .ArticulatedParts,
   .ObjectType,
   .Association,
   .RecordSpecificationElement,
   .AntennaLocation,
   .ObjectIdentifier,
   .AggregateIdentifier,
   .FixedDatum,
   .VariableParameter,
   .ChangeOptions,
   .LiveSimulationAddress,
   .EntityMarking,
   .UAFundamentalParameter,
   .ExplosionDescriptor,
   .ClockTime,
   .SecondaryOperationalData,
   .EnvironmentType,
   .TotalRecordSets,
   .MineEntityIdentifier,
   .Relationship]

/-- Catalogue entry of `EEFundamentalParameterData` (/repo/opendis/dis7.py:1539-1550). -/
def Codec.EEFundamentalParameterData : Codec where
  name := "EEFundamentalParameterData"
  Obj := Dis.EEFundamentalParameterData
  fresh := Dis.EEFundamentalParameterData.init
  serialize := Dis.EEFundamentalParameterData.serialize
  parse s := Dis.EEFundamentalParameterData.parse s
  wire := Dis.EEFundamentalParameterData.wire
  Fits := Dis.EEFundamentalParameterData.WireOk
  Canon := Dis.EEFundamentalParameterData.Canon
  NoNaN := Dis.EEFundamentalParameterData.NoNaN
  size := Dis.EEFundamentalParameterData.wireSize
  after := Dis.EEFundamentalParameterData.after

/-- Catalogue entry of `JammingTechnique` (/repo/opendis/dis7.py:1578-1583). -/
def Codec.JammingTechnique : Codec where
  name := "JammingTechnique"
  Obj := Dis.JammingTechnique
  fresh := Dis.JammingTechnique.init
  serialize := Dis.JammingTechnique.serialize
  parse s := Dis.JammingTechnique.parse s
  wire := Dis.JammingTechnique.wire
  Fits := Dis.JammingTechnique.WireOk
  Canon := Dis.JammingTechnique.Canon
  NoNaN := Dis.JammingTechnique.NoNaN
  size := Dis.JammingTechnique.wireSize
  after := Dis.JammingTechnique.after

/-- Catalogue entry of `VariableDatum` (/repo/opendis/dis7.py:3318-3327). -/
def Codec.VariableDatum : Codec where
  name := "VariableDatum"
  Obj := Dis.VariableDatum
  fresh := Dis.VariableDatum.init
  serialize := Dis.VariableDatum.serialize
  parse s := Dis.VariableDatum.parse s
  wire := Dis.VariableDatum.wire
  Fits := Dis.VariableDatum.WireOk
  Canon := Dis.VariableDatum.Canon
  NoNaN := Dis.VariableDatum.NoNaN
  size := Dis.VariableDatum.wireSize
  after := Dis.VariableDatum.after
  lossless := false

/-- Catalogue entry of `DatumSpecification` (/repo/opendis/dis7.py:1615-1623). -/
def Codec.DatumSpecification : Codec where
  name := "DatumSpecification"
  Obj := Dis.DatumSpecification
  fresh := Dis.DatumSpecification.init
  serialize := Dis.DatumSpecification.serialize
  parse s := Dis.DatumSpecification.parse s
  wire := Dis.DatumSpecification.wire
  Fits := Dis.DatumSpecification.WireOk
  Canon := Dis.DatumSpecification.Canon
  NoNaN := Dis.DatumSpecification.NoNaN
  size := Dis.DatumSpecification.wireSize
  after := Dis.DatumSpecification.after
  lossless := false
  counts := [{ offset := 0, width := 4, max := 4294967295, scale := 1, len := fun o => o.fixedDatumRecords.length },
    { offset := 4, width := 4, max := 4294967295, scale := 1, len := fun o => o.variableDatumRecords.length }]

/-- Catalogue entry of `Expendable` (/repo/opendis/dis7.py:1658-1664). -/
def Codec.Expendable : Codec where
  name := "Expendable"
  Obj := Dis.Expendable
  fresh := Dis.Expendable.init
  serialize := Dis.Expendable.serialize
  parse s := Dis.Expendable.parse s
  wire := Dis.Expendable.wire
  Fits := Dis.Expendable.WireOk
  Canon := Dis.Expendable.Canon
  NoNaN := Dis.Expendable.NoNaN
  size := Dis.Expendable.wireSize
  after := Dis.Expendable.after

/-- Catalogue entry of `CommunicationsNodeID` (/repo/opendis/dis7.py:3493-3496). -/
def Codec.CommunicationsNodeID : Codec where
  name := "CommunicationsNodeID"
  Obj := Dis.CommunicationsNodeID
  fresh := Dis.CommunicationsNodeID.init
  serialize := Dis.CommunicationsNodeID.serialize
  parse s := Dis.CommunicationsNodeID.parse s
  wire := Dis.CommunicationsNodeID.wire
  Fits := Dis.CommunicationsNodeID.WireOk
  Canon := Dis.CommunicationsNodeID.Canon
  NoNaN := Dis.CommunicationsNodeID.NoNaN
  size := Dis.CommunicationsNodeID.wireSize
  after := Dis.CommunicationsNodeID.after

/-- Catalogue entry of `IOCommunicationsNode` (/repo/opendis/dis7.py:1691-1697). -/
def Codec.IOCommunicationsNode : Codec where
  name := "IOCommunicationsNode"
  Obj := Dis.IOCommunicationsNode
  fresh := Dis.IOCommunicationsNode.init
  serialize := Dis.IOCommunicationsNode.serialize
  parse s := Dis.IOCommunicationsNode.parse s
  wire := Dis.IOCommunicationsNode.wire
  Fits := Dis.IOCommunicationsNode.WireOk
  Canon := Dis.IOCommunicationsNode.Canon
  NoNaN := Dis.IOCommunicationsNode.NoNaN
  size := Dis.IOCommunicationsNode.wireSize
  after := Dis.IOCommunicationsNode.after

/-- Catalogue entry of `LinearSegmentParameter` (/repo/opendis/dis7.py:1748-1760). -/
def Codec.LinearSegmentParameter : Codec where
  name := "LinearSegmentParameter"
  Obj := Dis.LinearSegmentParameter
  fresh := Dis.LinearSegmentParameter.init
  serialize := Dis.LinearSegmentParameter.serialize
  parse s := Dis.LinearSegmentParameter.parse s
  wire := Dis.LinearSegmentParameter.wire
  Fits := Dis.LinearSegmentParameter.WireOk
  Canon := Dis.LinearSegmentParameter.Canon
  NoNaN := Dis.LinearSegmentParameter.NoNaN
  size := Dis.LinearSegmentParameter.wireSize
  after := Dis.LinearSegmentParameter.after

/-- Catalogue entry of `SystemIdentifier` (/repo/opendis/dis7.py:1797-1802). -/
def Codec.SystemIdentifier : Codec where
  name := "SystemIdentifier"
  Obj := Dis.SystemIdentifier
  fresh := Dis.SystemIdentifier.init
  serialize := Dis.SystemIdentifier.serialize
  parse s := Dis.SystemIdentifier.parse s
  wire := Dis.SystemIdentifier.wire
  Fits := Dis.SystemIdentifier.WireOk
  Canon := Dis.SystemIdentifier.Canon
  NoNaN := Dis.SystemIdentifier.NoNaN
  size := Dis.SystemIdentifier.wireSize
  after := Dis.SystemIdentifier.after

/-- Catalogue entry of `TrackJamData` (/repo/opendis/dis7.py:1829-1833). -/
def Codec.TrackJamData : Codec where
  name := "TrackJamData"
  Obj := Dis.TrackJamData
  fresh := Dis.TrackJamData.init
  serialize := Dis.TrackJamData.serialize
  parse s := Dis.TrackJamData.parse s
  wire := Dis.TrackJamData.wire
  Fits := Dis.TrackJamData.WireOk
  Canon := Dis.TrackJamData.Canon
  NoNaN := Dis.TrackJamData.NoNaN
  size := Dis.TrackJamData.wireSize
  after := Dis.TrackJamData.after

/-- Catalogue entry of `AggregateType` (/repo/opendis/dis7.py:1870-1878). -/
def Codec.AggregateType : Codec where
  name := "AggregateType"
  Obj := Dis.AggregateType
  fresh := Dis.AggregateType.init
  serialize := Dis.AggregateType.serialize
  parse s := Dis.AggregateType.parse s
  wire := Dis.AggregateType.wire
  Fits := Dis.AggregateType.WireOk
  Canon := Dis.AggregateType.Canon
  NoNaN := Dis.AggregateType.NoNaN
  size := Dis.AggregateType.wireSize
  after := Dis.AggregateType.after

/-- Catalogue entry of `SimulationIdentifier` (/repo/opendis/dis7.py:2069-2072). -/
def Codec.SimulationIdentifier : Codec where
  name := "SimulationIdentifier"
  Obj := Dis.SimulationIdentifier
  fresh := Dis.SimulationIdentifier.init
  serialize := Dis.SimulationIdentifier.serialize
  parse s := Dis.SimulationIdentifier.parse s
  wire := Dis.SimulationIdentifier.wire
  Fits := Dis.SimulationIdentifier.WireOk
  Canon := Dis.SimulationIdentifier.Canon
  NoNaN := Dis.SimulationIdentifier.NoNaN
  size := Dis.SimulationIdentifier.wireSize
  after := Dis.SimulationIdentifier.after

/-- Catalogue entry of `PduHeader` (/repo/opendis/dis7.py:3401-3410). -/
def Codec.PduHeader : Codec where
  name := "PduHeader"
  Obj := Dis.PduHeader
  fresh := Dis.PduHeader.init
  serialize := Dis.PduHeader.serialize
  parse s := Dis.PduHeader.parse s
  wire := Dis.PduHeader.wire
  Fits := Dis.PduHeader.WireOk
  Canon := Dis.PduHeader.Canon
  NoNaN := Dis.PduHeader.NoNaN
  size := Dis.PduHeader.wireSize
  after := Dis.PduHeader.after

/-- Catalogue entry of `SimulationManagementPduHeader` (/repo/opendis/dis7.py:1909-1913). -/
def Codec.SimulationManagementPduHeader : Codec where
  name := "SimulationManagementPduHeader"
  Obj := Dis.SimulationManagementPduHeader
  fresh := Dis.SimulationManagementPduHeader.init
  serialize := Dis.SimulationManagementPduHeader.serialize
  parse s := Dis.SimulationManagementPduHeader.parse s
  wire := Dis.SimulationManagementPduHeader.wire
  Fits := Dis.SimulationManagementPduHeader.WireOk
  Canon := Dis.SimulationManagementPduHeader.Canon
  NoNaN := Dis.SimulationManagementPduHeader.NoNaN
  size := Dis.SimulationManagementPduHeader.wireSize
  after := Dis.SimulationManagementPduHeader.after

/-- Catalogue entry of `BeamData` (/repo/opendis/dis7.py:1946-1952). -/
def Codec.BeamData : Codec where
  name := "BeamData"
  Obj := Dis.BeamData
  fresh := Dis.BeamData.init
  serialize := Dis.BeamData.serialize
  parse s := Dis.BeamData.parse s
  wire := Dis.BeamData.wire
  Fits := Dis.BeamData.WireOk
  Canon := Dis.BeamData.Canon
  NoNaN := Dis.BeamData.NoNaN
  size := Dis.BeamData.wireSize
  after := Dis.BeamData.after

/-- Catalogue entry of `EngineFuel` (/repo/opendis/dis7.py:1984-1990). -/
def Codec.EngineFuel : Codec where
  name := "EngineFuel"
  Obj := Dis.EngineFuel
  fresh := Dis.EngineFuel.init
  serialize := Dis.EngineFuel.serialize
  parse s := Dis.EngineFuel.parse s
  wire := Dis.EngineFuel.wire
  Fits := Dis.EngineFuel.WireOk
  Canon := Dis.EngineFuel.Canon
  NoNaN := Dis.EngineFuel.NoNaN
  size := Dis.EngineFuel.wireSize
  after := Dis.EngineFuel.after

/-- Catalogue entry of `IOEffect` (/repo/opendis/dis7.py:2025-2035). -/
def Codec.IOEffect : Codec where
  name := "IOEffect"
  Obj := Dis.IOEffect
  fresh := Dis.IOEffect.init
  serialize := Dis.IOEffect.serialize
  parse s := Dis.IOEffect.parse s
  wire := Dis.IOEffect.wire
  Fits := Dis.IOEffect.WireOk
  Canon := Dis.IOEffect.Canon
  NoNaN := Dis.IOEffect.NoNaN
  size := Dis.IOEffect.wireSize
  after := Dis.IOEffect.after

/-- Catalogue entry of `GridAxisDescriptorVariable` (/repo/opendis/dis7.py:2123-2137). -/
def Codec.GridAxisDescriptorVariable : Codec where
  name := "GridAxisDescriptorVariable"
  Obj := Dis.GridAxisDescriptorVariable
  fresh := Dis.GridAxisDescriptorVariable.init
  serialize := Dis.GridAxisDescriptorVariable.serialize
  parse s := Dis.GridAxisDescriptorVariable.parse s
  wire := Dis.GridAxisDescriptorVariable.wire
  Fits := Dis.GridAxisDescriptorVariable.WireOk
  Canon := Dis.GridAxisDescriptorVariable.Canon
  NoNaN := Dis.GridAxisDescriptorVariable.NoNaN
  size := Dis.GridAxisDescriptorVariable.wireSize
  after := Dis.GridAxisDescriptorVariable.after
  onlyStruct := false
  counts := [{ offset := 20, width := 2, max := 65535, scale := 1, len := fun o => o.xiValues.length }]

/-- Catalogue entry of `SupplyQuantity` (/repo/opendis/dis7.py:2171-2174). -/
def Codec.SupplyQuantity : Codec where
  name := "SupplyQuantity"
  Obj := Dis.SupplyQuantity
  fresh := Dis.SupplyQuantity.init
  serialize := Dis.SupplyQuantity.serialize
  parse s := Dis.SupplyQuantity.parse s
  wire := Dis.SupplyQuantity.wire
  Fits := Dis.SupplyQuantity.WireOk
  Canon := Dis.SupplyQuantity.Canon
  NoNaN := Dis.SupplyQuantity.NoNaN
  size := Dis.SupplyQuantity.wireSize
  after := Dis.SupplyQuantity.after

/-- Catalogue entry of `SilentEntitySystem` (/repo/opendis/dis7.py:2202-2208). -/
def Codec.SilentEntitySystem : Codec where
  name := "SilentEntitySystem"
  Obj := Dis.SilentEntitySystem
  fresh := Dis.SilentEntitySystem.init
  serialize := Dis.SilentEntitySystem.serialize
  parse s := Dis.SilentEntitySystem.parse s
  wire := Dis.SilentEntitySystem.wire
  Fits := Dis.SilentEntitySystem.WireOk
  Canon := Dis.SilentEntitySystem.Canon
  NoNaN := Dis.SilentEntitySystem.NoNaN
  size := Dis.SilentEntitySystem.wireSize
  after := Dis.SilentEntitySystem.after
  onlyStruct := false
  counts := [{ offset := 2, width := 2, max := 65535, scale := 1, len := fun o => o.appearanceRecordList.length }]

/-- Catalogue entry of `SilentAggregateSystem` (/repo/opendis/dis7.py:2234-2237). -/
def Codec.SilentAggregateSystem : Codec where
  name := "SilentAggregateSystem"
  Obj := Dis.SilentAggregateSystem
  fresh := Dis.SilentAggregateSystem.init
  serialize := Dis.SilentAggregateSystem.serialize
  parse s := Dis.SilentAggregateSystem.parse s
  wire := Dis.SilentAggregateSystem.wire
  Fits := Dis.SilentAggregateSystem.WireOk
  Canon := Dis.SilentAggregateSystem.Canon
  NoNaN := Dis.SilentAggregateSystem.NoNaN
  size := Dis.SilentAggregateSystem.wireSize
  after := Dis.SilentAggregateSystem.after
  Live := Dis.SilentAggregateSystem.Live

/-- Catalogue entry of `BlankingSector` (/repo/opendis/dis7.py:2277-2292). -/
def Codec.BlankingSector : Codec where
  name := "BlankingSector"
  Obj := Dis.BlankingSector
  fresh := Dis.BlankingSector.init
  serialize := Dis.BlankingSector.serialize
  parse s := Dis.BlankingSector.parse s
  wire := Dis.BlankingSector.wire
  Fits := Dis.BlankingSector.WireOk
  Canon := Dis.BlankingSector.Canon
  NoNaN := Dis.BlankingSector.NoNaN
  size := Dis.BlankingSector.wireSize
  after := Dis.BlankingSector.after

/-- Catalogue entries for the classes of `Verif.Model.Records3` (class statements of
/repo/opendis). -/
def catalogRecords3 : List Codec :=
  [.EEFundamentalParameterData,
   .JammingTechnique,
   .VariableDatum,
   .DatumSpecification,
   .Expendable,
   .CommunicationsNodeID,
   .IOCommunicationsNode,
   .LinearSegmentParameter,
   .SystemIdentifier,
   .TrackJamData,
   .AggregateType,
   .SimulationIdentifier,
   .PduHeader,
   .SimulationManagementPduHeader,
   .BeamData,
   .EngineFuel,
   .IOEffect,
   .GridAxisDescriptorVariable,
   .SupplyQuantity,
   .SilentEntitySystem,
   .SilentAggregateSystem,
   .BlankingSector]

/-- Catalogue entry of `LaunchedMunitionRecord` (/repo/opendis/dis7.py:2332-2340). -/
def Codec.LaunchedMunitionRecord : Codec where
  name := "LaunchedMunitionRecord"
  Obj := Dis.LaunchedMunitionRecord
  fresh := Dis.LaunchedMunitionRecord.init
  serialize := Dis.LaunchedMunitionRecord.serialize
  parse s := Dis.LaunchedMunitionRecord.parse s
  wire := Dis.LaunchedMunitionRecord.wire
  Fits := Dis.LaunchedMunitionRecord.WireOk
  Canon := Dis.LaunchedMunitionRecord.Canon
  NoNaN := Dis.LaunchedMunitionRecord.NoNaN
  size := Dis.LaunchedMunitionRecord.wireSize
  after := Dis.LaunchedMunitionRecord.after

/-- Catalogue entry of `IFFFundamentalParameterData` (/repo/opendis/dis7.py:2375-2384). -/
def Codec.IFFFundamentalParameterData : Codec where
  name := "IFFFundamentalParameterData"
  Obj := Dis.IFFFundamentalParameterData
  fresh := Dis.IFFFundamentalParameterData.init
  serialize := Dis.IFFFundamentalParameterData.serialize
  parse s := Dis.IFFFundamentalParameterData.parse s
  wire := Dis.IFFFundamentalParameterData.wire
  Fits := Dis.IFFFundamentalParameterData.WireOk
  Canon := Dis.IFFFundamentalParameterData.Canon
  NoNaN := Dis.IFFFundamentalParameterData.NoNaN
  size := Dis.IFFFundamentalParameterData.wireSize
  after := Dis.IFFFundamentalParameterData.after

/-- Catalogue entry of `FundamentalOperationalData` (/repo/opendis/dis7.py:2439-2450). -/
def Codec.FundamentalOperationalData : Codec where
  name := "FundamentalOperationalData"
  Obj := Dis.FundamentalOperationalData
  fresh := Dis.FundamentalOperationalData.init
  serialize := Dis.FundamentalOperationalData.serialize
  parse s := Dis.FundamentalOperationalData.parse s
  wire := Dis.FundamentalOperationalData.wire
  Fits := Dis.FundamentalOperationalData.WireOk
  Canon := Dis.FundamentalOperationalData.Canon
  NoNaN := Dis.FundamentalOperationalData.NoNaN
  size := Dis.FundamentalOperationalData.wireSize
  after := Dis.FundamentalOperationalData.after

/-- Catalogue entry of `IntercomCommunicationsParameters` (/repo/opendis/dis7.py:2484-2488). -/
def Codec.IntercomCommunicationsParameters : Codec where
  name := "IntercomCommunicationsParameters"
  Obj := Dis.IntercomCommunicationsParameters
  fresh := Dis.IntercomCommunicationsParameters.init
  serialize := Dis.IntercomCommunicationsParameters.serialize
  parse s := Dis.IntercomCommunicationsParameters.parse s
  wire := Dis.IntercomCommunicationsParameters.wire
  Fits := Dis.IntercomCommunicationsParameters.WireOk
  Canon := Dis.IntercomCommunicationsParameters.Canon
  NoNaN := Dis.IntercomCommunicationsParameters.NoNaN
  size := Dis.IntercomCommunicationsParameters.wireSize
  after := Dis.IntercomCommunicationsParameters.after

/-- Catalogue entry of `Munition` (/repo/opendis/dis7.py:2568-2574). -/
def Codec.Munition : Codec where
  name := "Munition"
  Obj := Dis.Munition
  fresh := Dis.Munition.init
  serialize := Dis.Munition.serialize
  parse s := Dis.Munition.parse s
  wire := Dis.Munition.wire
  Fits := Dis.Munition.WireOk
  Canon := Dis.Munition.Canon
  NoNaN := Dis.Munition.NoNaN
  size := Dis.Munition.wireSize
  after := Dis.Munition.after

/-- Catalogue entry of `StandardVariableSpecification` (/repo/opendis/dis7.py:2602-2606). -/
def Codec.StandardVariableSpecification : Codec where
  name := "StandardVariableSpecification"
  Obj := Dis.StandardVariableSpecification
  fresh := Dis.StandardVariableSpecification.init
  serialize := Dis.StandardVariableSpecification.serialize
  parse s := Dis.StandardVariableSpecification.parse s
  wire := Dis.StandardVariableSpecification.wire
  Fits := Dis.StandardVariableSpecification.WireOk
  Canon := Dis.StandardVariableSpecification.Canon
  NoNaN := Dis.StandardVariableSpecification.NoNaN
  size := Dis.StandardVariableSpecification.wireSize
  after := Dis.StandardVariableSpecification.after
  onlyStruct := false
  counts := [{ offset := 0, width := 2, max := 65535, scale := 1, len := fun o => o.standardVariables.length }]

/-- Catalogue entry of `Vector2Float` (/repo/opendis/dis7.py:2625-2628). -/
def Codec.Vector2Float : Codec where
  name := "Vector2Float"
  Obj := Dis.Vector2Float
  fresh := Dis.Vector2Float.init
  serialize := Dis.Vector2Float.serialize
  parse s := Dis.Vector2Float.parse s
  wire := Dis.Vector2Float.wire
  Fits := Dis.Vector2Float.WireOk
  Canon := Dis.Vector2Float.Canon
  NoNaN := Dis.Vector2Float.NoNaN
  size := Dis.Vector2Float.wireSize
  after := Dis.Vector2Float.after

/-- Catalogue entry of `Environment` (/repo/opendis/dis7.py:2656-2661). -/
def Codec.Environment : Codec where
  name := "Environment"
  Obj := Dis.Environment
  fresh := Dis.Environment.init
  serialize := Dis.Environment.serialize
  parse s := Dis.Environment.parse s
  wire := Dis.Environment.wire
  Fits := Dis.Environment.WireOk
  Canon := Dis.Environment.Canon
  NoNaN := Dis.Environment.NoNaN
  size := Dis.Environment.wireSize
  after := Dis.Environment.after

/-- Catalogue entry of `AcousticEmitter` (/repo/opendis/dis7.py:2688-2692). -/
def Codec.AcousticEmitter : Codec where
  name := "AcousticEmitter"
  Obj := Dis.AcousticEmitter
  fresh := Dis.AcousticEmitter.init
  serialize := Dis.AcousticEmitter.serialize
  parse s := Dis.AcousticEmitter.parse s
  wire := Dis.AcousticEmitter.wire
  Fits := Dis.AcousticEmitter.WireOk
  Canon := Dis.AcousticEmitter.Canon
  NoNaN := Dis.AcousticEmitter.NoNaN
  size := Dis.AcousticEmitter.wireSize
  after := Dis.AcousticEmitter.after

/-- Catalogue entry of `AngularVelocityVector` (/repo/opendis/dis7.py:2718-2722). -/
def Codec.AngularVelocityVector : Codec where
  name := "AngularVelocityVector"
  Obj := Dis.AngularVelocityVector
  fresh := Dis.AngularVelocityVector.init
  serialize := Dis.AngularVelocityVector.serialize
  parse s := Dis.AngularVelocityVector.parse s
  wire := Dis.AngularVelocityVector.wire
  Fits := Dis.AngularVelocityVector.WireOk
  Canon := Dis.AngularVelocityVector.Canon
  NoNaN := Dis.AngularVelocityVector.NoNaN
  size := Dis.AngularVelocityVector.wireSize
  after := Dis.AngularVelocityVector.after

/-- Catalogue entry of `AggregateMarking` (/repo/opendis/dis7.py:2746-2750). -/
def Codec.AggregateMarking : Codec where
  name := "AggregateMarking"
  Obj := Dis.AggregateMarking
  fresh := Dis.AggregateMarking.init
  serialize := Dis.AggregateMarking.serialize
  parse s := Dis.AggregateMarking.parse s
  wire := Dis.AggregateMarking.wire
  Fits := Dis.AggregateMarking.WireOk
  Canon := Dis.AggregateMarking.Canon
  NoNaN := Dis.AggregateMarking.NoNaN
  size := Dis.AggregateMarking.wireSize
  after := Dis.AggregateMarking.after

/-- Catalogue entry of `DataFilterRecord` (/repo/opendis/dis7.py:2775-2777). -/
def Codec.DataFilterRecord : Codec where
  name := "DataFilterRecord"
  Obj := Dis.DataFilterRecord
  fresh := Dis.DataFilterRecord.init
  serialize := Dis.DataFilterRecord.serialize
  parse s := Dis.DataFilterRecord.parse s
  wire := Dis.DataFilterRecord.wire
  Fits := Dis.DataFilterRecord.WireOk
  Canon := Dis.DataFilterRecord.Canon
  NoNaN := Dis.DataFilterRecord.NoNaN
  size := Dis.DataFilterRecord.wireSize
  after := Dis.DataFilterRecord.after

/-- Catalogue entry of `IntercomIdentifier` (/repo/opendis/dis7.py:2800-2805). -/
def Codec.IntercomIdentifier : Codec where
  name := "IntercomIdentifier"
  Obj := Dis.IntercomIdentifier
  fresh := Dis.IntercomIdentifier.init
  serialize := Dis.IntercomIdentifier.serialize
  parse s := Dis.IntercomIdentifier.parse s
  wire := Dis.IntercomIdentifier.wire
  Fits := Dis.IntercomIdentifier.WireOk
  Canon := Dis.IntercomIdentifier.Canon
  NoNaN := Dis.IntercomIdentifier.NoNaN
  size := Dis.IntercomIdentifier.wireSize
  after := Dis.IntercomIdentifier.after

/-- Catalogue entry of `StorageFuel` (/repo/opendis/dis7.py:2836-2842). -/
def Codec.StorageFuel : Codec where
  name := "StorageFuel"
  Obj := Dis.StorageFuel
  fresh := Dis.StorageFuel.init
  serialize := Dis.StorageFuel.serialize
  parse s := Dis.StorageFuel.parse s
  wire := Dis.StorageFuel.wire
  Fits := Dis.StorageFuel.WireOk
  Canon := Dis.StorageFuel.Canon
  NoNaN := Dis.StorageFuel.NoNaN
  size := Dis.StorageFuel.wireSize
  after := Dis.StorageFuel.after

/-- Catalogue entry of `Sensor` (/repo/opendis/dis7.py:2877-2884). -/
def Codec.Sensor : Codec where
  name := "Sensor"
  Obj := Dis.Sensor
  fresh := Dis.Sensor.init
  serialize := Dis.Sensor.serialize
  parse s := Dis.Sensor.parse s
  wire := Dis.Sensor.wire
  Fits := Dis.Sensor.WireOk
  Canon := Dis.Sensor.Canon
  NoNaN := Dis.Sensor.NoNaN
  size := Dis.Sensor.wireSize
  after := Dis.Sensor.after

/-- Catalogue entry of `MunitionReload` (/repo/opendis/dis7.py:2924-2931). -/
def Codec.MunitionReload : Codec where
  name := "MunitionReload"
  Obj := Dis.MunitionReload
  fresh := Dis.MunitionReload.init
  serialize := Dis.MunitionReload.serialize
  parse s := Dis.MunitionReload.parse s
  wire := Dis.MunitionReload.wire
  Fits := Dis.MunitionReload.WireOk
  Canon := Dis.MunitionReload.Canon
  NoNaN := Dis.MunitionReload.NoNaN
  size := Dis.MunitionReload.wireSize
  after := Dis.MunitionReload.after

/-- Catalogue entry of `StorageFuelReload` (/repo/opendis/dis7.py:2976-2985). -/
def Codec.StorageFuelReload : Codec where
  name := "StorageFuelReload"
  Obj := Dis.StorageFuelReload
  fresh := Dis.StorageFuelReload.init
  serialize := Dis.StorageFuelReload.serialize
  parse s := Dis.StorageFuelReload.parse s
  wire := Dis.StorageFuelReload.wire
  Fits := Dis.StorageFuelReload.WireOk
  Canon := Dis.StorageFuelReload.Canon
  NoNaN := Dis.StorageFuelReload.NoNaN
  size := Dis.StorageFuelReload.wireSize
  after := Dis.StorageFuelReload.after

/-- Catalogue entry of `ExpendableReload` (/repo/opendis/dis7.py:3021-3028). -/
def Codec.ExpendableReload : Codec where
  name := "ExpendableReload"
  Obj := Dis.ExpendableReload
  fresh := Dis.ExpendableReload.init
  serialize := Dis.ExpendableReload.serialize
  parse s := Dis.ExpendableReload.parse s
  wire := Dis.ExpendableReload.wire
  Fits := Dis.ExpendableReload.WireOk
  Canon := Dis.ExpendableReload.Canon
  NoNaN := Dis.ExpendableReload.NoNaN
  size := Dis.ExpendableReload.wireSize
  after := Dis.ExpendableReload.after

/-- Catalogue entry of `EngineFuelReload` (/repo/opendis/dis7.py:3064-3072). -/
def Codec.EngineFuelReload : Codec where
  name := "EngineFuelReload"
  Obj := Dis.EngineFuelReload
  fresh := Dis.EngineFuelReload.init
  serialize := Dis.EngineFuelReload.serialize
  parse s := Dis.EngineFuelReload.parse s
  wire := Dis.EngineFuelReload.wire
  Fits := Dis.EngineFuelReload.WireOk
  Canon := Dis.EngineFuelReload.Canon
  NoNaN := Dis.EngineFuelReload.NoNaN
  size := Dis.EngineFuelReload.wireSize
  after := Dis.EngineFuelReload.after

/-- Catalogue entry of `UnattachedIdentifier` (/repo/opendis/dis7.py:3101-3104). -/
def Codec.UnattachedIdentifier : Codec where
  name := "UnattachedIdentifier"
  Obj := Dis.UnattachedIdentifier
  fresh := Dis.UnattachedIdentifier.init
  serialize := Dis.UnattachedIdentifier.serialize
  parse s := Dis.UnattachedIdentifier.parse s
  wire := Dis.UnattachedIdentifier.wire
  Fits := Dis.UnattachedIdentifier.WireOk
  Canon := Dis.UnattachedIdentifier.Canon
  NoNaN := Dis.UnattachedIdentifier.NoNaN
  size := Dis.UnattachedIdentifier.wireSize
  after := Dis.UnattachedIdentifier.after

/-- Catalogue entry of `EntityTypeVP` (/repo/opendis/dis7.py:3129-3135). -/
def Codec.EntityTypeVP : Codec where
  name := "EntityTypeVP"
  Obj := Dis.EntityTypeVP
  fresh := Dis.EntityTypeVP.init
  serialize := Dis.EntityTypeVP.serialize
  parse s := Dis.EntityTypeVP.parse s
  wire := Dis.EntityTypeVP.wire
  Fits := Dis.EntityTypeVP.WireOk
  Canon := Dis.EntityTypeVP.Canon
  NoNaN := Dis.EntityTypeVP.NoNaN
  size := Dis.EntityTypeVP.wireSize
  after := Dis.EntityTypeVP.after

/-- Catalogue entry of `BeamStatus` (/repo/opendis/dis7.py:3158-3160). -/
def Codec.BeamStatus : Codec where
  name := "BeamStatus"
  Obj := Dis.BeamStatus
  fresh := Dis.BeamStatus.init
  serialize := Dis.BeamStatus.serialize
  parse s := Dis.BeamStatus.parse s
  wire := Dis.BeamStatus.wire
  Fits := Dis.BeamStatus.WireOk
  Canon := Dis.BeamStatus.Canon
  NoNaN := Dis.BeamStatus.NoNaN
  size := Dis.BeamStatus.wireSize
  after := Dis.BeamStatus.after
  lossless := false

/-- Catalogue entries for the classes of `Verif.Model.Records4` (class statements of
/repo/opendis). -/
def catalogRecords4 : List Codec :=
  [.LaunchedMunitionRecord,
   .IFFFundamentalParameterData,
   .FundamentalOperationalData,
   .IntercomCommunicationsParameters,
   .Munition,
   .StandardVariableSpecification,
   .Vector2Float,
   .Environment,
   .AcousticEmitter,
   .AngularVelocityVector,
   .AggregateMarking,
   .DataFilterRecord,
   .IntercomIdentifier,
   .StorageFuel,
   .Sensor,
   .MunitionReload,
   .StorageFuelReload,
   .ExpendableReload,
   .EngineFuelReload,
   .UnattachedIdentifier,
   .EntityTypeVP,
   .BeamStatus]

/-- Catalogue entry of `EnvironmentGeneral` (/repo/opendis/dis7.py:3193-3200). -/
def Codec.EnvironmentGeneral : Codec where
  name := "EnvironmentGeneral"
  Obj := Dis.EnvironmentGeneral
  fresh := Dis.EnvironmentGeneral.init
  serialize := Dis.EnvironmentGeneral.serialize
  parse s := Dis.EnvironmentGeneral.parse s
  wire := Dis.EnvironmentGeneral.wire
  Fits := Dis.EnvironmentGeneral.WireOk
  Canon := Dis.EnvironmentGeneral.Canon
  NoNaN := Dis.EnvironmentGeneral.NoNaN
  size := Dis.EnvironmentGeneral.wireSize
  after := Dis.EnvironmentGeneral.after

/-- Catalogue entry of `GridAxis` (/repo/opendis/dis7.py:3241-3249). -/
def Codec.GridAxis : Codec where
  name := "GridAxis"
  Obj := Dis.GridAxis
  fresh := Dis.GridAxis.init
  serialize := Dis.GridAxis.serialize
  parse s := Dis.GridAxis.parse s
  wire := Dis.GridAxis.wire
  Fits := Dis.GridAxis.WireOk
  Canon := Dis.GridAxis.Canon
  NoNaN := Dis.GridAxis.NoNaN
  size := Dis.GridAxis.wireSize
  after := Dis.GridAxis.after

/-- Catalogue entry of `RecordSpecification` (/repo/opendis/dis7.py:3278-3282). -/
def Codec.RecordSpecification : Codec where
  name := "RecordSpecification"
  Obj := Dis.RecordSpecification
  fresh := Dis.RecordSpecification.init
  serialize := Dis.RecordSpecification.serialize
  parse s := Dis.RecordSpecification.parse s
  wire := Dis.RecordSpecification.wire
  Fits := Dis.RecordSpecification.WireOk
  Canon := Dis.RecordSpecification.Canon
  NoNaN := Dis.RecordSpecification.NoNaN
  size := Dis.RecordSpecification.wireSize
  after := Dis.RecordSpecification.after
  Decodable := Dis.RecordSpecification.Decodable
  onlyStruct := false
  counts := [{ offset := 0, width := 4, max := 4294967295, scale := 1, len := fun o => o.recordSets.length }]

/-- Catalogue entry of `EventIdentifierLiveEntity` (/repo/opendis/dis7.py:3357-3361). -/
def Codec.EventIdentifierLiveEntity : Codec where
  name := "EventIdentifierLiveEntity"
  Obj := Dis.EventIdentifierLiveEntity
  fresh := Dis.EventIdentifierLiveEntity.init
  serialize := Dis.EventIdentifierLiveEntity.serialize
  parse s := Dis.EventIdentifierLiveEntity.parse s
  wire := Dis.EventIdentifierLiveEntity.wire
  Fits := Dis.EventIdentifierLiveEntity.WireOk
  Canon := Dis.EventIdentifierLiveEntity.Canon
  NoNaN := Dis.EventIdentifierLiveEntity.NoNaN
  size := Dis.EventIdentifierLiveEntity.wireSize
  after := Dis.EventIdentifierLiveEntity.after

/-- Catalogue entry of `ExpendableDescriptor` (/repo/opendis/dis7.py:3515-3518). -/
def Codec.ExpendableDescriptor : Codec where
  name := "ExpendableDescriptor"
  Obj := Dis.ExpendableDescriptor
  fresh := Dis.ExpendableDescriptor.init
  serialize := Dis.ExpendableDescriptor.serialize
  parse s := Dis.ExpendableDescriptor.parse s
  wire := Dis.ExpendableDescriptor.wire
  Fits := Dis.ExpendableDescriptor.WireOk
  Canon := Dis.ExpendableDescriptor.Canon
  NoNaN := Dis.ExpendableDescriptor.NoNaN
  size := Dis.ExpendableDescriptor.wireSize
  after := Dis.ExpendableDescriptor.after

/-- Catalogue entry of `PropulsionSystemData` (/repo/opendis/dis7.py:3542-3545). -/
def Codec.PropulsionSystemData : Codec where
  name := "PropulsionSystemData"
  Obj := Dis.PropulsionSystemData
  fresh := Dis.PropulsionSystemData.init
  serialize := Dis.PropulsionSystemData.serialize
  parse s := Dis.PropulsionSystemData.parse s
  wire := Dis.PropulsionSystemData.wire
  Fits := Dis.PropulsionSystemData.WireOk
  Canon := Dis.PropulsionSystemData.Canon
  NoNaN := Dis.PropulsionSystemData.NoNaN
  size := Dis.PropulsionSystemData.wireSize
  after := Dis.PropulsionSystemData.after

/-- Catalogue entry of `LiveEntityIdentifier` (/repo/opendis/dis7.py:3569-3572). -/
def Codec.LiveEntityIdentifier : Codec where
  name := "LiveEntityIdentifier"
  Obj := Dis.LiveEntityIdentifier
  fresh := Dis.LiveEntityIdentifier.init
  serialize := Dis.LiveEntityIdentifier.serialize
  parse s := Dis.LiveEntityIdentifier.parse s
  wire := Dis.LiveEntityIdentifier.wire
  Fits := Dis.LiveEntityIdentifier.WireOk
  Canon := Dis.LiveEntityIdentifier.Canon
  NoNaN := Dis.LiveEntityIdentifier.NoNaN
  size := Dis.LiveEntityIdentifier.wireSize
  after := Dis.LiveEntityIdentifier.after

/-- Catalogue entry of `SeparationVP` (/repo/opendis/dis7.py:3603-3611). -/
def Codec.SeparationVP : Codec where
  name := "SeparationVP"
  Obj := Dis.SeparationVP
  fresh := Dis.SeparationVP.init
  serialize := Dis.SeparationVP.serialize
  parse s := Dis.SeparationVP.parse s
  wire := Dis.SeparationVP.wire
  Fits := Dis.SeparationVP.WireOk
  Canon := Dis.SeparationVP.Canon
  NoNaN := Dis.SeparationVP.NoNaN
  size := Dis.SeparationVP.wireSize
  after := Dis.SeparationVP.after

/-- Catalogue entry of `EmitterSystem` (/repo/opendis/dis7.py:3638-3642). -/
def Codec.EmitterSystem : Codec where
  name := "EmitterSystem"
  Obj := Dis.EmitterSystem
  fresh := Dis.EmitterSystem.init
  serialize := Dis.EmitterSystem.serialize
  parse s := Dis.EmitterSystem.parse s
  wire := Dis.EmitterSystem.wire
  Fits := Dis.EmitterSystem.WireOk
  Canon := Dis.EmitterSystem.Canon
  NoNaN := Dis.EmitterSystem.NoNaN
  size := Dis.EmitterSystem.wireSize
  after := Dis.EmitterSystem.after

/-- Catalogue entry of `PduStatus` (/repo/opendis/dis7.py:3662-3664). -/
def Codec.PduStatus : Codec where
  name := "PduStatus"
  Obj := Dis.PduStatus
  fresh := Dis.PduStatus.init
  serialize := Dis.PduStatus.serialize
  parse s := Dis.PduStatus.parse s
  wire := Dis.PduStatus.wire
  Fits := Dis.PduStatus.WireOk
  Canon := Dis.PduStatus.Canon
  NoNaN := Dis.PduStatus.NoNaN
  size := Dis.PduStatus.wireSize
  after := Dis.PduStatus.after

/-- Catalogue entry of `EmissionSystemBeamRecord` (/repo/opendis/dis7.py:5203-5215). -/
def Codec.EmissionSystemBeamRecord : Codec where
  name := "EmissionSystemBeamRecord"
  Obj := Dis.EmissionSystemBeamRecord
  fresh := Dis.EmissionSystemBeamRecord.init
  serialize := Dis.EmissionSystemBeamRecord.serialize
  parse s := Dis.EmissionSystemBeamRecord.parse s
  wire := Dis.EmissionSystemBeamRecord.wire
  Fits := Dis.EmissionSystemBeamRecord.WireOk
  Canon := Dis.EmissionSystemBeamRecord.Canon
  NoNaN := Dis.EmissionSystemBeamRecord.NoNaN
  size := Dis.EmissionSystemBeamRecord.wireSize
  after := Dis.EmissionSystemBeamRecord.after
  lossless := false
  counts := [{ offset := 45, width := 1, max := 255, scale := 1, len := fun o => o.trackJamRecords.length }]

/-- Catalogue entry of `EmissionSystemRecord` (/repo/opendis/dis7.py:5258-5265). -/
def Codec.EmissionSystemRecord : Codec where
  name := "EmissionSystemRecord"
  Obj := Dis.EmissionSystemRecord
  fresh := Dis.EmissionSystemRecord.init
  serialize := Dis.EmissionSystemRecord.serialize
  parse s := Dis.EmissionSystemRecord.parse s
  wire := Dis.EmissionSystemRecord.wire
  Fits := Dis.EmissionSystemRecord.WireOk
  Canon := Dis.EmissionSystemRecord.Canon
  NoNaN := Dis.EmissionSystemRecord.NoNaN
  size := Dis.EmissionSystemRecord.wireSize
  after := Dis.EmissionSystemRecord.after
  lossless := false
  counts := [{ offset := 1, width := 1, max := 255, scale := 1, len := fun o => o.beamRecords.length }]

/-- Catalogue entries for the classes of `Verif.Model.Records5` (class statements of
/repo/opendis). -/
def catalogRecords5 : List Codec :=
  [.EnvironmentGeneral,
   .GridAxis,
   .RecordSpecification,
   .EventIdentifierLiveEntity,
   .ExpendableDescriptor,
   .PropulsionSystemData,
   .LiveEntityIdentifier,
   .SeparationVP,
   .EmitterSystem,
   .PduStatus,
   .EmissionSystemBeamRecord,
   .EmissionSystemRecord]

/-- Catalogue entry of `EntityStateUpdatePdu` (/repo/opendis/dis7.py:3794-3805). -/
def Codec.EntityStateUpdatePdu : Codec where
  name := "EntityStateUpdatePdu"
  Obj := Dis.EntityStateUpdatePdu
  fresh := Dis.EntityStateUpdatePdu.init
  serialize := Dis.EntityStateUpdatePdu.serialize
  parse s := Dis.EntityStateUpdatePdu.parse s
  wire := Dis.EntityStateUpdatePdu.wire
  Fits := Dis.EntityStateUpdatePdu.WireOk
  Canon := Dis.EntityStateUpdatePdu.Canon
  NoNaN := Dis.EntityStateUpdatePdu.NoNaN
  size := Dis.EntityStateUpdatePdu.wireSize
  after := Dis.EntityStateUpdatePdu.after
  counts := [{ offset := 19, width := 1, max := 255, scale := 1, len := fun o => o.variableParameters.length }]

/-- Catalogue entry of `ServiceRequestPdu` (/repo/opendis/dis7.py:3850-3859). -/
def Codec.ServiceRequestPdu : Codec where
  name := "ServiceRequestPdu"
  Obj := Dis.ServiceRequestPdu
  fresh := Dis.ServiceRequestPdu.init
  serialize := Dis.ServiceRequestPdu.serialize
  parse s := Dis.ServiceRequestPdu.parse s
  wire := Dis.ServiceRequestPdu.wire
  Fits := Dis.ServiceRequestPdu.WireOk
  Canon := Dis.ServiceRequestPdu.Canon
  NoNaN := Dis.ServiceRequestPdu.NoNaN
  size := Dis.ServiceRequestPdu.wireSize
  after := Dis.ServiceRequestPdu.after
  counts := [{ offset := 25, width := 1, max := 255, scale := 1, len := fun o => o.supplies.length }]

/-- Catalogue entry of `RepairCompletePdu` (/repo/opendis/dis7.py:3896-3902). -/
def Codec.RepairCompletePdu : Codec where
  name := "RepairCompletePdu"
  Obj := Dis.RepairCompletePdu
  fresh := Dis.RepairCompletePdu.init
  serialize := Dis.RepairCompletePdu.serialize
  parse s := Dis.RepairCompletePdu.parse s
  wire := Dis.RepairCompletePdu.wire
  Fits := Dis.RepairCompletePdu.WireOk
  Canon := Dis.RepairCompletePdu.Canon
  NoNaN := Dis.RepairCompletePdu.NoNaN
  size := Dis.RepairCompletePdu.wireSize
  after := Dis.RepairCompletePdu.after

/-- Catalogue entry of `CollisionPdu` (/repo/opendis/dis7.py:3965-3975). -/
def Codec.CollisionPdu : Codec where
  name := "CollisionPdu"
  Obj := Dis.CollisionPdu
  fresh := Dis.CollisionPdu.init
  serialize := Dis.CollisionPdu.serialize
  parse s := Dis.CollisionPdu.parse s
  wire := Dis.CollisionPdu.wire
  Fits := Dis.CollisionPdu.WireOk
  Canon := Dis.CollisionPdu.Canon
  NoNaN := Dis.CollisionPdu.NoNaN
  size := Dis.CollisionPdu.wireSize
  after := Dis.CollisionPdu.after

/-- Catalogue entry of `RepairResponsePdu` (/repo/opendis/dis7.py:4011-4018). -/
def Codec.RepairResponsePdu : Codec where
  name := "RepairResponsePdu"
  Obj := Dis.RepairResponsePdu
  fresh := Dis.RepairResponsePdu.init
  serialize := Dis.RepairResponsePdu.serialize
  parse s := Dis.RepairResponsePdu.parse s
  wire := Dis.RepairResponsePdu.wire
  Fits := Dis.RepairResponsePdu.WireOk
  Canon := Dis.RepairResponsePdu.Canon
  NoNaN := Dis.RepairResponsePdu.NoNaN
  size := Dis.RepairResponsePdu.wireSize
  after := Dis.RepairResponsePdu.after

/-- Catalogue entry of `DataQueryPdu` (/repo/opendis/dis7.py:4095-4100). -/
def Codec.DataQueryPdu : Codec where
  name := "DataQueryPdu"
  Obj := Dis.DataQueryPdu
  fresh := Dis.DataQueryPdu.init
  serialize := Dis.DataQueryPdu.serialize
  parse s := Dis.DataQueryPdu.parse s
  wire := Dis.DataQueryPdu.wire
  Fits := Dis.DataQueryPdu.WireOk
  Canon := Dis.DataQueryPdu.Canon
  NoNaN := Dis.DataQueryPdu.NoNaN
  size := Dis.DataQueryPdu.wireSize
  after := Dis.DataQueryPdu.after

/-- Catalogue entries for the classes of `Verif.Model.Pdus1` (class statements of
/repo/opendis). -/
def catalogPdus1 : List Codec :=
  [.EntityStateUpdatePdu,
   .ServiceRequestPdu,
   .RepairCompletePdu,
   .CollisionPdu,
   .RepairResponsePdu,
   .DataQueryPdu]

/-- Catalogue entry of `CreateEntityPdu` (/repo/opendis/dis7.py:4190-4193). -/
def Codec.CreateEntityPdu : Codec where
  name := "CreateEntityPdu"
  Obj := Dis.CreateEntityPdu
  fresh := Dis.CreateEntityPdu.init
  serialize := Dis.CreateEntityPdu.serialize
  parse s := Dis.CreateEntityPdu.parse s
  wire := Dis.CreateEntityPdu.wire
  Fits := Dis.CreateEntityPdu.WireOk
  Canon := Dis.CreateEntityPdu.Canon
  NoNaN := Dis.CreateEntityPdu.NoNaN
  size := Dis.CreateEntityPdu.wireSize
  after := Dis.CreateEntityPdu.after

/-- Catalogue entry of `IntercomSignalPdu` (/repo/opendis/dis7.py:4252-4263). -/
def Codec.IntercomSignalPdu : Codec where
  name := "IntercomSignalPdu"
  Obj := Dis.IntercomSignalPdu
  fresh := Dis.IntercomSignalPdu.init
  serialize := Dis.IntercomSignalPdu.serialize
  parse s := Dis.IntercomSignalPdu.parse s
  wire := Dis.IntercomSignalPdu.wire
  Fits := Dis.IntercomSignalPdu.WireOk
  Canon := Dis.IntercomSignalPdu.Canon
  NoNaN := Dis.IntercomSignalPdu.NoNaN
  size := Dis.IntercomSignalPdu.wireSize
  after := Dis.IntercomSignalPdu.after
  lossless := false
  onlyStruct := false
  counts := [{ offset := 28, width := 2, max := 65535, scale := 8, len := fun o => o.data.length }]

/-- Catalogue entry of `RemoveEntityPdu` (/repo/opendis/dis7.py:4297-4300). -/
def Codec.RemoveEntityPdu : Codec where
  name := "RemoveEntityPdu"
  Obj := Dis.RemoveEntityPdu
  fresh := Dis.RemoveEntityPdu.init
  serialize := Dis.RemoveEntityPdu.serialize
  parse s := Dis.RemoveEntityPdu.parse s
  wire := Dis.RemoveEntityPdu.wire
  Fits := Dis.RemoveEntityPdu.WireOk
  Canon := Dis.RemoveEntityPdu.Canon
  NoNaN := Dis.RemoveEntityPdu.NoNaN
  size := Dis.RemoveEntityPdu.wireSize
  after := Dis.RemoveEntityPdu.after

/-- Catalogue entry of `ResupplyReceivedPdu` (/repo/opendis/dis7.py:4333-4342). -/
def Codec.ResupplyReceivedPdu : Codec where
  name := "ResupplyReceivedPdu"
  Obj := Dis.ResupplyReceivedPdu
  fresh := Dis.ResupplyReceivedPdu.init
  serialize := Dis.ResupplyReceivedPdu.serialize
  parse s := Dis.ResupplyReceivedPdu.parse s
  wire := Dis.ResupplyReceivedPdu.wire
  Fits := Dis.ResupplyReceivedPdu.WireOk
  Canon := Dis.ResupplyReceivedPdu.Canon
  NoNaN := Dis.ResupplyReceivedPdu.NoNaN
  size := Dis.ResupplyReceivedPdu.wireSize
  after := Dis.ResupplyReceivedPdu.after
  Decodable := Dis.ResupplyReceivedPdu.Decodable
  onlyStruct := false
  counts := [{ offset := 24, width := 1, max := 255, scale := 1, len := fun o => o.supplies.length }]

/-- Catalogue entry of `CollisionElasticPdu` (/repo/opendis/dis7.py:4438-4455). -/
def Codec.CollisionElasticPdu : Codec where
  name := "CollisionElasticPdu"
  Obj := Dis.CollisionElasticPdu
  fresh := Dis.CollisionElasticPdu.init
  serialize := Dis.CollisionElasticPdu.serialize
  parse s := Dis.CollisionElasticPdu.parse s
  wire := Dis.CollisionElasticPdu.wire
  Fits := Dis.CollisionElasticPdu.WireOk
  Canon := Dis.CollisionElasticPdu.Canon
  NoNaN := Dis.CollisionElasticPdu.NoNaN
  size := Dis.CollisionElasticPdu.wireSize
  after := Dis.CollisionElasticPdu.after

/-- Catalogue entry of `ActionRequestPdu` (/repo/opendis/dis7.py:4515-4520). -/
def Codec.ActionRequestPdu : Codec where
  name := "ActionRequestPdu"
  Obj := Dis.ActionRequestPdu
  fresh := Dis.ActionRequestPdu.init
  serialize := Dis.ActionRequestPdu.serialize
  parse s := Dis.ActionRequestPdu.parse s
  wire := Dis.ActionRequestPdu.wire
  Fits := Dis.ActionRequestPdu.WireOk
  Canon := Dis.ActionRequestPdu.Canon
  NoNaN := Dis.ActionRequestPdu.NoNaN
  size := Dis.ActionRequestPdu.wireSize
  after := Dis.ActionRequestPdu.after
  lossless := false

/-- Catalogue entry of `AcknowledgePdu` (/repo/opendis/dis7.py:4550-4555). -/
def Codec.AcknowledgePdu : Codec where
  name := "AcknowledgePdu"
  Obj := Dis.AcknowledgePdu
  fresh := Dis.AcknowledgePdu.init
  serialize := Dis.AcknowledgePdu.serialize
  parse s := Dis.AcknowledgePdu.parse s
  wire := Dis.AcknowledgePdu.wire
  Fits := Dis.AcknowledgePdu.WireOk
  Canon := Dis.AcknowledgePdu.Canon
  NoNaN := Dis.AcknowledgePdu.NoNaN
  size := Dis.AcknowledgePdu.wireSize
  after := Dis.AcknowledgePdu.after

/-- Catalogue entry of `ActionRequestReliablePdu` (/repo/opendis/dis7.py:4655-4664). -/
def Codec.ActionRequestReliablePdu : Codec where
  name := "ActionRequestReliablePdu"
  Obj := Dis.ActionRequestReliablePdu
  fresh := Dis.ActionRequestReliablePdu.init
  serialize := Dis.ActionRequestReliablePdu.serialize
  parse s := Dis.ActionRequestReliablePdu.parse s
  wire := Dis.ActionRequestReliablePdu.wire
  Fits := Dis.ActionRequestReliablePdu.WireOk
  Canon := Dis.ActionRequestReliablePdu.Canon
  NoNaN := Dis.ActionRequestReliablePdu.NoNaN
  size := Dis.ActionRequestReliablePdu.wireSize
  after := Dis.ActionRequestReliablePdu.after
  lossless := false

/-- Catalogue entries for the classes of `Verif.Model.Pdus2` (class statements of
/repo/opendis). -/
def catalogPdus2 : List Codec :=
  [.CreateEntityPdu,
   .IntercomSignalPdu,
   .RemoveEntityPdu,
   .ResupplyReceivedPdu,
   .CollisionElasticPdu,
   .ActionRequestPdu,
   .AcknowledgePdu,
   .ActionRequestReliablePdu]

/-- Catalogue entry of `DesignatorPdu` (/repo/opendis/dis7.py:4723-4737). -/
def Codec.DesignatorPdu : Codec where
  name := "DesignatorPdu"
  Obj := Dis.DesignatorPdu
  fresh := Dis.DesignatorPdu.init
  serialize := Dis.DesignatorPdu.serialize
  parse s := Dis.DesignatorPdu.parse s
  wire := Dis.DesignatorPdu.wire
  Fits := Dis.DesignatorPdu.WireOk
  Canon := Dis.DesignatorPdu.Canon
  NoNaN := Dis.DesignatorPdu.NoNaN
  size := Dis.DesignatorPdu.wireSize
  after := Dis.DesignatorPdu.after

/-- Catalogue entry of `StopFreezePdu` (/repo/opendis/dis7.py:4779-4786). -/
def Codec.StopFreezePdu : Codec where
  name := "StopFreezePdu"
  Obj := Dis.StopFreezePdu
  fresh := Dis.StopFreezePdu.init
  serialize := Dis.StopFreezePdu.serialize
  parse s := Dis.StopFreezePdu.parse s
  wire := Dis.StopFreezePdu.wire
  Fits := Dis.StopFreezePdu.WireOk
  Canon := Dis.StopFreezePdu.Canon
  NoNaN := Dis.StopFreezePdu.NoNaN
  size := Dis.StopFreezePdu.wireSize
  after := Dis.StopFreezePdu.after

/-- Catalogue entry of `EntityStatePdu` (/repo/opendis/dis7.py:4851-4867). -/
def Codec.EntityStatePdu : Codec where
  name := "EntityStatePdu"
  Obj := Dis.EntityStatePdu
  fresh := Dis.EntityStatePdu.init
  serialize := Dis.EntityStatePdu.serialize
  parse s := Dis.EntityStatePdu.parse s
  wire := Dis.EntityStatePdu.wire
  Fits := Dis.EntityStatePdu.WireOk
  Canon := Dis.EntityStatePdu.Canon
  NoNaN := Dis.EntityStatePdu.NoNaN
  size := Dis.EntityStatePdu.wireSize
  after := Dis.EntityStatePdu.after
  counts := [{ offset := 19, width := 1, max := 255, scale := 1, len := fun o => o.variableParameters.length }]

/-- Catalogue entry of `StartResumePdu` (/repo/opendis/dis7.py:4928-4933). -/
def Codec.StartResumePdu : Codec where
  name := "StartResumePdu"
  Obj := Dis.StartResumePdu
  fresh := Dis.StartResumePdu.init
  serialize := Dis.StartResumePdu.serialize
  parse s := Dis.StartResumePdu.parse s
  wire := Dis.StartResumePdu.wire
  Fits := Dis.StartResumePdu.WireOk
  Canon := Dis.StartResumePdu.Canon
  NoNaN := Dis.StartResumePdu.NoNaN
  size := Dis.StartResumePdu.wireSize
  after := Dis.StartResumePdu.after

/-- Catalogue entry of `ElectromagneticEmissionsPdu` (/repo/opendis/dis7.py:5146-5155). -/
def Codec.ElectromagneticEmissionsPdu : Codec where
  name := "ElectromagneticEmissionsPdu"
  Obj := Dis.ElectromagneticEmissionsPdu
  fresh := Dis.ElectromagneticEmissionsPdu.init
  serialize := Dis.ElectromagneticEmissionsPdu.serialize
  parse s := Dis.ElectromagneticEmissionsPdu.parse s
  wire := Dis.ElectromagneticEmissionsPdu.wire
  Fits := Dis.ElectromagneticEmissionsPdu.WireOk
  Canon := Dis.ElectromagneticEmissionsPdu.Canon
  NoNaN := Dis.ElectromagneticEmissionsPdu.NoNaN
  size := Dis.ElectromagneticEmissionsPdu.wireSize
  after := Dis.ElectromagneticEmissionsPdu.after
  lossless := false
  counts := [{ offset := 25, width := 1, max := 255, scale := 1, len := fun o => o.systems.length }]

/-- Catalogue entry of `ResupplyOfferPdu` (/repo/opendis/dis7.py:5305-5314). -/
def Codec.ResupplyOfferPdu : Codec where
  name := "ResupplyOfferPdu"
  Obj := Dis.ResupplyOfferPdu
  fresh := Dis.ResupplyOfferPdu.init
  serialize := Dis.ResupplyOfferPdu.serialize
  parse s := Dis.ResupplyOfferPdu.parse s
  wire := Dis.ResupplyOfferPdu.wire
  Fits := Dis.ResupplyOfferPdu.WireOk
  Canon := Dis.ResupplyOfferPdu.Canon
  NoNaN := Dis.ResupplyOfferPdu.NoNaN
  size := Dis.ResupplyOfferPdu.wireSize
  after := Dis.ResupplyOfferPdu.after
  counts := [{ offset := 24, width := 1, max := 255, scale := 1, len := fun o => o.supplies.length }]

/-- Catalogue entry of `SetDataReliablePdu` (/repo/opendis/dis7.py:5452-5459). -/
def Codec.SetDataReliablePdu : Codec where
  name := "SetDataReliablePdu"
  Obj := Dis.SetDataReliablePdu
  fresh := Dis.SetDataReliablePdu.init
  serialize := Dis.SetDataReliablePdu.serialize
  parse s := Dis.SetDataReliablePdu.parse s
  wire := Dis.SetDataReliablePdu.wire
  Fits := Dis.SetDataReliablePdu.WireOk
  Canon := Dis.SetDataReliablePdu.Canon
  NoNaN := Dis.SetDataReliablePdu.NoNaN
  size := Dis.SetDataReliablePdu.wireSize
  after := Dis.SetDataReliablePdu.after
  lossless := false

/-- Catalogue entry of `EventReportPdu` (/repo/opendis/dis7.py:5490-5495). -/
def Codec.EventReportPdu : Codec where
  name := "EventReportPdu"
  Obj := Dis.EventReportPdu
  fresh := Dis.EventReportPdu.init
  serialize := Dis.EventReportPdu.serialize
  parse s := Dis.EventReportPdu.parse s
  wire := Dis.EventReportPdu.wire
  Fits := Dis.EventReportPdu.WireOk
  Canon := Dis.EventReportPdu.Canon
  NoNaN := Dis.EventReportPdu.NoNaN
  size := Dis.EventReportPdu.wireSize
  after := Dis.EventReportPdu.after
  lossless := false

/-- Catalogue entry of `PointObjectStatePdu` (/repo/opendis/dis7.py:5552-5566). -/
def Codec.PointObjectStatePdu : Codec where
  name := "PointObjectStatePdu"
  Obj := Dis.PointObjectStatePdu
  fresh := Dis.PointObjectStatePdu.init
  serialize := Dis.PointObjectStatePdu.serialize
  parse s := Dis.PointObjectStatePdu.parse s
  wire := Dis.PointObjectStatePdu.wire
  Fits := Dis.PointObjectStatePdu.WireOk
  Canon := Dis.PointObjectStatePdu.Canon
  NoNaN := Dis.PointObjectStatePdu.NoNaN
  size := Dis.PointObjectStatePdu.wireSize
  after := Dis.PointObjectStatePdu.after

/-- Catalogue entry of `DataPdu` (/repo/opendis/dis7.py:5621-5626). -/
def Codec.DataPdu : Codec where
  name := "DataPdu"
  Obj := Dis.DataPdu
  fresh := Dis.DataPdu.init
  serialize := Dis.DataPdu.serialize
  parse s := Dis.DataPdu.parse s
  wire := Dis.DataPdu.wire
  Fits := Dis.DataPdu.WireOk
  Canon := Dis.DataPdu.Canon
  NoNaN := Dis.DataPdu.NoNaN
  size := Dis.DataPdu.wireSize
  after := Dis.DataPdu.after
  lossless := false

/-- Catalogue entries for the classes of `Verif.Model.Pdus3` (class statements of
/repo/opendis). -/
def catalogPdus3 : List Codec :=
  [.DesignatorPdu,
   .StopFreezePdu,
   .EntityStatePdu,
   .StartResumePdu,
   .ElectromagneticEmissionsPdu,
   .ResupplyOfferPdu,
   .SetDataReliablePdu,
   .EventReportPdu,
   .PointObjectStatePdu,
   .DataPdu]

/-- Catalogue entry of `FastEntityStatePdu` (/repo/opendis/dis7.py:5764-5811). -/
def Codec.FastEntityStatePdu : Codec where
  name := "FastEntityStatePdu"
  Obj := Dis.FastEntityStatePdu
  fresh := Dis.FastEntityStatePdu.init
  serialize := Dis.FastEntityStatePdu.serialize
  parse s := Dis.FastEntityStatePdu.parse s
  wire := Dis.FastEntityStatePdu.wire
  Fits := Dis.FastEntityStatePdu.WireOk
  Canon := Dis.FastEntityStatePdu.Canon
  NoNaN := Dis.FastEntityStatePdu.NoNaN
  size := Dis.FastEntityStatePdu.wireSize
  after := Dis.FastEntityStatePdu.after
  Live := Dis.FastEntityStatePdu.Live
  counts := [{ offset := 19, width := 1, max := 127, scale := 1, len := fun o => o.variableParameters.length }]

/-- Catalogue entry of `AcknowledgeReliablePdu` (/repo/opendis/dis7.py:5890-5895). -/
def Codec.AcknowledgeReliablePdu : Codec where
  name := "AcknowledgeReliablePdu"
  Obj := Dis.AcknowledgeReliablePdu
  fresh := Dis.AcknowledgeReliablePdu.init
  serialize := Dis.AcknowledgeReliablePdu.serialize
  parse s := Dis.AcknowledgeReliablePdu.parse s
  wire := Dis.AcknowledgeReliablePdu.wire
  Fits := Dis.AcknowledgeReliablePdu.WireOk
  Canon := Dis.AcknowledgeReliablePdu.Canon
  NoNaN := Dis.AcknowledgeReliablePdu.NoNaN
  size := Dis.AcknowledgeReliablePdu.wireSize
  after := Dis.AcknowledgeReliablePdu.after

/-- Catalogue entry of `StartResumeReliablePdu` (/repo/opendis/dis7.py:5928-5936). -/
def Codec.StartResumeReliablePdu : Codec where
  name := "StartResumeReliablePdu"
  Obj := Dis.StartResumeReliablePdu
  fresh := Dis.StartResumeReliablePdu.init
  serialize := Dis.StartResumeReliablePdu.serialize
  parse s := Dis.StartResumeReliablePdu.parse s
  wire := Dis.StartResumeReliablePdu.wire
  Fits := Dis.StartResumeReliablePdu.WireOk
  Canon := Dis.StartResumeReliablePdu.Canon
  NoNaN := Dis.StartResumeReliablePdu.NoNaN
  size := Dis.StartResumeReliablePdu.wireSize
  after := Dis.StartResumeReliablePdu.after

/-- Catalogue entry of `ArealObjectStatePdu` (/repo/opendis/dis7.py:5991-6006). -/
def Codec.ArealObjectStatePdu : Codec where
  name := "ArealObjectStatePdu"
  Obj := Dis.ArealObjectStatePdu
  fresh := Dis.ArealObjectStatePdu.init
  serialize := Dis.ArealObjectStatePdu.serialize
  parse s := Dis.ArealObjectStatePdu.parse s
  wire := Dis.ArealObjectStatePdu.wire
  Fits := Dis.ArealObjectStatePdu.WireOk
  Canon := Dis.ArealObjectStatePdu.Canon
  NoNaN := Dis.ArealObjectStatePdu.NoNaN
  size := Dis.ArealObjectStatePdu.wireSize
  after := Dis.ArealObjectStatePdu.after
  counts := [{ offset := 38, width := 2, max := 65535, scale := 1, len := fun o => o.objectLocation.length }]

/-- Catalogue entry of `DataQueryReliablePdu` (/repo/opendis/dis7.py:6069-6077). -/
def Codec.DataQueryReliablePdu : Codec where
  name := "DataQueryReliablePdu"
  Obj := Dis.DataQueryReliablePdu
  fresh := Dis.DataQueryReliablePdu.init
  serialize := Dis.DataQueryReliablePdu.serialize
  parse s := Dis.DataQueryReliablePdu.parse s
  wire := Dis.DataQueryReliablePdu.wire
  Fits := Dis.DataQueryReliablePdu.WireOk
  Canon := Dis.DataQueryReliablePdu.Canon
  NoNaN := Dis.DataQueryReliablePdu.NoNaN
  size := Dis.DataQueryReliablePdu.wireSize
  after := Dis.DataQueryReliablePdu.after

/-- Catalogue entry of `MinefieldStatePdu` (/repo/opendis/dis7.py:6132-6149). -/
def Codec.MinefieldStatePdu : Codec where
  name := "MinefieldStatePdu"
  Obj := Dis.MinefieldStatePdu
  fresh := Dis.MinefieldStatePdu.init
  serialize := Dis.MinefieldStatePdu.serialize
  parse s := Dis.MinefieldStatePdu.parse s
  wire := Dis.MinefieldStatePdu.wire
  Fits := Dis.MinefieldStatePdu.WireOk
  Canon := Dis.MinefieldStatePdu.Canon
  NoNaN := Dis.MinefieldStatePdu.NoNaN
  size := Dis.MinefieldStatePdu.wireSize
  after := Dis.MinefieldStatePdu.after
  counts := [{ offset := 21, width := 1, max := 255, scale := 1, len := fun o => o.perimeterPoints.length },
    { offset := 30, width := 2, max := 65535, scale := 1, len := fun o => o.mineTypes.length }]

/-- Catalogue entry of `DataReliablePdu` (/repo/opendis/dis7.py:6214-6221). -/
def Codec.DataReliablePdu : Codec where
  name := "DataReliablePdu"
  Obj := Dis.DataReliablePdu
  fresh := Dis.DataReliablePdu.init
  serialize := Dis.DataReliablePdu.serialize
  parse s := Dis.DataReliablePdu.parse s
  wire := Dis.DataReliablePdu.wire
  Fits := Dis.DataReliablePdu.WireOk
  Canon := Dis.DataReliablePdu.Canon
  NoNaN := Dis.DataReliablePdu.NoNaN
  size := Dis.DataReliablePdu.wireSize
  after := Dis.DataReliablePdu.after
  lossless := false

/-- Catalogue entry of `CommentPdu` (/repo/opendis/dis7.py:6264-6267). -/
def Codec.CommentPdu : Codec where
  name := "CommentPdu"
  Obj := Dis.CommentPdu
  fresh := Dis.CommentPdu.init
  serialize := Dis.CommentPdu.serialize
  parse s := Dis.CommentPdu.parse s
  wire := Dis.CommentPdu.wire
  Fits := Dis.CommentPdu.WireOk
  Canon := Dis.CommentPdu.Canon
  NoNaN := Dis.CommentPdu.NoNaN
  size := Dis.CommentPdu.wireSize
  after := Dis.CommentPdu.after
  lossless := false

/-- Catalogue entry of `CommentReliablePdu` (/repo/opendis/dis7.py:6307-6310). -/
def Codec.CommentReliablePdu : Codec where
  name := "CommentReliablePdu"
  Obj := Dis.CommentReliablePdu
  fresh := Dis.CommentReliablePdu.init
  serialize := Dis.CommentReliablePdu.serialize
  parse s := Dis.CommentReliablePdu.parse s
  wire := Dis.CommentReliablePdu.wire
  Fits := Dis.CommentReliablePdu.WireOk
  Canon := Dis.CommentReliablePdu.Canon
  NoNaN := Dis.CommentReliablePdu.NoNaN
  size := Dis.CommentReliablePdu.wireSize
  after := Dis.CommentReliablePdu.after
  lossless := false

/-- Catalogue entry of `DetonationPdu` (/repo/opendis/dis7.py:6445-6458). -/
def Codec.DetonationPdu : Codec where
  name := "DetonationPdu"
  Obj := Dis.DetonationPdu
  fresh := Dis.DetonationPdu.init
  serialize := Dis.DetonationPdu.serialize
  parse s := Dis.DetonationPdu.parse s
  wire := Dis.DetonationPdu.wire
  Fits := Dis.DetonationPdu.WireOk
  Canon := Dis.DetonationPdu.Canon
  NoNaN := Dis.DetonationPdu.NoNaN
  size := Dis.DetonationPdu.wireSize
  after := Dis.DetonationPdu.after
  counts := [{ offset := 101, width := 1, max := 255, scale := 1, len := fun o => o.variableParameters.length }]

/-- Catalogue entry of `SetDataPdu` (/repo/opendis/dis7.py:6512-6517). -/
def Codec.SetDataPdu : Codec where
  name := "SetDataPdu"
  Obj := Dis.SetDataPdu
  fresh := Dis.SetDataPdu.init
  serialize := Dis.SetDataPdu.serialize
  parse s := Dis.SetDataPdu.parse s
  wire := Dis.SetDataPdu.wire
  Fits := Dis.SetDataPdu.WireOk
  Canon := Dis.SetDataPdu.Canon
  NoNaN := Dis.SetDataPdu.NoNaN
  size := Dis.SetDataPdu.wireSize
  after := Dis.SetDataPdu.after
  lossless := false

/-- Catalogue entry of `RecordQueryReliablePdu` (/repo/opendis/dis7.py:6555-6566). -/
def Codec.RecordQueryReliablePdu : Codec where
  name := "RecordQueryReliablePdu"
  Obj := Dis.RecordQueryReliablePdu
  fresh := Dis.RecordQueryReliablePdu.init
  serialize := Dis.RecordQueryReliablePdu.serialize
  parse s := Dis.RecordQueryReliablePdu.parse s
  wire := Dis.RecordQueryReliablePdu.wire
  Fits := Dis.RecordQueryReliablePdu.WireOk
  Canon := Dis.RecordQueryReliablePdu.Canon
  NoNaN := Dis.RecordQueryReliablePdu.NoNaN
  size := Dis.RecordQueryReliablePdu.wireSize
  after := Dis.RecordQueryReliablePdu.after
  onlyStruct := false
  counts := [{ offset := 38, width := 4, max := 4294967295, scale := 1, len := fun o => o.recordIDs.length }]

/-- Catalogue entry of `ActionResponsePdu` (/repo/opendis/dis7.py:6620-6625). -/
def Codec.ActionResponsePdu : Codec where
  name := "ActionResponsePdu"
  Obj := Dis.ActionResponsePdu
  fresh := Dis.ActionResponsePdu.init
  serialize := Dis.ActionResponsePdu.serialize
  parse s := Dis.ActionResponsePdu.parse s
  wire := Dis.ActionResponsePdu.wire
  Fits := Dis.ActionResponsePdu.WireOk
  Canon := Dis.ActionResponsePdu.Canon
  NoNaN := Dis.ActionResponsePdu.NoNaN
  size := Dis.ActionResponsePdu.wireSize
  after := Dis.ActionResponsePdu.after
  lossless := false

/-- Catalogue entries for the classes of `Verif.Model.Pdus4` (class statements of
/repo/opendis). -/
def catalogPdus4 : List Codec :=
  [.FastEntityStatePdu,
   .AcknowledgeReliablePdu,
   .StartResumeReliablePdu,
   .ArealObjectStatePdu,
   .DataQueryReliablePdu,
   .MinefieldStatePdu,
   .DataReliablePdu,
   .CommentPdu,
   .CommentReliablePdu,
   .DetonationPdu,
   .SetDataPdu,
   .RecordQueryReliablePdu,
   .ActionResponsePdu]

/-- Catalogue entry of `FirePdu` (/repo/opendis/dis7.py:6713-6722). -/
def Codec.FirePdu : Codec where
  name := "FirePdu"
  Obj := Dis.FirePdu
  fresh := Dis.FirePdu.init
  serialize := Dis.FirePdu.serialize
  parse s := Dis.FirePdu.parse s
  wire := Dis.FirePdu.wire
  Fits := Dis.FirePdu.WireOk
  Canon := Dis.FirePdu.Canon
  NoNaN := Dis.FirePdu.NoNaN
  size := Dis.FirePdu.wireSize
  after := Dis.FirePdu.after

/-- Catalogue entry of `ReceiverPdu` (/repo/opendis/dis7.py:6759-6766). -/
def Codec.ReceiverPdu : Codec where
  name := "ReceiverPdu"
  Obj := Dis.ReceiverPdu
  fresh := Dis.ReceiverPdu.init
  serialize := Dis.ReceiverPdu.serialize
  parse s := Dis.ReceiverPdu.parse s
  wire := Dis.ReceiverPdu.wire
  Fits := Dis.ReceiverPdu.WireOk
  Canon := Dis.ReceiverPdu.Canon
  NoNaN := Dis.ReceiverPdu.NoNaN
  size := Dis.ReceiverPdu.wireSize
  after := Dis.ReceiverPdu.after

/-- Catalogue entry of `UaPdu` (/repo/opendis/dis7.py:6828-6845). -/
def Codec.UaPdu : Codec where
  name := "UaPdu"
  Obj := Dis.UaPdu
  fresh := Dis.UaPdu.init
  serialize := Dis.UaPdu.serialize
  parse s := Dis.UaPdu.parse s
  wire := Dis.UaPdu.wire
  Fits := Dis.UaPdu.WireOk
  Canon := Dis.UaPdu.Canon
  NoNaN := Dis.UaPdu.NoNaN
  size := Dis.UaPdu.wireSize
  after := Dis.UaPdu.after
  onlyStruct := false
  counts := [{ offset := 29, width := 1, max := 255, scale := 1, len := fun o => o.shaftRPMs.length },
    { offset := 30, width := 1, max := 255, scale := 1, len := fun o => o.apaData.length },
    { offset := 31, width := 1, max := 255, scale := 1, len := fun o => o.emitterSystems.length }]

/-- Catalogue entry of `SignalPdu` (/repo/opendis/dis7.py:6990-7001). -/
def Codec.SignalPdu : Codec where
  name := "SignalPdu"
  Obj := Dis.SignalPdu
  fresh := Dis.SignalPdu.init
  serialize := Dis.SignalPdu.serialize
  parse s := Dis.SignalPdu.parse s
  wire := Dis.SignalPdu.wire
  Fits := Dis.SignalPdu.WireOk
  Canon := Dis.SignalPdu.Canon
  NoNaN := Dis.SignalPdu.NoNaN
  size := Dis.SignalPdu.wireSize
  after := Dis.SignalPdu.after
  lossless := false
  counts := [{ offset := 28, width := 2, max := 65535, scale := 8, len := fun o => o.data.length }]

/-- Catalogue entry of `RemoveEntityReliablePdu` (/repo/opendis/dis7.py:7035-7041). -/
def Codec.RemoveEntityReliablePdu : Codec where
  name := "RemoveEntityReliablePdu"
  Obj := Dis.RemoveEntityReliablePdu
  fresh := Dis.RemoveEntityReliablePdu.init
  serialize := Dis.RemoveEntityReliablePdu.serialize
  parse s := Dis.RemoveEntityReliablePdu.parse s
  wire := Dis.RemoveEntityReliablePdu.wire
  Fits := Dis.RemoveEntityReliablePdu.WireOk
  Canon := Dis.RemoveEntityReliablePdu.Canon
  NoNaN := Dis.RemoveEntityReliablePdu.NoNaN
  size := Dis.RemoveEntityReliablePdu.wireSize
  after := Dis.RemoveEntityReliablePdu.after

/-- Catalogue entry of `SeesPdu` (/repo/opendis/dis7.py:7082-7097). -/
def Codec.SeesPdu : Codec where
  name := "SeesPdu"
  Obj := Dis.SeesPdu
  fresh := Dis.SeesPdu.init
  serialize := Dis.SeesPdu.serialize
  parse s := Dis.SeesPdu.parse s
  wire := Dis.SeesPdu.wire
  Fits := Dis.SeesPdu.WireOk
  Canon := Dis.SeesPdu.Canon
  NoNaN := Dis.SeesPdu.NoNaN
  size := Dis.SeesPdu.wireSize
  after := Dis.SeesPdu.after
  Decodable := Dis.SeesPdu.Decodable
  onlyStruct := false
  counts := [{ offset := 24, width := 2, max := 65535, scale := 1, len := fun o => o.propulsionSystemData.length },
    { offset := 26, width := 2, max := 65535, scale := 1, len := fun o => o.vectoringSystemData.length }]

/-- Catalogue entry of `CreateEntityReliablePdu` (/repo/opendis/dis7.py:7139-7145). -/
def Codec.CreateEntityReliablePdu : Codec where
  name := "CreateEntityReliablePdu"
  Obj := Dis.CreateEntityReliablePdu
  fresh := Dis.CreateEntityReliablePdu.init
  serialize := Dis.CreateEntityReliablePdu.serialize
  parse s := Dis.CreateEntityReliablePdu.parse s
  wire := Dis.CreateEntityReliablePdu.wire
  Fits := Dis.CreateEntityReliablePdu.WireOk
  Canon := Dis.CreateEntityReliablePdu.Canon
  NoNaN := Dis.CreateEntityReliablePdu.NoNaN
  size := Dis.CreateEntityReliablePdu.wireSize
  after := Dis.CreateEntityReliablePdu.after

/-- Catalogue entry of `StopFreezeReliablePdu` (/repo/opendis/dis7.py:7181-7189). -/
def Codec.StopFreezeReliablePdu : Codec where
  name := "StopFreezeReliablePdu"
  Obj := Dis.StopFreezeReliablePdu
  fresh := Dis.StopFreezeReliablePdu.init
  serialize := Dis.StopFreezeReliablePdu.serialize
  parse s := Dis.StopFreezeReliablePdu.parse s
  wire := Dis.StopFreezeReliablePdu.wire
  Fits := Dis.StopFreezeReliablePdu.WireOk
  Canon := Dis.StopFreezeReliablePdu.Canon
  NoNaN := Dis.StopFreezeReliablePdu.NoNaN
  size := Dis.StopFreezeReliablePdu.wireSize
  after := Dis.StopFreezeReliablePdu.after

/-- Catalogue entry of `EventReportReliablePdu` (/repo/opendis/dis7.py:7238-7243). -/
def Codec.EventReportReliablePdu : Codec where
  name := "EventReportReliablePdu"
  Obj := Dis.EventReportReliablePdu
  fresh := Dis.EventReportReliablePdu.init
  serialize := Dis.EventReportReliablePdu.serialize
  parse s := Dis.EventReportReliablePdu.parse s
  wire := Dis.EventReportReliablePdu.wire
  Fits := Dis.EventReportReliablePdu.WireOk
  Canon := Dis.EventReportReliablePdu.Canon
  NoNaN := Dis.EventReportReliablePdu.NoNaN
  size := Dis.EventReportReliablePdu.wireSize
  after := Dis.EventReportReliablePdu.after
  lossless := false

/-- Catalogue entry of `MinefieldResponseNackPdu` (/repo/opendis/dis7.py:7278-7286). -/
def Codec.MinefieldResponseNackPdu : Codec where
  name := "MinefieldResponseNackPdu"
  Obj := Dis.MinefieldResponseNackPdu
  fresh := Dis.MinefieldResponseNackPdu.init
  serialize := Dis.MinefieldResponseNackPdu.serialize
  parse s := Dis.MinefieldResponseNackPdu.parse s
  wire := Dis.MinefieldResponseNackPdu.wire
  Fits := Dis.MinefieldResponseNackPdu.WireOk
  Canon := Dis.MinefieldResponseNackPdu.Canon
  NoNaN := Dis.MinefieldResponseNackPdu.NoNaN
  size := Dis.MinefieldResponseNackPdu.wireSize
  after := Dis.MinefieldResponseNackPdu.after
  onlyStruct := false
  counts := [{ offset := 25, width := 1, max := 255, scale := 1, len := fun o => o.missingPduSequenceNumbers.length }]

/-- Catalogue entry of `ActionResponseReliablePdu` (/repo/opendis/dis7.py:7337-7342). -/
def Codec.ActionResponseReliablePdu : Codec where
  name := "ActionResponseReliablePdu"
  Obj := Dis.ActionResponseReliablePdu
  fresh := Dis.ActionResponseReliablePdu.init
  serialize := Dis.ActionResponseReliablePdu.serialize
  parse s := Dis.ActionResponseReliablePdu.parse s
  wire := Dis.ActionResponseReliablePdu.wire
  Fits := Dis.ActionResponseReliablePdu.WireOk
  Canon := Dis.ActionResponseReliablePdu.Canon
  NoNaN := Dis.ActionResponseReliablePdu.NoNaN
  size := Dis.ActionResponseReliablePdu.wireSize
  after := Dis.ActionResponseReliablePdu.after
  lossless := false

/-- Catalogue entry of `IsPartOfPdu` (/repo/opendis/dis7.py:7379-7387). -/
def Codec.IsPartOfPdu : Codec where
  name := "IsPartOfPdu"
  Obj := Dis.IsPartOfPdu
  fresh := Dis.IsPartOfPdu.init
  serialize := Dis.IsPartOfPdu.serialize
  parse s := Dis.IsPartOfPdu.parse s
  wire := Dis.IsPartOfPdu.wire
  Fits := Dis.IsPartOfPdu.WireOk
  Canon := Dis.IsPartOfPdu.Canon
  NoNaN := Dis.IsPartOfPdu.NoNaN
  size := Dis.IsPartOfPdu.wireSize
  after := Dis.IsPartOfPdu.after

/-- Catalogue entry of `AggregateStatePdu` (/repo/opendis/dis7.py:7471-7498). -/
def Codec.AggregateStatePdu : Codec where
  name := "AggregateStatePdu"
  Obj := Dis.AggregateStatePdu
  fresh := Dis.AggregateStatePdu.init
  serialize := Dis.AggregateStatePdu.serialize
  parse s := Dis.AggregateStatePdu.parse s
  wire := Dis.AggregateStatePdu.wire
  Fits := Dis.AggregateStatePdu.WireOk
  Canon := Dis.AggregateStatePdu.Canon
  NoNaN := Dis.AggregateStatePdu.NoNaN
  size := Dis.AggregateStatePdu.wireSize
  after := Dis.AggregateStatePdu.after
  Live := Dis.AggregateStatePdu.Live
  lossless := false
  onlyStruct := false
  counts := [{ offset := 124, width := 2, max := 65535, scale := 1, len := fun o => o.aggregateIDs.length },
    { offset := 126, width := 2, max := 65535, scale := 1, len := fun o => o.entityIDs.length },
    { offset := 128, width := 2, max := 65535, scale := 1, len := fun o => o.silentAggregateSystems.length },
    { offset := 130, width := 2, max := 65535, scale := 1, len := fun o => o.silentEntitySystems.length }]

/-- Catalogue entries for the classes of `Verif.Model.Pdus5` (class statements of
/repo/opendis). -/
def catalogPdus5 : List Codec :=
  [.FirePdu,
   .ReceiverPdu,
   .UaPdu,
   .SignalPdu,
   .RemoveEntityReliablePdu,
   .SeesPdu,
   .CreateEntityReliablePdu,
   .StopFreezeReliablePdu,
   .EventReportReliablePdu,
   .MinefieldResponseNackPdu,
   .ActionResponseReliablePdu,
   .IsPartOfPdu,
   .AggregateStatePdu]

/-- Catalogue entry of `BeamAntennaPattern` (/repo/opendis/record/radio/__init__.py:137-148). -/
def Codec.BeamAntennaPattern : Codec where
  name := "BeamAntennaPattern"
  Obj := Dis.BeamAntennaPattern
  fresh := Dis.BeamAntennaPattern.init
  serialize := Dis.BeamAntennaPattern.serialize
  parse s := Dis.BeamAntennaPattern.parse s (some 40)
  wire := Dis.BeamAntennaPattern.wire
  Fits := Dis.BeamAntennaPattern.WireOk
  Canon := Dis.BeamAntennaPattern.Canon
  NoNaN := Dis.BeamAntennaPattern.NoNaN
  size := Dis.BeamAntennaPattern.wireSize
  after := Dis.BeamAntennaPattern.after
  onlyStruct := false

/-- Catalogue entry of `SpreadSpectrum` (/repo/opendis/record/radio/__init__.py:202-209). -/
def Codec.SpreadSpectrum : Codec where
  name := "SpreadSpectrum"
  Obj := Dis.SpreadSpectrum
  fresh := Dis.SpreadSpectrum.init
  serialize := Dis.SpreadSpectrum.serialize
  parse s := Dis.SpreadSpectrum.parse s
  wire := Dis.SpreadSpectrum.wire
  Fits := Dis.SpreadSpectrum.WireOk
  Canon := Dis.SpreadSpectrum.Canon
  NoNaN := Dis.SpreadSpectrum.NoNaN
  size := Dis.SpreadSpectrum.wireSize
  after := Dis.SpreadSpectrum.after
  lossless := false
  onlyStruct := false

/-- Catalogue entry of `ModulationType` (/repo/opendis/record/radio/__init__.py:243-247). -/
def Codec.ModulationType : Codec where
  name := "ModulationType"
  Obj := Dis.ModulationType
  fresh := Dis.ModulationType.init
  serialize := Dis.ModulationType.serialize
  parse s := Dis.ModulationType.parse s
  wire := Dis.ModulationType.wire
  Fits := Dis.ModulationType.WireOk
  Canon := Dis.ModulationType.Canon
  NoNaN := Dis.ModulationType.NoNaN
  size := Dis.ModulationType.wireSize
  after := Dis.ModulationType.after
  lossless := false
  onlyStruct := false

/-- Catalogue entry of `NetId` (/repo/opendis/record/radio/__init__.py:297-303). -/
def Codec.NetId : Codec where
  name := "NetId"
  Obj := Dis.NetId
  fresh := Dis.NetId.init
  serialize := Dis.NetId.serialize
  parse s := Dis.NetId.parse s
  wire := Dis.NetId.wire
  Fits := Dis.NetId.WireOk
  Canon := Dis.NetId.Canon
  NoNaN := Dis.NetId.NoNaN
  size := Dis.NetId.wireSize
  after := Dis.NetId.after
  onlyStruct := false

/-- Catalogue entry of `BasicHaveQuickMP` (/repo/opendis/record/radio/__init__.py:379-387). -/
def Codec.BasicHaveQuickMP : Codec where
  name := "BasicHaveQuickMP"
  Obj := Dis.BasicHaveQuickMP
  fresh := Dis.BasicHaveQuickMP.init
  serialize := Dis.BasicHaveQuickMP.serialize
  parse s := Dis.BasicHaveQuickMP.parse s none
  wire := Dis.BasicHaveQuickMP.wire
  Fits := Dis.BasicHaveQuickMP.WireOk
  Canon := Dis.BasicHaveQuickMP.Canon
  NoNaN := Dis.BasicHaveQuickMP.NoNaN
  size := Dis.BasicHaveQuickMP.wireSize
  after := Dis.BasicHaveQuickMP.after
  onlyStruct := false

/-- Catalogue entry of `CCTTSincgarsMP` (/repo/opendis/record/radio/__init__.py:426-435). -/
def Codec.CCTTSincgarsMP : Codec where
  name := "CCTTSincgarsMP"
  Obj := Dis.CCTTSincgarsMP
  fresh := Dis.CCTTSincgarsMP.init
  serialize := Dis.CCTTSincgarsMP.serialize
  parse s := Dis.CCTTSincgarsMP.parse s none
  wire := Dis.CCTTSincgarsMP.wire
  Fits := Dis.CCTTSincgarsMP.WireOk
  Canon := Dis.CCTTSincgarsMP.Canon
  NoNaN := Dis.CCTTSincgarsMP.NoNaN
  size := Dis.CCTTSincgarsMP.wireSize
  after := Dis.CCTTSincgarsMP.after
  onlyStruct := false

/-- Catalogue entries for the classes of `Verif.Model.Radio` (class statements of
/repo/opendis). -/
def catalogRadio : List Codec :=
  [.BeamAntennaPattern,
   .SpreadSpectrum,
   .ModulationType,
   .NetId,
   .BasicHaveQuickMP,
   .CCTTSincgarsMP]

/-- Catalogue entry of `DEFireFlags` (/repo/opendis/record/warfare/enums.py:28-32). -/
def Codec.DEFireFlags : Codec where
  name := "DEFireFlags"
  Obj := Dis.DEFireFlags
  fresh := Dis.DEFireFlags.init
  serialize := Dis.DEFireFlags.serialize
  parse s := Dis.DEFireFlags.parse s
  wire := Dis.DEFireFlags.wire
  Fits := Dis.DEFireFlags.WireOk
  Canon := Dis.DEFireFlags.Canon
  NoNaN := Dis.DEFireFlags.NoNaN
  size := Dis.DEFireFlags.wireSize
  after := Dis.DEFireFlags.after
  Live := Dis.DEFireFlags.Live
  onlyStruct := false

/-- Catalogue entry of `DirectedEnergyTargetEnergyDeposition` (/repo/opendis/record/warfare/__init__.py:270-274). -/
def Codec.DirectedEnergyTargetEnergyDeposition : Codec where
  name := "DirectedEnergyTargetEnergyDeposition"
  Obj := Dis.DirectedEnergyTargetEnergyDeposition
  fresh := Dis.DirectedEnergyTargetEnergyDeposition.init
  serialize := Dis.DirectedEnergyTargetEnergyDeposition.serialize
  parse s := Dis.DirectedEnergyTargetEnergyDeposition.parse s
  wire := Dis.DirectedEnergyTargetEnergyDeposition.wire
  Fits := Dis.DirectedEnergyTargetEnergyDeposition.WireOk
  Canon := Dis.DirectedEnergyTargetEnergyDeposition.Canon
  NoNaN := Dis.DirectedEnergyTargetEnergyDeposition.NoNaN
  size := Dis.DirectedEnergyTargetEnergyDeposition.wireSize
  after := Dis.DirectedEnergyTargetEnergyDeposition.after
  onlyStruct := false

/-- Catalogue entries for the classes of `Verif.Model.Warfare` (class statements of
/repo/opendis). -/
def catalogWarfare : List Codec :=
  [.DEFireFlags,
   .DirectedEnergyTargetEnergyDeposition]

/-- Catalogue entry of `DirectedEnergyFirePdu` (/repo/opendis/dis7.py:6361-6379). -/
def Codec.DirectedEnergyFirePdu : Codec where
  name := "DirectedEnergyFirePdu"
  Obj := Dis.DirectedEnergyFirePdu
  fresh := Dis.DirectedEnergyFirePdu.init
  serialize := Dis.DirectedEnergyFirePdu.serialize
  parse s := Dis.DirectedEnergyFirePdu.parse s
  wire := Dis.DirectedEnergyFirePdu.wire
  Fits := Dis.DirectedEnergyFirePdu.WireOk
  Canon := Dis.DirectedEnergyFirePdu.Canon
  NoNaN := Dis.DirectedEnergyFirePdu.NoNaN
  size := Dis.DirectedEnergyFirePdu.wireSize
  after := Dis.DirectedEnergyFirePdu.after
  Decodable := Dis.DirectedEnergyFirePdu.Decodable
  Live := Dis.DirectedEnergyFirePdu.Live
  onlyStruct := false
  counts := [{ offset := 86, width := 2, max := 65535, scale := 1, len := fun o => o.dERecords.length }]

/-- Catalogue entry of `EntityDamageStatusPdu` (/repo/opendis/dis7.py:6657-6664). -/
def Codec.EntityDamageStatusPdu : Codec where
  name := "EntityDamageStatusPdu"
  Obj := Dis.EntityDamageStatusPdu
  fresh := Dis.EntityDamageStatusPdu.init
  serialize := Dis.EntityDamageStatusPdu.serialize
  parse s := Dis.EntityDamageStatusPdu.parse s
  wire := Dis.EntityDamageStatusPdu.wire
  Fits := Dis.EntityDamageStatusPdu.WireOk
  Canon := Dis.EntityDamageStatusPdu.Canon
  NoNaN := Dis.EntityDamageStatusPdu.NoNaN
  size := Dis.EntityDamageStatusPdu.wireSize
  after := Dis.EntityDamageStatusPdu.after
  Decodable := Dis.EntityDamageStatusPdu.Decodable
  Live := Dis.EntityDamageStatusPdu.Live
  onlyStruct := false
  counts := [{ offset := 34, width := 2, max := 65535, scale := 1, len := fun o => o.damageDescriptions.length }]

/-- Catalogue entries for the classes of `Verif.Model.Special` (class statements of
/repo/opendis). -/
def catalogSpecial : List Codec :=
  [.DirectedEnergyFirePdu,
   .EntityDamageStatusPdu]

/-- All wire classes whose objects can be constructed and whose `parse` mirrors `serialize`
(/repo/opendis/dis7.py:71-7505, /repo/opendis/record). -/
def catalog : List Codec :=
  catalogCommon ++
  catalogRecords1 ++
  catalogRecords2 ++
  catalogRecords3 ++
  catalogRecords4 ++
  catalogRecords5 ++
  catalogPdus1 ++
  catalogPdus2 ++
  catalogPdus3 ++
  catalogPdus4 ++
  catalogPdus5 ++
  catalogRadio ++
  catalogWarfare ++
  catalogSpecial

end Dis
