import Verif.Source.Records
import Verif.Source.Dis1
import Verif.Source.Dis2
import Verif.Source.Dis3
import Verif.Source.Dis4
import Verif.Source.Functions

/-!
# All classes

Written by `tools/gensource.py` from the Python source.
-/

namespace Dis.Src

/-- The classes of /repo/opendis/record and /repo/opendis/dis7.py. -/
def program : Program :=
  [(I.EntityIdentifier, EntityIdentifier),
   (I.EulerAngles, EulerAngles),
   (I.EventIdentifier, EventIdentifier),
   (I.SimulationAddress, SimulationAddress),
   (I.Vector3Float, Vector3Float),
   (I.WorldCoordinates, WorldCoordinates),
   (I.Record, Record),
   (I.VariableRecord, VariableRecord),
   (I.StandardVariableRecord, StandardVariableRecord),
   (I.UnknownStandardVariableRecord, UnknownStandardVariableRecord),
   (I.AntennaPatternRecord, AntennaPatternRecord),
   (I.ModulationParametersRecord, ModulationParametersRecord),
   (I.UnknownRadio, UnknownRadio),
   (I.UnknownAntennaPattern, UnknownAntennaPattern),
   (I.BeamAntennaPattern, BeamAntennaPattern),
   (I.SpreadSpectrum, SpreadSpectrum),
   (I.ModulationType, ModulationType),
   (I.VariableTransmitterParametersRecord, VariableTransmitterParametersRecord),
   (I.NetId, NetId),
   (I.GenericRadio, GenericRadio),
   (I.SimpleIntercomRadio, SimpleIntercomRadio),
   (I.BasicHaveQuickMP, BasicHaveQuickMP),
   (I.CCTTSincgarsMP, CCTTSincgarsMP),
   (I.HighFidelityHAVEQUICKRadio, HighFidelityHAVEQUICKRadio),
   (I.DamageDescriptionRecord, DamageDescriptionRecord),
   (I.DirectedEnergyDamage, DirectedEnergyDamage),
   (I.DirectedEnergyAreaAimpoint, DirectedEnergyAreaAimpoint),
   (I.DirectedEnergyPrecisionAimpoint, DirectedEnergyPrecisionAimpoint),
   (I.DirectedEnergyTargetEnergyDeposition, DirectedEnergyTargetEnergyDeposition),
   (I.DEFireFlags, DEFireFlags),
   (I.DataQueryDatumSpecification, DataQueryDatumSpecification),
   (I.RadioIdentifier, RadioIdentifier),
   (I.RequestID, RequestID),
   (I.IFFData, IFFData),
   (I.MunitionDescriptor, MunitionDescriptor),
   (I.MinefieldSensorType, MinefieldSensorType),
   (I.GroupID, GroupID),
   (I.LayerHeader, LayerHeader),
   (I.UnsignedDISInteger, UnsignedDISInteger),
   (I.DeadReckoningParameters, DeadReckoningParameters),
   (I.ProtocolMode, ProtocolMode),
   (I.AngleDeception, AngleDeception),
   (I.EntityAssociation, EntityAssociation),
   (I.VectoringNozzleSystem, VectoringNozzleSystem),
   (I.FalseTargetsAttribute, FalseTargetsAttribute),
   (I.MinefieldIdentifier, MinefieldIdentifier),
   (I.RadioType, RadioType),
   (I.NamedLocationIdentification, NamedLocationIdentification),
   (I.IFFDataSpecification, IFFDataSpecification),
   (I.OwnershipStatus, OwnershipStatus),
   (I.AttachedParts, AttachedParts),
   (I.Attribute, Attribute),
   (I.RecordQuerySpecification, RecordQuerySpecification),
   (I.ArticulatedParts, ArticulatedParts),
   (I.ObjectType, ObjectType),
   (I.Association, Association),
   (I.RecordSpecificationElement, RecordSpecificationElement),
   (I.AntennaLocation, AntennaLocation),
   (I.ObjectIdentifier, ObjectIdentifier),
   (I.AggregateIdentifier, AggregateIdentifier),
   (I.FixedDatum, FixedDatum),
   (I.VariableParameter, VariableParameter),
   (I.ChangeOptions, ChangeOptions),
   (I.LiveSimulationAddress, LiveSimulationAddress),
   (I.EntityMarking, EntityMarking),
   (I.UAFundamentalParameter, UAFundamentalParameter),
   (I.ExplosionDescriptor, ExplosionDescriptor),
   (I.ClockTime, ClockTime),
   (I.SecondaryOperationalData, SecondaryOperationalData),
   (I.EnvironmentType, EnvironmentType),
   (I.TotalRecordSets, TotalRecordSets),
   (I.MineEntityIdentifier, MineEntityIdentifier),
   (I.Relationship, Relationship),
   (I.EEFundamentalParameterData, EEFundamentalParameterData),
   (I.JammingTechnique, JammingTechnique),
   (I.DatumSpecification, DatumSpecification),
   (I.Expendable, Expendable),
   (I.IOCommunicationsNode, IOCommunicationsNode),
   (I.LinearSegmentParameter, LinearSegmentParameter),
   (I.SystemIdentifier, SystemIdentifier),
   (I.TrackJamData, TrackJamData),
   (I.AggregateType, AggregateType),
   (I.SimulationManagementPduHeader, SimulationManagementPduHeader),
   (I.BeamData, BeamData),
   (I.EngineFuel, EngineFuel),
   (I.IOEffect, IOEffect),
   (I.SimulationIdentifier, SimulationIdentifier),
   (I.GridAxisDescriptorVariable, GridAxisDescriptorVariable),
   (I.SupplyQuantity, SupplyQuantity),
   (I.SilentEntitySystem, SilentEntitySystem),
   (I.SilentAggregateSystem, SilentAggregateSystem),
   (I.BlankingSector, BlankingSector),
   (I.LaunchedMunitionRecord, LaunchedMunitionRecord),
   (I.IFFFundamentalParameterData, IFFFundamentalParameterData),
   (I.FundamentalOperationalData, FundamentalOperationalData),
   (I.IntercomCommunicationsParameters, IntercomCommunicationsParameters),
   (I.EntityType, EntityType),
   (I.Munition, Munition),
   (I.StandardVariableSpecification, StandardVariableSpecification),
   (I.Vector2Float, Vector2Float),
   (I.Environment, Environment),
   (I.AcousticEmitter, AcousticEmitter),
   (I.AngularVelocityVector, AngularVelocityVector),
   (I.AggregateMarking, AggregateMarking),
   (I.DataFilterRecord, DataFilterRecord),
   (I.IntercomIdentifier, IntercomIdentifier),
   (I.StorageFuel, StorageFuel),
   (I.Sensor, Sensor),
   (I.MunitionReload, MunitionReload),
   (I.StorageFuelReload, StorageFuelReload),
   (I.ExpendableReload, ExpendableReload),
   (I.EngineFuelReload, EngineFuelReload),
   (I.UnattachedIdentifier, UnattachedIdentifier),
   (I.EntityTypeVP, EntityTypeVP),
   (I.BeamStatus, BeamStatus),
   (I.EnvironmentGeneral, EnvironmentGeneral),
   (I.GridAxis, GridAxis),
   (I.RecordSpecification, RecordSpecification),
   (I.VariableDatum, VariableDatum),
   (I.EventIdentifierLiveEntity, EventIdentifierLiveEntity),
   (I.PduHeader, PduHeader),
   (I.PduSuperclass, PduSuperclass),
   (I.CommunicationsNodeID, CommunicationsNodeID),
   (I.ExpendableDescriptor, ExpendableDescriptor),
   (I.PropulsionSystemData, PropulsionSystemData),
   (I.LiveEntityIdentifier, LiveEntityIdentifier),
   (I.SeparationVP, SeparationVP),
   (I.EmitterSystem, EmitterSystem),
   (I.PduStatus, PduStatus),
   (I.LiveEntityPdu, LiveEntityPdu),
   (I.Pdu, Pdu),
   (I.EntityInformationFamilyPdu, EntityInformationFamilyPdu),
   (I.LogisticsFamilyPdu, LogisticsFamilyPdu),
   (I.EntityStateUpdatePdu, EntityStateUpdatePdu),
   (I.ServiceRequestPdu, ServiceRequestPdu),
   (I.RepairCompletePdu, RepairCompletePdu),
   (I.SyntheticEnvironmentFamilyPdu, SyntheticEnvironmentFamilyPdu),
   (I.CollisionPdu, CollisionPdu),
   (I.RepairResponsePdu, RepairResponsePdu),
   (I.SimulationManagementFamilyPdu, SimulationManagementFamilyPdu),
   (I.DataQueryPdu, DataQueryPdu),
   (I.LinearObjectStatePdu, LinearObjectStatePdu),
   (I.CreateEntityPdu, CreateEntityPdu),
   (I.RadioCommunicationsFamilyPdu, RadioCommunicationsFamilyPdu),
   (I.IntercomSignalPdu, IntercomSignalPdu),
   (I.RemoveEntityPdu, RemoveEntityPdu),
   (I.ResupplyReceivedPdu, ResupplyReceivedPdu),
   (I.WarfareFamilyPdu, WarfareFamilyPdu),
   (I.CollisionElasticPdu, CollisionElasticPdu),
   (I.ActionRequestPdu, ActionRequestPdu),
   (I.AcknowledgePdu, AcknowledgePdu),
   (I.DistributedEmissionsFamilyPdu, DistributedEmissionsFamilyPdu),
   (I.SimulationManagementWithReliabilityFamilyPdu, SimulationManagementWithReliabilityFamilyPdu),
   (I.ActionRequestReliablePdu, ActionRequestReliablePdu),
   (I.DesignatorPdu, DesignatorPdu),
   (I.StopFreezePdu, StopFreezePdu),
   (I.EntityStatePdu, EntityStatePdu),
   (I.EntityManagementFamilyPdu, EntityManagementFamilyPdu),
   (I.StartResumePdu, StartResumePdu),
   (I.TransmitterPdu, TransmitterPdu),
   (I.ElectromagneticEmissionsPdu, ElectromagneticEmissionsPdu),
   (I.EmissionSystemBeamRecord, EmissionSystemBeamRecord),
   (I.EmissionSystemRecord, EmissionSystemRecord),
   (I.ResupplyOfferPdu, ResupplyOfferPdu),
   (I.AttributePdu, AttributePdu),
   (I.MinefieldFamilyPdu, MinefieldFamilyPdu),
   (I.SetDataReliablePdu, SetDataReliablePdu),
   (I.EventReportPdu, EventReportPdu),
   (I.PointObjectStatePdu, PointObjectStatePdu),
   (I.DataPdu, DataPdu),
   (I.FastEntityStatePdu, FastEntityStatePdu),
   (I.AcknowledgeReliablePdu, AcknowledgeReliablePdu),
   (I.StartResumeReliablePdu, StartResumeReliablePdu),
   (I.ArealObjectStatePdu, ArealObjectStatePdu),
   (I.DataQueryReliablePdu, DataQueryReliablePdu),
   (I.MinefieldStatePdu, MinefieldStatePdu),
   (I.DataReliablePdu, DataReliablePdu),
   (I.CommentPdu, CommentPdu),
   (I.CommentReliablePdu, CommentReliablePdu),
   (I.DirectedEnergyFirePdu, DirectedEnergyFirePdu),
   (I.DetonationPdu, DetonationPdu),
   (I.SetDataPdu, SetDataPdu),
   (I.RecordQueryReliablePdu, RecordQueryReliablePdu),
   (I.ActionResponsePdu, ActionResponsePdu),
   (I.EntityDamageStatusPdu, EntityDamageStatusPdu),
   (I.FirePdu, FirePdu),
   (I.ReceiverPdu, ReceiverPdu),
   (I.UaPdu, UaPdu),
   (I.IntercomControlPdu, IntercomControlPdu),
   (I.SignalPdu, SignalPdu),
   (I.RemoveEntityReliablePdu, RemoveEntityReliablePdu),
   (I.SeesPdu, SeesPdu),
   (I.CreateEntityReliablePdu, CreateEntityReliablePdu),
   (I.StopFreezeReliablePdu, StopFreezeReliablePdu),
   (I.EventReportReliablePdu, EventReportReliablePdu),
   (I.MinefieldResponseNackPdu, MinefieldResponseNackPdu),
   (I.ActionResponseReliablePdu, ActionResponseReliablePdu),
   (I.IsPartOfPdu, IsPartOfPdu),
   (I.AggregateStatePdu, AggregateStatePdu),
   (I.__module__, Module)]

end Dis.Src
