import Verif.Source.Names

/-!
# The names in the source, spelled

Written by `tools/gensource.py` from the Python source.
-/

namespace Dis.Src

/-- Every name in the source with its number (/repo/opendis). -/
def names : List (String × Ident) :=
  [("protocolVersion", I.protocolVersion),
   ("exerciseID", I.exerciseID),
   ("timestamp", I.timestamp),
   ("length", I.length),
   ("pduType", I.pduType),
   ("protocolFamily", I.protocolFamily),
   ("pduStatus", I.pduStatus),
   ("padding", I.padding),
   ("originatingEntityID", I.originatingEntityID),
   ("receivingEntityID", I.receivingEntityID),
   ("firingEntityID", I.firingEntityID),
   ("targetEntityID", I.targetEntityID),
   ("self", I.self),
   ("__class__", I.__class__),
   ("__init__", I.__init__),
   ("len", I.len),
   ("range", I.range),
   ("list", I.list),
   ("append", I.append),
   ("serialize", I.serialize),
   ("parse", I.parse),
   ("outputStream", I.outputStream),
   ("inputStream", I.inputStream),
   ("marshalledSize", I.marshalledSize),
   ("simulationAddress", I.simulationAddress),
   ("entityNumber", I.entityNumber),
   ("SimulationAddress", I.SimulationAddress),
   ("write_uint16", I.write_uint16),
   ("read_uint16", I.read_uint16),
   ("Record", I.Record),
   ("EntityIdentifier", I.EntityIdentifier),
   ("psi", I.psi),
   ("theta", I.theta),
   ("phi", I.phi),
   ("write_float32", I.write_float32),
   ("read_float32", I.read_float32),
   ("EulerAngles", I.EulerAngles),
   ("eventNumber", I.eventNumber),
   ("write_unsigned_short", I.write_unsigned_short),
   ("read_unsigned_short", I.read_unsigned_short),
   ("EventIdentifier", I.EventIdentifier),
   ("site", I.site),
   ("application", I.application),
   ("x", I.x),
   ("y", I.y),
   ("z", I.z),
   ("write_float", I.write_float),
   ("read_float", I.read_float),
   ("Vector3Float", I.Vector3Float),
   ("write_float64", I.write_float64),
   ("read_float64", I.read_float64),
   ("WorldCoordinates", I.WorldCoordinates),
   ("value", I.value),
   ("int", I.int),
   ("bytelength", I.bytelength),
   ("is_positive_int", I.is_positive_int),
   ("VariableRecord", I.VariableRecord),
   ("recordType", I.recordType),
   ("write_uint32", I.write_uint32),
   ("recordLength", I.recordLength),
   ("StandardVariableRecord", I.StandardVariableRecord),
   ("data", I.data),
   ("write_bytes", I.write_bytes),
   ("read_bytes", I.read_bytes),
   ("UnknownStandardVariableRecord", I.UnknownStandardVariableRecord),
   ("AntennaPatternRecord", I.AntennaPatternRecord),
   ("ModulationParametersRecord", I.ModulationParametersRecord),
   ("UnknownRadio", I.UnknownRadio),
   ("UnknownAntennaPattern", I.UnknownAntennaPattern),
   ("beamDirection", I.beamDirection),
   ("azimuthBeamwidth", I.azimuthBeamwidth),
   ("elevationBeamwidth", I.elevationBeamwidth),
   ("referenceSystem", I.referenceSystem),
   ("ez", I.ez),
   ("ex", I.ex),
   ("phase", I.phase),
   ("padding1", I.padding1),
   ("padding2", I.padding2),
   ("padding3", I.padding3),
   ("write_uint8", I.write_uint8),
   ("read_uint8", I.read_uint8),
   ("read_uint32", I.read_uint32),
   ("BeamAntennaPattern", I.BeamAntennaPattern),
   ("frequencyHopping", I.frequencyHopping),
   ("pseudoNoise", I.pseudoNoise),
   ("timeHopping", I.timeHopping),
   ("_struct", I._struct),
   ("record_bitfield", I.record_bitfield),
   ("bitfield", I.bitfield),
   ("INTEGER", I.INTEGER),
   ("name", I.name),
   ("fields", I.fields),
   ("SpreadSpectrum", I.SpreadSpectrum),
   ("spreadSpectrum", I.spreadSpectrum),
   ("majorModulation", I.majorModulation),
   ("detail", I.detail),
   ("radioSystem", I.radioSystem),
   ("size", I.size),
   ("ModulationType", I.ModulationType),
   ("VariableTransmitterParametersRecord", I.VariableTransmitterParametersRecord),
   ("netNumber", I.netNumber),
   ("frequencyTable", I.frequencyTable),
   ("mode", I.mode),
   ("NetId", I.NetId),
   ("GenericRadio", I.GenericRadio),
   ("SimpleIntercomRadio", I.SimpleIntercomRadio),
   ("net_id", I.net_id),
   ("mwod_index", I.mwod_index),
   ("reserved16", I.reserved16),
   ("reserved8_1", I.reserved8_1),
   ("reserved8_2", I.reserved8_2),
   ("time_of_day", I.time_of_day),
   ("BasicHaveQuickMP", I.BasicHaveQuickMP),
   ("fh_net_id", I.fh_net_id),
   ("hop_set_id", I.hop_set_id),
   ("lockout_set_id", I.lockout_set_id),
   ("start_of_message", I.start_of_message),
   ("clear_channel", I.clear_channel),
   ("fh_sync_time_offset", I.fh_sync_time_offset),
   ("transmission_security_key", I.transmission_security_key),
   ("CCTTSincgarsMP", I.CCTTSincgarsMP),
   ("netId", I.netId),
   ("todTransmitIndicator", I.todTransmitIndicator),
   ("todDelta", I.todDelta),
   ("wod1", I.wod1),
   ("wod2", I.wod2),
   ("wod3", I.wod3),
   ("wod4", I.wod4),
   ("wod5", I.wod5),
   ("wod6", I.wod6),
   ("HighFidelityHAVEQUICKRadio", I.HighFidelityHAVEQUICKRadio),
   ("DamageDescriptionRecord", I.DamageDescriptionRecord),
   ("damageLocation", I.damageLocation),
   ("damageDiameter", I.damageDiameter),
   ("temperature", I.temperature),
   ("componentIdentification", I.componentIdentification),
   ("componentDamageStatus", I.componentDamageStatus),
   ("componentVisualDamageStatus", I.componentVisualDamageStatus),
   ("componentVisualSmokeColor", I.componentVisualSmokeColor),
   ("fireEventID", I.fireEventID),
   ("DirectedEnergyDamage", I.DirectedEnergyDamage),
   ("beamAntennaPatterns", I.beamAntennaPatterns),
   ("directedEnergyTargetEnergyDepositions", I.directedEnergyTargetEnergyDepositions),
   ("record", I.record),
   ("beamAntennaPatternCount", I.beamAntennaPatternCount),
   ("directedEnergyTargetEnergyDepositionCount", I.directedEnergyTargetEnergyDepositionCount),
   ("_", I.«_»),
   ("DirectedEnergyTargetEnergyDeposition", I.DirectedEnergyTargetEnergyDeposition),
   ("DirectedEnergyAreaAimpoint", I.DirectedEnergyAreaAimpoint),
   ("targetSpotLocation", I.targetSpotLocation),
   ("targetSpotEntityLocation", I.targetSpotEntityLocation),
   ("targetSpotVelocity", I.targetSpotVelocity),
   ("targetSpotAcceleration", I.targetSpotAcceleration),
   ("targetComponentID", I.targetComponentID),
   ("beamSpotType", I.beamSpotType),
   ("beamSpotCrossSectionSemiMajorAxis", I.beamSpotCrossSectionSemiMajorAxis),
   ("beamSpotCrossSectionSemiMinorAxis", I.beamSpotCrossSectionSemiMinorAxis),
   ("beamSpotCrossSectionOrientationAngle", I.beamSpotCrossSectionOrientationAngle),
   ("peakIrradiance", I.peakIrradiance),
   ("DirectedEnergyPrecisionAimpoint", I.DirectedEnergyPrecisionAimpoint),
   ("weaponOn", I.weaponOn),
   ("stateUpdateFlag", I.stateUpdateFlag),
   ("DEFireFlags", I.DEFireFlags),
   ("fixedDatumIDs", I.fixedDatumIDs),
   ("variableDatumIDs", I.variableDatumIDs),
   ("numberOfFixedDatumIDs", I.numberOfFixedDatumIDs),
   ("write_unsigned_int", I.write_unsigned_int),
   ("numberOfVariableDatumIDs", I.numberOfVariableDatumIDs),
   ("datumID", I.datumID),
   ("read_unsigned_int", I.read_unsigned_int),
   ("idx", I.idx),
   ("DataQueryDatumSpecification", I.DataQueryDatumSpecification),
   ("siteNumber", I.siteNumber),
   ("applicationNumber", I.applicationNumber),
   ("referenceNumber", I.referenceNumber),
   ("radioNumber", I.radioNumber),
   ("RadioIdentifier", I.RadioIdentifier),
   ("requestID", I.requestID),
   ("RequestID", I.RequestID),
   ("iffData", I.iffData),
   ("anObj", I.anObj),
   ("write_unsigned_byte", I.write_unsigned_byte),
   ("val", I.val),
   ("read_unsigned_byte", I.read_unsigned_byte),
   ("IFFData", I.IFFData),
   ("munitionType", I.munitionType),
   ("warhead", I.warhead),
   ("fuse", I.fuse),
   ("quantity", I.quantity),
   ("rate", I.rate),
   ("EntityType", I.EntityType),
   ("MunitionDescriptor", I.MunitionDescriptor),
   ("sensorType", I.sensorType),
   ("MinefieldSensorType", I.MinefieldSensorType),
   ("groupNumber", I.groupNumber),
   ("GroupID", I.GroupID),
   ("layerNumber", I.layerNumber),
   ("layerSpecificInformation", I.layerSpecificInformation),
   ("LayerHeader", I.LayerHeader),
   ("UnsignedDISInteger", I.UnsignedDISInteger),
   ("deadReckoningAlgorithm", I.deadReckoningAlgorithm),
   ("parameters", I.parameters),
   ("entityLinearAcceleration", I.entityLinearAcceleration),
   ("entityAngularVelocity", I.entityAngularVelocity),
   ("DeadReckoningParameters", I.DeadReckoningParameters),
   ("protocolMode", I.protocolMode),
   ("ProtocolMode", I.ProtocolMode),
   ("emitterNumber", I.emitterNumber),
   ("beamNumber", I.beamNumber),
   ("stateIndicator", I.stateIndicator),
   ("azimuthOffset", I.azimuthOffset),
   ("azimuthWidth", I.azimuthWidth),
   ("azimuthPullRate", I.azimuthPullRate),
   ("azimuthPullAcceleration", I.azimuthPullAcceleration),
   ("elevationOffset", I.elevationOffset),
   ("elevationWidth", I.elevationWidth),
   ("elevationPullRate", I.elevationPullRate),
   ("elevationPullAcceleration", I.elevationPullAcceleration),
   ("AngleDeception", I.AngleDeception),
   ("changeIndicator", I.changeIndicator),
   ("associationStatus", I.associationStatus),
   ("associationType", I.associationType),
   ("entityID", I.entityID),
   ("ownStationLocation", I.ownStationLocation),
   ("physicalConnectionType", I.physicalConnectionType),
   ("groupMemberType", I.groupMemberType),
   ("EntityAssociation", I.EntityAssociation),
   ("horizontalDeflectionAngle", I.horizontalDeflectionAngle),
   ("verticalDeflectionAngle", I.verticalDeflectionAngle),
   ("VectoringNozzleSystem", I.VectoringNozzleSystem),
   ("falseTargetCount", I.falseTargetCount),
   ("walkSpeed", I.walkSpeed),
   ("walkAcceleration", I.walkAcceleration),
   ("maximumWalkDistance", I.maximumWalkDistance),
   ("keepTime", I.keepTime),
   ("echoSpacing", I.echoSpacing),
   ("FalseTargetsAttribute", I.FalseTargetsAttribute),
   ("minefieldNumber", I.minefieldNumber),
   ("MinefieldIdentifier", I.MinefieldIdentifier),
   ("domain", I.domain),
   ("country", I.country),
   ("category", I.category),
   ("subcategory", I.subcategory),
   ("specific", I.specific),
   ("extra", I.extra),
   ("entityKind", I.entityKind),
   ("RadioType", I.RadioType),
   ("stationName", I.stationName),
   ("stationNumber", I.stationNumber),
   ("NamedLocationIdentification", I.NamedLocationIdentification),
   ("iffDataRecords", I.iffDataRecords),
   ("numberOfIFFDataRecords", I.numberOfIFFDataRecords),
   ("element", I.element),
   ("IFFDataSpecification", I.IFFDataSpecification),
   ("entityId", I.entityId),
   ("ownershipStatus", I.ownershipStatus),
   ("OwnershipStatus", I.OwnershipStatus),
   ("detachedIndicator", I.detachedIndicator),
   ("partAttachedTo", I.partAttachedTo),
   ("parameterType", I.parameterType),
   ("attachedPartType", I.attachedPartType),
   ("parameterValue", I.parameterValue),
   ("write_long", I.write_long),
   ("read_long", I.read_long),
   ("AttachedParts", I.AttachedParts),
   ("recordSpecificFields", I.recordSpecificFields),
   ("Attribute", I.Attribute),
   ("recordIDs", I.recordIDs),
   ("numberOfRecords", I.numberOfRecords),
   ("RecordQuerySpecification", I.RecordQuerySpecification),
   ("ArticulatedParts", I.ArticulatedParts),
   ("objectKind", I.objectKind),
   ("ObjectType", I.ObjectType),
   ("associatedEntityID", I.associatedEntityID),
   ("associatedLocation", I.associatedLocation),
   ("padding4", I.padding4),
   ("Association", I.Association),
   ("recordID", I.recordID),
   ("recordSetSerialNumber", I.recordSetSerialNumber),
   ("recordCount", I.recordCount),
   ("recordValues", I.recordValues),
   ("pad4", I.pad4),
   ("RecordSpecificationElement", I.RecordSpecificationElement),
   ("antennaLocation", I.antennaLocation),
   ("relativeAntennaLocation", I.relativeAntennaLocation),
   ("AntennaLocation", I.AntennaLocation),
   ("objectNumber", I.objectNumber),
   ("ObjectIdentifier", I.ObjectIdentifier),
   ("aggregateID", I.aggregateID),
   ("AggregateIdentifier", I.AggregateIdentifier),
   ("fixedDatumID", I.fixedDatumID),
   ("fixedDatumValue", I.fixedDatumValue),
   ("FixedDatum", I.FixedDatum),
   ("variableParameterFields1", I.variableParameterFields1),
   ("variableParameterFields2", I.variableParameterFields2),
   ("variableParameterFields3", I.variableParameterFields3),
   ("variableParameterFields4", I.variableParameterFields4),
   ("write_double", I.write_double),
   ("read_double", I.read_double),
   ("VariableParameter", I.VariableParameter),
   ("ChangeOptions", I.ChangeOptions),
   ("liveSiteNumber", I.liveSiteNumber),
   ("liveApplicationNumber", I.liveApplicationNumber),
   ("LiveSimulationAddress", I.LiveSimulationAddress),
   ("characterSet", I.characterSet),
   ("characters", I.characters),
   ("new_str", I.new_str),
   ("ord", I.ord),
   ("filter", I.filter),
   ("bytes", I.bytes),
   ("decode", I.decode),
   ("write_byte", I.write_byte),
   ("read_byte", I.read_byte),
   ("setString", I.setString),
   ("charactersString", I.charactersString),
   ("EntityMarking", I.EntityMarking),
   ("activeEmissionParameterIndex", I.activeEmissionParameterIndex),
   ("scanPattern", I.scanPattern),
   ("beamCenterAzimuthHorizontal", I.beamCenterAzimuthHorizontal),
   ("azimuthBeamwidthHorizontal", I.azimuthBeamwidthHorizontal),
   ("beamCenterDepressionElevation", I.beamCenterDepressionElevation),
   ("beamwidthDownElevation", I.beamwidthDownElevation),
   ("azimuthalBeamwidthHorizontal", I.azimuthalBeamwidthHorizontal),
   ("UAFundamentalParameter", I.UAFundamentalParameter),
   ("explodingObject", I.explodingObject),
   ("explosiveMaterial", I.explosiveMaterial),
   ("explosiveForce", I.explosiveForce),
   ("ExplosionDescriptor", I.ExplosionDescriptor),
   ("hour", I.hour),
   ("timePastHour", I.timePastHour),
   ("ClockTime", I.ClockTime),
   ("operationalData1", I.operationalData1),
   ("operationalData2", I.operationalData2),
   ("numberOfIFFFundamentalParameterRecords", I.numberOfIFFFundamentalParameterRecords),
   ("SecondaryOperationalData", I.SecondaryOperationalData),
   ("entityClass", I.entityClass),
   ("EnvironmentType", I.EnvironmentType),
   ("totalRecordSets", I.totalRecordSets),
   ("TotalRecordSets", I.TotalRecordSets),
   ("mineEntityNumber", I.mineEntityNumber),
   ("MineEntityIdentifier", I.MineEntityIdentifier),
   ("nature", I.nature),
   ("position", I.position),
   ("Relationship", I.Relationship),
   ("frequency", I.frequency),
   ("frequencyRange", I.frequencyRange),
   ("effectiveRadiatedPower", I.effectiveRadiatedPower),
   ("pulseRepetitionFrequency", I.pulseRepetitionFrequency),
   ("pulseWidth", I.pulseWidth),
   ("beamAzimuthCenter", I.beamAzimuthCenter),
   ("beamAzimuthSweep", I.beamAzimuthSweep),
   ("beamElevationCenter", I.beamElevationCenter),
   ("beamElevationSweep", I.beamElevationSweep),
   ("beamSweepSync", I.beamSweepSync),
   ("EEFundamentalParameterData", I.EEFundamentalParameterData),
   ("kind", I.kind),
   ("JammingTechnique", I.JammingTechnique),
   ("fixedDatumRecords", I.fixedDatumRecords),
   ("variableDatumRecords", I.variableDatumRecords),
   ("numberOfFixedDatumRecords", I.numberOfFixedDatumRecords),
   ("numberOfVariableDatumRecords", I.numberOfVariableDatumRecords),
   ("VariableDatum", I.VariableDatum),
   ("DatumSpecification", I.DatumSpecification),
   ("expendable", I.expendable),
   ("station", I.station),
   ("expendableStatus", I.expendableStatus),
   ("Expendable", I.Expendable),
   ("communicationsNodeType", I.communicationsNodeType),
   ("communicationsNodeID", I.communicationsNodeID),
   ("communcationsNodeType", I.communcationsNodeType),
   ("CommunicationsNodeID", I.CommunicationsNodeID),
   ("IOCommunicationsNode", I.IOCommunicationsNode),
   ("segmentNumber", I.segmentNumber),
   ("segmentModification", I.segmentModification),
   ("generalSegmentAppearance", I.generalSegmentAppearance),
   ("specificSegmentAppearance", I.specificSegmentAppearance),
   ("segmentLocation", I.segmentLocation),
   ("segmentOrientation", I.segmentOrientation),
   ("segmentLength", I.segmentLength),
   ("segmentWidth", I.segmentWidth),
   ("segmentHeight", I.segmentHeight),
   ("segmentDepth", I.segmentDepth),
   ("LinearSegmentParameter", I.LinearSegmentParameter),
   ("systemType", I.systemType),
   ("systemName", I.systemName),
   ("systemMode", I.systemMode),
   ("changeOptions", I.changeOptions),
   ("SystemIdentifier", I.SystemIdentifier),
   ("TrackJamData", I.TrackJamData),
   ("aggregateKind", I.aggregateKind),
   ("specificInfo", I.specificInfo),
   ("AggregateType", I.AggregateType),
   ("pduHeader", I.pduHeader),
   ("originatingID", I.originatingID),
   ("receivingID", I.receivingID),
   ("PduHeader", I.PduHeader),
   ("SimulationIdentifier", I.SimulationIdentifier),
   ("SimulationManagementPduHeader", I.SimulationManagementPduHeader),
   ("BeamData", I.BeamData),
   ("fuelQuantity", I.fuelQuantity),
   ("fuelMeasurementUnits", I.fuelMeasurementUnits),
   ("fuelType", I.fuelType),
   ("fuelLocation", I.fuelLocation),
   ("EngineFuel", I.EngineFuel),
   ("ioStatus", I.ioStatus),
   ("ioLinkType", I.ioLinkType),
   ("ioEffect", I.ioEffect),
   ("ioEffectDutyCycle", I.ioEffectDutyCycle),
   ("ioEffectDuration", I.ioEffectDuration),
   ("ioProcess", I.ioProcess),
   ("IOEffect", I.IOEffect),
   ("domainInitialXi", I.domainInitialXi),
   ("domainFinalXi", I.domainFinalXi),
   ("domainPointsXi", I.domainPointsXi),
   ("interleafFactor", I.interleafFactor),
   ("axisType", I.axisType),
   ("numberOfPointsOnXiAxis", I.numberOfPointsOnXiAxis),
   ("initialIndex", I.initialIndex),
   ("coordinateScaleXi", I.coordinateScaleXi),
   ("coordinateOffsetXi", I.coordinateOffsetXi),
   ("xiValues", I.xiValues),
   ("null", I.null),
   ("GridAxisDescriptorVariable", I.GridAxisDescriptorVariable),
   ("supplyType", I.supplyType),
   ("SupplyQuantity", I.SupplyQuantity),
   ("numberOfEntities", I.numberOfEntities),
   ("entityType", I.entityType),
   ("appearanceRecordList", I.appearanceRecordList),
   ("numberOfAppearanceRecords", I.numberOfAppearanceRecords),
   ("SilentEntitySystem", I.SilentEntitySystem),
   ("numberOfAggregates", I.numberOfAggregates),
   ("aggregateType", I.aggregateType),
   ("SilentAggregateSystem", I.SilentAggregateSystem),
   ("leftAzimuth", I.leftAzimuth),
   ("rightAzimuth", I.rightAzimuth),
   ("lowerElevation", I.lowerElevation),
   ("upperElevation", I.upperElevation),
   ("residualPower", I.residualPower),
   ("write_int", I.write_int),
   ("read_int", I.read_int),
   ("BlankingSector", I.BlankingSector),
   ("targetLocation", I.targetLocation),
   ("LaunchedMunitionRecord", I.LaunchedMunitionRecord),
   ("erp", I.erp),
   ("pgrf", I.pgrf),
   ("burstLength", I.burstLength),
   ("applicableModes", I.applicableModes),
   ("systemSpecificData", I.systemSpecificData),
   ("IFFFundamentalParameterData", I.IFFFundamentalParameterData),
   ("systemStatus", I.systemStatus),
   ("dataField1", I.dataField1),
   ("informationLayers", I.informationLayers),
   ("dataField2", I.dataField2),
   ("parameter1", I.parameter1),
   ("parameter2", I.parameter2),
   ("parameter3", I.parameter3),
   ("parameter4", I.parameter4),
   ("parameter5", I.parameter5),
   ("parameter6", I.parameter6),
   ("FundamentalOperationalData", I.FundamentalOperationalData),
   ("recordSpecificField", I.recordSpecificField),
   ("IntercomCommunicationsParameters", I.IntercomCommunicationsParameters),
   ("munitionStatus", I.munitionStatus),
   ("Munition", I.Munition),
   ("standardVariables", I.standardVariables),
   ("numberOfStandardVariableRecords", I.numberOfStandardVariableRecords),
   ("StandardVariableSpecification", I.StandardVariableSpecification),
   ("Vector2Float", I.Vector2Float),
   ("environmentType", I.environmentType),
   ("index", I.index),
   ("padding0", I.padding0),
   ("Environment", I.Environment),
   ("acousticSystemName", I.acousticSystemName),
   ("acousticFunction", I.acousticFunction),
   ("acousticIDNumber", I.acousticIDNumber),
   ("AcousticEmitter", I.AcousticEmitter),
   ("AngularVelocityVector", I.AngularVelocityVector),
   ("AggregateMarking", I.AggregateMarking),
   ("bitFlags", I.bitFlags),
   ("DataFilterRecord", I.DataFilterRecord),
   ("intercomNumber", I.intercomNumber),
   ("IntercomIdentifier", I.IntercomIdentifier),
   ("StorageFuel", I.StorageFuel),
   ("sensorTypeSource", I.sensorTypeSource),
   ("sensorOnOffStatus", I.sensorOnOffStatus),
   ("Sensor", I.Sensor),
   ("standardQuantity", I.standardQuantity),
   ("maximumQuantity", I.maximumQuantity),
   ("standardQuantityReloadTime", I.standardQuantityReloadTime),
   ("maximumQuantityReloadTime", I.maximumQuantityReloadTime),
   ("MunitionReload", I.MunitionReload),
   ("StorageFuelReload", I.StorageFuelReload),
   ("ExpendableReload", I.ExpendableReload),
   ("fuelMeasurmentUnits", I.fuelMeasurmentUnits),
   ("EngineFuelReload", I.EngineFuelReload),
   ("UnattachedIdentifier", I.UnattachedIdentifier),
   ("EntityTypeVP", I.EntityTypeVP),
   ("beamState", I.beamState),
   ("BeamStatus", I.BeamStatus),
   ("geometry", I.geometry),
   ("EnvironmentGeneral", I.EnvironmentGeneral),
   ("GridAxis", I.GridAxis),
   ("recordSets", I.recordSets),
   ("numberOfRecordSets", I.numberOfRecordSets),
   ("RecordSpecification", I.RecordSpecification),
   ("variableDatumID", I.variableDatumID),
   ("variableDatumLength", I.variableDatumLength),
   ("variableData", I.variableData),
   ("remainder", I.remainder),
   ("datumPaddingSizeInBits", I.datumPaddingSizeInBits),
   ("EventIdentifierLiveEntity", I.EventIdentifierLiveEntity),
   ("pduLength", I.pduLength),
   ("PduSuperclass", I.PduSuperclass),
   ("elementID", I.elementID),
   ("expendableType", I.expendableType),
   ("ExpendableDescriptor", I.ExpendableDescriptor),
   ("powerSetting", I.powerSetting),
   ("engineRpm", I.engineRpm),
   ("PropulsionSystemData", I.PropulsionSystemData),
   ("liveSimulationAddress", I.liveSimulationAddress),
   ("LiveEntityIdentifier", I.LiveEntityIdentifier),
   ("reasonForSeparation", I.reasonForSeparation),
   ("preEntityIndicator", I.preEntityIndicator),
   ("parentEntityID", I.parentEntityID),
   ("stationLocation", I.stationLocation),
   ("SeparationVP", I.SeparationVP),
   ("emitterName", I.emitterName),
   ("emitterFunction", I.emitterFunction),
   ("emitterIDNumber", I.emitterIDNumber),
   ("EmitterSystem", I.EmitterSystem),
   ("PduStatus", I.PduStatus),
   ("subprotocolNumber", I.subprotocolNumber),
   ("LiveEntityPdu", I.LiveEntityPdu),
   ("Pdu", I.Pdu),
   ("EntityInformationFamilyPdu", I.EntityInformationFamilyPdu),
   ("LogisticsFamilyPdu", I.LogisticsFamilyPdu),
   ("entityLinearVelocity", I.entityLinearVelocity),
   ("entityLocation", I.entityLocation),
   ("entityOrientation", I.entityOrientation),
   ("entityAppearance", I.entityAppearance),
   ("variableParameters", I.variableParameters),
   ("EntityStateUpdatePdu", I.EntityStateUpdatePdu),
   ("numberOfVariableParameters", I.numberOfVariableParameters),
   ("requestingEntityID", I.requestingEntityID),
   ("servicingEntityID", I.servicingEntityID),
   ("serviceTypeRequested", I.serviceTypeRequested),
   ("supplies", I.supplies),
   ("ServiceRequestPdu", I.ServiceRequestPdu),
   ("serviceRequestPadding", I.serviceRequestPadding),
   ("numberOfSupplyTypes", I.numberOfSupplyTypes),
   ("write_short", I.write_short),
   ("read_short", I.read_short),
   ("repairingEntityID", I.repairingEntityID),
   ("repair", I.repair),
   ("RepairCompletePdu", I.RepairCompletePdu),
   ("SyntheticEnvironmentFamilyPdu", I.SyntheticEnvironmentFamilyPdu),
   ("issuingEntityID", I.issuingEntityID),
   ("collidingEntityID", I.collidingEntityID),
   ("eventID", I.eventID),
   ("collisionType", I.collisionType),
   ("velocity", I.velocity),
   ("mass", I.mass),
   ("location", I.location),
   ("CollisionPdu", I.CollisionPdu),
   ("pad", I.pad),
   ("repairResult", I.repairResult),
   ("RepairResponsePdu", I.RepairResponsePdu),
   ("SimulationManagementFamilyPdu", I.SimulationManagementFamilyPdu),
   ("timeInterval", I.timeInterval),
   ("DataQueryPdu", I.DataQueryPdu),
   ("_dataQuery", I._dataQuery),
   ("objectID", I.objectID),
   ("referencedObjectID", I.referencedObjectID),
   ("updateNumber", I.updateNumber),
   ("forceID", I.forceID),
   ("requesterID", I.requesterID),
   ("objectType", I.objectType),
   ("linearSegmentParameters", I.linearSegmentParameters),
   ("LinearObjectStatePdu", I.LinearObjectStatePdu),
   ("numberOfSegments", I.numberOfSegments),
   ("CreateEntityPdu", I.CreateEntityPdu),
   ("RadioCommunicationsFamilyPdu", I.RadioCommunicationsFamilyPdu),
   ("communicationsDeviceID", I.communicationsDeviceID),
   ("encodingScheme", I.encodingScheme),
   ("tdlType", I.tdlType),
   ("sampleRate", I.sampleRate),
   ("samples", I.samples),
   ("IntercomSignalPdu", I.IntercomSignalPdu),
   ("dataLength", I.dataLength),
   ("RemoveEntityPdu", I.RemoveEntityPdu),
   ("supplyingEntityID", I.supplyingEntityID),
   ("ResupplyReceivedPdu", I.ResupplyReceivedPdu),
   ("WarfareFamilyPdu", I.WarfareFamilyPdu),
   ("collisionEventID", I.collisionEventID),
   ("contactVelocity", I.contactVelocity),
   ("locationOfImpact", I.locationOfImpact),
   ("collisionIntermediateResultXX", I.collisionIntermediateResultXX),
   ("collisionIntermediateResultXY", I.collisionIntermediateResultXY),
   ("collisionIntermediateResultXZ", I.collisionIntermediateResultXZ),
   ("collisionIntermediateResultYY", I.collisionIntermediateResultYY),
   ("collisionIntermediateResultYZ", I.collisionIntermediateResultYZ),
   ("collisionIntermediateResultZZ", I.collisionIntermediateResultZZ),
   ("unitSurfaceNormal", I.unitSurfaceNormal),
   ("coefficientOfRestitution", I.coefficientOfRestitution),
   ("CollisionElasticPdu", I.CollisionElasticPdu),
   ("actionID", I.actionID),
   ("ActionRequestPdu", I.ActionRequestPdu),
   ("_datums", I._datums),
   ("acknowledgeFlag", I.acknowledgeFlag),
   ("responseFlag", I.responseFlag),
   ("AcknowledgePdu", I.AcknowledgePdu),
   ("DistributedEmissionsFamilyPdu", I.DistributedEmissionsFamilyPdu),
   ("SimulationManagementWithReliabilityFamilyPdu", I.SimulationManagementWithReliabilityFamilyPdu),
   ("requiredReliabilityService", I.requiredReliabilityService),
   ("ActionRequestReliablePdu", I.ActionRequestReliablePdu),
   ("pad1", I.pad1),
   ("pad2", I.pad2),
   ("pad3", I.pad3),
   ("designatingEntityID", I.designatingEntityID),
   ("codeName", I.codeName),
   ("designatedEntityID", I.designatedEntityID),
   ("designatorCode", I.designatorCode),
   ("designatorPower", I.designatorPower),
   ("designatorWavelength", I.designatorWavelength),
   ("designatorSpotWrtDesignated", I.designatorSpotWrtDesignated),
   ("designatorSpotLocation", I.designatorSpotLocation),
   ("DesignatorPdu", I.DesignatorPdu),
   ("realWorldTime", I.realWorldTime),
   ("reason", I.reason),
   ("frozenBehavior", I.frozenBehavior),
   ("StopFreezePdu", I.StopFreezePdu),
   ("forceId", I.forceId),
   ("alternativeEntityType", I.alternativeEntityType),
   ("deadReckoningParameters", I.deadReckoningParameters),
   ("marking", I.marking),
   ("capabilities", I.capabilities),
   ("EntityStatePdu", I.EntityStatePdu),
   ("EntityManagementFamilyPdu", I.EntityManagementFamilyPdu),
   ("simulationTime", I.simulationTime),
   ("StartResumePdu", I.StartResumePdu),
   ("radioReferenceID", I.radioReferenceID),
   ("radioEntityType", I.radioEntityType),
   ("transmitState", I.transmitState),
   ("inputSource", I.inputSource),
   ("antennaPatternType", I.antennaPatternType),
   ("transmitFrequencyBandwidth", I.transmitFrequencyBandwidth),
   ("power", I.power),
   ("modulationType", I.modulationType),
   ("cryptoSystem", I.cryptoSystem),
   ("cryptoKeyId", I.cryptoKeyId),
   ("modulationParameters", I.modulationParameters),
   ("antennaPattern", I.antennaPattern),
   ("variableTransmitterParameters", I.variableTransmitterParameters),
   ("TransmitterPdu", I.TransmitterPdu),
   ("variableTransmitterParameterCount", I.variableTransmitterParameterCount),
   ("antennaPatternLength", I.antennaPatternLength),
   ("write_uint64", I.write_uint64),
   ("modulationParametersLength", I.modulationParametersLength),
   ("vtp", I.vtp),
   ("read_uint64", I.read_uint64),
   ("radio", I.radio),
   ("parseStandardVariableRecord", I.parseStandardVariableRecord),
   ("emittingEntityID", I.emittingEntityID),
   ("stateUpdateIndicator", I.stateUpdateIndicator),
   ("systems", I.systems),
   ("ElectromagneticEmissionsPdu", I.ElectromagneticEmissionsPdu),
   ("paddingForEmissionsPdu", I.paddingForEmissionsPdu),
   ("numberOfSystems", I.numberOfSystems),
   ("EmissionSystemRecord", I.EmissionSystemRecord),
   ("beamDataLength", I.beamDataLength),
   ("beamIDNumber", I.beamIDNumber),
   ("beamParameterIndex", I.beamParameterIndex),
   ("fundamentalParameterData", I.fundamentalParameterData),
   ("beamFunction", I.beamFunction),
   ("highDensityTrackJam", I.highDensityTrackJam),
   ("beamStatus", I.beamStatus),
   ("jammingModeSequence", I.jammingModeSequence),
   ("trackJamRecords", I.trackJamRecords),
   ("numberOfTargetsInTrackJam", I.numberOfTargetsInTrackJam),
   ("EmissionSystemBeamRecord", I.EmissionSystemBeamRecord),
   ("systemDataLength", I.systemDataLength),
   ("emitterSystem", I.emitterSystem),
   ("beamRecords", I.beamRecords),
   ("numberOfBeams", I.numberOfBeams),
   ("ResupplyOfferPdu", I.ResupplyOfferPdu),
   ("originatingSimulationAddress", I.originatingSimulationAddress),
   ("attributeRecordPduType", I.attributeRecordPduType),
   ("attributeRecordProtocolVersion", I.attributeRecordProtocolVersion),
   ("masterAttributeRecordType", I.masterAttributeRecordType),
   ("actionCode", I.actionCode),
   ("numberOfAttributeRecordSets", I.numberOfAttributeRecordSets),
   ("AttributePdu", I.AttributePdu),
   ("MinefieldFamilyPdu", I.MinefieldFamilyPdu),
   ("SetDataReliablePdu", I.SetDataReliablePdu),
   ("eventType", I.eventType),
   ("EventReportPdu", I.EventReportPdu),
   ("modifications", I.modifications),
   ("objectLocation", I.objectLocation),
   ("objectOrientation", I.objectOrientation),
   ("objectAppearance", I.objectAppearance),
   ("PointObjectStatePdu", I.PointObjectStatePdu),
   ("DataPdu", I.DataPdu),
   ("entity", I.entity),
   ("altEntityKind", I.altEntityKind),
   ("altDomain", I.altDomain),
   ("altCountry", I.altCountry),
   ("altCategory", I.altCategory),
   ("altSubcategory", I.altSubcategory),
   ("altSpecific", I.altSpecific),
   ("altExtra", I.altExtra),
   ("xVelocity", I.xVelocity),
   ("yVelocity", I.yVelocity),
   ("zVelocity", I.zVelocity),
   ("xLocation", I.xLocation),
   ("yLocation", I.yLocation),
   ("zLocation", I.zLocation),
   ("otherParameters", I.otherParameters),
   ("xAcceleration", I.xAcceleration),
   ("yAcceleration", I.yAcceleration),
   ("zAcceleration", I.zAcceleration),
   ("xAngularVelocity", I.xAngularVelocity),
   ("yAngularVelocity", I.yAngularVelocity),
   ("zAngularVelocity", I.zAngularVelocity),
   ("FastEntityStatePdu", I.FastEntityStatePdu),
   ("AcknowledgeReliablePdu", I.AcknowledgeReliablePdu),
   ("StartResumeReliablePdu", I.StartResumeReliablePdu),
   ("specificObjectAppearance", I.specificObjectAppearance),
   ("generalObjectAppearance", I.generalObjectAppearance),
   ("ArealObjectStatePdu", I.ArealObjectStatePdu),
   ("numberOfPoints", I.numberOfPoints),
   ("DataQueryReliablePdu", I.DataQueryReliablePdu),
   ("minefieldID", I.minefieldID),
   ("minefieldSequence", I.minefieldSequence),
   ("minefieldType", I.minefieldType),
   ("minefieldLocation", I.minefieldLocation),
   ("minefieldOrientation", I.minefieldOrientation),
   ("appearance", I.appearance),
   ("perimeterPoints", I.perimeterPoints),
   ("mineTypes", I.mineTypes),
   ("MinefieldStatePdu", I.MinefieldStatePdu),
   ("numberOfPerimeterPoints", I.numberOfPerimeterPoints),
   ("numberOfMineTypes", I.numberOfMineTypes),
   ("DataReliablePdu", I.DataReliablePdu),
   ("CommentPdu", I.CommentPdu),
   ("CommentReliablePdu", I.CommentReliablePdu),
   ("shotStartTime", I.shotStartTime),
   ("cumulativeShotTime", I.cumulativeShotTime),
   ("apertureEmitterLocation", I.apertureEmitterLocation),
   ("apertureDiameter", I.apertureDiameter),
   ("wavelength", I.wavelength),
   ("flags", I.flags),
   ("pulseShape", I.pulseShape),
   ("dERecords", I.dERecords),
   ("DirectedEnergyFirePdu", I.DirectedEnergyFirePdu),
   ("commulativeShotTime", I.commulativeShotTime),
   ("numberOfDERecords", I.numberOfDERecords),
   ("explodingEntityID", I.explodingEntityID),
   ("descriptor", I.descriptor),
   ("locationInEntityCoordinates", I.locationInEntityCoordinates),
   ("detonationResult", I.detonationResult),
   ("DetonationPdu", I.DetonationPdu),
   ("SetDataPdu", I.SetDataPdu),
   ("time", I.time),
   ("RecordQueryReliablePdu", I.RecordQueryReliablePdu),
   ("requestStatus", I.requestStatus),
   ("ActionResponsePdu", I.ActionResponsePdu),
   ("damagedEntityID", I.damagedEntityID),
   ("damageDescriptions", I.damageDescriptions),
   ("EntityDamageStatusPdu", I.EntityDamageStatusPdu),
   ("damageDescriptionCount", I.damageDescriptionCount),
   ("munitionExpendableID", I.munitionExpendableID),
   ("fireMissionIndex", I.fireMissionIndex),
   ("range_", I.range_),
   ("FirePdu", I.FirePdu),
   ("receiverState", I.receiverState),
   ("receivedPower", I.receivedPower),
   ("transmitterEntityID", I.transmitterEntityID),
   ("transmitterRadioId", I.transmitterRadioId),
   ("ReceiverPdu", I.ReceiverPdu),
   ("stateChangeIndicator", I.stateChangeIndicator),
   ("passiveParameterIndex", I.passiveParameterIndex),
   ("propulsionPlantConfiguration", I.propulsionPlantConfiguration),
   ("shaftRPMs", I.shaftRPMs),
   ("apaData", I.apaData),
   ("emitterSystems", I.emitterSystems),
   ("UaPdu", I.UaPdu),
   ("numberOfShafts", I.numberOfShafts),
   ("numberOfAPAs", I.numberOfAPAs),
   ("numberOfUAEmitterSystems", I.numberOfUAEmitterSystems),
   ("controlType", I.controlType),
   ("communicationsChannelType", I.communicationsChannelType),
   ("sourceEntityID", I.sourceEntityID),
   ("sourceCommunicationsDeviceID", I.sourceCommunicationsDeviceID),
   ("sourceLineID", I.sourceLineID),
   ("transmitPriority", I.transmitPriority),
   ("transmitLineState", I.transmitLineState),
   ("command", I.command),
   ("masterEntityID", I.masterEntityID),
   ("masterCommunicationsDeviceID", I.masterCommunicationsDeviceID),
   ("intercomParameters", I.intercomParameters),
   ("IntercomControlPdu", I.IntercomControlPdu),
   ("intercomParametersLength", I.intercomParametersLength),
   ("radioID", I.radioID),
   ("SignalPdu", I.SignalPdu),
   ("b", I.b),
   ("RemoveEntityReliablePdu", I.RemoveEntityReliablePdu),
   ("infraredSignatureRepresentationIndex", I.infraredSignatureRepresentationIndex),
   ("acousticSignatureRepresentationIndex", I.acousticSignatureRepresentationIndex),
   ("radarCrossSectionSignatureRepresentationIndex", I.radarCrossSectionSignatureRepresentationIndex),
   ("propulsionSystemData", I.propulsionSystemData),
   ("vectoringSystemData", I.vectoringSystemData),
   ("SeesPdu", I.SeesPdu),
   ("orginatingEntityID", I.orginatingEntityID),
   ("numberOfPropulsionSystems", I.numberOfPropulsionSystems),
   ("numberOfVectoringNozzleSystems", I.numberOfVectoringNozzleSystems),
   ("CreateEntityReliablePdu", I.CreateEntityReliablePdu),
   ("StopFreezeReliablePdu", I.StopFreezeReliablePdu),
   ("requiredReliablityService", I.requiredReliablityService),
   ("EventReportReliablePdu", I.EventReportReliablePdu),
   ("missingPduSequenceNumbers", I.missingPduSequenceNumbers),
   ("MinefieldResponseNackPdu", I.MinefieldResponseNackPdu),
   ("numberOfMissingPdus", I.numberOfMissingPdus),
   ("responseStatus", I.responseStatus),
   ("ActionResponseReliablePdu", I.ActionResponseReliablePdu),
   ("relationship", I.relationship),
   ("partLocation", I.partLocation),
   ("namedLocationID", I.namedLocationID),
   ("partEntityType", I.partEntityType),
   ("IsPartOfPdu", I.IsPartOfPdu),
   ("aggregateState", I.aggregateState),
   ("formation", I.formation),
   ("aggregateMarking", I.aggregateMarking),
   ("dimensions", I.dimensions),
   ("orientation", I.orientation),
   ("centerOfMass", I.centerOfMass),
   ("aggregateIDs", I.aggregateIDs),
   ("entityIDs", I.entityIDs),
   ("silentAggregateSystems", I.silentAggregateSystems),
   ("silentEntitySystems", I.silentEntitySystems),
   ("AggregateStatePdu", I.AggregateStatePdu),
   ("numberOfAggregateIDs", I.numberOfAggregateIDs),
   ("numberOfEntityIDs", I.numberOfEntityIDs),
   ("numberOfSilentAggregateSystems", I.numberOfSilentAggregateSystems),
   ("numberOfSilentEntitySystems", I.numberOfSilentEntitySystems),
   ("silentAggregateSystem", I.silentAggregateSystem),
   ("silentEntitySystem", I.silentEntitySystem),
   ("variableDatumRecord", I.variableDatumRecord),
   ("expectedType", I.expectedType),
   ("base", I.base),
   ("vrClass", I.vrClass),
   ("svClass", I.svClass),
   ("getStandardVariableClass", I.getStandardVariableClass),
   ("sv_instance", I.sv_instance),
   ("__module__", I.__module__)]

end Dis.Src
