[
 {
  "id": "W1",
  "definition": "Verif/Source/Dis1.lean",
  "claim": "the constructors do what their text says (C77)",
  "expect": [
   "C77"
  ],
  "edits": [
   {
    "file": "Verif/Source/Dis1.lean",
    "within": "DataQueryDatumSpecification.__init__",
    "old": "    .assign (.attr (.name I.self) I.variableDatumIDs) (.or (.name I.variableDatumIDs) (.list []))]",
    "new": "    .assign (.attr (.name I.self) I.variableDatumIDs) (.list [])]",
    "descr": ".assign (.attr (.name I.self) I.variableDatumIDs) (.or (.name I.variableDatumIDs) (.list []))] -> .assign (.attr (.name I.self) I.variableDatumIDs) (.list [])]"
   },
   {
    "file": "Verif/Source/Dis1.lean",
    "within": "RadioIdentifier.__init__",
    "old": "    .assign (.attr (.name I.self) I.radioNumber) (.name I.radioNumber)]",
    "new": "    .assign (.attr (.name I.self) I.radioNumber) (.name I.referenceNumber)]",
    "descr": ".assign (.attr (.name I.self) I.radioNumber) (.name I.radioNumber)] -> .assign (.attr (.name I.self) I.radioNumber) (.name I.referenceNumber)]"
   },
   {
    "file": "Verif/Source/Dis1.lean",
    "within": "RequestID.__init__",
    "old": "   [.assign (.attr (.name I.self) I.requestID) (.name I.requestID)]",
    "new": "   [.assign (.attr (.name I.self) I.requestID) (.int 0)]",
    "descr": "[.assign (.attr (.name I.self) I.requestID) (.name I.requestID)] -> [.assign (.attr (.name I.self) I.requestID) (.int 0)]"
   },
   {
    "file": "Verif/Source/Dis1.lean",
    "within": "IFFData.__init__",
    "old": "    .assign (.attr (.name I.self) I.recordLength) (.name I.recordLength),",
    "new": "    .assign (.attr (.name I.self) I.recordLength) (.name I.iffData),",
    "descr": ".assign (.attr (.name I.self) I.recordLength) (.name I.recordLength), -> .assign (.attr (.name I.self) I.recordLength) (.name I.iffData),"
   },
   {
    "file": "Verif/Source/Dis1.lean",
    "within": "MunitionDescriptor.__init__",
    "old": "    .assign (.attr (.name I.self) I.rate) (.name I.rate)]",
    "new": "    .assign (.attr (.name I.self) I.rate) (.name I.fuse)]",
    "descr": ".assign (.attr (.name I.self) I.rate) (.name I.rate)] -> .assign (.attr (.name I.self) I.rate) (.name I.fuse)]"
   },
   {
    "file": "Verif/Source/Dis1.lean",
    "within": "MinefieldSensorType.__init__",
    "old": "   [.assign (.attr (.name I.self) I.sensorType) (.name I.sensorType)]",
    "new": "   [.assign (.attr (.name I.self) I.sensorType) (.int 0)]",
    "descr": "[.assign (.attr (.name I.self) I.sensorType) (.name I.sensorType)] -> [.assign (.attr (.name I.self) I.sensorType) (.int 0)]"
   },
   {
    "file": "Verif/Source/Dis1.lean",
    "within": "GroupID.__init__",
    "old": "   [.assign (.attr (.name I.self) I.simulationAddress) (.or (.name I.simulationAddress) (.call I.SimulationAddress [] [])),",
    "new": "   [.assign (.attr (.name I.self) I.simulationAddress) (.call I.SimulationAddress [] []),",
    "descr": "[.assign (.attr (.name I.self) I.simulationAddress) (.or (.name I.simulationAddress) (.call I.SimulationAddres -> [.assign (.attr (.name I.self) I.simulationAddress) (.call I.SimulationAddress [] []),"
   },
   {
    "file": "Verif/Source/Dis1.lean",
    "within": "LayerHeader.__init__",
    "old": "    .assign (.attr (.name I.self) I.length) (.name I.length)]",
    "new": "    .assign (.attr (.name I.self) I.length) (.int 0)]",
    "descr": ".assign (.attr (.name I.self) I.length) (.name I.length)] -> .assign (.attr (.name I.self) I.length) (.int 0)]"
   },
   {
    "file": "Verif/Source/Dis1.lean",
    "within": "UnsignedDISInteger.__init__",
    "old": "   [.assign (.attr (.name I.self) I.val) (.name I.val)]",
    "new": "   [.assign (.attr (.name I.self) I.val) (.int 0)]",
    "descr": "[.assign (.attr (.name I.self) I.val) (.name I.val)] -> [.assign (.attr (.name I.self) I.val) (.int 0)]"
   },
   {
    "file": "Verif/Source/Dis1.lean",
    "within": "DeadReckoningParameters.__init__",
    "old": "    .assign (.attr (.name I.self) I.entityLinearAcceleration) (.or (.name I.entityLinearAcceleration) (.call I.Vector3Float [] [])),",
    "new": "    .assign (.attr (.name I.self) I.entityLinearAcceleration) (.call I.Vector3Float [] []),",
    "descr": ".assign (.attr (.name I.self) I.entityLinearAcceleration) (.or (.name I.entityLinearAcceleration) (.call I.Vec -> .assign (.attr (.name I.self) I.entityLinearAcceleration) (.call I.Vector3Float [] []),"
   },
   {
    "file": "Verif/Source/Dis1.lean",
    "within": "ProtocolMode.__init__",
    "old": "   [.assign (.attr (.name I.self) I.protocolMode) (.name I.protocolMode)]",
    "new": "   [.assign (.attr (.name I.self) I.protocolMode) (.int 0)]",
    "descr": "[.assign (.attr (.name I.self) I.protocolMode) (.name I.protocolMode)] -> [.assign (.attr (.name I.self) I.protocolMode) (.int 0)]"
   },
   {
    "file": "Verif/Source/Dis1.lean",
    "within": "AngleDeception.__init__",
    "old": "    .assign (.attr (.name I.self) I.beamNumber) (.name I.beamNumber),",
    "new": "    .assign (.attr (.name I.self) I.beamNumber) (.name I.emitterNumber),",
    "descr": ".assign (.attr (.name I.self) I.beamNumber) (.name I.beamNumber), -> .assign (.attr (.name I.self) I.beamNumber) (.name I.emitterNumber),"
   },
   {
    "file": "Verif/Source/Dis1.lean",
    "within": "EntityAssociation.__init__",
    "old": "    .assign (.attr (.name I.self) I.ownStationLocation) (.name I.ownStationLocation),",
    "new": "    .assign (.attr (.name I.self) I.ownStationLocation) (.name I.entityID),",
    "descr": ".assign (.attr (.name I.self) I.ownStationLocation) (.name I.ownStationLocation), -> .assign (.attr (.name I.self) I.ownStationLocation) (.name I.entityID),"
   },
   {
    "file": "Verif/Source/Dis1.lean",
    "within": "VectoringNozzleSystem.__init__",
    "old": "    .assign (.attr (.name I.self) I.verticalDeflectionAngle) (.name I.verticalDeflectionAngle)]",
    "new": "    .assign (.attr (.name I.self) I.verticalDeflectionAngle) (.name I.horizontalDeflectionAngle)]",
    "descr": ".assign (.attr (.name I.self) I.verticalDeflectionAngle) (.name I.verticalDeflectionAngle)] -> .assign (.attr (.name I.self) I.verticalDeflectionAngle) (.name I.horizontalDeflectionAngle)]"
   },
   {
    "file": "Verif/Source/Dis1.lean",
    "within": "FalseTargetsAttribute.__init__",
    "old": "    .assign (.attr (.name I.self) I.stateIndicator) (.name I.stateIndicator),",
    "new": "    .assign (.attr (.name I.self) I.stateIndicator) (.name I.walkSpeed),",
    "descr": ".assign (.attr (.name I.self) I.stateIndicator) (.name I.stateIndicator), -> .assign (.attr (.name I.self) I.stateIndicator) (.name I.walkSpeed),"
   },
   {
    "file": "Verif/Source/Dis1.lean",
    "within": "MinefieldIdentifier.__init__",
    "old": "   [.assign (.attr (.name I.self) I.simulationAddress) (.or (.name I.simulationAddress) (.call I.SimulationAddress [] [])),",
    "new": "   [.assign (.attr (.name I.self) I.simulationAddress) (.call I.SimulationAddress [] []),",
    "descr": "[.assign (.attr (.name I.self) I.simulationAddress) (.or (.name I.simulationAddress) (.call I.SimulationAddres -> [.assign (.attr (.name I.self) I.simulationAddress) (.call I.SimulationAddress [] []),"
   },
   {
    "file": "Verif/Source/Dis1.lean",
    "within": "RadioType.__init__",
    "old": "    .assign (.attr (.name I.self) I.extra) (.name I.extra)]",
    "new": "    .assign (.attr (.name I.self) I.extra) (.name I.specific)]",
    "descr": ".assign (.attr (.name I.self) I.extra) (.name I.extra)] -> .assign (.attr (.name I.self) I.extra) (.name I.specific)]"
   },
   {
    "file": "Verif/Source/Dis1.lean",
    "within": "NamedLocationIdentification.__init__",
    "old": "   [.assign (.attr (.name I.self) I.stationName) (.name I.stationName),",
    "new": "   [.assign (.attr (.name I.self) I.stationName) (.name I.stationNumber),",
    "descr": "[.assign (.attr (.name I.self) I.stationName) (.name I.stationName), -> [.assign (.attr (.name I.self) I.stationName) (.name I.stationNumber),"
   },
   {
    "file": "Verif/Source/Dis1.lean",
    "within": "IFFDataSpecification.__init__",
    "old": "   [.assign (.attr (.name I.self) I.iffDataRecords) (.or (.name I.iffDataRecords) (.list []))]",
    "new": "   [.assign (.attr (.name I.self) I.iffDataRecords) (.list [])]",
    "descr": "[.assign (.attr (.name I.self) I.iffDataRecords) (.or (.name I.iffDataRecords) (.list []))] -> [.assign (.attr (.name I.self) I.iffDataRecords) (.list [])]"
   },
   {
    "file": "Verif/Source/Dis1.lean",
    "within": "OwnershipStatus.__init__",
    "old": "    .assign (.attr (.name I.self) I.padding) (.int 0)]",
    "new": "    .assign (.attr (.name I.self) I.padding) (.int 1)]",
    "descr": ".assign (.attr (.name I.self) I.padding) (.int 0)] -> .assign (.attr (.name I.self) I.padding) (.int 1)]"
   },
   {
    "file": "Verif/Source/Dis1.lean",
    "within": "AttachedParts.__init__",
    "old": "    .assign (.attr (.name I.self) I.parameterType) (.name I.parameterType),",
    "new": "    .assign (.attr (.name I.self) I.parameterType) (.name I.attachedPartType),",
    "descr": ".assign (.attr (.name I.self) I.parameterType) (.name I.parameterType), -> .assign (.attr (.name I.self) I.parameterType) (.name I.attachedPartType),"
   },
   {
    "file": "Verif/Source/Dis1.lean",
    "within": "Attribute.__init__",
    "old": "   [.assign (.attr (.name I.self) I.recordType) (.name I.recordType),",
    "new": "   [.assign (.attr (.name I.self) I.recordType) (.int 0),",
    "descr": "[.assign (.attr (.name I.self) I.recordType) (.name I.recordType), -> [.assign (.attr (.name I.self) I.recordType) (.int 0),"
   },
   {
    "file": "Verif/Source/Dis1.lean",
    "within": "RecordQuerySpecification.__init__",
    "old": "   [.assign (.attr (.name I.self) I.recordIDs) (.or (.name I.recordIDs) (.list []))]",
    "new": "   [.assign (.attr (.name I.self) I.recordIDs) (.list [])]",
    "descr": "[.assign (.attr (.name I.self) I.recordIDs) (.or (.name I.recordIDs) (.list []))] -> [.assign (.attr (.name I.self) I.recordIDs) (.list [])]"
   },
   {
    "file": "Verif/Source/Dis1.lean",
    "within": "ArticulatedParts.__init__",
    "old": "   [.assign (.attr (.name I.self) I.changeIndicator) (.name I.changeIndicator),",
    "new": "   [.assign (.attr (.name I.self) I.changeIndicator) (.name I.parameterValue),",
    "descr": "[.assign (.attr (.name I.self) I.changeIndicator) (.name I.changeIndicator), -> [.assign (.attr (.name I.self) I.changeIndicator) (.name I.parameterValue),"
   },
   {
    "file": "Verif/Source/Dis1.lean",
    "within": "ObjectType.__init__",
    "old": "   [.assign (.attr (.name I.self) I.domain) (.name I.domain),",
    "new": "   [.assign (.attr (.name I.self) I.domain) (.name I.category),",
    "descr": "[.assign (.attr (.name I.self) I.domain) (.name I.domain), -> [.assign (.attr (.name I.self) I.domain) (.name I.category),"
   },
   {
    "file": "Verif/Source/Dis1.lean",
    "within": "Association.__init__",
    "old": "   [.assign (.attr (.name I.self) I.associationType) (.name I.associationType),",
    "new": "   [.assign (.attr (.name I.self) I.associationType) (.name I.associatedEntityID),",
    "descr": "[.assign (.attr (.name I.self) I.associationType) (.name I.associationType), -> [.assign (.attr (.name I.self) I.associationType) (.name I.associatedEntityID),"
   },
   {
    "file": "Verif/Source/Dis1.lean",
    "within": "RecordSpecificationElement.__init__",
    "old": "    .assign (.attr (.name I.self) I.recordSetSerialNumber) (.name I.recordSetSerialNumber),",
    "new": "    .assign (.attr (.name I.self) I.recordSetSerialNumber) (.name I.recordLength),",
    "descr": ".assign (.attr (.name I.self) I.recordSetSerialNumber) (.name I.recordSetSerialNumber), -> .assign (.attr (.name I.self) I.recordSetSerialNumber) (.name I.recordLength),"
   },
   {
    "file": "Verif/Source/Dis1.lean",
    "within": "AntennaLocation.__init__",
    "old": "   [.assign (.attr (.name I.self) I.antennaLocation) (.or (.name I.antennaLocation) (.call I.WorldCoordinates [] [])),",
    "new": "   [.assign (.attr (.name I.self) I.antennaLocation) (.call I.WorldCoordinates [] []),",
    "descr": "[.assign (.attr (.name I.self) I.antennaLocation) (.or (.name I.antennaLocation) (.call I.WorldCoordinates []  -> [.assign (.attr (.name I.self) I.antennaLocation) (.call I.WorldCoordinates [] []),"
   },
   {
    "file": "Verif/Source/Dis1.lean",
    "within": "ObjectIdentifier.__init__",
    "old": "    .assign (.attr (.name I.self) I.objectNumber) (.name I.objectNumber)]",
    "new": "    .assign (.attr (.name I.self) I.objectNumber) (.int 0)]",
    "descr": ".assign (.attr (.name I.self) I.objectNumber) (.name I.objectNumber)] -> .assign (.attr (.name I.self) I.objectNumber) (.int 0)]"
   },
   {
    "file": "Verif/Source/Dis1.lean",
    "within": "AggregateIdentifier.__init__",
    "old": "   [.assign (.attr (.name I.self) I.simulationAddress) (.or (.name I.simulationAddress) (.call I.SimulationAddress [] [])),",
    "new": "   [.assign (.attr (.name I.self) I.simulationAddress) (.call I.SimulationAddress [] []),",
    "descr": "[.assign (.attr (.name I.self) I.simulationAddress) (.or (.name I.simulationAddress) (.call I.SimulationAddres -> [.assign (.attr (.name I.self) I.simulationAddress) (.call I.SimulationAddress [] []),"
   },
   {
    "file": "Verif/Source/Dis1.lean",
    "within": "FixedDatum.__init__",
    "old": "    .assign (.attr (.name I.self) I.fixedDatumValue) (.name I.fixedDatumValue)]",
    "new": "    .assign (.attr (.name I.self) I.fixedDatumValue) (.int 0)]",
    "descr": ".assign (.attr (.name I.self) I.fixedDatumValue) (.name I.fixedDatumValue)] -> .assign (.attr (.name I.self) I.fixedDatumValue) (.int 0)]"
   },
   {
    "file": "Verif/Source/Dis1.lean",
    "within": "VariableParameter.__init__",
    "old": "    .assign (.attr (.name I.self) I.variableParameterFields2) (.name I.variableParameterFields2),",
    "new": "    .assign (.attr (.name I.self) I.variableParameterFields2) (.name I.recordType),",
    "descr": ".assign (.attr (.name I.self) I.variableParameterFields2) (.name I.variableParameterFields2), -> .assign (.attr (.name I.self) I.variableParameterFields2) (.name I.recordType),"
   },
   {
    "file": "Verif/Source/Dis1.lean",
    "within": "LiveSimulationAddress.__init__",
    "old": "    .assign (.attr (.name I.self) I.liveApplicationNumber) (.name I.liveApplicationNumber)]",
    "new": "    .assign (.attr (.name I.self) I.liveApplicationNumber) (.int 0)]",
    "descr": ".assign (.attr (.name I.self) I.liveApplicationNumber) (.name I.liveApplicationNumber)] -> .assign (.attr (.name I.self) I.liveApplicationNumber) (.int 0)]"
   },
   {
    "file": "Verif/Source/Dis1.lean",
    "within": "EntityMarking.__init__",
    "old": "    .assign (.attr (.name I.self) I.characters) (.or (.name I.characters) (.bin .mul (.list [.int 0]) (.int 11)))]",
    "new": "    .assign (.attr (.name I.self) I.characters) (.or (.name I.characters) (.bin .mul (.list [.int 0]) (.int 12)))]",
    "descr": ".assign (.attr (.name I.self) I.characters) (.or (.name I.characters) (.bin .mul (.list [.int 0]) (.int 11)))] -> .assign (.attr (.name I.self) I.characters) (.or (.name I.characters) (.bin .mul (.list [.int 0]) (.int 12)))]"
   },
   {
    "file": "Verif/Source/Dis1.lean",
    "within": "UAFundamentalParameter.__init__",
    "old": "    .assign (.attr (.name I.self) I.beamCenterAzimuthHorizontal) (.name I.beamCenterAzimuthHorizontal),",
    "new": "    .assign (.attr (.name I.self) I.beamCenterAzimuthHorizontal) (.name I.activeEmissionParameterIndex),",
    "descr": ".assign (.attr (.name I.self) I.beamCenterAzimuthHorizontal) (.name I.beamCenterAzimuthHorizontal), -> .assign (.attr (.name I.self) I.beamCenterAzimuthHorizontal) (.name I.activeEmissionParameterIndex),"
   },
   {
    "file": "Verif/Source/Dis1.lean",
    "within": "ExplosionDescriptor.__init__",
    "old": "    .assign (.attr (.name I.self) I.explosiveMaterial) (.name I.explosiveMaterial),",
    "new": "    .assign (.attr (.name I.self) I.explosiveMaterial) (.int 0),",
    "descr": ".assign (.attr (.name I.self) I.explosiveMaterial) (.name I.explosiveMaterial), -> .assign (.attr (.name I.self) I.explosiveMaterial) (.int 0),"
   },
   {
    "file": "Verif/Source/Dis1.lean",
    "within": "ClockTime.__init__",
    "old": "    .assign (.attr (.name I.self) I.timePastHour) (.name I.timePastHour)]",
    "new": "    .assign (.attr (.name I.self) I.timePastHour) (.name I.hour)]",
    "descr": ".assign (.attr (.name I.self) I.timePastHour) (.name I.timePastHour)] -> .assign (.attr (.name I.self) I.timePastHour) (.name I.hour)]"
   },
   {
    "file": "Verif/Source/Dis1.lean",
    "within": "SecondaryOperationalData.__init__",
    "old": "    .assign (.attr (.name I.self) I.numberOfIFFFundamentalParameterRecords) (.name I.numberOfIFFFundamentalParameterRecords)]",
    "new": "    .assign (.attr (.name I.self) I.numberOfIFFFundamentalParameterRecords) (.name I.operationalData2)]",
    "descr": ".assign (.attr (.name I.self) I.numberOfIFFFundamentalParameterRecords) (.name I.numberOfIFFFundamentalParamet -> .assign (.attr (.name I.self) I.numberOfIFFFundamentalParameterRecords) (.name I.operationalData2)]"
   },
   {
    "file": "Verif/Source/Dis1.lean",
    "within": "EnvironmentType.__init__",
    "old": "   [.assign (.attr (.name I.self) I.entityKind) (.name I.entityKind),",
    "new": "   [.assign (.attr (.name I.self) I.entityKind) (.name I.domain),",
    "descr": "[.assign (.attr (.name I.self) I.entityKind) (.name I.entityKind), -> [.assign (.attr (.name I.self) I.entityKind) (.name I.domain),"
   },
   {
    "file": "Verif/Source/Dis1.lean",
    "within": "TotalRecordSets.__init__",
    "old": "   [.assign (.attr (.name I.self) I.totalRecordSets) (.name I.totalRecordSets),",
    "new": "   [.assign (.attr (.name I.self) I.totalRecordSets) (.int 0),",
    "descr": "[.assign (.attr (.name I.self) I.totalRecordSets) (.name I.totalRecordSets), -> [.assign (.attr (.name I.self) I.totalRecordSets) (.int 0),"
   },
   {
    "file": "Verif/Source/Dis1.lean",
    "within": "MineEntityIdentifier.__init__",
    "old": "    .assign (.attr (.name I.self) I.mineEntityNumber) (.name I.mineEntityNumber)]",
    "new": "    .assign (.attr (.name I.self) I.mineEntityNumber) (.name I.simulationAddress)]",
    "descr": ".assign (.attr (.name I.self) I.mineEntityNumber) (.name I.mineEntityNumber)] -> .assign (.attr (.name I.self) I.mineEntityNumber) (.name I.simulationAddress)]"
   },
   {
    "file": "Verif/Source/Dis1.lean",
    "within": "Relationship.__init__",
    "old": "    .assign (.attr (.name I.self) I.position) (.name I.position)]",
    "new": "    .assign (.attr (.name I.self) I.position) (.name I.nature)]",
    "descr": ".assign (.attr (.name I.self) I.position) (.name I.position)] -> .assign (.attr (.name I.self) I.position) (.name I.nature)]"
   },
   {
    "file": "Verif/Source/Dis1.lean",
    "within": "EEFundamentalParameterData.__init__",
    "old": "    .assign (.attr (.name I.self) I.beamAzimuthCenter) (.name I.beamAzimuthCenter),",
    "new": "    .assign (.attr (.name I.self) I.beamAzimuthCenter) (.name I.effectiveRadiatedPower),",
    "descr": ".assign (.attr (.name I.self) I.beamAzimuthCenter) (.name I.beamAzimuthCenter), -> .assign (.attr (.name I.self) I.beamAzimuthCenter) (.name I.effectiveRadiatedPower),"
   },
   {
    "file": "Verif/Source/Dis1.lean",
    "within": "JammingTechnique.__init__",
    "old": "   [.assign (.attr (.name I.self) I.kind) (.name I.kind),",
    "new": "   [.assign (.attr (.name I.self) I.kind) (.name I.specific),",
    "descr": "[.assign (.attr (.name I.self) I.kind) (.name I.kind), -> [.assign (.attr (.name I.self) I.kind) (.name I.specific),"
   },
   {
    "file": "Verif/Source/Dis1.lean",
    "within": "DatumSpecification.__init__",
    "old": "    .assign (.attr (.name I.self) I.variableDatumRecords) (.or (.name I.variableDatumRecords) (.list []))]",
    "new": "    .assign (.attr (.name I.self) I.variableDatumRecords) (.list [])]",
    "descr": ".assign (.attr (.name I.self) I.variableDatumRecords) (.or (.name I.variableDatumRecords) (.list []))] -> .assign (.attr (.name I.self) I.variableDatumRecords) (.list [])]"
   },
   {
    "file": "Verif/Source/Dis1.lean",
    "within": "Expendable.__init__",
    "old": "    .assign (.attr (.name I.self) I.quantity) (.name I.quantity),",
    "new": "    .assign (.attr (.name I.self) I.quantity) (.name I.station),",
    "descr": ".assign (.attr (.name I.self) I.quantity) (.name I.quantity), -> .assign (.attr (.name I.self) I.quantity) (.name I.station),"
   },
   {
    "file": "Verif/Source/Dis1.lean",
    "within": "IOCommunicationsNode.__init__",
    "old": "   [.assign (.attr (.name I.self) I.communcationsNodeType) (.name I.communicationsNodeType),",
    "new": "   [.assign (.attr (.name I.self) I.communcationsNodeType) (.int 0),",
    "descr": "[.assign (.attr (.name I.self) I.communcationsNodeType) (.name I.communicationsNodeType), -> [.assign (.attr (.name I.self) I.communcationsNodeType) (.int 0),"
   },
   {
    "file": "Verif/Source/Dis1.lean",
    "within": "LinearSegmentParameter.__init__",
    "old": "    .assign (.attr (.name I.self) I.segmentDepth) (.name I.segmentDepth),",
    "new": "    .assign (.attr (.name I.self) I.segmentDepth) (.name I.segmentLength),",
    "descr": ".assign (.attr (.name I.self) I.segmentDepth) (.name I.segmentDepth), -> .assign (.attr (.name I.self) I.segmentDepth) (.name I.segmentLength),"
   },
   {
    "file": "Verif/Source/Dis1.lean",
    "within": "SystemIdentifier.__init__",
    "old": "    .assign (.attr (.name I.self) I.systemName) (.name I.systemName),",
    "new": "    .assign (.attr (.name I.self) I.systemName) (.name I.systemType),",
    "descr": ".assign (.attr (.name I.self) I.systemName) (.name I.systemName), -> .assign (.attr (.name I.self) I.systemName) (.name I.systemType),"
   },
   {
    "file": "Verif/Source/Dis1.lean",
    "within": "TrackJamData.__init__",
    "old": "   [.assign (.attr (.name I.self) I.entityID) (.or (.name I.entityID) (.call I.EntityIdentifier [] [])),",
    "new": "   [.assign (.attr (.name I.self) I.entityID) (.call I.EntityIdentifier [] []),",
    "descr": "[.assign (.attr (.name I.self) I.entityID) (.or (.name I.entityID) (.call I.EntityIdentifier [] [])), -> [.assign (.attr (.name I.self) I.entityID) (.call I.EntityIdentifier [] []),"
   },
   {
    "file": "Verif/Source/Dis1.lean",
    "within": "AggregateType.__init__",
    "old": "   [.assign (.attr (.name I.self) I.aggregateKind) (.name I.aggregateKind),",
    "new": "   [.assign (.attr (.name I.self) I.aggregateKind) (.name I.specificInfo),",
    "descr": "[.assign (.attr (.name I.self) I.aggregateKind) (.name I.aggregateKind), -> [.assign (.attr (.name I.self) I.aggregateKind) (.name I.specificInfo),"
   },
   {
    "file": "Verif/Source/Dis1.lean",
    "within": "SimulationManagementPduHeader.__init__",
    "old": "    .assign (.attr (.name I.self) I.receivingID) (.or (.name I.receivingID) (.call I.SimulationIdentifier [] []))]",
    "new": "    .assign (.attr (.name I.self) I.receivingID) (.call I.SimulationIdentifier [] [])]",
    "descr": ".assign (.attr (.name I.self) I.receivingID) (.or (.name I.receivingID) (.call I.SimulationIdentifier [] []))] -> .assign (.attr (.name I.self) I.receivingID) (.call I.SimulationIdentifier [] [])]"
   }
  ]
 },
 {
  "id": "W2",
  "definition": "Verif/Source/Dis2.lean",
  "claim": "the constructors do what their text says (C77)",
  "expect": [
   "C77"
  ],
  "edits": [
   {
    "file": "Verif/Source/Dis2.lean",
    "within": "BeamData.__init__",
    "old": "   [.assign (.attr (.name I.self) I.beamAzimuthCenter) (.name I.beamAzimuthCenter),",
    "new": "   [.assign (.attr (.name I.self) I.beamAzimuthCenter) (.int 0),",
    "descr": "[.assign (.attr (.name I.self) I.beamAzimuthCenter) (.name I.beamAzimuthCenter), -> [.assign (.attr (.name I.self) I.beamAzimuthCenter) (.int 0),"
   },
   {
    "file": "Verif/Source/Dis2.lean",
    "within": "EngineFuel.__init__",
    "old": "    .assign (.attr (.name I.self) I.fuelLocation) (.int 0),",
    "new": "    .assign (.attr (.name I.self) I.fuelLocation) (.int 1),",
    "descr": ".assign (.attr (.name I.self) I.fuelLocation) (.int 0), -> .assign (.attr (.name I.self) I.fuelLocation) (.int 1),"
   },
   {
    "file": "Verif/Source/Dis2.lean",
    "within": "IOEffect.__init__",
    "old": "    .assign (.attr (.name I.self) I.ioLinkType) (.name I.ioLinkType),",
    "new": "    .assign (.attr (.name I.self) I.ioLinkType) (.name I.ioStatus),",
    "descr": ".assign (.attr (.name I.self) I.ioLinkType) (.name I.ioLinkType), -> .assign (.attr (.name I.self) I.ioLinkType) (.name I.ioStatus),"
   },
   {
    "file": "Verif/Source/Dis2.lean",
    "within": "SimulationIdentifier.__init__",
    "old": "    .assign (.attr (.name I.self) I.referenceNumber) (.name I.referenceNumber)]",
    "new": "    .assign (.attr (.name I.self) I.referenceNumber) (.name I.simulationAddress)]",
    "descr": ".assign (.attr (.name I.self) I.referenceNumber) (.name I.referenceNumber)] -> .assign (.attr (.name I.self) I.referenceNumber) (.name I.simulationAddress)]"
   },
   {
    "file": "Verif/Source/Dis2.lean",
    "within": "GridAxisDescriptorVariable.__init__",
    "old": "    .assign (.attr (.name I.self) I.axisType) (.name I.axisType),",
    "new": "    .assign (.attr (.name I.self) I.axisType) (.int 0),",
    "descr": ".assign (.attr (.name I.self) I.axisType) (.name I.axisType), -> .assign (.attr (.name I.self) I.axisType) (.int 0),"
   },
   {
    "file": "Verif/Source/Dis2.lean",
    "within": "SupplyQuantity.__init__",
    "old": "   [.assign (.attr (.name I.self) I.supplyType) (.or (.name I.supplyType) (.call I.EntityType [] [])),",
    "new": "   [.assign (.attr (.name I.self) I.supplyType) (.call I.EntityType [] []),",
    "descr": "[.assign (.attr (.name I.self) I.supplyType) (.or (.name I.supplyType) (.call I.EntityType [] [])), -> [.assign (.attr (.name I.self) I.supplyType) (.call I.EntityType [] []),"
   },
   {
    "file": "Verif/Source/Dis2.lean",
    "within": "SilentEntitySystem.__init__",
    "old": "   [.assign (.attr (.name I.self) I.numberOfEntities) (.name I.numberOfEntities),",
    "new": "   [.assign (.attr (.name I.self) I.numberOfEntities) (.name I.entityType),",
    "descr": "[.assign (.attr (.name I.self) I.numberOfEntities) (.name I.numberOfEntities), -> [.assign (.attr (.name I.self) I.numberOfEntities) (.name I.entityType),"
   },
   {
    "file": "Verif/Source/Dis2.lean",
    "within": "SilentAggregateSystem.__init__",
    "old": "    .assign (.attr (.name I.self) I.aggregateType) (.or (.name I.aggregateType) (.call I.AggregateType [] []))]",
    "new": "    .assign (.attr (.name I.self) I.aggregateType) (.call I.AggregateType [] [])]",
    "descr": ".assign (.attr (.name I.self) I.aggregateType) (.or (.name I.aggregateType) (.call I.AggregateType [] []))] -> .assign (.attr (.name I.self) I.aggregateType) (.call I.AggregateType [] [])]"
   },
   {
    "file": "Verif/Source/Dis2.lean",
    "within": "BlankingSector.__init__",
    "old": "   [.assign (.attr (.name I.self) I.padding) (.int 0),",
    "new": "   [.assign (.attr (.name I.self) I.padding) (.int 1),",
    "descr": "[.assign (.attr (.name I.self) I.padding) (.int 0), -> [.assign (.attr (.name I.self) I.padding) (.int 1),"
   },
   {
    "file": "Verif/Source/Dis2.lean",
    "within": "LaunchedMunitionRecord.__init__",
    "old": "    .assign (.attr (.name I.self) I.padding) (.int 0),",
    "new": "    .assign (.attr (.name I.self) I.padding) (.int 1),",
    "descr": ".assign (.attr (.name I.self) I.padding) (.int 0), -> .assign (.attr (.name I.self) I.padding) (.int 1),"
   },
   {
    "file": "Verif/Source/Dis2.lean",
    "within": "IFFFundamentalParameterData.__init__",
    "old": "    .assign (.attr (.name I.self) I.frequency) (.name I.frequency),",
    "new": "    .assign (.attr (.name I.self) I.frequency) (.int 0),",
    "descr": ".assign (.attr (.name I.self) I.frequency) (.name I.frequency), -> .assign (.attr (.name I.self) I.frequency) (.int 0),"
   },
   {
    "file": "Verif/Source/Dis2.lean",
    "within": "FundamentalOperationalData.__init__",
    "old": "   [.assign (.attr (.name I.self) I.systemStatus) (.name I.systemStatus),",
    "new": "   [.assign (.attr (.name I.self) I.systemStatus) (.name I.parameter5),",
    "descr": "[.assign (.attr (.name I.self) I.systemStatus) (.name I.systemStatus), -> [.assign (.attr (.name I.self) I.systemStatus) (.name I.parameter5),"
   },
   {
    "file": "Verif/Source/Dis2.lean",
    "within": "IntercomCommunicationsParameters.__init__",
    "old": "    .assign (.attr (.name I.self) I.recordSpecificField) (.name I.recordSpecificField)]",
    "new": "    .assign (.attr (.name I.self) I.recordSpecificField) (.name I.recordLength)]",
    "descr": ".assign (.attr (.name I.self) I.recordSpecificField) (.name I.recordSpecificField)] -> .assign (.attr (.name I.self) I.recordSpecificField) (.name I.recordLength)]"
   },
   {
    "file": "Verif/Source/Dis2.lean",
    "within": "EntityType.__init__",
    "old": "    .assign (.attr (.name I.self) I.category) (.name I.category),",
    "new": "    .assign (.attr (.name I.self) I.category) (.name I.subcategory),",
    "descr": ".assign (.attr (.name I.self) I.category) (.name I.category), -> .assign (.attr (.name I.self) I.category) (.name I.subcategory),"
   },
   {
    "file": "Verif/Source/Dis2.lean",
    "within": "Munition.__init__",
    "old": "    .assign (.attr (.name I.self) I.padding) (.int 0)]",
    "new": "    .assign (.attr (.name I.self) I.padding) (.int 1)]",
    "descr": ".assign (.attr (.name I.self) I.padding) (.int 0)] -> .assign (.attr (.name I.self) I.padding) (.int 1)]"
   },
   {
    "file": "Verif/Source/Dis2.lean",
    "within": "StandardVariableSpecification.__init__",
    "old": "   [.assign (.attr (.name I.self) I.standardVariables) (.or (.name I.standardVariables) (.list []))]",
    "new": "   [.assign (.attr (.name I.self) I.standardVariables) (.list [])]",
    "descr": "[.assign (.attr (.name I.self) I.standardVariables) (.or (.name I.standardVariables) (.list []))] -> [.assign (.attr (.name I.self) I.standardVariables) (.list [])]"
   },
   {
    "file": "Verif/Source/Dis2.lean",
    "within": "Vector2Float.__init__",
    "old": "    .assign (.attr (.name I.self) I.y) (.name I.y)]",
    "new": "    .assign (.attr (.name I.self) I.y) (.int 0)]",
    "descr": ".assign (.attr (.name I.self) I.y) (.name I.y)] -> .assign (.attr (.name I.self) I.y) (.int 0)]"
   },
   {
    "file": "Verif/Source/Dis2.lean",
    "within": "Environment.__init__",
    "old": "   [.assign (.attr (.name I.self) I.environmentType) (.name I.environmentType),",
    "new": "   [.assign (.attr (.name I.self) I.environmentType) (.name I.index),",
    "descr": "[.assign (.attr (.name I.self) I.environmentType) (.name I.environmentType), -> [.assign (.attr (.name I.self) I.environmentType) (.name I.index),"
   },
   {
    "file": "Verif/Source/Dis2.lean",
    "within": "AcousticEmitter.__init__",
    "old": "    .assign (.attr (.name I.self) I.acousticFunction) (.name I.acousticFunction),",
    "new": "    .assign (.attr (.name I.self) I.acousticFunction) (.name I.acousticSystemName),",
    "descr": ".assign (.attr (.name I.self) I.acousticFunction) (.name I.acousticFunction), -> .assign (.attr (.name I.self) I.acousticFunction) (.name I.acousticSystemName),"
   },
   {
    "file": "Verif/Source/Dis2.lean",
    "within": "AngularVelocityVector.__init__",
    "old": "    .assign (.attr (.name I.self) I.z) (.int 0)]",
    "new": "    .assign (.attr (.name I.self) I.z) (.int 1)]",
    "descr": ".assign (.attr (.name I.self) I.z) (.int 0)] -> .assign (.attr (.name I.self) I.z) (.int 1)]"
   },
   {
    "file": "Verif/Source/Dis2.lean",
    "within": "AggregateMarking.__init__",
    "old": "   [.assign (.attr (.name I.self) I.characterSet) (.name I.characterSet),",
    "new": "   [.assign (.attr (.name I.self) I.characterSet) (.int 0),",
    "descr": "[.assign (.attr (.name I.self) I.characterSet) (.name I.characterSet), -> [.assign (.attr (.name I.self) I.characterSet) (.int 0),"
   },
   {
    "file": "Verif/Source/Dis2.lean",
    "within": "DataFilterRecord.__init__",
    "old": "   [.assign (.attr (.name I.self) I.bitFlags) (.name I.bitFlags)]",
    "new": "   [.assign (.attr (.name I.self) I.bitFlags) (.int 0)]",
    "descr": "[.assign (.attr (.name I.self) I.bitFlags) (.name I.bitFlags)] -> [.assign (.attr (.name I.self) I.bitFlags) (.int 0)]"
   },
   {
    "file": "Verif/Source/Dis2.lean",
    "within": "IntercomIdentifier.__init__",
    "old": "   [.assign (.attr (.name I.self) I.siteNumber) (.name I.siteNumber),",
    "new": "   [.assign (.attr (.name I.self) I.siteNumber) (.name I.intercomNumber),",
    "descr": "[.assign (.attr (.name I.self) I.siteNumber) (.name I.siteNumber), -> [.assign (.attr (.name I.self) I.siteNumber) (.name I.intercomNumber),"
   },
   {
    "file": "Verif/Source/Dis2.lean",
    "within": "StorageFuel.__init__",
    "old": "    .assign (.attr (.name I.self) I.fuelType) (.name I.fuelType),",
    "new": "    .assign (.attr (.name I.self) I.fuelType) (.name I.fuelMeasurementUnits),",
    "descr": ".assign (.attr (.name I.self) I.fuelType) (.name I.fuelType), -> .assign (.attr (.name I.self) I.fuelType) (.name I.fuelMeasurementUnits),"
   },
   {
    "file": "Verif/Source/Dis2.lean",
    "within": "Sensor.__init__",
    "old": "    .assign (.attr (.name I.self) I.sensorType) (.name I.sensorType),",
    "new": "    .assign (.attr (.name I.self) I.sensorType) (.name I.sensorTypeSource),",
    "descr": ".assign (.attr (.name I.self) I.sensorType) (.name I.sensorType), -> .assign (.attr (.name I.self) I.sensorType) (.name I.sensorTypeSource),"
   },
   {
    "file": "Verif/Source/Dis2.lean",
    "within": "MunitionReload.__init__",
    "old": "   [.assign (.attr (.name I.self) I.munitionType) (.or (.name I.munitionType) (.call I.EntityType [] [])),",
    "new": "   [.assign (.attr (.name I.self) I.munitionType) (.call I.EntityType [] []),",
    "descr": "[.assign (.attr (.name I.self) I.munitionType) (.or (.name I.munitionType) (.call I.EntityType [] [])), -> [.assign (.attr (.name I.self) I.munitionType) (.call I.EntityType [] []),"
   },
   {
    "file": "Verif/Source/Dis2.lean",
    "within": "StorageFuelReload.__init__",
    "old": "    .assign (.attr (.name I.self) I.maximumQuantityReloadTime) (.name I.maximumQuantityReloadTime),",
    "new": "    .assign (.attr (.name I.self) I.maximumQuantityReloadTime) (.name I.fuelLocation),",
    "descr": ".assign (.attr (.name I.self) I.maximumQuantityReloadTime) (.name I.maximumQuantityReloadTime), -> .assign (.attr (.name I.self) I.maximumQuantityReloadTime) (.name I.fuelLocation),"
   },
   {
    "file": "Verif/Source/Dis2.lean",
    "within": "ExpendableReload.__init__",
    "old": "    .assign (.attr (.name I.self) I.standardQuantityReloadTime) (.name I.standardQuantityReloadTime),",
    "new": "    .assign (.attr (.name I.self) I.standardQuantityReloadTime) (.int 0),",
    "descr": ".assign (.attr (.name I.self) I.standardQuantityReloadTime) (.name I.standardQuantityReloadTime), -> .assign (.attr (.name I.self) I.standardQuantityReloadTime) (.int 0),"
   },
   {
    "file": "Verif/Source/Dis2.lean",
    "within": "EngineFuelReload.__init__",
    "old": "    .assign (.attr (.name I.self) I.maximumQuantity) (.name I.maximumQuantity),",
    "new": "    .assign (.attr (.name I.self) I.maximumQuantity) (.name I.standardQuantityReloadTime),",
    "descr": ".assign (.attr (.name I.self) I.maximumQuantity) (.name I.maximumQuantity), -> .assign (.attr (.name I.self) I.maximumQuantity) (.name I.standardQuantityReloadTime),"
   },
   {
    "file": "Verif/Source/Dis2.lean",
    "within": "UnattachedIdentifier.__init__",
    "old": "   [.assign (.attr (.name I.self) I.simulationAddress) (.or (.name I.simulationAddress) (.call I.SimulationAddress [] [])),",
    "new": "   [.assign (.attr (.name I.self) I.simulationAddress) (.call I.SimulationAddress [] []),",
    "descr": "[.assign (.attr (.name I.self) I.simulationAddress) (.or (.name I.simulationAddress) (.call I.SimulationAddres -> [.assign (.attr (.name I.self) I.simulationAddress) (.call I.SimulationAddress [] []),"
   },
   {
    "file": "Verif/Source/Dis2.lean",
    "within": "EntityTypeVP.__init__",
    "old": "   [.assign (.attr (.name I.self) I.changeIndicator) (.name I.changeIndicator),",
    "new": "   [.assign (.attr (.name I.self) I.changeIndicator) (.int 0),",
    "descr": "[.assign (.attr (.name I.self) I.changeIndicator) (.name I.changeIndicator), -> [.assign (.attr (.name I.self) I.changeIndicator) (.int 0),"
   },
   {
    "file": "Verif/Source/Dis2.lean",
    "within": "BeamStatus.__init__",
    "old": "   [.assign (.attr (.name I.self) I.beamState) (.bin .bitand (.name I.beamState) (.int 1))]",
    "new": "   [.assign (.attr (.name I.self) I.beamState) (.bin .bitand (.name I.beamState) (.int 2))]",
    "descr": "[.assign (.attr (.name I.self) I.beamState) (.bin .bitand (.name I.beamState) (.int 1))] -> [.assign (.attr (.name I.self) I.beamState) (.bin .bitand (.name I.beamState) (.int 2))]"
   },
   {
    "file": "Verif/Source/Dis2.lean",
    "within": "EnvironmentGeneral.__init__",
    "old": "   [.assign (.attr (.name I.self) I.environmentType) (.name I.environmentType),",
    "new": "   [.assign (.attr (.name I.self) I.environmentType) (.name I.length),",
    "descr": "[.assign (.attr (.name I.self) I.environmentType) (.name I.environmentType), -> [.assign (.attr (.name I.self) I.environmentType) (.name I.length),"
   },
   {
    "file": "Verif/Source/Dis2.lean",
    "within": "GridAxis.__init__",
    "old": "   [.assign (.attr (.name I.self) I.domainInitialXi) (.name I.domainInitialXi),",
    "new": "   [.assign (.attr (.name I.self) I.domainInitialXi) (.name I.axisType),",
    "descr": "[.assign (.attr (.name I.self) I.domainInitialXi) (.name I.domainInitialXi), -> [.assign (.attr (.name I.self) I.domainInitialXi) (.name I.axisType),"
   },
   {
    "file": "Verif/Source/Dis2.lean",
    "within": "RecordSpecification.__init__",
    "old": "   [.assign (.attr (.name I.self) I.recordSets) (.or (.name I.recordSets) (.list []))]",
    "new": "   [.assign (.attr (.name I.self) I.recordSets) (.list [])]",
    "descr": "[.assign (.attr (.name I.self) I.recordSets) (.or (.name I.recordSets) (.list []))] -> [.assign (.attr (.name I.self) I.recordSets) (.list [])]"
   },
   {
    "file": "Verif/Source/Dis2.lean",
    "within": "VariableDatum.__init__",
    "old": "    .assign (.attr (.name I.self) I.variableData) (.or (.name I.variableData) (.list []))]",
    "new": "    .assign (.attr (.name I.self) I.variableData) (.list [])]",
    "descr": ".assign (.attr (.name I.self) I.variableData) (.or (.name I.variableData) (.list []))] -> .assign (.attr (.name I.self) I.variableData) (.list [])]"
   },
   {
    "file": "Verif/Source/Dis2.lean",
    "within": "EventIdentifierLiveEntity.__init__",
    "old": "    .assign (.attr (.name I.self) I.eventNumber) (.name I.eventNumber)]",
    "new": "    .assign (.attr (.name I.self) I.eventNumber) (.name I.applicationNumber)]",
    "descr": ".assign (.attr (.name I.self) I.eventNumber) (.name I.eventNumber)] -> .assign (.attr (.name I.self) I.eventNumber) (.name I.applicationNumber)]"
   },
   {
    "file": "Verif/Source/Dis2.lean",
    "within": "PduHeader.__init__",
    "old": "    .assign (.attr (.name I.self) I.exerciseID) (.name I.exerciseID),",
    "new": "    .assign (.attr (.name I.self) I.exerciseID) (.name I.pduLength),",
    "descr": ".assign (.attr (.name I.self) I.exerciseID) (.name I.exerciseID), -> .assign (.attr (.name I.self) I.exerciseID) (.name I.pduLength),"
   }
  ]
 },
 {
  "id": "W3",
  "definition": "Verif/Source/Dis3.lean",
  "claim": "the constructors do what their text says (C77)",
  "expect": [
   "C77"
  ],
  "edits": [
   {
    "file": "Verif/Source/Dis3.lean",
    "within": "PduSuperclass.__init__",
    "old": "    .assign (.attr (.name I.self) I.length) (.name I.pduLength)]",
    "new": "    .assign (.attr (.name I.self) I.length) (.int 0)]",
    "descr": ".assign (.attr (.name I.self) I.length) (.name I.pduLength)] -> .assign (.attr (.name I.self) I.length) (.int 0)]"
   },
   {
    "file": "Verif/Source/Dis3.lean",
    "within": "CommunicationsNodeID.__init__",
    "old": "   [.assign (.attr (.name I.self) I.entityID) (.or (.name I.entityID) (.call I.EntityIdentifier [] [])),",
    "new": "   [.assign (.attr (.name I.self) I.entityID) (.call I.EntityIdentifier [] []),",
    "descr": "[.assign (.attr (.name I.self) I.entityID) (.or (.name I.entityID) (.call I.EntityIdentifier [] [])), -> [.assign (.attr (.name I.self) I.entityID) (.call I.EntityIdentifier [] []),"
   },
   {
    "file": "Verif/Source/Dis3.lean",
    "within": "ExpendableDescriptor.__init__",
    "old": "    .assign (.attr (.name I.self) I.padding) (.int 0)]",
    "new": "    .assign (.attr (.name I.self) I.padding) (.int 1)]",
    "descr": ".assign (.attr (.name I.self) I.padding) (.int 0)] -> .assign (.attr (.name I.self) I.padding) (.int 1)]"
   },
   {
    "file": "Verif/Source/Dis3.lean",
    "within": "PropulsionSystemData.__init__",
    "old": "   [.assign (.attr (.name I.self) I.powerSetting) (.name I.powerSetting),",
    "new": "   [.assign (.attr (.name I.self) I.powerSetting) (.int 0),",
    "descr": "[.assign (.attr (.name I.self) I.powerSetting) (.name I.powerSetting), -> [.assign (.attr (.name I.self) I.powerSetting) (.int 0),"
   },
   {
    "file": "Verif/Source/Dis3.lean",
    "within": "LiveEntityIdentifier.__init__",
    "old": "    .assign (.attr (.name I.self) I.entityNumber) (.name I.entityNumber)]",
    "new": "    .assign (.attr (.name I.self) I.entityNumber) (.int 0)]",
    "descr": ".assign (.attr (.name I.self) I.entityNumber) (.name I.entityNumber)] -> .assign (.attr (.name I.self) I.entityNumber) (.int 0)]"
   },
   {
    "file": "Verif/Source/Dis3.lean",
    "within": "SeparationVP.__init__",
    "old": "   [.assign (.attr (.name I.self) I.reasonForSeparation) (.name I.reasonForSeparation),",
    "new": "   [.assign (.attr (.name I.self) I.reasonForSeparation) (.name I.stationLocation),",
    "descr": "[.assign (.attr (.name I.self) I.reasonForSeparation) (.name I.reasonForSeparation), -> [.assign (.attr (.name I.self) I.reasonForSeparation) (.name I.stationLocation),"
   },
   {
    "file": "Verif/Source/Dis3.lean",
    "within": "EmitterSystem.__init__",
    "old": "    .assign (.attr (.name I.self) I.emitterIDNumber) (.name I.emitterIDNumber)]",
    "new": "    .assign (.attr (.name I.self) I.emitterIDNumber) (.name I.emitterName)]",
    "descr": ".assign (.attr (.name I.self) I.emitterIDNumber) (.name I.emitterIDNumber)] -> .assign (.attr (.name I.self) I.emitterIDNumber) (.name I.emitterName)]"
   },
   {
    "file": "Verif/Source/Dis3.lean",
    "within": "PduStatus.__init__",
    "old": "   [.assign (.attr (.name I.self) I.pduStatus) (.name I.pduStatus)]",
    "new": "   [.assign (.attr (.name I.self) I.pduStatus) (.int 0)]",
    "descr": "[.assign (.attr (.name I.self) I.pduStatus) (.name I.pduStatus)] -> [.assign (.attr (.name I.self) I.pduStatus) (.int 0)]"
   },
   {
    "file": "Verif/Source/Dis3.lean",
    "within": "LiveEntityPdu.__init__",
    "old": "    .assign (.attr (.name I.self) I.subprotocolNumber) (.name I.subprotocolNumber),",
    "new": "    .assign (.attr (.name I.self) I.subprotocolNumber) (.int 0),",
    "descr": ".assign (.attr (.name I.self) I.subprotocolNumber) (.name I.subprotocolNumber), -> .assign (.attr (.name I.self) I.subprotocolNumber) (.int 0),"
   },
   {
    "file": "Verif/Source/Dis3.lean",
    "within": "Pdu.__init__",
    "old": "    .assign (.attr (.name I.self) I.padding) (.int 0)]",
    "new": "    .assign (.attr (.name I.self) I.padding) (.int 1)]",
    "descr": ".assign (.attr (.name I.self) I.padding) (.int 0)] -> .assign (.attr (.name I.self) I.padding) (.int 1)]"
   },
   {
    "file": "Verif/Source/Dis3.lean",
    "within": "EntityStateUpdatePdu.__init__",
    "old": "    .assign (.attr (.name I.self) I.entityAppearance) (.name I.entityAppearance),",
    "new": "    .assign (.attr (.name I.self) I.entityAppearance) (.name I.entityLinearVelocity),",
    "descr": ".assign (.attr (.name I.self) I.entityAppearance) (.name I.entityAppearance), -> .assign (.attr (.name I.self) I.entityAppearance) (.name I.entityLinearVelocity),"
   },
   {
    "file": "Verif/Source/Dis3.lean",
    "within": "ServiceRequestPdu.__init__",
    "old": "    .assign (.attr (.name I.self) I.serviceTypeRequested) (.name I.serviceTypeRequested),",
    "new": "    .assign (.attr (.name I.self) I.serviceTypeRequested) (.name I.servicingEntityID),",
    "descr": ".assign (.attr (.name I.self) I.serviceTypeRequested) (.name I.serviceTypeRequested), -> .assign (.attr (.name I.self) I.serviceTypeRequested) (.name I.servicingEntityID),"
   },
   {
    "file": "Verif/Source/Dis3.lean",
    "within": "RepairCompletePdu.__init__",
    "old": "    .assign (.attr (.name I.self) I.receivingEntityID) (.or (.name I.receivingEntityID) (.call I.EntityIdentifier [] [])),",
    "new": "    .assign (.attr (.name I.self) I.receivingEntityID) (.call I.EntityIdentifier [] []),",
    "descr": ".assign (.attr (.name I.self) I.receivingEntityID) (.or (.name I.receivingEntityID) (.call I.EntityIdentifier  -> .assign (.attr (.name I.self) I.receivingEntityID) (.call I.EntityIdentifier [] []),"
   },
   {
    "file": "Verif/Source/Dis3.lean",
    "within": "CollisionPdu.__init__",
    "old": "    .assign (.attr (.name I.self) I.collisionType) (.name I.collisionType),",
    "new": "    .assign (.attr (.name I.self) I.collisionType) (.name I.location),",
    "descr": ".assign (.attr (.name I.self) I.collisionType) (.name I.collisionType), -> .assign (.attr (.name I.self) I.collisionType) (.name I.location),"
   },
   {
    "file": "Verif/Source/Dis3.lean",
    "within": "RepairResponsePdu.__init__",
    "old": "    .assign (.attr (.name I.self) I.padding2) (.int 0)]",
    "new": "    .assign (.attr (.name I.self) I.padding2) (.int 1)]",
    "descr": ".assign (.attr (.name I.self) I.padding2) (.int 0)] -> .assign (.attr (.name I.self) I.padding2) (.int 1)]"
   },
   {
    "file": "Verif/Source/Dis3.lean",
    "within": "SimulationManagementFamilyPdu.__init__",
    "old": "    .assign (.attr (.name I.self) I.receivingEntityID) (.or (.name I.receivingEntityID) (.call I.EntityIdentifier [] []))]",
    "new": "    .assign (.attr (.name I.self) I.receivingEntityID) (.call I.EntityIdentifier [] [])]",
    "descr": ".assign (.attr (.name I.self) I.receivingEntityID) (.or (.name I.receivingEntityID) (.call I.EntityIdentifier  -> .assign (.attr (.name I.self) I.receivingEntityID) (.call I.EntityIdentifier [] [])]"
   },
   {
    "file": "Verif/Source/Dis3.lean",
    "within": "DataQueryPdu.__init__",
    "old": "    .assign (.attr (.name I.self) I.requestID) (.int 0),",
    "new": "    .assign (.attr (.name I.self) I.requestID) (.int 1),",
    "descr": ".assign (.attr (.name I.self) I.requestID) (.int 0), -> .assign (.attr (.name I.self) I.requestID) (.int 1),"
   },
   {
    "file": "Verif/Source/Dis3.lean",
    "within": "LinearObjectStatePdu.__init__",
    "old": "    .assign (.attr (.name I.self) I.updateNumber) (.name I.updateNumber),",
    "new": "    .assign (.attr (.name I.self) I.updateNumber) (.name I.receivingID),",
    "descr": ".assign (.attr (.name I.self) I.updateNumber) (.name I.updateNumber), -> .assign (.attr (.name I.self) I.updateNumber) (.name I.receivingID),"
   },
   {
    "file": "Verif/Source/Dis3.lean",
    "within": "CreateEntityPdu.__init__",
    "old": "    .assign (.attr (.name I.self) I.requestID) (.name I.requestID)]",
    "new": "    .assign (.attr (.name I.self) I.requestID) (.int 0)]",
    "descr": ".assign (.attr (.name I.self) I.requestID) (.name I.requestID)] -> .assign (.attr (.name I.self) I.requestID) (.int 0)]"
   },
   {
    "file": "Verif/Source/Dis3.lean",
    "within": "IntercomSignalPdu.__init__",
    "old": "    .assign (.attr (.name I.self) I.sampleRate) (.name I.sampleRate),",
    "new": "    .assign (.attr (.name I.self) I.sampleRate) (.name I.tdlType),",
    "descr": ".assign (.attr (.name I.self) I.sampleRate) (.name I.sampleRate), -> .assign (.attr (.name I.self) I.sampleRate) (.name I.tdlType),"
   },
   {
    "file": "Verif/Source/Dis3.lean",
    "within": "RemoveEntityPdu.__init__",
    "old": "    .assign (.attr (.name I.self) I.requestID) (.name I.requestID)]",
    "new": "    .assign (.attr (.name I.self) I.requestID) (.int 0)]",
    "descr": ".assign (.attr (.name I.self) I.requestID) (.name I.requestID)] -> .assign (.attr (.name I.self) I.requestID) (.int 0)]"
   },
   {
    "file": "Verif/Source/Dis3.lean",
    "within": "ResupplyReceivedPdu.__init__",
    "old": "    .assign (.attr (.name I.self) I.receivingEntityID) (.or (.name I.receivingEntityID) (.call I.EntityIdentifier [] [])),",
    "new": "    .assign (.attr (.name I.self) I.receivingEntityID) (.call I.EntityIdentifier [] []),",
    "descr": ".assign (.attr (.name I.self) I.receivingEntityID) (.or (.name I.receivingEntityID) (.call I.EntityIdentifier  -> .assign (.attr (.name I.self) I.receivingEntityID) (.call I.EntityIdentifier [] []),"
   },
   {
    "file": "Verif/Source/Dis3.lean",
    "within": "WarfareFamilyPdu.__init__",
    "old": "    .assign (.attr (.name I.self) I.firingEntityID) (.or (.name I.firingEntityID) (.call I.EntityIdentifier [] [])),",
    "new": "    .assign (.attr (.name I.self) I.firingEntityID) (.call I.EntityIdentifier [] []),",
    "descr": ".assign (.attr (.name I.self) I.firingEntityID) (.or (.name I.firingEntityID) (.call I.EntityIdentifier [] []) -> .assign (.attr (.name I.self) I.firingEntityID) (.call I.EntityIdentifier [] []),"
   },
   {
    "file": "Verif/Source/Dis3.lean",
    "within": "CollisionElasticPdu.__init__",
    "old": "    .assign (.attr (.name I.self) I.collisionIntermediateResultXX) (.name I.collisionIntermediateResultXX),",
    "new": "    .assign (.attr (.name I.self) I.collisionIntermediateResultXX) (.name I.collisionIntermediateResultXZ),",
    "descr": ".assign (.attr (.name I.self) I.collisionIntermediateResultXX) (.name I.collisionIntermediateResultXX), -> .assign (.attr (.name I.self) I.collisionIntermediateResultXX) (.name I.collisionIntermediateResultXZ),"
   },
   {
    "file": "Verif/Source/Dis3.lean",
    "within": "ActionRequestPdu.__init__",
    "old": "    .assign (.attr (.name I.self) I.actionID) (.name I.actionID),",
    "new": "    .assign (.attr (.name I.self) I.actionID) (.int 0),",
    "descr": ".assign (.attr (.name I.self) I.actionID) (.name I.actionID), -> .assign (.attr (.name I.self) I.actionID) (.int 0),"
   },
   {
    "file": "Verif/Source/Dis3.lean",
    "within": "AcknowledgePdu.__init__",
    "old": "    .assign (.attr (.name I.self) I.responseFlag) (.name I.responseFlag),",
    "new": "    .assign (.attr (.name I.self) I.responseFlag) (.name I.requestID),",
    "descr": ".assign (.attr (.name I.self) I.responseFlag) (.name I.responseFlag), -> .assign (.attr (.name I.self) I.responseFlag) (.name I.requestID),"
   },
   {
    "file": "Verif/Source/Dis3.lean",
    "within": "SimulationManagementWithReliabilityFamilyPdu.__init__",
    "old": "    .assign (.attr (.name I.self) I.originatingEntityID) (.or (.name I.originatingEntityID) (.call I.EntityIdentifier [] [])),",
    "new": "    .assign (.attr (.name I.self) I.originatingEntityID) (.call I.EntityIdentifier [] []),",
    "descr": ".assign (.attr (.name I.self) I.originatingEntityID) (.or (.name I.originatingEntityID) (.call I.EntityIdentif -> .assign (.attr (.name I.self) I.originatingEntityID) (.call I.EntityIdentifier [] []),"
   },
   {
    "file": "Verif/Source/Dis3.lean",
    "within": "ActionRequestReliablePdu.__init__",
    "old": "    .assign (.attr (.name I.self) I.requestID) (.name I.requestID),",
    "new": "    .assign (.attr (.name I.self) I.requestID) (.name I.variableDatumRecords),",
    "descr": ".assign (.attr (.name I.self) I.requestID) (.name I.requestID), -> .assign (.attr (.name I.self) I.requestID) (.name I.variableDatumRecords),"
   },
   {
    "file": "Verif/Source/Dis3.lean",
    "within": "DesignatorPdu.__init__",
    "old": "    .assign (.attr (.name I.self) I.deadReckoningAlgorithm) (.name I.deadReckoningAlgorithm),",
    "new": "    .assign (.attr (.name I.self) I.deadReckoningAlgorithm) (.int 0),",
    "descr": ".assign (.attr (.name I.self) I.deadReckoningAlgorithm) (.name I.deadReckoningAlgorithm), -> .assign (.attr (.name I.self) I.deadReckoningAlgorithm) (.int 0),"
   },
   {
    "file": "Verif/Source/Dis3.lean",
    "within": "StopFreezePdu.__init__",
    "old": "    .assign (.attr (.name I.self) I.frozenBehavior) (.name I.frozenBehavior),",
    "new": "    .assign (.attr (.name I.self) I.frozenBehavior) (.name I.realWorldTime),",
    "descr": ".assign (.attr (.name I.self) I.frozenBehavior) (.name I.frozenBehavior), -> .assign (.attr (.name I.self) I.frozenBehavior) (.name I.realWorldTime),"
   },
   {
    "file": "Verif/Source/Dis3.lean",
    "within": "EntityStatePdu.__init__",
    "old": "    .assign (.attr (.name I.self) I.entityAppearance) (.name I.entityAppearance),",
    "new": "    .assign (.attr (.name I.self) I.entityAppearance) (.name I.entityOrientation),",
    "descr": ".assign (.attr (.name I.self) I.entityAppearance) (.name I.entityAppearance), -> .assign (.attr (.name I.self) I.entityAppearance) (.name I.entityOrientation),"
   },
   {
    "file": "Verif/Source/Dis3.lean",
    "within": "StartResumePdu.__init__",
    "old": "    .assign (.attr (.name I.self) I.realWorldTime) (.or (.name I.realWorldTime) (.call I.ClockTime [] [])),",
    "new": "    .assign (.attr (.name I.self) I.realWorldTime) (.call I.ClockTime [] []),",
    "descr": ".assign (.attr (.name I.self) I.realWorldTime) (.or (.name I.realWorldTime) (.call I.ClockTime [] [])), -> .assign (.attr (.name I.self) I.realWorldTime) (.call I.ClockTime [] []),"
   },
   {
    "file": "Verif/Source/Dis3.lean",
    "within": "TransmitterPdu.__init__",
    "old": "    .assign (.attr (.name I.self) I.transmitState) (.name I.transmitState),",
    "new": "    .assign (.attr (.name I.self) I.transmitState) (.name I.radioNumber),",
    "descr": ".assign (.attr (.name I.self) I.transmitState) (.name I.transmitState), -> .assign (.attr (.name I.self) I.transmitState) (.name I.radioNumber),"
   },
   {
    "file": "Verif/Source/Dis3.lean",
    "within": "ElectromagneticEmissionsPdu.__init__",
    "old": "    .assign (.attr (.name I.self) I.eventID) (.or (.name I.eventID) (.call I.EventIdentifier [] [])),",
    "new": "    .assign (.attr (.name I.self) I.eventID) (.call I.EventIdentifier [] []),",
    "descr": ".assign (.attr (.name I.self) I.eventID) (.or (.name I.eventID) (.call I.EventIdentifier [] [])), -> .assign (.attr (.name I.self) I.eventID) (.call I.EventIdentifier [] []),"
   },
   {
    "file": "Verif/Source/Dis3.lean",
    "within": "EmissionSystemBeamRecord.__init__",
    "old": "    .assign (.attr (.name I.self) I.beamIDNumber) (.name I.beamIDNumber),",
    "new": "    .assign (.attr (.name I.self) I.beamIDNumber) (.name I.highDensityTrackJam),",
    "descr": ".assign (.attr (.name I.self) I.beamIDNumber) (.name I.beamIDNumber), -> .assign (.attr (.name I.self) I.beamIDNumber) (.name I.highDensityTrackJam),"
   },
   {
    "file": "Verif/Source/Dis3.lean",
    "within": "EmissionSystemRecord.__init__",
    "old": "   [.assign (.attr (.name I.self) I.systemDataLength) (.name I.systemDataLength),",
    "new": "   [.assign (.attr (.name I.self) I.systemDataLength) (.int 0),",
    "descr": "[.assign (.attr (.name I.self) I.systemDataLength) (.name I.systemDataLength), -> [.assign (.attr (.name I.self) I.systemDataLength) (.int 0),"
   },
   {
    "file": "Verif/Source/Dis3.lean",
    "within": "ResupplyOfferPdu.__init__",
    "old": "    .assign (.attr (.name I.self) I.receivingEntityID) (.or (.name I.receivingEntityID) (.call I.EntityIdentifier [] [])),",
    "new": "    .assign (.attr (.name I.self) I.receivingEntityID) (.call I.EntityIdentifier [] []),",
    "descr": ".assign (.attr (.name I.self) I.receivingEntityID) (.or (.name I.receivingEntityID) (.call I.EntityIdentifier  -> .assign (.attr (.name I.self) I.receivingEntityID) (.call I.EntityIdentifier [] []),"
   }
  ]
 },
 {
  "id": "W4",
  "definition": "Verif/Source/Dis4.lean",
  "claim": "the constructors do what their text says (C77)",
  "expect": [
   "C77"
  ],
  "edits": [
   {
    "file": "Verif/Source/Dis4.lean",
    "within": "AttributePdu.__init__",
    "old": "    .assign (.attr (.name I.self) I.actionCode) (.name I.actionCode),",
    "new": "    .assign (.attr (.name I.self) I.actionCode) (.name I.attributeRecordProtocolVersion),",
    "descr": ".assign (.attr (.name I.self) I.actionCode) (.name I.actionCode), -> .assign (.attr (.name I.self) I.actionCode) (.name I.attributeRecordProtocolVersion),"
   },
   {
    "file": "Verif/Source/Dis4.lean",
    "within": "SetDataReliablePdu.__init__",
    "old": "    .assign (.attr (.name I.self) I.pad2) (.int 0),",
    "new": "    .assign (.attr (.name I.self) I.pad2) (.int 1),",
    "descr": ".assign (.attr (.name I.self) I.pad2) (.int 0), -> .assign (.attr (.name I.self) I.pad2) (.int 1),"
   },
   {
    "file": "Verif/Source/Dis4.lean",
    "within": "EventReportPdu.__init__",
    "old": "    .assign (.attr (.name I.self) I.padding1) (.int 0),",
    "new": "    .assign (.attr (.name I.self) I.padding1) (.int 1),",
    "descr": ".assign (.attr (.name I.self) I.padding1) (.int 0), -> .assign (.attr (.name I.self) I.padding1) (.int 1),"
   },
   {
    "file": "Verif/Source/Dis4.lean",
    "within": "PointObjectStatePdu.__init__",
    "old": "    .assign (.attr (.name I.self) I.updateNumber) (.name I.updateNumber),",
    "new": "    .assign (.attr (.name I.self) I.updateNumber) (.name I.objectOrientation),",
    "descr": ".assign (.attr (.name I.self) I.updateNumber) (.name I.updateNumber), -> .assign (.attr (.name I.self) I.updateNumber) (.name I.objectOrientation),"
   },
   {
    "file": "Verif/Source/Dis4.lean",
    "within": "DataPdu.__init__",
    "old": "    .assign (.attr (.name I.self) I.padding1) (.int 0),",
    "new": "    .assign (.attr (.name I.self) I.padding1) (.int 1),",
    "descr": ".assign (.attr (.name I.self) I.padding1) (.int 0), -> .assign (.attr (.name I.self) I.padding1) (.int 1),"
   },
   {
    "file": "Verif/Source/Dis4.lean",
    "within": "FastEntityStatePdu.__init__",
    "old": "    .assign (.attr (.name I.self) I.xAcceleration) (.name I.xAcceleration),",
    "new": "    .assign (.attr (.name I.self) I.xAcceleration) (.name I.zAngularVelocity),",
    "descr": ".assign (.attr (.name I.self) I.xAcceleration) (.name I.xAcceleration), -> .assign (.attr (.name I.self) I.xAcceleration) (.name I.zAngularVelocity),"
   },
   {
    "file": "Verif/Source/Dis4.lean",
    "within": "AcknowledgeReliablePdu.__init__",
    "old": "    .assign (.attr (.name I.self) I.acknowledgeFlag) (.name I.acknowledgeFlag),",
    "new": "    .assign (.attr (.name I.self) I.acknowledgeFlag) (.int 0),",
    "descr": ".assign (.attr (.name I.self) I.acknowledgeFlag) (.name I.acknowledgeFlag), -> .assign (.attr (.name I.self) I.acknowledgeFlag) (.int 0),"
   },
   {
    "file": "Verif/Source/Dis4.lean",
    "within": "StartResumeReliablePdu.__init__",
    "old": "    .assign (.attr (.name I.self) I.pad1) (.int 0),",
    "new": "    .assign (.attr (.name I.self) I.pad1) (.int 1),",
    "descr": ".assign (.attr (.name I.self) I.pad1) (.int 0), -> .assign (.attr (.name I.self) I.pad1) (.int 1),"
   },
   {
    "file": "Verif/Source/Dis4.lean",
    "within": "ArealObjectStatePdu.__init__",
    "old": "    .assign (.attr (.name I.self) I.updateNumber) (.name I.updateNumber),",
    "new": "    .assign (.attr (.name I.self) I.updateNumber) (.int 0),",
    "descr": ".assign (.attr (.name I.self) I.updateNumber) (.name I.updateNumber), -> .assign (.attr (.name I.self) I.updateNumber) (.int 0),"
   },
   {
    "file": "Verif/Source/Dis4.lean",
    "within": "DataQueryReliablePdu.__init__",
    "old": "    .assign (.attr (.name I.self) I.requiredReliabilityService) (.name I.requiredReliabilityService),",
    "new": "    .assign (.attr (.name I.self) I.requiredReliabilityService) (.int 0),",
    "descr": ".assign (.attr (.name I.self) I.requiredReliabilityService) (.name I.requiredReliabilityService), -> .assign (.attr (.name I.self) I.requiredReliabilityService) (.int 0),"
   },
   {
    "file": "Verif/Source/Dis4.lean",
    "within": "MinefieldStatePdu.__init__",
    "old": "    .assign (.attr (.name I.self) I.forceID) (.name I.forceID),",
    "new": "    .assign (.attr (.name I.self) I.forceID) (.name I.mineTypes),",
    "descr": ".assign (.attr (.name I.self) I.forceID) (.name I.forceID), -> .assign (.attr (.name I.self) I.forceID) (.name I.mineTypes),"
   },
   {
    "file": "Verif/Source/Dis4.lean",
    "within": "DataReliablePdu.__init__",
    "old": "    .assign (.attr (.name I.self) I.requestID) (.name I.requestID),",
    "new": "    .assign (.attr (.name I.self) I.requestID) (.int 0),",
    "descr": ".assign (.attr (.name I.self) I.requestID) (.name I.requestID), -> .assign (.attr (.name I.self) I.requestID) (.int 0),"
   },
   {
    "file": "Verif/Source/Dis4.lean",
    "within": "DirectedEnergyFirePdu.__init__",
    "old": "    .assign (.attr (.name I.self) I.wavelength) (.name I.wavelength),",
    "new": "    .assign (.attr (.name I.self) I.wavelength) (.name I.pulseWidth),",
    "descr": ".assign (.attr (.name I.self) I.wavelength) (.name I.wavelength), -> .assign (.attr (.name I.self) I.wavelength) (.name I.pulseWidth),"
   },
   {
    "file": "Verif/Source/Dis4.lean",
    "within": "DetonationPdu.__init__",
    "old": "    .assign (.attr (.name I.self) I.detonationResult) (.name I.detonationResult),",
    "new": "    .assign (.attr (.name I.self) I.detonationResult) (.name I.explodingEntityID),",
    "descr": ".assign (.attr (.name I.self) I.detonationResult) (.name I.detonationResult), -> .assign (.attr (.name I.self) I.detonationResult) (.name I.explodingEntityID),"
   },
   {
    "file": "Verif/Source/Dis4.lean",
    "within": "SetDataPdu.__init__",
    "old": "    .assign (.attr (.name I.self) I.requestID) (.name I.requestID),",
    "new": "    .assign (.attr (.name I.self) I.requestID) (.name I.variableDatumRecords),",
    "descr": ".assign (.attr (.name I.self) I.requestID) (.name I.requestID), -> .assign (.attr (.name I.self) I.requestID) (.name I.variableDatumRecords),"
   },
   {
    "file": "Verif/Source/Dis4.lean",
    "within": "RecordQueryReliablePdu.__init__",
    "old": "    .assign (.attr (.name I.self) I.time) (.name I.time),",
    "new": "    .assign (.attr (.name I.self) I.time) (.name I.recordIDs),",
    "descr": ".assign (.attr (.name I.self) I.time) (.name I.time), -> .assign (.attr (.name I.self) I.time) (.name I.recordIDs),"
   },
   {
    "file": "Verif/Source/Dis4.lean",
    "within": "ActionResponsePdu.__init__",
    "old": "    .assign (.attr (.name I.self) I.requestID) (.name I.requestID),",
    "new": "    .assign (.attr (.name I.self) I.requestID) (.int 0),",
    "descr": ".assign (.attr (.name I.self) I.requestID) (.name I.requestID), -> .assign (.attr (.name I.self) I.requestID) (.int 0),"
   },
   {
    "file": "Verif/Source/Dis4.lean",
    "within": "EntityDamageStatusPdu.__init__",
    "old": "    .assign (.attr (.name I.self) I.damageDescriptions) (.or (.name I.damageDescriptions) (.list []))]",
    "new": "    .assign (.attr (.name I.self) I.damageDescriptions) (.list [])]",
    "descr": ".assign (.attr (.name I.self) I.damageDescriptions) (.or (.name I.damageDescriptions) (.list []))] -> .assign (.attr (.name I.self) I.damageDescriptions) (.list [])]"
   },
   {
    "file": "Verif/Source/Dis4.lean",
    "within": "FirePdu.__init__",
    "old": "    .assign (.attr (.name I.self) I.range) (.name I.range_)]",
    "new": "    .assign (.attr (.name I.self) I.range) (.name I.location)]",
    "descr": ".assign (.attr (.name I.self) I.range) (.name I.range_)] -> .assign (.attr (.name I.self) I.range) (.name I.location)]"
   },
   {
    "file": "Verif/Source/Dis4.lean",
    "within": "ReceiverPdu.__init__",
    "old": "    .assign (.attr (.name I.self) I.transmitterEntityID) (.or (.name I.transmitterEntityID) (.call I.EntityIdentifier [] [])),",
    "new": "    .assign (.attr (.name I.self) I.transmitterEntityID) (.call I.EntityIdentifier [] []),",
    "descr": ".assign (.attr (.name I.self) I.transmitterEntityID) (.or (.name I.transmitterEntityID) (.call I.EntityIdentif -> .assign (.attr (.name I.self) I.transmitterEntityID) (.call I.EntityIdentifier [] []),"
   },
   {
    "file": "Verif/Source/Dis4.lean",
    "within": "UaPdu.__init__",
    "old": "    .assign (.attr (.name I.self) I.stateChangeIndicator) (.name I.stateChangeIndicator),",
    "new": "    .assign (.attr (.name I.self) I.stateChangeIndicator) (.name I.emittingEntityID),",
    "descr": ".assign (.attr (.name I.self) I.stateChangeIndicator) (.name I.stateChangeIndicator), -> .assign (.attr (.name I.self) I.stateChangeIndicator) (.name I.emittingEntityID),"
   },
   {
    "file": "Verif/Source/Dis4.lean",
    "within": "IntercomControlPdu.__init__",
    "old": "    .assign (.attr (.name I.self) I.transmitLineState) (.name I.transmitLineState),",
    "new": "    .assign (.attr (.name I.self) I.transmitLineState) (.name I.sourceEntityID),",
    "descr": ".assign (.attr (.name I.self) I.transmitLineState) (.name I.transmitLineState), -> .assign (.attr (.name I.self) I.transmitLineState) (.name I.sourceEntityID),"
   },
   {
    "file": "Verif/Source/Dis4.lean",
    "within": "SignalPdu.__init__",
    "old": "    .assign (.attr (.name I.self) I.radioID) (.name I.radioID),",
    "new": "    .assign (.attr (.name I.self) I.radioID) (.name I.tdlType),",
    "descr": ".assign (.attr (.name I.self) I.radioID) (.name I.radioID), -> .assign (.attr (.name I.self) I.radioID) (.name I.tdlType),"
   },
   {
    "file": "Verif/Source/Dis4.lean",
    "within": "RemoveEntityReliablePdu.__init__",
    "old": "    .assign (.attr (.name I.self) I.requiredReliabilityService) (.name I.requiredReliabilityService),",
    "new": "    .assign (.attr (.name I.self) I.requiredReliabilityService) (.name I.requestID),",
    "descr": ".assign (.attr (.name I.self) I.requiredReliabilityService) (.name I.requiredReliabilityService), -> .assign (.attr (.name I.self) I.requiredReliabilityService) (.name I.requestID),"
   },
   {
    "file": "Verif/Source/Dis4.lean",
    "within": "SeesPdu.__init__",
    "old": "    .assign (.attr (.name I.self) I.infraredSignatureRepresentationIndex) (.name I.infraredSignatureRepresentationIndex),",
    "new": "    .assign (.attr (.name I.self) I.infraredSignatureRepresentationIndex) (.name I.propulsionSystemData),",
    "descr": ".assign (.attr (.name I.self) I.infraredSignatureRepresentationIndex) (.name I.infraredSignatureRepresentation -> .assign (.attr (.name I.self) I.infraredSignatureRepresentationIndex) (.name I.propulsionSystemData),"
   },
   {
    "file": "Verif/Source/Dis4.lean",
    "within": "CreateEntityReliablePdu.__init__",
    "old": "    .assign (.attr (.name I.self) I.requiredReliabilityService) (.name I.requiredReliabilityService),",
    "new": "    .assign (.attr (.name I.self) I.requiredReliabilityService) (.name I.requestID),",
    "descr": ".assign (.attr (.name I.self) I.requiredReliabilityService) (.name I.requiredReliabilityService), -> .assign (.attr (.name I.self) I.requiredReliabilityService) (.name I.requestID),"
   },
   {
    "file": "Verif/Source/Dis4.lean",
    "within": "StopFreezeReliablePdu.__init__",
    "old": "    .assign (.attr (.name I.self) I.pad1) (.int 0),",
    "new": "    .assign (.attr (.name I.self) I.pad1) (.int 1),",
    "descr": ".assign (.attr (.name I.self) I.pad1) (.int 0), -> .assign (.attr (.name I.self) I.pad1) (.int 1),"
   },
   {
    "file": "Verif/Source/Dis4.lean",
    "within": "EventReportReliablePdu.__init__",
    "old": "    .assign (.attr (.name I.self) I.eventType) (.name I.eventType),",
    "new": "    .assign (.attr (.name I.self) I.eventType) (.int 0),",
    "descr": ".assign (.attr (.name I.self) I.eventType) (.name I.eventType), -> .assign (.attr (.name I.self) I.eventType) (.int 0),"
   },
   {
    "file": "Verif/Source/Dis4.lean",
    "within": "MinefieldResponseNackPdu.__init__",
    "old": "    .assign (.attr (.name I.self) I.requestingEntityID) (.or (.name I.requestingEntityID) (.call I.EntityIdentifier [] [])),",
    "new": "    .assign (.attr (.name I.self) I.requestingEntityID) (.call I.EntityIdentifier [] []),",
    "descr": ".assign (.attr (.name I.self) I.requestingEntityID) (.or (.name I.requestingEntityID) (.call I.EntityIdentifie -> .assign (.attr (.name I.self) I.requestingEntityID) (.call I.EntityIdentifier [] []),"
   },
   {
    "file": "Verif/Source/Dis4.lean",
    "within": "ActionResponseReliablePdu.__init__",
    "old": "    .assign (.attr (.name I.self) I.responseStatus) (.name I.responseStatus),",
    "new": "    .assign (.attr (.name I.self) I.responseStatus) (.name I.variableDatumRecords),",
    "descr": ".assign (.attr (.name I.self) I.responseStatus) (.name I.responseStatus), -> .assign (.attr (.name I.self) I.responseStatus) (.name I.variableDatumRecords),"
   },
   {
    "file": "Verif/Source/Dis4.lean",
    "within": "IsPartOfPdu.__init__",
    "old": "    .assign (.attr (.name I.self) I.relationship) (.or (.name I.relationship) (.call I.Relationship [] [])),",
    "new": "    .assign (.attr (.name I.self) I.relationship) (.call I.Relationship [] []),",
    "descr": ".assign (.attr (.name I.self) I.relationship) (.or (.name I.relationship) (.call I.Relationship [] [])), -> .assign (.attr (.name I.self) I.relationship) (.call I.Relationship [] []),"
   },
   {
    "file": "Verif/Source/Dis4.lean",
    "within": "AggregateStatePdu.__init__",
    "old": "    .assign (.attr (.name I.self) I.aggregateState) (.name I.aggregateState),",
    "new": "    .assign (.attr (.name I.self) I.aggregateState) (.name I.silentEntitySystems),",
    "descr": ".assign (.attr (.name I.self) I.aggregateState) (.name I.aggregateState), -> .assign (.attr (.name I.self) I.aggregateState) (.name I.silentEntitySystems),"
   }
  ]
 },
 {
  "id": "W5",
  "definition": "Verif/Source/Records.lean",
  "claim": "the constructors do what their text says (C77)",
  "expect": [
   "C77"
  ],
  "edits": [
   {
    "file": "Verif/Source/Records.lean",
    "within": "EntityIdentifier.__init__",
    "old": "    .assign (.attr (.name I.self) I.entityNumber) (.name I.entityNumber)]",
    "new": "    .assign (.attr (.name I.self) I.entityNumber) (.int 0)]",
    "descr": ".assign (.attr (.name I.self) I.entityNumber) (.name I.entityNumber)] -> .assign (.attr (.name I.self) I.entityNumber) (.int 0)]"
   },
   {
    "file": "Verif/Source/Records.lean",
    "within": "EulerAngles.__init__",
    "old": "    .assign (.attr (.name I.self) I.phi) (.name I.phi)]",
    "new": "    .assign (.attr (.name I.self) I.phi) (.name I.theta)]",
    "descr": ".assign (.attr (.name I.self) I.phi) (.name I.phi)] -> .assign (.attr (.name I.self) I.phi) (.name I.theta)]"
   },
   {
    "file": "Verif/Source/Records.lean",
    "within": "EventIdentifier.__init__",
    "old": "    .assign (.attr (.name I.self) I.eventNumber) (.name I.eventNumber)]",
    "new": "    .assign (.attr (.name I.self) I.eventNumber) (.name I.simulationAddress)]",
    "descr": ".assign (.attr (.name I.self) I.eventNumber) (.name I.eventNumber)] -> .assign (.attr (.name I.self) I.eventNumber) (.name I.simulationAddress)]"
   },
   {
    "file": "Verif/Source/Records.lean",
    "within": "SimulationAddress.__init__",
    "old": "   [.assign (.attr (.name I.self) I.site) (.name I.site),",
    "new": "   [.assign (.attr (.name I.self) I.site) (.int 0),",
    "descr": "[.assign (.attr (.name I.self) I.site) (.name I.site), -> [.assign (.attr (.name I.self) I.site) (.int 0),"
   },
   {
    "file": "Verif/Source/Records.lean",
    "within": "Vector3Float.__init__",
    "old": "   [.assign (.attr (.name I.self) I.x) (.name I.x),",
    "new": "   [.assign (.attr (.name I.self) I.x) (.name I.z),",
    "descr": "[.assign (.attr (.name I.self) I.x) (.name I.x), -> [.assign (.attr (.name I.self) I.x) (.name I.z),"
   },
   {
    "file": "Verif/Source/Records.lean",
    "within": "WorldCoordinates.__init__",
    "old": "   [.assign (.attr (.name I.self) I.x) (.name I.x),",
    "new": "   [.assign (.attr (.name I.self) I.x) (.int 0),",
    "descr": "[.assign (.attr (.name I.self) I.x) (.name I.x), -> [.assign (.attr (.name I.self) I.x) (.int 0),"
   },
   {
    "file": "Verif/Source/Records.lean",
    "within": "UnknownStandardVariableRecord.__init__",
    "old": "   [.assign (.attr (.name I.self) I.data) (.name I.data)]",
    "new": "   [.assign (.attr (.name I.self) I.data) (.int 0)]",
    "descr": "[.assign (.attr (.name I.self) I.data) (.name I.data)] -> [.assign (.attr (.name I.self) I.data) (.int 0)]"
   },
   {
    "file": "Verif/Source/Records.lean",
    "within": "UnknownRadio.__init__",
    "old": "   [.assign (.attr (.name I.self) I.data) (.name I.data)]",
    "new": "   [.assign (.attr (.name I.self) I.data) (.int 0)]",
    "descr": "[.assign (.attr (.name I.self) I.data) (.name I.data)] -> [.assign (.attr (.name I.self) I.data) (.int 0)]"
   },
   {
    "file": "Verif/Source/Records.lean",
    "within": "UnknownAntennaPattern.__init__",
    "old": "   [.assign (.attr (.name I.self) I.data) (.name I.data)]",
    "new": "   [.assign (.attr (.name I.self) I.data) (.int 0)]",
    "descr": "[.assign (.attr (.name I.self) I.data) (.name I.data)] -> [.assign (.attr (.name I.self) I.data) (.int 0)]"
   },
   {
    "file": "Verif/Source/Records.lean",
    "within": "BeamAntennaPattern.__init__",
    "old": "    .assign (.attr (.name I.self) I.referenceSystem) (.name I.referenceSystem),",
    "new": "    .assign (.attr (.name I.self) I.referenceSystem) (.name I.elevationBeamwidth),",
    "descr": ".assign (.attr (.name I.self) I.referenceSystem) (.name I.referenceSystem), -> .assign (.attr (.name I.self) I.referenceSystem) (.name I.elevationBeamwidth),"
   },
   {
    "file": "Verif/Source/Records.lean",
    "within": "SpreadSpectrum.__init__",
    "old": "    .assign (.attr (.name I.self) I.pseudoNoise) (.name I.pseudoNoise),",
    "new": "    .assign (.attr (.name I.self) I.pseudoNoise) (.name I.padding),",
    "descr": ".assign (.attr (.name I.self) I.pseudoNoise) (.name I.pseudoNoise), -> .assign (.attr (.name I.self) I.pseudoNoise) (.name I.padding),"
   },
   {
    "file": "Verif/Source/Records.lean",
    "within": "ModulationType.__init__",
    "old": "    .assign (.attr (.name I.self) I.majorModulation) (.name I.majorModulation),",
    "new": "    .assign (.attr (.name I.self) I.majorModulation) (.name I.radioSystem),",
    "descr": ".assign (.attr (.name I.self) I.majorModulation) (.name I.majorModulation), -> .assign (.attr (.name I.self) I.majorModulation) (.name I.radioSystem),"
   },
   {
    "file": "Verif/Source/Records.lean",
    "within": "NetId.__init__",
    "old": "   [.assign (.attr (.name I.self) I.netNumber) (.name I.netNumber),",
    "new": "   [.assign (.attr (.name I.self) I.netNumber) (.name I.frequencyTable),",
    "descr": "[.assign (.attr (.name I.self) I.netNumber) (.name I.netNumber), -> [.assign (.attr (.name I.self) I.netNumber) (.name I.frequencyTable),"
   },
   {
    "file": "Verif/Source/Records.lean",
    "within": "BasicHaveQuickMP.__init__",
    "old": "    .assign (.attr (.name I.self) I.mwod_index) (.name I.mwod_index),",
    "new": "    .assign (.attr (.name I.self) I.mwod_index) (.name I.reserved8_2),",
    "descr": ".assign (.attr (.name I.self) I.mwod_index) (.name I.mwod_index), -> .assign (.attr (.name I.self) I.mwod_index) (.name I.reserved8_2),"
   },
   {
    "file": "Verif/Source/Records.lean",
    "within": "CCTTSincgarsMP.__init__",
    "old": "    .assign (.attr (.name I.self) I.lockout_set_id) (.name I.lockout_set_id),",
    "new": "    .assign (.attr (.name I.self) I.lockout_set_id) (.name I.clear_channel),",
    "descr": ".assign (.attr (.name I.self) I.lockout_set_id) (.name I.lockout_set_id), -> .assign (.attr (.name I.self) I.lockout_set_id) (.name I.clear_channel),"
   },
   {
    "file": "Verif/Source/Records.lean",
    "within": "HighFidelityHAVEQUICKRadio.__init__",
    "old": "    .assign (.attr (.name I.self) I.wod4) (.name I.wod4),",
    "new": "    .assign (.attr (.name I.self) I.wod4) (.name I.wod2),",
    "descr": ".assign (.attr (.name I.self) I.wod4) (.name I.wod4), -> .assign (.attr (.name I.self) I.wod4) (.name I.wod2),"
   },
   {
    "file": "Verif/Source/Records.lean",
    "within": "DirectedEnergyDamage.__init__",
    "old": "    .assign (.attr (.name I.self) I.componentDamageStatus) (.name I.componentDamageStatus),",
    "new": "    .assign (.attr (.name I.self) I.componentDamageStatus) (.name I.temperature),",
    "descr": ".assign (.attr (.name I.self) I.componentDamageStatus) (.name I.componentDamageStatus), -> .assign (.attr (.name I.self) I.componentDamageStatus) (.name I.temperature),"
   },
   {
    "file": "Verif/Source/Records.lean",
    "within": "DirectedEnergyAreaAimpoint.__init__",
    "old": "   [.assign (.attr (.name I.self) I.padding) (.int 0),",
    "new": "   [.assign (.attr (.name I.self) I.padding) (.int 1),",
    "descr": "[.assign (.attr (.name I.self) I.padding) (.int 0), -> [.assign (.attr (.name I.self) I.padding) (.int 1),"
   },
   {
    "file": "Verif/Source/Records.lean",
    "within": "DirectedEnergyPrecisionAimpoint.__init__",
    "old": "    .assign (.attr (.name I.self) I.targetComponentID) (.name I.targetComponentID),",
    "new": "    .assign (.attr (.name I.self) I.targetComponentID) (.name I.targetSpotEntityLocation),",
    "descr": ".assign (.attr (.name I.self) I.targetComponentID) (.name I.targetComponentID), -> .assign (.attr (.name I.self) I.targetComponentID) (.name I.targetSpotEntityLocation),"
   },
   {
    "file": "Verif/Source/Records.lean",
    "within": "DirectedEnergyTargetEnergyDeposition.__init__",
    "old": "   [.assign (.attr (.name I.self) I.targetEntityID) (.or (.name I.targetEntityID) (.call I.EntityIdentifier [] [])),",
    "new": "   [.assign (.attr (.name I.self) I.targetEntityID) (.call I.EntityIdentifier [] []),",
    "descr": "[.assign (.attr (.name I.self) I.targetEntityID) (.or (.name I.targetEntityID) (.call I.EntityIdentifier [] [] -> [.assign (.attr (.name I.self) I.targetEntityID) (.call I.EntityIdentifier [] []),"
   },
   {
    "file": "Verif/Source/Records.lean",
    "within": "DEFireFlags.__init__",
    "old": "   [.assign (.attr (.name I.self) I.weaponOn) (.name I.weaponOn),",
    "new": "   [.assign (.attr (.name I.self) I.weaponOn) (.int 0),",
    "descr": "[.assign (.attr (.name I.self) I.weaponOn) (.name I.weaponOn), -> [.assign (.attr (.name I.self) I.weaponOn) (.int 0),"
   }
  ]
 },
 {
  "id": "X1",
  "definition": "special records, radio and directed energy",
  "claim": "the classes do what their text says (C77)",
  "expect": [
   "C77"
  ],
  "edits": [
   {
    "file": "Verif/Source/Dis3.lean",
    "within": "TransmitterPdu.serialize",
    "old": "    .expr (.method (.name I.outputStream) I.write_uint16 [.attr (.name I.self) I.cryptoSystem] []),",
    "new": "    .expr (.method (.name I.outputStream) I.write_uint32 [.attr (.name I.self) I.cryptoSystem] []),",
    "descr": "I.write_uint16 -> I.write_uint32 in: .expr (.method (.name I.outputStream) I.write_uint16 [.attr (.name I.self) I.cryptoSystem] []),"
   },
   {
    "file": "Verif/Source/Dis3.lean",
    "within": "TransmitterPdu.parse",
    "old": "    .assign (.attr (.name I.self) I.cryptoKeyId) (.method (.name I.inputStream) I.read_uint16 [] []),\n    .assign (.name I.modulationParametersLength) (.method (.name I.inputStream) I.read_uint8 [] []),\n",
    "new": "    .assign (.name I.modulationParametersLength) (.method (.name I.inputStream) I.read_uint8 [] []),\n    .assign (.attr (.name I.self) I.cryptoKeyId) (.method (.name I.inputStream) I.read_uint16 [] []),\n",
    "descr": "swapped: .assign (.attr (.name I.self) I.cryptoKeyId) (.method (.name I.inputStream) I.read_uint16 [] []), / .assign (.name I.modulationParametersLength) (.method (.name I.inputStream) I.read_uint8 [] []),"
   },
   {
    "file": "Verif/Source/Dis4.lean",
    "within": "DirectedEnergyFirePdu.serialize",
    "old": "    .expr (.method (.name I.outputStream) I.write_uint32 [.attr (.name I.self) I.padding3] []),",
    "new": "    .expr (.method (.name I.outputStream) I.write_uint16 [.attr (.name I.self) I.padding3] []),",
    "descr": "I.write_uint32 -> I.write_uint16 in: .expr (.method (.name I.outputStream) I.write_uint32 [.attr (.name I.self) I.padding3] []),"
   },
   {
    "file": "Verif/Source/Dis4.lean",
    "within": "DirectedEnergyFirePdu.parse",
    "old": "    .assign (.attr (.name I.self) I.apertureDiameter) (.method (.name I.inputStream) I.read_float32 [] []),",
    "new": "    .assign (.attr (.name I.self) I.apertureDiameter) (.method (.name I.inputStream) I.read_float64 [] []),",
    "descr": "I.read_float32 -> I.read_float64 in: .assign (.attr (.name I.self) I.apertureDiameter) (.method (.name I.inputStream) I.read_float32 [] []),"
   },
   {
    "file": "Verif/Source/Dis4.lean",
    "within": "EntityDamageStatusPdu.serialize",
    "old": "    .expr (.method (.name I.outputStream) I.write_uint16 [.attr (.name I.self) I.damageDescriptionCount] []),",
    "new": "    .expr (.method (.name I.outputStream) I.write_uint32 [.attr (.name I.self) I.damageDescriptionCount] []),",
    "descr": "I.write_uint16 -> I.write_uint32 in: .expr (.method (.name I.outputStream) I.write_uint16 [.attr (.name I.self) I.damageDescriptionCount] []),"
   },
   {
    "file": "Verif/Source/Dis4.lean",
    "within": "EntityDamageStatusPdu.parse",
    "old": "    .assign (.name I.damageDescriptionCount) (.method (.name I.inputStream) I.read_uint16 [] []),\n",
    "new": "",
    "descr": "dropped: .assign (.name I.damageDescriptionCount) (.method (.name I.inputStream) I.read_uint16 [] []),"
   },
   {
    "file": "Verif/Source/Dis4.lean",
    "within": "IntercomControlPdu.serialize",
    "old": "    .expr (.method (.name I.outputStream) I.write_unsigned_byte [.attr (.name I.self) I.controlType] []),\n    .expr (.method (.name I.outputStream) I.write_unsigned_byte [.attr (.name I.self) I.communicationsChannelType] []),\n",
    "new": "    .expr (.method (.name I.outputStream) I.write_unsigned_byte [.attr (.name I.self) I.communicationsChannelType] []),\n    .expr (.method (.name I.outputStream) I.write_unsigned_byte [.attr (.name I.self) I.controlType] []),\n",
    "descr": "swapped: .expr (.method (.name I.outputStream) I.write_unsigned_byte [.attr (.name I.self) I.controlType] []), / .expr (.method (.name I.outputStream) I.write_unsigned_byte [.attr (.name I.self) I.communicationsChannelType] []),"
   },
   {
    "file": "Verif/Source/Dis4.lean",
    "within": "IntercomControlPdu.parse",
    "old": "    .assign (.attr (.name I.self) I.controlType) (.method (.name I.inputStream) I.read_unsigned_byte [] []),\n    .assign (.attr (.name I.self) I.communicationsChannelType) (.method (.name I.inputStream) I.read_unsigned_byte [] []),\n",
    "new": "    .assign (.attr (.name I.self) I.communicationsChannelType) (.method (.name I.inputStream) I.read_unsigned_byte [] []),\n    .assign (.attr (.name I.self) I.controlType) (.method (.name I.inputStream) I.read_unsigned_byte [] []),\n",
    "descr": "swapped: .assign (.attr (.name I.self) I.controlType) (.method (.name I.inputStream) I.read_unsigned_byte [] []), / .assign (.attr (.name I.self) I.communicationsChannelType) (.method (.name I.inputStream) I.read_unsigned_byte [] []),"
   },
   {
    "file": "Verif/Source/Records.lean",
    "within": "StandardVariableRecord.serialize",
    "old": "    .expr (.method (.name I.outputStream) I.write_uint32 [.attr (.name I.self) I.recordType] []),\n",
    "new": "",
    "descr": "dropped: .expr (.method (.name I.outputStream) I.write_uint32 [.attr (.name I.self) I.recordType] []),"
   },
   {
    "file": "Verif/Source/Records.lean",
    "within": "StandardVariableRecord.parse",
    "old": "    .ite (.not (.cmp .eq (.bin .mod (.name I.bytelength) (.int 8)) (.int 0)))",
    "new": "    .ite (.not (.cmp .eq (.bin .mod (.name I.bytelength) (.int 8)) (.int 1)))",
    "descr": ".int 0 -> .int 1 in: .ite (.not (.cmp .eq (.bin .mod (.name I.bytelength) (.int 8)) (.int 0)))"
   },
   {
    "file": "Verif/Source/Records.lean",
    "within": "BeamAntennaPattern.serialize",
    "old": "    .expr (.method (.name I.outputStream) I.write_float32 [.attr (.name I.self) I.ex] []),",
    "new": "    .expr (.method (.name I.outputStream) I.write_float64 [.attr (.name I.self) I.ex] []),",
    "descr": "I.write_float32 -> I.write_float64 in: .expr (.method (.name I.outputStream) I.write_float32 [.attr (.name I.self) I.ex] []),"
   },
   {
    "file": "Verif/Source/Records.lean",
    "within": "BeamAntennaPattern.parse",
    "old": "    .assign (.attr (.name I.self) I.ex) (.method (.name I.inputStream) I.read_float32 [] []),\n",
    "new": "",
    "descr": "dropped: .assign (.attr (.name I.self) I.ex) (.method (.name I.inputStream) I.read_float32 [] []),"
   },
   {
    "file": "Verif/Source/Records.lean",
    "within": "SpreadSpectrum.parse",
    "old": "    .assign (.attr (.name I.self) I.frequencyHopping) (.call I.bool [.attr (.name I.record_bitfield) I.frequencyHopping] []),\n",
    "new": "",
    "descr": "dropped: .assign (.attr (.name I.self) I.frequencyHopping) (.call I.bool [.attr (.name I.record_bitfield) I.frequencyHopping] []),"
   },
   {
    "file": "Verif/Source/Records.lean",
    "within": "ModulationType.serialize",
    "old": "    .expr (.method (.name I.outputStream) I.write_uint16 [.attr (.name I.self) I.detail] []),\n",
    "new": "",
    "descr": "dropped: .expr (.method (.name I.outputStream) I.write_uint16 [.attr (.name I.self) I.detail] []),"
   },
   {
    "file": "Verif/Source/Records.lean",
    "within": "ModulationType.parse",
    "old": "    .assign (.attr (.name I.self) I.radioSystem) (.method (.name I.inputStream) I.read_uint16 [] [])]",
    "new": "    .assign (.attr (.name I.self) I.radioSystem) (.method (.name I.inputStream) I.read_uint32 [] [])]",
    "descr": "I.read_uint16 -> I.read_uint32 in: .assign (.attr (.name I.self) I.radioSystem) (.method (.name I.inputStream) I.read_uint16 [] [])]"
   },
   {
    "file": "Verif/Source/Records.lean",
    "within": "NetId.parse",
    "old": "    .assign (.attr (.name I.self) I.netNumber) (.attr (.name I.record_bitfield) I.netNumber),\n",
    "new": "",
    "descr": "dropped: .assign (.attr (.name I.self) I.netNumber) (.attr (.name I.record_bitfield) I.netNumber),"
   },
   {
    "file": "Verif/Source/Records.lean",
    "within": "BasicHaveQuickMP.serialize",
    "old": "    .expr (.method (.name I.outputStream) I.write_uint8 [.attr (.name I.self) I.reserved8_1] []),",
    "new": "    .expr (.method (.name I.outputStream) I.write_uint16 [.attr (.name I.self) I.reserved8_1] []),",
    "descr": "I.write_uint8 -> I.write_uint16 in: .expr (.method (.name I.outputStream) I.write_uint8 [.attr (.name I.self) I.reserved8_1] []),"
   },
   {
    "file": "Verif/Source/Records.lean",
    "within": "BasicHaveQuickMP.parse",
    "old": "    .assign (.attr (.name I.self) I.time_of_day) (.method (.name I.inputStream) I.read_uint32 [] []),",
    "new": "    .assign (.attr (.name I.self) I.time_of_day) (.method (.name I.inputStream) I.read_uint16 [] []),",
    "descr": "I.read_uint32 -> I.read_uint16 in: .assign (.attr (.name I.self) I.time_of_day) (.method (.name I.inputStream) I.read_uint32 [] []),"
   },
   {
    "file": "Verif/Source/Records.lean",
    "within": "CCTTSincgarsMP.serialize",
    "old": "    .expr (.method (.name I.outputStream) I.write_uint16 [.attr (.name I.self) I.transmission_security_key] []),\n",
    "new": "",
    "descr": "dropped: .expr (.method (.name I.outputStream) I.write_uint16 [.attr (.name I.self) I.transmission_security_key] []),"
   },
   {
    "file": "Verif/Source/Records.lean",
    "within": "CCTTSincgarsMP.parse",
    "old": "    .assign (.attr (.name I.self) I.start_of_message) (.method (.name I.inputStream) I.read_uint8 [] []),\n",
    "new": "",
    "descr": "dropped: .assign (.attr (.name I.self) I.start_of_message) (.method (.name I.inputStream) I.read_uint8 [] []),"
   },
   {
    "file": "Verif/Source/Records.lean",
    "within": "HighFidelityHAVEQUICKRadio.serialize",
    "old": "    .expr (.method (.name I.outputStream) I.write_uint16 [.attr (.name I.self) I.padding1] []),\n",
    "new": "",
    "descr": "dropped: .expr (.method (.name I.outputStream) I.write_uint16 [.attr (.name I.self) I.padding1] []),"
   },
   {
    "file": "Verif/Source/Records.lean",
    "within": "HighFidelityHAVEQUICKRadio.parse",
    "old": "    .assign (.attr (.name I.self) I.padding2) (.method (.name I.inputStream) I.read_uint8 [] []),",
    "new": "    .assign (.attr (.name I.self) I.padding2) (.method (.name I.inputStream) I.read_uint16 [] []),",
    "descr": "I.read_uint8 -> I.read_uint16 in: .assign (.attr (.name I.self) I.padding2) (.method (.name I.inputStream) I.read_uint8 [] []),"
   },
   {
    "file": "Verif/Source/Records.lean",
    "within": "DirectedEnergyDamage.serialize",
    "old": "    .expr (.method (.name I.outputStream) I.write_uint16 [.attr (.name I.self) I.padding] []),",
    "new": "    .expr (.method (.name I.outputStream) I.write_uint32 [.attr (.name I.self) I.padding] []),",
    "descr": "I.write_uint16 -> I.write_uint32 in: .expr (.method (.name I.outputStream) I.write_uint16 [.attr (.name I.self) I.padding] []),"
   },
   {
    "file": "Verif/Source/Records.lean",
    "within": "DirectedEnergyDamage.parse",
    "old": "    .expr (.method (.attr (.name I.self) I.damageLocation) I.parse [.name I.inputStream] []),\n",
    "new": "",
    "descr": "dropped: .expr (.method (.attr (.name I.self) I.damageLocation) I.parse [.name I.inputStream] []),"
   },
   {
    "file": "Verif/Source/Records.lean",
    "within": "DirectedEnergyAreaAimpoint.serialize",
    "old": "    .expr (.method (.name I.outputStream) I.write_uint16 [.attr (.name I.self) I.beamAntennaPatternCount] []),\n",
    "new": "",
    "descr": "dropped: .expr (.method (.name I.outputStream) I.write_uint16 [.attr (.name I.self) I.beamAntennaPatternCount] []),"
   },
   {
    "file": "Verif/Source/Records.lean",
    "within": "DirectedEnergyAreaAimpoint.parse",
    "old": "    .for I.\u00ab_\u00bb (.call I.range [.int 0, .name I.beamAntennaPatternCount] [])",
    "new": "    .for I.\u00ab_\u00bb (.call I.range [.int 1, .name I.beamAntennaPatternCount] [])",
    "descr": ".int 0 -> .int 1 in: .for I.\u00ab_\u00bb (.call I.range [.int 0, .name I.beamAntennaPatternCount] [])"
   },
   {
    "file": "Verif/Source/Records.lean",
    "within": "DirectedEnergyPrecisionAimpoint.serialize",
    "old": "    .expr (.method (.name I.outputStream) I.write_uint16 [.attr (.name I.self) I.padding] []),\n",
    "new": "",
    "descr": "dropped: .expr (.method (.name I.outputStream) I.write_uint16 [.attr (.name I.self) I.padding] []),"
   },
   {
    "file": "Verif/Source/Records.lean",
    "within": "DirectedEnergyPrecisionAimpoint.parse",
    "old": "    .assign (.attr (.name I.self) I.padding2) (.method (.name I.inputStream) I.read_uint32 [] [])]",
    "new": "    .assign (.attr (.name I.self) I.padding2) (.method (.name I.inputStream) I.read_uint16 [] [])]",
    "descr": "I.read_uint32 -> I.read_uint16 in: .assign (.attr (.name I.self) I.padding2) (.method (.name I.inputStream) I.read_uint32 [] [])]"
   },
   {
    "file": "Verif/Source/Records.lean",
    "within": "DirectedEnergyTargetEnergyDeposition.serialize",
    "old": "    .expr (.method (.name I.outputStream) I.write_uint16 [.attr (.name I.self) I.padding] []),",
    "new": "    .expr (.method (.name I.outputStream) I.write_uint32 [.attr (.name I.self) I.padding] []),",
    "descr": "I.write_uint16 -> I.write_uint32 in: .expr (.method (.name I.outputStream) I.write_uint16 [.attr (.name I.self) I.padding] []),"
   },
   {
    "file": "Verif/Source/Records.lean",
    "within": "DirectedEnergyTargetEnergyDeposition.parse",
    "old": "    .assign (.attr (.name I.self) I.peakIrradiance) (.method (.name I.inputStream) I.read_float32 [] [])]",
    "new": "    .assign (.attr (.name I.self) I.peakIrradiance) (.method (.name I.inputStream) I.read_float64 [] [])]",
    "descr": "I.read_float32 -> I.read_float64 in: .assign (.attr (.name I.self) I.peakIrradiance) (.method (.name I.inputStream) I.read_float32 [] [])]"
   }
  ]
 },
 {
  "id": "Y1",
  "definition": "Verif/Source/Calc.lean",
  "claim": "the numerical module does what its text says (C78)",
  "expect": [
   "C78"
  ],
  "edits": [
   {
    "file": "Verif/Source/Calc.lean",
    "within": "rangeCoordinates.GPS.lla2utm",
    "old": "    .assign (.name N.k0) (.dec 9996 (-4)),\n    .assign (.name N.eSquared) (.bin .pow (.attr (.attr (.name N.self) N.wgs84) N.e) (.int 2)),\n",
    "new": "    .assign (.name N.eSquared) (.bin .pow (.attr (.attr (.name N.self) N.wgs84) N.e) (.int 2)),\n    .assign (.name N.k0) (.dec 9996 (-4)),\n",
    "descr": "swapped: .assign (.name N.k0) (.dec 9996 (-4)), / .assign (.name N.eSquared) (.bin .pow (.attr (.attr (.name N.self) N.wgs84) N.e) (.int 2)),"
   },
   {
    "file": "Verif/Source/Calc.lean",
    "within": "deadReckoning.get_rotation_matrix",
    "old": "    .assign (.name N.r12) (.bin .sub (.bin .mul (.bin .mul (.name N.c_psi) (.name N.s_theta)) (.name N.s_phi)) (.bin .mul (.name N.s_psi) (.name N.c_phi))),",
    "new": "    .assign (.name N.r12) (.bin .sub (.bin .div (.bin .mul (.name N.c_psi) (.name N.s_theta)) (.name N.s_phi)) (.bin .mul (.name N.s_psi) (.name N.c_phi))),",
    "descr": ".bin .mul -> .bin .div in: .assign (.name N.r12) (.bin .sub (.bin .mul (.bin .mul (.name N.c_psi) (.name N.s_theta)) (.name N.s_phi)) (.bin .mul (."
   },
   {
    "file": "Verif/Source/Calc.lean",
    "within": "deadReckoning.get_angular_velocity_matrix",
    "old": "    .ret (.method (.name N.np) N.array [.list [.list [.int 0, .neg (.name N.wz), .name N.wy], .list [.name N.wz, .int 0, .neg (.name N.wx)], .list [.neg (.name N.wy), .name N.wx, .int 0]]] [])]",
    "new": "    .ret (.method (.name N.np) N.array [.list [.list [.int 0, (.name N.wz), .name N.wy], .list [.name N.wz, .int 0, .neg (.name N.wx)], .list [.neg (.name N.wy), .name N.wx, .int 0]]] [])]",
    "descr": ".neg ->  in: .ret (.method (.name N.np) N.array [.list [.list [.int 0, .neg (.name N.wz), .name N.wy], .list [.name N.wz, .int 0, .ne"
   },
   {
    "file": "Verif/Source/Calc.lean",
    "within": "deadReckoning.drm_fpw",
    "old": "    .assign (.name N.new_position) (.bin .add (.name N.pos) (.bin .mul (.name N.vel) (.name N.dt))),",
    "new": "    .assign (.name N.new_position) (.bin .add (.name N.pos) (.bin .div (.name N.vel) (.name N.dt))),",
    "descr": ".bin .mul -> .bin .div in: .assign (.name N.new_position) (.bin .add (.name N.pos) (.bin .mul (.name N.vel) (.name N.dt))),"
   },
   {
    "file": "Verif/Source/Calc.lean",
    "within": "deadReckoning.drm_rpw",
    "old": "    .assign (.name N.ori) (.call N._to_numpy [.name N.orientation] []),\n",
    "new": "",
    "descr": "dropped: .assign (.name N.ori) (.call N._to_numpy [.name N.orientation] []),"
   },
   {
    "file": "Verif/Source/Calc.lean",
    "within": "deadReckoning.drm_rvw",
    "old": "    .assign (.name N.new_position) (.bin .add (.bin .add (.name N.pos) (.bin .mul (.name N.vel) (.name N.dt))) (.bin .mul (.bin .mul (.dec 5 (-1)) (.name N.acc)) (.bin .pow (.name N.dt) (.int 2)))),",
    "new": "    .assign (.name N.new_position) (.bin .add (.bin .add (.name N.pos) (.bin .mul (.name N.vel) (.name N.dt))) (.bin .div (.bin .mul (.dec 5 (-1)) (.name N.acc)) (.bin .pow (.name N.dt) (.int 2)))),",
    "descr": ".bin .mul -> .bin .div in: .assign (.name N.new_position) (.bin .add (.bin .add (.name N.pos) (.bin .mul (.name N.vel) (.name N.dt))) (.bin .mul (."
   },
   {
    "file": "Verif/Source/Calc.lean",
    "within": "deadReckoning.drm_fvw",
    "old": "    .assign (.name N.new_position) (.bin .add (.bin .add (.name N.pos) (.bin .mul (.name N.vel) (.name N.dt))) (.bin .mul (.bin .mul (.dec 5 (-1)) (.name N.acc)) (.bin .pow (.name N.dt) (.int 2)))),",
    "new": "    .assign (.name N.new_position) (.bin .add (.bin .add (.name N.pos) (.bin .div (.name N.vel) (.name N.dt))) (.bin .mul (.bin .mul (.dec 5 (-1)) (.name N.acc)) (.bin .pow (.name N.dt) (.int 2)))),",
    "descr": ".bin .mul -> .bin .div in: .assign (.name N.new_position) (.bin .add (.bin .add (.name N.pos) (.bin .mul (.name N.vel) (.name N.dt))) (.bin .mul (."
   },
   {
    "file": "Verif/Source/Calc.lean",
    "within": "deadReckoning.drm_fpb",
    "old": "    .assign (.name N.new_position) (.bin .add (.name N.pos) (.bin .mul (.name N.velocity_world) (.name N.dt))),",
    "new": "    .assign (.name N.new_position) (.bin .add (.name N.pos) (.bin .div (.name N.velocity_world) (.name N.dt))),",
    "descr": ".bin .mul -> .bin .div in: .assign (.name N.new_position) (.bin .add (.name N.pos) (.bin .mul (.name N.velocity_world) (.name N.dt))),"
   },
   {
    "file": "Verif/Source/Calc.lean",
    "within": "deadReckoning.drm_rpb",
    "old": "    .assign (.name N.ori) (.call N._to_numpy [.name N.orientation] []),\n",
    "new": "",
    "descr": "dropped: .assign (.name N.ori) (.call N._to_numpy [.name N.orientation] []),"
   },
   {
    "file": "Verif/Source/Calc.lean",
    "within": "deadReckoning.drm_rvb",
    "old": "    .assign (.name N.R_wb) (.call N.get_rotation_matrix [.star (.name N.ori)] []),\n    .assign (.name N.displacement_body) (.bin .add (.bin .mul (.name N.vel) (.name N.dt)) (.bin .mul (.bin .mul (.dec 5 (-1)) (.name N.acc)) (.bin .pow (.name N.dt) (.int 2)))),\n",
    "new": "    .assign (.name N.displacement_body) (.bin .add (.bin .mul (.name N.vel) (.name N.dt)) (.bin .mul (.bin .mul (.dec 5 (-1)) (.name N.acc)) (.bin .pow (.name N.dt) (.int 2)))),\n    .assign (.name N.R_wb) (.call N.get_rotation_matrix [.star (.name N.ori)] []),\n",
    "descr": "swapped: .assign (.name N.R_wb) (.call N.get_rotation_matrix [.star (.name N.ori)] []), / .assign (.name N.displacement_body) (.bin .add (.bin .mul (.name N.vel) (.name N.dt)) (.bin .mul (.bin .mul (.dec 5 (-1)) (.name N.acc)) (.bin .pow (.name N.dt) (.int 2)))),"
   },
   {
    "file": "Verif/Source/Calc.lean",
    "within": "deadReckoning.drm_fvb",
    "old": "    .assign (.name N.displacement_body) (.bin .add (.bin .mul (.name N.vel) (.name N.dt)) (.bin .mul (.bin .mul (.dec 5 (-1)) (.name N.acc)) (.bin .pow (.name N.dt) (.int 2)))),",
    "new": "    .assign (.name N.displacement_body) (.bin .add (.bin .div (.name N.vel) (.name N.dt)) (.bin .mul (.bin .mul (.dec 5 (-1)) (.name N.acc)) (.bin .pow (.name N.dt) (.int 2)))),",
    "descr": ".bin .mul -> .bin .div in: .assign (.name N.displacement_body) (.bin .add (.bin .mul (.name N.vel) (.name N.dt)) (.bin .mul (.bin .mul (.dec 5 (-1)"
   }
  ]
 },
 {
  "id": "Y2",
  "definition": "Verif/Source/Calc.lean",
  "claim": "the numerical module does what its text says (C78)",
  "expect": [
   "C78"
  ],
  "edits": [
   {
    "file": "Verif/Source/Calc.lean",
    "within": "rangeCoordinates.GPS.lla2utm",
    "old": "    .assign (.name N.alt) (.index (.name N.lla) (.int 2)),",
    "new": "    .assign (.name N.alt) (.index (.name N.lla) (.int 3)),",
    "descr": "(.int 2) -> (.int 3) in: .assign (.name N.alt) (.index (.name N.lla) (.int 2)),"
   },
   {
    "file": "Verif/Source/Calc.lean",
    "within": "deadReckoning.get_rotation_matrix",
    "old": "    .assign (.name N.r23) (.bin .sub (.bin .mul (.bin .mul (.name N.s_psi) (.name N.s_theta)) (.name N.c_phi)) (.bin .mul (.name N.c_psi) (.name N.s_phi))),",
    "new": "    .assign (.name N.r23) (.bin .sub (.bin .div (.bin .mul (.name N.s_psi) (.name N.s_theta)) (.name N.c_phi)) (.bin .mul (.name N.c_psi) (.name N.s_phi))),",
    "descr": ".bin .mul -> .bin .div in: .assign (.name N.r23) (.bin .sub (.bin .mul (.bin .mul (.name N.s_psi) (.name N.s_theta)) (.name N.c_phi)) (.bin .mul (."
   },
   {
    "file": "Verif/Source/Calc.lean",
    "within": "deadReckoning.get_angular_velocity_matrix",
    "old": "    .ret (.method (.name N.np) N.array [.list [.list [.int 0, .neg (.name N.wz), .name N.wy], .list [.name N.wz, .int 0, .neg (.name N.wx)], .list [.neg (.name N.wy), .name N.wx, .int 0]]] [])]",
    "new": "    .ret (.method (.name N.np) N.array [.list [.list [.int 0, (.name N.wz), .name N.wy], .list [.name N.wz, .int 0, .neg (.name N.wx)], .list [.neg (.name N.wy), .name N.wx, .int 0]]] [])]",
    "descr": ".neg ->  in: .ret (.method (.name N.np) N.array [.list [.list [.int 0, .neg (.name N.wz), .name N.wy], .list [.name N.wz, .int 0, .ne"
   },
   {
    "file": "Verif/Source/Calc.lean",
    "within": "deadReckoning.drm_fpw",
    "old": "    .assign (.name N.new_position) (.bin .add (.name N.pos) (.bin .mul (.name N.vel) (.name N.dt))),\n",
    "new": "",
    "descr": "dropped: .assign (.name N.new_position) (.bin .add (.name N.pos) (.bin .mul (.name N.vel) (.name N.dt))),"
   },
   {
    "file": "Verif/Source/Calc.lean",
    "within": "deadReckoning.drm_rpw",
    "old": "    .assign (.name N.new_position) (.bin .add (.name N.pos) (.bin .mul (.name N.vel) (.name N.dt))),\n",
    "new": "",
    "descr": "dropped: .assign (.name N.new_position) (.bin .add (.name N.pos) (.bin .mul (.name N.vel) (.name N.dt))),"
   },
   {
    "file": "Verif/Source/Calc.lean",
    "within": "deadReckoning.drm_rvw",
    "old": "    .assign (.name N.new_position) (.bin .add (.bin .add (.name N.pos) (.bin .mul (.name N.vel) (.name N.dt))) (.bin .mul (.bin .mul (.dec 5 (-1)) (.name N.acc)) (.bin .pow (.name N.dt) (.int 2)))),",
    "new": "    .assign (.name N.new_position) (.bin .add (.bin .add (.name N.pos) (.bin .mul (.name N.vel) (.name N.dt))) (.bin .div (.bin .mul (.dec 5 (-1)) (.name N.acc)) (.bin .pow (.name N.dt) (.int 2)))),",
    "descr": ".bin .mul -> .bin .div in: .assign (.name N.new_position) (.bin .add (.bin .add (.name N.pos) (.bin .mul (.name N.vel) (.name N.dt))) (.bin .mul (."
   },
   {
    "file": "Verif/Source/Calc.lean",
    "within": "deadReckoning.drm_fvw",
    "old": "    .assign (.name N.new_position) (.bin .add (.bin .add (.name N.pos) (.bin .mul (.name N.vel) (.name N.dt))) (.bin .mul (.bin .mul (.dec 5 (-1)) (.name N.acc)) (.bin .pow (.name N.dt) (.int 2)))),\n",
    "new": "",
    "descr": "dropped: .assign (.name N.new_position) (.bin .add (.bin .add (.name N.pos) (.bin .mul (.name N.vel) (.name N.dt))) (.bin .mul (.bin .mul (.dec 5 (-1)) (.name N.acc)) (.bin .pow (.name N.dt) (.int 2)))),"
   },
   {
    "file": "Verif/Source/Calc.lean",
    "within": "deadReckoning.drm_fpb",
    "old": "    .assign (.name N.new_position) (.bin .add (.name N.pos) (.bin .mul (.name N.velocity_world) (.name N.dt))),",
    "new": "    .assign (.name N.new_position) (.bin .sub (.name N.pos) (.bin .mul (.name N.velocity_world) (.name N.dt))),",
    "descr": ".bin .add -> .bin .sub in: .assign (.name N.new_position) (.bin .add (.name N.pos) (.bin .mul (.name N.velocity_world) (.name N.dt))),"
   },
   {
    "file": "Verif/Source/Calc.lean",
    "within": "deadReckoning.drm_rpb",
    "old": "    .assign (.name N.new_position) (.bin .add (.name N.pos) (.bin .mul (.name N.velocity_world) (.name N.dt))),",
    "new": "    .assign (.name N.new_position) (.bin .add (.name N.pos) (.bin .div (.name N.velocity_world) (.name N.dt))),",
    "descr": ".bin .mul -> .bin .div in: .assign (.name N.new_position) (.bin .add (.name N.pos) (.bin .mul (.name N.velocity_world) (.name N.dt))),"
   },
   {
    "file": "Verif/Source/Calc.lean",
    "within": "deadReckoning.drm_rvb",
    "old": "    .assign (.name N.displacement_body) (.bin .add (.bin .mul (.name N.vel) (.name N.dt)) (.bin .mul (.bin .mul (.dec 5 (-1)) (.name N.acc)) (.bin .pow (.name N.dt) (.int 2)))),",
    "new": "    .assign (.name N.displacement_body) (.bin .add (.bin .mul (.name N.vel) (.name N.dt)) (.bin .mul (.bin .mul (.dec 5 (-1)) (.name N.acc)) (.bin .pow (.name N.dt) (.int 3)))),",
    "descr": "(.int 2) -> (.int 3) in: .assign (.name N.displacement_body) (.bin .add (.bin .mul (.name N.vel) (.name N.dt)) (.bin .mul (.bin .mul (.dec 5 (-1)"
   },
   {
    "file": "Verif/Source/Calc.lean",
    "within": "deadReckoning.drm_fvb",
    "old": "    .assign (.name N.new_position) (.bin .add (.name N.pos) (.name N.displacement_world)),",
    "new": "    .assign (.name N.new_position) (.bin .sub (.name N.pos) (.name N.displacement_world)),",
    "descr": ".bin .add -> .bin .sub in: .assign (.name N.new_position) (.bin .add (.name N.pos) (.name N.displacement_world)),"
   }
  ]
 },
 {
  "id": "Z1",
  "definition": "Verif/Source/Dis1.lean",
  "claim": "the properties and helpers do what their text says (C77)",
  "expect": [
   "C77"
  ],
  "edits": [
   {
    "file": "Verif/Source/Dis1.lean",
    "within": "DataQueryDatumSpecification.numberOfFixedDatumIDs",
    "old": "   [.ret (.call I.len [.attr (.name I.self) I.fixedDatumIDs] [])]",
    "new": "   [.ret (.call I.len [.attr (.name I.self) I.variableDatumIDs] [])]",
    "descr": "[.ret (.call I.len [.attr (.name I.self) I.fixedDatumIDs] [])] -> [.ret (.call I.len [.attr (.name I.self) I.variableDatumIDs] [])]"
   },
   {
    "file": "Verif/Source/Dis1.lean",
    "within": "DataQueryDatumSpecification.numberOfVariableDatumIDs",
    "old": "   [.ret (.call I.len [.attr (.name I.self) I.variableDatumIDs] [])]",
    "new": "   [.ret (.call I.len [.attr (.name I.self) I.fixedDatumIDs] [])]",
    "descr": "[.ret (.call I.len [.attr (.name I.self) I.variableDatumIDs] [])] -> [.ret (.call I.len [.attr (.name I.self) I.fixedDatumIDs] [])]"
   },
   {
    "file": "Verif/Source/Dis1.lean",
    "within": "IFFDataSpecification.numberOfIFFDataRecords",
    "old": "   [.ret (.call I.len [.attr (.name I.self) I.iffDataRecords] [])]",
    "new": "   [.ret (.call I.list [.attr (.name I.self) I.iffDataRecords] [])]",
    "descr": "[.ret (.call I.len [.attr (.name I.self) I.iffDataRecords] [])] -> [.ret (.call I.list [.attr (.name I.self) I.iffDataRecords] [])]"
   },
   {
    "file": "Verif/Source/Dis1.lean",
    "within": "RecordQuerySpecification.numberOfRecords",
    "old": "   [.ret (.call I.len [.attr (.name I.self) I.recordIDs] [])]",
    "new": "   [.ret (.call I.list [.attr (.name I.self) I.recordIDs] [])]",
    "descr": "[.ret (.call I.len [.attr (.name I.self) I.recordIDs] [])] -> [.ret (.call I.list [.attr (.name I.self) I.recordIDs] [])]"
   },
   {
    "file": "Verif/Source/Dis1.lean",
    "within": "EntityMarking.setString",
    "old": "   [.for I.idx (.call I.range [.int 0, .int 11] [])",
    "new": "   [.for I.idx (.call I.range [.int 1, .int 11] [])",
    "descr": "[.for I.idx (.call I.range [.int 0, .int 11] []) -> [.for I.idx (.call I.range [.int 1, .int 11] [])"
   },
   {
    "file": "Verif/Source/Dis1.lean",
    "within": "DatumSpecification.numberOfFixedDatumRecords",
    "old": "   [.ret (.call I.len [.attr (.name I.self) I.fixedDatumRecords] [])]",
    "new": "   [.ret (.call I.list [.attr (.name I.self) I.fixedDatumRecords] [])]",
    "descr": "[.ret (.call I.len [.attr (.name I.self) I.fixedDatumRecords] [])] -> [.ret (.call I.list [.attr (.name I.self) I.fixedDatumRecords] [])]"
   },
   {
    "file": "Verif/Source/Dis1.lean",
    "within": "DatumSpecification.numberOfVariableDatumRecords",
    "old": "   [.ret (.call I.len [.attr (.name I.self) I.variableDatumRecords] [])]",
    "new": "   [.ret (.call I.len [.attr (.name I.self) I.fixedDatumRecords] [])]",
    "descr": "[.ret (.call I.len [.attr (.name I.self) I.variableDatumRecords] [])] -> [.ret (.call I.len [.attr (.name I.self) I.fixedDatumRecords] [])]"
   }
  ]
 },
 {
  "id": "Z2",
  "definition": "Verif/Source/Dis2.lean",
  "claim": "the properties and helpers do what their text says (C77)",
  "expect": [
   "C77"
  ],
  "edits": [
   {
    "file": "Verif/Source/Dis2.lean",
    "within": "SilentEntitySystem.numberOfAppearanceRecords",
    "old": "   [.ret (.call I.len [.attr (.name I.self) I.appearanceRecordList] [])]",
    "new": "   [.ret (.call I.list [.attr (.name I.self) I.appearanceRecordList] [])]",
    "descr": "[.ret (.call I.len [.attr (.name I.self) I.appearanceRecordList] [])] -> [.ret (.call I.list [.attr (.name I.self) I.appearanceRecordList] [])]"
   },
   {
    "file": "Verif/Source/Dis2.lean",
    "within": "StandardVariableSpecification.numberOfStandardVariableRecords",
    "old": "   [.ret (.call I.len [.attr (.name I.self) I.standardVariables] [])]",
    "new": "   [.ret (.call I.list [.attr (.name I.self) I.standardVariables] [])]",
    "descr": "[.ret (.call I.len [.attr (.name I.self) I.standardVariables] [])] -> [.ret (.call I.list [.attr (.name I.self) I.standardVariables] [])]"
   },
   {
    "file": "Verif/Source/Dis2.lean",
    "within": "RecordSpecification.numberOfRecordSets",
    "old": "   [.ret (.call I.len [.attr (.name I.self) I.recordSets] [])]",
    "new": "   [.ret (.call I.list [.attr (.name I.self) I.recordSets] [])]",
    "descr": "[.ret (.call I.len [.attr (.name I.self) I.recordSets] [])] -> [.ret (.call I.list [.attr (.name I.self) I.recordSets] [])]"
   },
   {
    "file": "Verif/Source/Dis2.lean",
    "within": "VariableDatum.datumPaddingSizeInBits",
    "old": "   [.assign (.name I.padding) (.int 0),",
    "new": "   [.assign (.name I.padding) (.int 1),",
    "descr": "[.assign (.name I.padding) (.int 0), -> [.assign (.name I.padding) (.int 1),"
   }
  ]
 },
 {
  "id": "Z3",
  "definition": "Verif/Source/Dis3.lean",
  "claim": "the properties and helpers do what their text says (C77)",
  "expect": [
   "C77"
  ],
  "edits": [
   {
    "file": "Verif/Source/Dis3.lean",
    "within": "EntityStateUpdatePdu.numberOfVariableParameters",
    "old": "   [.ret (.call I.len [.attr (.name I.self) I.variableParameters] [])]",
    "new": "   [.ret (.call I.list [.attr (.name I.self) I.variableParameters] [])]",
    "descr": "[.ret (.call I.len [.attr (.name I.self) I.variableParameters] [])] -> [.ret (.call I.list [.attr (.name I.self) I.variableParameters] [])]"
   },
   {
    "file": "Verif/Source/Dis3.lean",
    "within": "ServiceRequestPdu.numberOfSupplyTypes",
    "old": "   [.ret (.call I.len [.attr (.name I.self) I.supplies] [])]",
    "new": "   [.ret (.call I.list [.attr (.name I.self) I.supplies] [])]",
    "descr": "[.ret (.call I.len [.attr (.name I.self) I.supplies] [])] -> [.ret (.call I.list [.attr (.name I.self) I.supplies] [])]"
   },
   {
    "file": "Verif/Source/Dis3.lean",
    "within": "DataQueryPdu.fixedDatumIDs",
    "old": "   [.ret (.attr (.attr (.name I.self) I._dataQuery) I.fixedDatumIDs)]",
    "new": "   [.ret (.attr (.attr (.name I.self) I._dataQuery) I.variableDatumIDs)]",
    "descr": "[.ret (.attr (.attr (.name I.self) I._dataQuery) I.fixedDatumIDs)] -> [.ret (.attr (.attr (.name I.self) I._dataQuery) I.variableDatumIDs)]"
   },
   {
    "file": "Verif/Source/Dis3.lean",
    "within": "DataQueryPdu.variableDatumIDs",
    "old": "   [.ret (.attr (.attr (.name I.self) I._dataQuery) I.variableDatumIDs)]",
    "new": "   [.ret (.attr (.attr (.name I.self) I._dataQuery) I.fixedDatumIDs)]",
    "descr": "[.ret (.attr (.attr (.name I.self) I._dataQuery) I.variableDatumIDs)] -> [.ret (.attr (.attr (.name I.self) I._dataQuery) I.fixedDatumIDs)]"
   },
   {
    "file": "Verif/Source/Dis3.lean",
    "within": "LinearObjectStatePdu.numberOfSegments",
    "old": "   [.ret (.call I.len [.attr (.name I.self) I.linearSegmentParameters] [])]",
    "new": "   [.ret (.call I.list [.attr (.name I.self) I.linearSegmentParameters] [])]",
    "descr": "[.ret (.call I.len [.attr (.name I.self) I.linearSegmentParameters] [])] -> [.ret (.call I.list [.attr (.name I.self) I.linearSegmentParameters] [])]"
   },
   {
    "file": "Verif/Source/Dis3.lean",
    "within": "IntercomSignalPdu.dataLength",
    "old": "   [.ret (.bin .mul (.call I.len [.attr (.name I.self) I.data] []) (.int 8))]",
    "new": "   [.ret (.bin .mul (.call I.list [.attr (.name I.self) I.data] []) (.int 8))]",
    "descr": "[.ret (.bin .mul (.call I.len [.attr (.name I.self) I.data] []) (.int 8))] -> [.ret (.bin .mul (.call I.list [.attr (.name I.self) I.data] []) (.int 8))]"
   },
   {
    "file": "Verif/Source/Dis3.lean",
    "within": "ResupplyReceivedPdu.numberOfSupplyTypes",
    "old": "   [.ret (.call I.len [.attr (.name I.self) I.supplies] [])]",
    "new": "   [.ret (.call I.list [.attr (.name I.self) I.supplies] [])]",
    "descr": "[.ret (.call I.len [.attr (.name I.self) I.supplies] [])] -> [.ret (.call I.list [.attr (.name I.self) I.supplies] [])]"
   },
   {
    "file": "Verif/Source/Dis3.lean",
    "within": "ActionRequestPdu.fixedDatumRecords",
    "old": "   [.ret (.attr (.attr (.name I.self) I._datums) I.fixedDatumRecords)]",
    "new": "   [.ret (.attr (.attr (.name I.self) I._datums) I.variableDatumRecords)]",
    "descr": "[.ret (.attr (.attr (.name I.self) I._datums) I.fixedDatumRecords)] -> [.ret (.attr (.attr (.name I.self) I._datums) I.variableDatumRecords)]"
   },
   {
    "file": "Verif/Source/Dis3.lean",
    "within": "ActionRequestPdu.variableDatumRecords",
    "old": "   [.ret (.attr (.attr (.name I.self) I._datums) I.variableDatumRecords)]",
    "new": "   [.ret (.attr (.attr (.name I.self) I._datums) I.fixedDatumRecords)]",
    "descr": "[.ret (.attr (.attr (.name I.self) I._datums) I.variableDatumRecords)] -> [.ret (.attr (.attr (.name I.self) I._datums) I.fixedDatumRecords)]"
   },
   {
    "file": "Verif/Source/Dis3.lean",
    "within": "ActionRequestReliablePdu.fixedDatumRecords",
    "old": "   [.ret (.attr (.attr (.name I.self) I._datums) I.fixedDatumRecords)]",
    "new": "   [.ret (.attr (.attr (.name I.self) I._datums) I.variableDatumRecords)]",
    "descr": "[.ret (.attr (.attr (.name I.self) I._datums) I.fixedDatumRecords)] -> [.ret (.attr (.attr (.name I.self) I._datums) I.variableDatumRecords)]"
   },
   {
    "file": "Verif/Source/Dis3.lean",
    "within": "ActionRequestReliablePdu.variableDatumRecords",
    "old": "   [.ret (.attr (.attr (.name I.self) I._datums) I.variableDatumRecords)]",
    "new": "   [.ret (.attr (.attr (.name I.self) I._datums) I.fixedDatumRecords)]",
    "descr": "[.ret (.attr (.attr (.name I.self) I._datums) I.variableDatumRecords)] -> [.ret (.attr (.attr (.name I.self) I._datums) I.fixedDatumRecords)]"
   },
   {
    "file": "Verif/Source/Dis3.lean",
    "within": "EntityStatePdu.numberOfVariableParameters",
    "old": "   [.ret (.call I.len [.attr (.name I.self) I.variableParameters] [])]",
    "new": "   [.ret (.call I.list [.attr (.name I.self) I.variableParameters] [])]",
    "descr": "[.ret (.call I.len [.attr (.name I.self) I.variableParameters] [])] -> [.ret (.call I.list [.attr (.name I.self) I.variableParameters] [])]"
   },
   {
    "file": "Verif/Source/Dis3.lean",
    "within": "TransmitterPdu.antennaPatternLength",
    "old": "      [.ret (.int 0)]]",
    "new": "      [.ret (.int 1)]]",
    "descr": "[.ret (.int 0)]] -> [.ret (.int 1)]]"
   },
   {
    "file": "Verif/Source/Dis3.lean",
    "within": "TransmitterPdu.modulationParametersLength",
    "old": "      [.ret (.int 0)]]",
    "new": "      [.ret (.int 1)]]",
    "descr": "[.ret (.int 0)]] -> [.ret (.int 1)]]"
   },
   {
    "file": "Verif/Source/Dis3.lean",
    "within": "TransmitterPdu.variableTransmitterParameterCount",
    "old": "   [.ret (.call I.len [.attr (.name I.self) I.variableTransmitterParameters] [])]",
    "new": "   [.ret (.call I.list [.attr (.name I.self) I.variableTransmitterParameters] [])]",
    "descr": "[.ret (.call I.len [.attr (.name I.self) I.variableTransmitterParameters] [])] -> [.ret (.call I.list [.attr (.name I.self) I.variableTransmitterParameters] [])]"
   },
   {
    "file": "Verif/Source/Dis3.lean",
    "within": "ElectromagneticEmissionsPdu.numberOfSystems",
    "old": "   [.ret (.call I.len [.attr (.name I.self) I.systems] [])]",
    "new": "   [.ret (.call I.list [.attr (.name I.self) I.systems] [])]",
    "descr": "[.ret (.call I.len [.attr (.name I.self) I.systems] [])] -> [.ret (.call I.list [.attr (.name I.self) I.systems] [])]"
   },
   {
    "file": "Verif/Source/Dis3.lean",
    "within": "EmissionSystemBeamRecord.numberOfTargetsInTrackJam",
    "old": "   [.ret (.call I.len [.attr (.name I.self) I.trackJamRecords] [])]",
    "new": "   [.ret (.call I.list [.attr (.name I.self) I.trackJamRecords] [])]",
    "descr": "[.ret (.call I.len [.attr (.name I.self) I.trackJamRecords] [])] -> [.ret (.call I.list [.attr (.name I.self) I.trackJamRecords] [])]"
   },
   {
    "file": "Verif/Source/Dis3.lean",
    "within": "EmissionSystemRecord.numberOfBeams",
    "old": "   [.ret (.call I.len [.attr (.name I.self) I.beamRecords] [])]",
    "new": "   [.ret (.call I.list [.attr (.name I.self) I.beamRecords] [])]",
    "descr": "[.ret (.call I.len [.attr (.name I.self) I.beamRecords] [])] -> [.ret (.call I.list [.attr (.name I.self) I.beamRecords] [])]"
   },
   {
    "file": "Verif/Source/Dis3.lean",
    "within": "ResupplyOfferPdu.numberOfSupplyTypes",
    "old": "   [.ret (.call I.len [.attr (.name I.self) I.supplies] [])]",
    "new": "   [.ret (.call I.list [.attr (.name I.self) I.supplies] [])]",
    "descr": "[.ret (.call I.len [.attr (.name I.self) I.supplies] [])] -> [.ret (.call I.list [.attr (.name I.self) I.supplies] [])]"
   }
  ]
 },
 {
  "id": "Z4",
  "definition": "Verif/Source/Dis4.lean",
  "claim": "the properties and helpers do what their text says (C77)",
  "expect": [
   "C77"
  ],
  "edits": [
   {
    "file": "Verif/Source/Dis4.lean",
    "within": "SetDataReliablePdu.fixedDatumRecords",
    "old": "   [.ret (.attr (.attr (.name I.self) I._datums) I.fixedDatumRecords)]",
    "new": "   [.ret (.attr (.attr (.name I.self) I._datums) I.variableDatumRecords)]",
    "descr": "[.ret (.attr (.attr (.name I.self) I._datums) I.fixedDatumRecords)] -> [.ret (.attr (.attr (.name I.self) I._datums) I.variableDatumRecords)]"
   },
   {
    "file": "Verif/Source/Dis4.lean",
    "within": "SetDataReliablePdu.variableDatumRecords",
    "old": "   [.ret (.attr (.attr (.name I.self) I._datums) I.variableDatumRecords)]",
    "new": "   [.ret (.attr (.attr (.name I.self) I._datums) I.fixedDatumRecords)]",
    "descr": "[.ret (.attr (.attr (.name I.self) I._datums) I.variableDatumRecords)] -> [.ret (.attr (.attr (.name I.self) I._datums) I.fixedDatumRecords)]"
   },
   {
    "file": "Verif/Source/Dis4.lean",
    "within": "DataPdu.fixedDatumRecords",
    "old": "   [.ret (.attr (.attr (.name I.self) I._datums) I.fixedDatumRecords)]",
    "new": "   [.ret (.attr (.attr (.name I.self) I._datums) I.variableDatumRecords)]",
    "descr": "[.ret (.attr (.attr (.name I.self) I._datums) I.fixedDatumRecords)] -> [.ret (.attr (.attr (.name I.self) I._datums) I.variableDatumRecords)]"
   },
   {
    "file": "Verif/Source/Dis4.lean",
    "within": "DataPdu.variableDatumRecords",
    "old": "   [.ret (.attr (.attr (.name I.self) I._datums) I.variableDatumRecords)]",
    "new": "   [.ret (.attr (.attr (.name I.self) I._datums) I.fixedDatumRecords)]",
    "descr": "[.ret (.attr (.attr (.name I.self) I._datums) I.variableDatumRecords)] -> [.ret (.attr (.attr (.name I.self) I._datums) I.fixedDatumRecords)]"
   },
   {
    "file": "Verif/Source/Dis4.lean",
    "within": "ArealObjectStatePdu.numberOfPoints",
    "old": "   [.ret (.call I.len [.attr (.name I.self) I.objectLocation] [])]",
    "new": "   [.ret (.call I.list [.attr (.name I.self) I.objectLocation] [])]",
    "descr": "[.ret (.call I.len [.attr (.name I.self) I.objectLocation] [])] -> [.ret (.call I.list [.attr (.name I.self) I.objectLocation] [])]"
   },
   {
    "file": "Verif/Source/Dis4.lean",
    "within": "DataQueryReliablePdu.fixedDatumIDs",
    "old": "   [.ret (.attr (.attr (.name I.self) I._dataQuery) I.fixedDatumIDs)]",
    "new": "   [.ret (.attr (.attr (.name I.self) I._dataQuery) I.variableDatumIDs)]",
    "descr": "[.ret (.attr (.attr (.name I.self) I._dataQuery) I.fixedDatumIDs)] -> [.ret (.attr (.attr (.name I.self) I._dataQuery) I.variableDatumIDs)]"
   },
   {
    "file": "Verif/Source/Dis4.lean",
    "within": "DataQueryReliablePdu.variableDatumIDs",
    "old": "   [.ret (.attr (.attr (.name I.self) I._dataQuery) I.variableDatumIDs)]",
    "new": "   [.ret (.attr (.attr (.name I.self) I._dataQuery) I.fixedDatumIDs)]",
    "descr": "[.ret (.attr (.attr (.name I.self) I._dataQuery) I.variableDatumIDs)] -> [.ret (.attr (.attr (.name I.self) I._dataQuery) I.fixedDatumIDs)]"
   },
   {
    "file": "Verif/Source/Dis4.lean",
    "within": "MinefieldStatePdu.numberOfPerimeterPoints",
    "old": "   [.ret (.call I.len [.attr (.name I.self) I.perimeterPoints] [])]",
    "new": "   [.ret (.call I.list [.attr (.name I.self) I.perimeterPoints] [])]",
    "descr": "[.ret (.call I.len [.attr (.name I.self) I.perimeterPoints] [])] -> [.ret (.call I.list [.attr (.name I.self) I.perimeterPoints] [])]"
   },
   {
    "file": "Verif/Source/Dis4.lean",
    "within": "MinefieldStatePdu.numberOfMineTypes",
    "old": "   [.ret (.call I.len [.attr (.name I.self) I.mineTypes] [])]",
    "new": "   [.ret (.call I.list [.attr (.name I.self) I.mineTypes] [])]",
    "descr": "[.ret (.call I.len [.attr (.name I.self) I.mineTypes] [])] -> [.ret (.call I.list [.attr (.name I.self) I.mineTypes] [])]"
   },
   {
    "file": "Verif/Source/Dis4.lean",
    "within": "DataReliablePdu.fixedDatumRecords",
    "old": "   [.ret (.attr (.attr (.name I.self) I._datums) I.fixedDatumRecords)]",
    "new": "   [.ret (.attr (.attr (.name I.self) I._datums) I.variableDatumRecords)]",
    "descr": "[.ret (.attr (.attr (.name I.self) I._datums) I.fixedDatumRecords)] -> [.ret (.attr (.attr (.name I.self) I._datums) I.variableDatumRecords)]"
   },
   {
    "file": "Verif/Source/Dis4.lean",
    "within": "DataReliablePdu.variableDatumRecords",
    "old": "   [.ret (.attr (.attr (.name I.self) I._datums) I.variableDatumRecords)]",
    "new": "   [.ret (.attr (.attr (.name I.self) I._datums) I.fixedDatumRecords)]",
    "descr": "[.ret (.attr (.attr (.name I.self) I._datums) I.variableDatumRecords)] -> [.ret (.attr (.attr (.name I.self) I._datums) I.fixedDatumRecords)]"
   },
   {
    "file": "Verif/Source/Dis4.lean",
    "within": "CommentPdu.fixedDatumRecords",
    "old": "   [.ret (.attr (.attr (.name I.self) I._datums) I.fixedDatumRecords)]",
    "new": "   [.ret (.attr (.attr (.name I.self) I._datums) I.variableDatumRecords)]",
    "descr": "[.ret (.attr (.attr (.name I.self) I._datums) I.fixedDatumRecords)] -> [.ret (.attr (.attr (.name I.self) I._datums) I.variableDatumRecords)]"
   },
   {
    "file": "Verif/Source/Dis4.lean",
    "within": "CommentPdu.variableDatumRecords",
    "old": "   [.ret (.attr (.attr (.name I.self) I._datums) I.variableDatumRecords)]",
    "new": "   [.ret (.attr (.attr (.name I.self) I._datums) I.fixedDatumRecords)]",
    "descr": "[.ret (.attr (.attr (.name I.self) I._datums) I.variableDatumRecords)] -> [.ret (.attr (.attr (.name I.self) I._datums) I.fixedDatumRecords)]"
   },
   {
    "file": "Verif/Source/Dis4.lean",
    "within": "CommentReliablePdu.fixedDatumRecords",
    "old": "   [.ret (.attr (.attr (.name I.self) I._datums) I.fixedDatumRecords)]",
    "new": "   [.ret (.attr (.attr (.name I.self) I._datums) I.variableDatumRecords)]",
    "descr": "[.ret (.attr (.attr (.name I.self) I._datums) I.fixedDatumRecords)] -> [.ret (.attr (.attr (.name I.self) I._datums) I.variableDatumRecords)]"
   },
   {
    "file": "Verif/Source/Dis4.lean",
    "within": "CommentReliablePdu.variableDatumRecords",
    "old": "   [.ret (.attr (.attr (.name I.self) I._datums) I.variableDatumRecords)]",
    "new": "   [.ret (.attr (.attr (.name I.self) I._datums) I.fixedDatumRecords)]",
    "descr": "[.ret (.attr (.attr (.name I.self) I._datums) I.variableDatumRecords)] -> [.ret (.attr (.attr (.name I.self) I._datums) I.fixedDatumRecords)]"
   },
   {
    "file": "Verif/Source/Dis4.lean",
    "within": "DirectedEnergyFirePdu.numberOfDERecords",
    "old": "   [.ret (.call I.len [.attr (.name I.self) I.dERecords] [])]",
    "new": "   [.ret (.call I.list [.attr (.name I.self) I.dERecords] [])]",
    "descr": "[.ret (.call I.len [.attr (.name I.self) I.dERecords] [])] -> [.ret (.call I.list [.attr (.name I.self) I.dERecords] [])]"
   },
   {
    "file": "Verif/Source/Dis4.lean",
    "within": "DetonationPdu.numberOfVariableParameters",
    "old": "   [.ret (.call I.len [.attr (.name I.self) I.variableParameters] [])]",
    "new": "   [.ret (.call I.list [.attr (.name I.self) I.variableParameters] [])]",
    "descr": "[.ret (.call I.len [.attr (.name I.self) I.variableParameters] [])] -> [.ret (.call I.list [.attr (.name I.self) I.variableParameters] [])]"
   },
   {
    "file": "Verif/Source/Dis4.lean",
    "within": "SetDataPdu.fixedDatumRecords",
    "old": "   [.ret (.attr (.attr (.name I.self) I._datums) I.fixedDatumRecords)]",
    "new": "   [.ret (.attr (.attr (.name I.self) I._datums) I.variableDatumRecords)]",
    "descr": "[.ret (.attr (.attr (.name I.self) I._datums) I.fixedDatumRecords)] -> [.ret (.attr (.attr (.name I.self) I._datums) I.variableDatumRecords)]"
   },
   {
    "file": "Verif/Source/Dis4.lean",
    "within": "SetDataPdu.variableDatumRecords",
    "old": "   [.ret (.attr (.attr (.name I.self) I._datums) I.variableDatumRecords)]",
    "new": "   [.ret (.attr (.attr (.name I.self) I._datums) I.fixedDatumRecords)]",
    "descr": "[.ret (.attr (.attr (.name I.self) I._datums) I.variableDatumRecords)] -> [.ret (.attr (.attr (.name I.self) I._datums) I.fixedDatumRecords)]"
   },
   {
    "file": "Verif/Source/Dis4.lean",
    "within": "RecordQueryReliablePdu.numberOfRecords",
    "old": "   [.ret (.call I.len [.attr (.name I.self) I.recordIDs] [])]",
    "new": "   [.ret (.call I.list [.attr (.name I.self) I.recordIDs] [])]",
    "descr": "[.ret (.call I.len [.attr (.name I.self) I.recordIDs] [])] -> [.ret (.call I.list [.attr (.name I.self) I.recordIDs] [])]"
   },
   {
    "file": "Verif/Source/Dis4.lean",
    "within": "ActionResponsePdu.fixedDatumRecords",
    "old": "   [.ret (.attr (.attr (.name I.self) I._datums) I.fixedDatumRecords)]",
    "new": "   [.ret (.attr (.attr (.name I.self) I._datums) I.variableDatumRecords)]",
    "descr": "[.ret (.attr (.attr (.name I.self) I._datums) I.fixedDatumRecords)] -> [.ret (.attr (.attr (.name I.self) I._datums) I.variableDatumRecords)]"
   },
   {
    "file": "Verif/Source/Dis4.lean",
    "within": "ActionResponsePdu.variableDatumRecords",
    "old": "   [.ret (.attr (.attr (.name I.self) I._datums) I.variableDatumRecords)]",
    "new": "   [.ret (.attr (.attr (.name I.self) I._datums) I.fixedDatumRecords)]",
    "descr": "[.ret (.attr (.attr (.name I.self) I._datums) I.variableDatumRecords)] -> [.ret (.attr (.attr (.name I.self) I._datums) I.fixedDatumRecords)]"
   },
   {
    "file": "Verif/Source/Dis4.lean",
    "within": "EntityDamageStatusPdu.damageDescriptionCount",
    "old": "   [.ret (.call I.len [.attr (.name I.self) I.damageDescriptions] [])]",
    "new": "   [.ret (.call I.list [.attr (.name I.self) I.damageDescriptions] [])]",
    "descr": "[.ret (.call I.len [.attr (.name I.self) I.damageDescriptions] [])] -> [.ret (.call I.list [.attr (.name I.self) I.damageDescriptions] [])]"
   },
   {
    "file": "Verif/Source/Dis4.lean",
    "within": "UaPdu.numberOfShafts",
    "old": "   [.ret (.call I.len [.attr (.name I.self) I.shaftRPMs] [])]",
    "new": "   [.ret (.call I.list [.attr (.name I.self) I.shaftRPMs] [])]",
    "descr": "[.ret (.call I.len [.attr (.name I.self) I.shaftRPMs] [])] -> [.ret (.call I.list [.attr (.name I.self) I.shaftRPMs] [])]"
   },
   {
    "file": "Verif/Source/Dis4.lean",
    "within": "UaPdu.numberOfAPAs",
    "old": "   [.ret (.call I.len [.attr (.name I.self) I.apaData] [])]",
    "new": "   [.ret (.call I.list [.attr (.name I.self) I.apaData] [])]",
    "descr": "[.ret (.call I.len [.attr (.name I.self) I.apaData] [])] -> [.ret (.call I.list [.attr (.name I.self) I.apaData] [])]"
   },
   {
    "file": "Verif/Source/Dis4.lean",
    "within": "UaPdu.numberOfUAEmitterSystems",
    "old": "   [.ret (.call I.len [.attr (.name I.self) I.emitterSystems] [])]",
    "new": "   [.ret (.call I.list [.attr (.name I.self) I.emitterSystems] [])]",
    "descr": "[.ret (.call I.len [.attr (.name I.self) I.emitterSystems] [])] -> [.ret (.call I.list [.attr (.name I.self) I.emitterSystems] [])]"
   },
   {
    "file": "Verif/Source/Dis4.lean",
    "within": "IntercomControlPdu.intercomParametersLength",
    "old": "   [.ret (.call I.len [.attr (.name I.self) I.intercomParameters] [])]",
    "new": "   [.ret (.call I.list [.attr (.name I.self) I.intercomParameters] [])]",
    "descr": "[.ret (.call I.len [.attr (.name I.self) I.intercomParameters] [])] -> [.ret (.call I.list [.attr (.name I.self) I.intercomParameters] [])]"
   },
   {
    "file": "Verif/Source/Dis4.lean",
    "within": "SignalPdu.dataLength",
    "old": "   [.ret (.bin .mul (.call I.len [.attr (.name I.self) I.data] []) (.int 8))]",
    "new": "   [.ret (.bin .add (.call I.len [.attr (.name I.self) I.data] []) (.int 8))]",
    "descr": "[.ret (.bin .mul (.call I.len [.attr (.name I.self) I.data] []) (.int 8))] -> [.ret (.bin .add (.call I.len [.attr (.name I.self) I.data] []) (.int 8))]"
   },
   {
    "file": "Verif/Source/Dis4.lean",
    "within": "SeesPdu.numberOfPropulsionSystems",
    "old": "   [.ret (.call I.len [.attr (.name I.self) I.propulsionSystemData] [])]",
    "new": "   [.ret (.call I.list [.attr (.name I.self) I.propulsionSystemData] [])]",
    "descr": "[.ret (.call I.len [.attr (.name I.self) I.propulsionSystemData] [])] -> [.ret (.call I.list [.attr (.name I.self) I.propulsionSystemData] [])]"
   },
   {
    "file": "Verif/Source/Dis4.lean",
    "within": "SeesPdu.numberOfVectoringNozzleSystems",
    "old": "   [.ret (.call I.len [.attr (.name I.self) I.vectoringSystemData] [])]",
    "new": "   [.ret (.call I.list [.attr (.name I.self) I.vectoringSystemData] [])]",
    "descr": "[.ret (.call I.len [.attr (.name I.self) I.vectoringSystemData] [])] -> [.ret (.call I.list [.attr (.name I.self) I.vectoringSystemData] [])]"
   },
   {
    "file": "Verif/Source/Dis4.lean",
    "within": "EventReportReliablePdu.fixedDatumRecords",
    "old": "   [.ret (.attr (.attr (.name I.self) I._datums) I.fixedDatumRecords)]",
    "new": "   [.ret (.attr (.attr (.name I.self) I._datums) I.variableDatumRecords)]",
    "descr": "[.ret (.attr (.attr (.name I.self) I._datums) I.fixedDatumRecords)] -> [.ret (.attr (.attr (.name I.self) I._datums) I.variableDatumRecords)]"
   },
   {
    "file": "Verif/Source/Dis4.lean",
    "within": "EventReportReliablePdu.variableDatumRecords",
    "old": "   [.ret (.attr (.attr (.name I.self) I._datums) I.variableDatumRecords)]",
    "new": "   [.ret (.attr (.attr (.name I.self) I._datums) I.fixedDatumRecords)]",
    "descr": "[.ret (.attr (.attr (.name I.self) I._datums) I.variableDatumRecords)] -> [.ret (.attr (.attr (.name I.self) I._datums) I.fixedDatumRecords)]"
   },
   {
    "file": "Verif/Source/Dis4.lean",
    "within": "MinefieldResponseNackPdu.numberOfMissingPdus",
    "old": "   [.ret (.call I.len [.attr (.name I.self) I.missingPduSequenceNumbers] [])]",
    "new": "   [.ret (.call I.list [.attr (.name I.self) I.missingPduSequenceNumbers] [])]",
    "descr": "[.ret (.call I.len [.attr (.name I.self) I.missingPduSequenceNumbers] [])] -> [.ret (.call I.list [.attr (.name I.self) I.missingPduSequenceNumbers] [])]"
   },
   {
    "file": "Verif/Source/Dis4.lean",
    "within": "ActionResponseReliablePdu.fixedDatumRecords",
    "old": "   [.ret (.attr (.attr (.name I.self) I._datums) I.fixedDatumRecords)]",
    "new": "   [.ret (.attr (.attr (.name I.self) I._datums) I.variableDatumRecords)]",
    "descr": "[.ret (.attr (.attr (.name I.self) I._datums) I.fixedDatumRecords)] -> [.ret (.attr (.attr (.name I.self) I._datums) I.variableDatumRecords)]"
   },
   {
    "file": "Verif/Source/Dis4.lean",
    "within": "ActionResponseReliablePdu.variableDatumRecords",
    "old": "   [.ret (.attr (.attr (.name I.self) I._datums) I.variableDatumRecords)]",
    "new": "   [.ret (.attr (.attr (.name I.self) I._datums) I.fixedDatumRecords)]",
    "descr": "[.ret (.attr (.attr (.name I.self) I._datums) I.variableDatumRecords)] -> [.ret (.attr (.attr (.name I.self) I._datums) I.fixedDatumRecords)]"
   },
   {
    "file": "Verif/Source/Dis4.lean",
    "within": "AggregateStatePdu.numberOfAggregateIDs",
    "old": "   [.ret (.call I.len [.attr (.name I.self) I.aggregateIDs] [])]",
    "new": "   [.ret (.call I.list [.attr (.name I.self) I.aggregateIDs] [])]",
    "descr": "[.ret (.call I.len [.attr (.name I.self) I.aggregateIDs] [])] -> [.ret (.call I.list [.attr (.name I.self) I.aggregateIDs] [])]"
   },
   {
    "file": "Verif/Source/Dis4.lean",
    "within": "AggregateStatePdu.numberOfEntityIDs",
    "old": "   [.ret (.call I.len [.attr (.name I.self) I.entityIDs] [])]",
    "new": "   [.ret (.call I.list [.attr (.name I.self) I.entityIDs] [])]",
    "descr": "[.ret (.call I.len [.attr (.name I.self) I.entityIDs] [])] -> [.ret (.call I.list [.attr (.name I.self) I.entityIDs] [])]"
   },
   {
    "file": "Verif/Source/Dis4.lean",
    "within": "AggregateStatePdu.numberOfSilentAggregateSystems",
    "old": "   [.ret (.call I.len [.attr (.name I.self) I.silentAggregateSystems] [])]",
    "new": "   [.ret (.call I.list [.attr (.name I.self) I.silentAggregateSystems] [])]",
    "descr": "[.ret (.call I.len [.attr (.name I.self) I.silentAggregateSystems] [])] -> [.ret (.call I.list [.attr (.name I.self) I.silentAggregateSystems] [])]"
   },
   {
    "file": "Verif/Source/Dis4.lean",
    "within": "AggregateStatePdu.numberOfSilentEntitySystems",
    "old": "   [.ret (.call I.len [.attr (.name I.self) I.silentEntitySystems] [])]",
    "new": "   [.ret (.call I.list [.attr (.name I.self) I.silentEntitySystems] [])]",
    "descr": "[.ret (.call I.len [.attr (.name I.self) I.silentEntitySystems] [])] -> [.ret (.call I.list [.attr (.name I.self) I.silentEntitySystems] [])]"
   },
   {
    "file": "Verif/Source/Dis4.lean",
    "within": "AggregateStatePdu.numberOfVariableDatumRecords",
    "old": "   [.ret (.call I.len [.attr (.name I.self) I.variableDatumRecords] [])]",
    "new": "   [.ret (.call I.len [.attr (.name I.self) I.fixedDatumRecords] [])]",
    "descr": "[.ret (.call I.len [.attr (.name I.self) I.variableDatumRecords] [])] -> [.ret (.call I.len [.attr (.name I.self) I.fixedDatumRecords] [])]"
   }
  ]
 },
 {
  "id": "Z5",
  "definition": "Verif/Source/Records.lean",
  "claim": "the properties and helpers do what their text says (C77)",
  "expect": [
   "C77"
  ],
  "edits": [
   {
    "file": "Verif/Source/Records.lean",
    "within": "EntityIdentifier.marshalledSize",
    "old": "   [.ret (.bin .add (.method (.attr (.name I.self) I.simulationAddress) I.marshalledSize [] []) (.int 2))]",
    "new": "   [.ret (.bin .add (.method (.attr (.name I.self) I.simulationAddress) I.marshalledSize [] []) (.int 3))]",
    "descr": "[.ret (.bin .add (.method (.attr (.name I.self) I.simulationAddress) I.marshalledSize [] []) (.int 2))] -> [.ret (.bin .add (.method (.attr (.name I.self) I.simulationAddress) I.marshalledSize [] []) (.int 3))]"
   },
   {
    "file": "Verif/Source/Records.lean",
    "within": "EventIdentifier.marshalledSize",
    "old": "   [.ret (.bin .add (.method (.attr (.name I.self) I.simulationAddress) I.marshalledSize [] []) (.int 2))]",
    "new": "   [.ret (.bin .add (.method (.attr (.name I.self) I.simulationAddress) I.marshalledSize [] []) (.int 3))]",
    "descr": "[.ret (.bin .add (.method (.attr (.name I.self) I.simulationAddress) I.marshalledSize [] []) (.int 2))] -> [.ret (.bin .add (.method (.attr (.name I.self) I.simulationAddress) I.marshalledSize [] []) (.int 3))]"
   },
   {
    "file": "Verif/Source/Records.lean",
    "within": "SimulationAddress.marshalledSize",
    "old": "   [.ret (.int 4)]",
    "new": "   [.ret (.int 5)]",
    "descr": "[.ret (.int 4)] -> [.ret (.int 5)]"
   },
   {
    "file": "Verif/Source/Records.lean",
    "within": "WorldCoordinates.marshalledSize",
    "old": "   [.ret (.int 24)]",
    "new": "   [.ret (.int 34)]",
    "descr": "[.ret (.int 24)] -> [.ret (.int 34)]"
   },
   {
    "file": "Verif/Source/Records.lean",
    "within": "VariableRecord.is_positive_int",
    "old": "   [.ret (.and (.isInt (.name I.value)) (.cmp .ge (.name I.value) (.int 0)))]",
    "new": "   [.ret (.and (.isInt (.name I.value)) (.cmp .ge (.name I.value) (.int 1)))]",
    "descr": "[.ret (.and (.isInt (.name I.value)) (.cmp .ge (.name I.value) (.int 0)))] -> [.ret (.and (.isInt (.name I.value)) (.cmp .ge (.name I.value) (.int 1)))]"
   },
   {
    "file": "Verif/Source/Records.lean",
    "within": "StandardVariableRecord.is_positive_int",
    "old": "   [.ret (.and (.isInt (.name I.value)) (.cmp .ge (.name I.value) (.int 0)))]",
    "new": "   [.ret (.and (.isInt (.name I.value)) (.cmp .ge (.name I.value) (.int 1)))]",
    "descr": "[.ret (.and (.isInt (.name I.value)) (.cmp .ge (.name I.value) (.int 0)))] -> [.ret (.and (.isInt (.name I.value)) (.cmp .ge (.name I.value) (.int 1)))]"
   },
   {
    "file": "Verif/Source/Records.lean",
    "within": "UnknownStandardVariableRecord.marshalledSize",
    "old": "   [.ret (.bin .add (.int 6) (.call I.len [.attr (.name I.self) I.data] []))]",
    "new": "   [.ret (.bin .add (.int 6) (.call I.list [.attr (.name I.self) I.data] []))]",
    "descr": "[.ret (.bin .add (.int 6) (.call I.len [.attr (.name I.self) I.data] []))] -> [.ret (.bin .add (.int 6) (.call I.list [.attr (.name I.self) I.data] []))]"
   },
   {
    "file": "Verif/Source/Records.lean",
    "within": "UnknownRadio.marshalledSize",
    "old": "   [.ret (.call I.len [.attr (.name I.self) I.data] [])]",
    "new": "   [.ret (.call I.list [.attr (.name I.self) I.data] [])]",
    "descr": "[.ret (.call I.len [.attr (.name I.self) I.data] [])] -> [.ret (.call I.list [.attr (.name I.self) I.data] [])]"
   },
   {
    "file": "Verif/Source/Records.lean",
    "within": "UnknownAntennaPattern.marshalledSize",
    "old": "   [.ret (.call I.len [.attr (.name I.self) I.data] [])]",
    "new": "   [.ret (.call I.list [.attr (.name I.self) I.data] [])]",
    "descr": "[.ret (.call I.len [.attr (.name I.self) I.data] [])] -> [.ret (.call I.list [.attr (.name I.self) I.data] [])]"
   },
   {
    "file": "Verif/Source/Records.lean",
    "within": "BeamAntennaPattern.marshalledSize",
    "old": "   [.ret (.int 40)]",
    "new": "   [.ret (.int 50)]",
    "descr": "[.ret (.int 40)] -> [.ret (.int 50)]"
   },
   {
    "file": "Verif/Source/Records.lean",
    "within": "ModulationType.marshalledSize",
    "old": "   [.assign (.name I.size) (.int 0),",
    "new": "   [.assign (.name I.size) (.int 1),",
    "descr": "[.assign (.name I.size) (.int 0), -> [.assign (.name I.size) (.int 1),"
   },
   {
    "file": "Verif/Source/Records.lean",
    "within": "GenericRadio.marshalledSize",
    "old": "   [.ret (.int 0)]",
    "new": "   [.ret (.int 1)]",
    "descr": "[.ret (.int 0)] -> [.ret (.int 1)]"
   },
   {
    "file": "Verif/Source/Records.lean",
    "within": "SimpleIntercomRadio.marshalledSize",
    "old": "   [.ret (.int 0)]",
    "new": "   [.ret (.int 1)]",
    "descr": "[.ret (.int 0)] -> [.ret (.int 1)]"
   },
   {
    "file": "Verif/Source/Records.lean",
    "within": "HighFidelityHAVEQUICKRadio.marshalledSize",
    "old": "   [.ret (.int 40)]",
    "new": "   [.ret (.int 50)]",
    "descr": "[.ret (.int 40)] -> [.ret (.int 50)]"
   },
   {
    "file": "Verif/Source/Records.lean",
    "within": "DirectedEnergyDamage.marshalledSize",
    "old": "   [.ret (.int 40)]",
    "new": "   [.ret (.int 50)]",
    "descr": "[.ret (.int 40)] -> [.ret (.int 50)]"
   },
   {
    "file": "Verif/Source/Records.lean",
    "within": "DirectedEnergyAreaAimpoint.beamAntennaPatternCount",
    "old": "   [.ret (.call I.len [.attr (.name I.self) I.beamAntennaPatterns] [])]",
    "new": "   [.ret (.call I.list [.attr (.name I.self) I.beamAntennaPatterns] [])]",
    "descr": "[.ret (.call I.len [.attr (.name I.self) I.beamAntennaPatterns] [])] -> [.ret (.call I.list [.attr (.name I.self) I.beamAntennaPatterns] [])]"
   },
   {
    "file": "Verif/Source/Records.lean",
    "within": "DirectedEnergyAreaAimpoint.directedEnergyTargetEnergyDepositionCount",
    "old": "   [.ret (.call I.len [.attr (.name I.self) I.directedEnergyTargetEnergyDepositions] [])]",
    "new": "   [.ret (.call I.list [.attr (.name I.self) I.directedEnergyTargetEnergyDepositions] [])]",
    "descr": "[.ret (.call I.len [.attr (.name I.self) I.directedEnergyTargetEnergyDepositions] [])] -> [.ret (.call I.list [.attr (.name I.self) I.directedEnergyTargetEnergyDepositions] [])]"
   },
   {
    "file": "Verif/Source/Records.lean",
    "within": "DirectedEnergyAreaAimpoint.marshalledSize",
    "old": "   [.assign (.name I.size) (.int 8),",
    "new": "   [.assign (.name I.size) (.int 4),",
    "descr": "[.assign (.name I.size) (.int 8), -> [.assign (.name I.size) (.int 4),"
   },
   {
    "file": "Verif/Source/Records.lean",
    "within": "DirectedEnergyTargetEnergyDeposition.marshalledSize",
    "old": "   [.ret (.bin .add (.method (.attr (.name I.self) I.targetEntityID) I.marshalledSize [] []) (.int 6))]",
    "new": "   [.ret (.bin .sub (.method (.attr (.name I.self) I.targetEntityID) I.marshalledSize [] []) (.int 6))]",
    "descr": "[.ret (.bin .add (.method (.attr (.name I.self) I.targetEntityID) I.marshalledSize [] []) (.int 6))] -> [.ret (.bin .sub (.method (.attr (.name I.self) I.targetEntityID) I.marshalledSize [] []) (.int 6))]"
   }
  ]
 },
 {
  "id": "Z6",
  "definition": "Verif/Source/Functions.lean",
  "claim": "the properties and helpers do what their text says (C77)",
  "expect": [
   "C77"
  ],
  "edits": [
   {
    "file": "Verif/Source/Functions.lean",
    "within": "Module.getStandardVariableClass",
    "old": "    .ite (.or (.not (.isInt (.name I.recordType))) (.cmp .lt (.name I.recordType) (.int 0)))",
    "new": "    .ite (.or (.not (.isInt (.name I.recordType))) (.cmp .lt (.name I.recordType) (.int 1)))",
    "descr": ".ite (.or (.not (.isInt (.name I.recordType))) (.cmp .lt (.name I.recordType) (.int 0))) -> .ite (.or (.not (.isInt (.name I.recordType))) (.cmp .lt (.name I.recordType) (.int 1)))"
   }
  ]
 }
]