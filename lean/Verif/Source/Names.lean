import Verif.Py.Source

/-!
# The names in the source

Written by `tools/gensource.py` from the Python source.
-/

namespace Dis.Src

namespace I

/-- The name `protocolVersion` in /repo/opendis. -/
abbrev protocolVersion : Ident := 0
/-- The name `exerciseID` in /repo/opendis. -/
abbrev exerciseID : Ident := 1
/-- The name `timestamp` in /repo/opendis. -/
abbrev timestamp : Ident := 2
/-- The name `length` in /repo/opendis. -/
abbrev length : Ident := 3
/-- The name `pduType` in /repo/opendis. -/
abbrev pduType : Ident := 4
/-- The name `protocolFamily` in /repo/opendis. -/
abbrev protocolFamily : Ident := 5
/-- The name `pduStatus` in /repo/opendis. -/
abbrev pduStatus : Ident := 6
/-- The name `padding` in /repo/opendis. -/
abbrev padding : Ident := 7
/-- The name `originatingEntityID` in /repo/opendis. -/
abbrev originatingEntityID : Ident := 8
/-- The name `receivingEntityID` in /repo/opendis. -/
abbrev receivingEntityID : Ident := 9
/-- The name `firingEntityID` in /repo/opendis. -/
abbrev firingEntityID : Ident := 10
/-- The name `targetEntityID` in /repo/opendis. -/
abbrev targetEntityID : Ident := 11
/-- The name `self` in /repo/opendis. -/
abbrev self : Ident := 12
/-- The name `__class__` in /repo/opendis. -/
abbrev __class__ : Ident := 13
/-- The name `__init__` in /repo/opendis. -/
abbrev __init__ : Ident := 14
/-- The name `len` in /repo/opendis. -/
abbrev len : Ident := 15
/-- The name `range` in /repo/opendis. -/
abbrev range : Ident := 16
/-- The name `list` in /repo/opendis. -/
abbrev list : Ident := 17
/-- The name `append` in /repo/opendis. -/
abbrev append : Ident := 18
/-- The name `serialize` in /repo/opendis. -/
abbrev serialize : Ident := 19
/-- The name `parse` in /repo/opendis. -/
abbrev parse : Ident := 20
/-- The name `outputStream` in /repo/opendis. -/
abbrev outputStream : Ident := 21
/-- The name `inputStream` in /repo/opendis. -/
abbrev inputStream : Ident := 22
/-- The name `marshalledSize` in /repo/opendis. -/
abbrev marshalledSize : Ident := 23
/-- The name `simulationAddress` in /repo/opendis. -/
abbrev simulationAddress : Ident := 24
/-- The name `entityNumber` in /repo/opendis. -/
abbrev entityNumber : Ident := 25
/-- The name `SimulationAddress` in /repo/opendis. -/
abbrev SimulationAddress : Ident := 26
/-- The name `write_uint16` in /repo/opendis. -/
abbrev write_uint16 : Ident := 27
/-- The name `read_uint16` in /repo/opendis. -/
abbrev read_uint16 : Ident := 28
/-- The name `Record` in /repo/opendis. -/
abbrev Record : Ident := 29
/-- The name `EntityIdentifier` in /repo/opendis. -/
abbrev EntityIdentifier : Ident := 30
/-- The name `psi` in /repo/opendis. -/
abbrev psi : Ident := 31
/-- The name `theta` in /repo/opendis. -/
abbrev theta : Ident := 32
/-- The name `phi` in /repo/opendis. -/
abbrev phi : Ident := 33
/-- The name `write_float32` in /repo/opendis. -/
abbrev write_float32 : Ident := 34
/-- The name `read_float32` in /repo/opendis. -/
abbrev read_float32 : Ident := 35
/-- The name `EulerAngles` in /repo/opendis. -/
abbrev EulerAngles : Ident := 36
/-- The name `eventNumber` in /repo/opendis. -/
abbrev eventNumber : Ident := 37
/-- The name `write_unsigned_short` in /repo/opendis. -/
abbrev write_unsigned_short : Ident := 38
/-- The name `read_unsigned_short` in /repo/opendis. -/
abbrev read_unsigned_short : Ident := 39
/-- The name `EventIdentifier` in /repo/opendis. -/
abbrev EventIdentifier : Ident := 40
/-- The name `site` in /repo/opendis. -/
abbrev site : Ident := 41
/-- The name `application` in /repo/opendis. -/
abbrev application : Ident := 42
/-- The name `x` in /repo/opendis. -/
abbrev x : Ident := 43
/-- The name `y` in /repo/opendis. -/
abbrev y : Ident := 44
/-- The name `z` in /repo/opendis. -/
abbrev z : Ident := 45
/-- The name `write_float` in /repo/opendis. -/
abbrev write_float : Ident := 46
/-- The name `read_float` in /repo/opendis. -/
abbrev read_float : Ident := 47
/-- The name `Vector3Float` in /repo/opendis. -/
abbrev Vector3Float : Ident := 48
/-- The name `write_float64` in /repo/opendis. -/
abbrev write_float64 : Ident := 49
/-- The name `read_float64` in /repo/opendis. -/
abbrev read_float64 : Ident := 50
/-- The name `WorldCoordinates` in /repo/opendis. -/
abbrev WorldCoordinates : Ident := 51
/-- The name `value` in /repo/opendis. -/
abbrev value : Ident := 52
/-- The name `int` in /repo/opendis. -/
abbrev int : Ident := 53
/-- The name `bytelength` in /repo/opendis. -/
abbrev bytelength : Ident := 54
/-- The name `is_positive_int` in /repo/opendis. -/
abbrev is_positive_int : Ident := 55
/-- The name `VariableRecord` in /repo/opendis. -/
abbrev VariableRecord : Ident := 56
/-- The name `recordType` in /repo/opendis. -/
abbrev recordType : Ident := 57
/-- The name `write_uint32` in /repo/opendis. -/
abbrev write_uint32 : Ident := 58
/-- The name `recordLength` in /repo/opendis. -/
abbrev recordLength : Ident := 59
/-- The name `StandardVariableRecord` in /repo/opendis. -/
abbrev StandardVariableRecord : Ident := 60
/-- The name `data` in /repo/opendis. -/
abbrev data : Ident := 61
/-- The name `write_bytes` in /repo/opendis. -/
abbrev write_bytes : Ident := 62
/-- The name `read_bytes` in /repo/opendis. -/
abbrev read_bytes : Ident := 63
/-- The name `UnknownStandardVariableRecord` in /repo/opendis. -/
abbrev UnknownStandardVariableRecord : Ident := 64
/-- The name `AntennaPatternRecord` in /repo/opendis. -/
abbrev AntennaPatternRecord : Ident := 65
/-- The name `ModulationParametersRecord` in /repo/opendis. -/
abbrev ModulationParametersRecord : Ident := 66
/-- The name `UnknownRadio` in /repo/opendis. -/
abbrev UnknownRadio : Ident := 67
/-- The name `UnknownAntennaPattern` in /repo/opendis. -/
abbrev UnknownAntennaPattern : Ident := 68
/-- The name `beamDirection` in /repo/opendis. -/
abbrev beamDirection : Ident := 69
/-- The name `azimuthBeamwidth` in /repo/opendis. -/
abbrev azimuthBeamwidth : Ident := 70
/-- The name `elevationBeamwidth` in /repo/opendis. -/
abbrev elevationBeamwidth : Ident := 71
/-- The name `referenceSystem` in /repo/opendis. -/
abbrev referenceSystem : Ident := 72
/-- The name `ez` in /repo/opendis. -/
abbrev ez : Ident := 73
/-- The name `ex` in /repo/opendis. -/
abbrev ex : Ident := 74
/-- The name `phase` in /repo/opendis. -/
abbrev phase : Ident := 75
/-- The name `padding1` in /repo/opendis. -/
abbrev padding1 : Ident := 76
/-- The name `padding2` in /repo/opendis. -/
abbrev padding2 : Ident := 77
/-- The name `padding3` in /repo/opendis. -/
abbrev padding3 : Ident := 78
/-- The name `write_uint8` in /repo/opendis. -/
abbrev write_uint8 : Ident := 79
/-- The name `read_uint8` in /repo/opendis. -/
abbrev read_uint8 : Ident := 80
/-- The name `read_uint32` in /repo/opendis. -/
abbrev read_uint32 : Ident := 81
/-- The name `BeamAntennaPattern` in /repo/opendis. -/
abbrev BeamAntennaPattern : Ident := 82
/-- The name `frequencyHopping` in /repo/opendis. -/
abbrev frequencyHopping : Ident := 83
/-- The name `pseudoNoise` in /repo/opendis. -/
abbrev pseudoNoise : Ident := 84
/-- The name `timeHopping` in /repo/opendis. -/
abbrev timeHopping : Ident := 85
/-- The name `_struct` in /repo/opendis. -/
abbrev _struct : Ident := 86
/-- The name `record_bitfield` in /repo/opendis. -/
abbrev record_bitfield : Ident := 87
/-- The name `bitfield` in /repo/opendis. -/
abbrev bitfield : Ident := 88
/-- The name `INTEGER` in /repo/opendis. -/
abbrev INTEGER : Ident := 89
/-- The name `name` in /repo/opendis. -/
abbrev name : Ident := 90
/-- The name `fields` in /repo/opendis. -/
abbrev fields : Ident := 91
/-- The name `SpreadSpectrum` in /repo/opendis. -/
abbrev SpreadSpectrum : Ident := 92
/-- The name `spreadSpectrum` in /repo/opendis. -/
abbrev spreadSpectrum : Ident := 93
/-- The name `majorModulation` in /repo/opendis. -/
abbrev majorModulation : Ident := 94
/-- The name `detail` in /repo/opendis. -/
abbrev detail : Ident := 95
/-- The name `radioSystem` in /repo/opendis. -/
abbrev radioSystem : Ident := 96
/-- The name `size` in /repo/opendis. -/
abbrev size : Ident := 97
/-- The name `ModulationType` in /repo/opendis. -/
abbrev ModulationType : Ident := 98
/-- The name `VariableTransmitterParametersRecord` in /repo/opendis. -/
abbrev VariableTransmitterParametersRecord : Ident := 99
/-- The name `netNumber` in /repo/opendis. -/
abbrev netNumber : Ident := 100
/-- The name `frequencyTable` in /repo/opendis. -/
abbrev frequencyTable : Ident := 101
/-- The name `mode` in /repo/opendis. -/
abbrev mode : Ident := 102
/-- The name `NetId` in /repo/opendis. -/
abbrev NetId : Ident := 103
/-- The name `GenericRadio` in /repo/opendis. -/
abbrev GenericRadio : Ident := 104
/-- The name `SimpleIntercomRadio` in /repo/opendis. -/
abbrev SimpleIntercomRadio : Ident := 105
/-- The name `net_id` in /repo/opendis. -/
abbrev net_id : Ident := 106
/-- The name `mwod_index` in /repo/opendis. -/
abbrev mwod_index : Ident := 107
/-- The name `reserved16` in /repo/opendis. -/
abbrev reserved16 : Ident := 108
/-- The name `reserved8_1` in /repo/opendis. -/
abbrev reserved8_1 : Ident := 109
/-- The name `reserved8_2` in /repo/opendis. -/
abbrev reserved8_2 : Ident := 110
/-- The name `time_of_day` in /repo/opendis. -/
abbrev time_of_day : Ident := 111
/-- The name `BasicHaveQuickMP` in /repo/opendis. -/
abbrev BasicHaveQuickMP : Ident := 112
/-- The name `fh_net_id` in /repo/opendis. -/
abbrev fh_net_id : Ident := 113
/-- The name `hop_set_id` in /repo/opendis. -/
abbrev hop_set_id : Ident := 114
/-- The name `lockout_set_id` in /repo/opendis. -/
abbrev lockout_set_id : Ident := 115
/-- The name `start_of_message` in /repo/opendis. -/
abbrev start_of_message : Ident := 116
/-- The name `clear_channel` in /repo/opendis. -/
abbrev clear_channel : Ident := 117
/-- The name `fh_sync_time_offset` in /repo/opendis. -/
abbrev fh_sync_time_offset : Ident := 118
/-- The name `transmission_security_key` in /repo/opendis. -/
abbrev transmission_security_key : Ident := 119
/-- The name `CCTTSincgarsMP` in /repo/opendis. -/
abbrev CCTTSincgarsMP : Ident := 120
/-- The name `netId` in /repo/opendis. -/
abbrev netId : Ident := 121
/-- The name `todTransmitIndicator` in /repo/opendis. -/
abbrev todTransmitIndicator : Ident := 122
/-- The name `todDelta` in /repo/opendis. -/
abbrev todDelta : Ident := 123
/-- The name `wod1` in /repo/opendis. -/
abbrev wod1 : Ident := 124
/-- The name `wod2` in /repo/opendis. -/
abbrev wod2 : Ident := 125
/-- The name `wod3` in /repo/opendis. -/
abbrev wod3 : Ident := 126
/-- The name `wod4` in /repo/opendis. -/
abbrev wod4 : Ident := 127
/-- The name `wod5` in /repo/opendis. -/
abbrev wod5 : Ident := 128
/-- The name `wod6` in /repo/opendis. -/
abbrev wod6 : Ident := 129
/-- The name `HighFidelityHAVEQUICKRadio` in /repo/opendis. -/
abbrev HighFidelityHAVEQUICKRadio : Ident := 130
/-- The name `DamageDescriptionRecord` in /repo/opendis. -/
abbrev DamageDescriptionRecord : Ident := 131
/-- The name `damageLocation` in /repo/opendis. -/
abbrev damageLocation : Ident := 132
/-- The name `damageDiameter` in /repo/opendis. -/
abbrev damageDiameter : Ident := 133
/-- The name `temperature` in /repo/opendis. -/
abbrev temperature : Ident := 134
/-- The name `componentIdentification` in /repo/opendis. -/
abbrev componentIdentification : Ident := 135
/-- The name `componentDamageStatus` in /repo/opendis. -/
abbrev componentDamageStatus : Ident := 136
/-- The name `componentVisualDamageStatus` in /repo/opendis. -/
abbrev componentVisualDamageStatus : Ident := 137
/-- The name `componentVisualSmokeColor` in /repo/opendis. -/
abbrev componentVisualSmokeColor : Ident := 138
/-- The name `fireEventID` in /repo/opendis. -/
abbrev fireEventID : Ident := 139
/-- The name `DirectedEnergyDamage` in /repo/opendis. -/
abbrev DirectedEnergyDamage : Ident := 140
/-- The name `beamAntennaPatterns` in /repo/opendis. -/
abbrev beamAntennaPatterns : Ident := 141
/-- The name `directedEnergyTargetEnergyDepositions` in /repo/opendis. -/
abbrev directedEnergyTargetEnergyDepositions : Ident := 142
/-- The name `record` in /repo/opendis. -/
abbrev record : Ident := 143
/-- The name `beamAntennaPatternCount` in /repo/opendis. -/
abbrev beamAntennaPatternCount : Ident := 144
/-- The name `directedEnergyTargetEnergyDepositionCount` in /repo/opendis. -/
abbrev directedEnergyTargetEnergyDepositionCount : Ident := 145
/-- The name `_` in /repo/opendis. -/
abbrev «_» : Ident := 146
/-- The name `DirectedEnergyTargetEnergyDeposition` in /repo/opendis. -/
abbrev DirectedEnergyTargetEnergyDeposition : Ident := 147
/-- The name `DirectedEnergyAreaAimpoint` in /repo/opendis. -/
abbrev DirectedEnergyAreaAimpoint : Ident := 148
/-- The name `targetSpotLocation` in /repo/opendis. -/
abbrev targetSpotLocation : Ident := 149
/-- The name `targetSpotEntityLocation` in /repo/opendis. -/
abbrev targetSpotEntityLocation : Ident := 150
/-- The name `targetSpotVelocity` in /repo/opendis. -/
abbrev targetSpotVelocity : Ident := 151
/-- The name `targetSpotAcceleration` in /repo/opendis. -/
abbrev targetSpotAcceleration : Ident := 152
/-- The name `targetComponentID` in /repo/opendis. -/
abbrev targetComponentID : Ident := 153
/-- The name `beamSpotType` in /repo/opendis. -/
abbrev beamSpotType : Ident := 154
/-- The name `beamSpotCrossSectionSemiMajorAxis` in /repo/opendis. -/
abbrev beamSpotCrossSectionSemiMajorAxis : Ident := 155
/-- The name `beamSpotCrossSectionSemiMinorAxis` in /repo/opendis. -/
abbrev beamSpotCrossSectionSemiMinorAxis : Ident := 156
/-- The name `beamSpotCrossSectionOrientationAngle` in /repo/opendis. -/
abbrev beamSpotCrossSectionOrientationAngle : Ident := 157
/-- The name `peakIrradiance` in /repo/opendis. -/
abbrev peakIrradiance : Ident := 158
/-- The name `DirectedEnergyPrecisionAimpoint` in /repo/opendis. -/
abbrev DirectedEnergyPrecisionAimpoint : Ident := 159
/-- The name `weaponOn` in /repo/opendis. -/
abbrev weaponOn : Ident := 160
/-- The name `stateUpdateFlag` in /repo/opendis. -/
abbrev stateUpdateFlag : Ident := 161
/-- The name `DEFireFlags` in /repo/opendis. -/
abbrev DEFireFlags : Ident := 162
/-- The name `fixedDatumIDs` in /repo/opendis. -/
abbrev fixedDatumIDs : Ident := 163
/-- The name `variableDatumIDs` in /repo/opendis. -/
abbrev variableDatumIDs : Ident := 164
/-- The name `numberOfFixedDatumIDs` in /repo/opendis. -/
abbrev numberOfFixedDatumIDs : Ident := 165
/-- The name `write_unsigned_int` in /repo/opendis. -/
abbrev write_unsigned_int : Ident := 166
/-- The name `numberOfVariableDatumIDs` in /repo/opendis. -/
abbrev numberOfVariableDatumIDs : Ident := 167
/-- The name `datumID` in /repo/opendis. -/
abbrev datumID : Ident := 168
/-- The name `read_unsigned_int` in /repo/opendis. -/
abbrev read_unsigned_int : Ident := 169
/-- The name `idx` in /repo/opendis. -/
abbrev idx : Ident := 170
/-- The name `DataQueryDatumSpecification` in /repo/opendis. -/
abbrev DataQueryDatumSpecification : Ident := 171
/-- The name `siteNumber` in /repo/opendis. -/
abbrev siteNumber : Ident := 172
/-- The name `applicationNumber` in /repo/opendis. -/
abbrev applicationNumber : Ident := 173
/-- The name `referenceNumber` in /repo/opendis. -/
abbrev referenceNumber : Ident := 174
/-- The name `radioNumber` in /repo/opendis. -/
abbrev radioNumber : Ident := 175
/-- The name `RadioIdentifier` in /repo/opendis. -/
abbrev RadioIdentifier : Ident := 176
/-- The name `requestID` in /repo/opendis. -/
abbrev requestID : Ident := 177
/-- The name `RequestID` in /repo/opendis. -/
abbrev RequestID : Ident := 178
/-- The name `iffData` in /repo/opendis. -/
abbrev iffData : Ident := 179
/-- The name `anObj` in /repo/opendis. -/
abbrev anObj : Ident := 180
/-- The name `write_unsigned_byte` in /repo/opendis. -/
abbrev write_unsigned_byte : Ident := 181
/-- The name `val` in /repo/opendis. -/
abbrev val : Ident := 182
/-- The name `read_unsigned_byte` in /repo/opendis. -/
abbrev read_unsigned_byte : Ident := 183
/-- The name `IFFData` in /repo/opendis. -/
abbrev IFFData : Ident := 184
/-- The name `munitionType` in /repo/opendis. -/
abbrev munitionType : Ident := 185
/-- The name `warhead` in /repo/opendis. -/
abbrev warhead : Ident := 186
/-- The name `fuse` in /repo/opendis. -/
abbrev fuse : Ident := 187
/-- The name `quantity` in /repo/opendis. -/
abbrev quantity : Ident := 188
/-- The name `rate` in /repo/opendis. -/
abbrev rate : Ident := 189
/-- The name `EntityType` in /repo/opendis. -/
abbrev EntityType : Ident := 190
/-- The name `MunitionDescriptor` in /repo/opendis. -/
abbrev MunitionDescriptor : Ident := 191
/-- The name `sensorType` in /repo/opendis. -/
abbrev sensorType : Ident := 192
/-- The name `MinefieldSensorType` in /repo/opendis. -/
abbrev MinefieldSensorType : Ident := 193
/-- The name `groupNumber` in /repo/opendis. -/
abbrev groupNumber : Ident := 194
/-- The name `GroupID` in /repo/opendis. -/
abbrev GroupID : Ident := 195
/-- The name `layerNumber` in /repo/opendis. -/
abbrev layerNumber : Ident := 196
/-- The name `layerSpecificInformation` in /repo/opendis. -/
abbrev layerSpecificInformation : Ident := 197
/-- The name `LayerHeader` in /repo/opendis. -/
abbrev LayerHeader : Ident := 198
/-- The name `UnsignedDISInteger` in /repo/opendis. -/
abbrev UnsignedDISInteger : Ident := 199
/-- The name `deadReckoningAlgorithm` in /repo/opendis. -/
abbrev deadReckoningAlgorithm : Ident := 200
/-- The name `parameters` in /repo/opendis. -/
abbrev parameters : Ident := 201
/-- The name `entityLinearAcceleration` in /repo/opendis. -/
abbrev entityLinearAcceleration : Ident := 202
/-- The name `entityAngularVelocity` in /repo/opendis. -/
abbrev entityAngularVelocity : Ident := 203
/-- The name `DeadReckoningParameters` in /repo/opendis. -/
abbrev DeadReckoningParameters : Ident := 204
/-- The name `protocolMode` in /repo/opendis. -/
abbrev protocolMode : Ident := 205
/-- The name `ProtocolMode` in /repo/opendis. -/
abbrev ProtocolMode : Ident := 206
/-- The name `emitterNumber` in /repo/opendis. -/
abbrev emitterNumber : Ident := 207
/-- The name `beamNumber` in /repo/opendis. -/
abbrev beamNumber : Ident := 208
/-- The name `stateIndicator` in /repo/opendis. -/
abbrev stateIndicator : Ident := 209
/-- The name `azimuthOffset` in /repo/opendis. -/
abbrev azimuthOffset : Ident := 210
/-- The name `azimuthWidth` in /repo/opendis. -/
abbrev azimuthWidth : Ident := 211
/-- The name `azimuthPullRate` in /repo/opendis. -/
abbrev azimuthPullRate : Ident := 212
/-- The name `azimuthPullAcceleration` in /repo/opendis. -/
abbrev azimuthPullAcceleration : Ident := 213
/-- The name `elevationOffset` in /repo/opendis. -/
abbrev elevationOffset : Ident := 214
/-- The name `elevationWidth` in /repo/opendis. -/
abbrev elevationWidth : Ident := 215
/-- The name `elevationPullRate` in /repo/opendis. -/
abbrev elevationPullRate : Ident := 216
/-- The name `elevationPullAcceleration` in /repo/opendis. -/
abbrev elevationPullAcceleration : Ident := 217
/-- The name `AngleDeception` in /repo/opendis. -/
abbrev AngleDeception : Ident := 218
/-- The name `changeIndicator` in /repo/opendis. -/
abbrev changeIndicator : Ident := 219
/-- The name `associationStatus` in /repo/opendis. -/
abbrev associationStatus : Ident := 220
/-- The name `associationType` in /repo/opendis. -/
abbrev associationType : Ident := 221
/-- The name `entityID` in /repo/opendis. -/
abbrev entityID : Ident := 222
/-- The name `ownStationLocation` in /repo/opendis. -/
abbrev ownStationLocation : Ident := 223
/-- The name `physicalConnectionType` in /repo/opendis. -/
abbrev physicalConnectionType : Ident := 224
/-- The name `groupMemberType` in /repo/opendis. -/
abbrev groupMemberType : Ident := 225
/-- The name `EntityAssociation` in /repo/opendis. -/
abbrev EntityAssociation : Ident := 226
/-- The name `horizontalDeflectionAngle` in /repo/opendis. -/
abbrev horizontalDeflectionAngle : Ident := 227
/-- The name `verticalDeflectionAngle` in /repo/opendis. -/
abbrev verticalDeflectionAngle : Ident := 228
/-- The name `VectoringNozzleSystem` in /repo/opendis. -/
abbrev VectoringNozzleSystem : Ident := 229
/-- The name `falseTargetCount` in /repo/opendis. -/
abbrev falseTargetCount : Ident := 230
/-- The name `walkSpeed` in /repo/opendis. -/
abbrev walkSpeed : Ident := 231
/-- The name `walkAcceleration` in /repo/opendis. -/
abbrev walkAcceleration : Ident := 232
/-- The name `maximumWalkDistance` in /repo/opendis. -/
abbrev maximumWalkDistance : Ident := 233
/-- The name `keepTime` in /repo/opendis. -/
abbrev keepTime : Ident := 234
/-- The name `echoSpacing` in /repo/opendis. -/
abbrev echoSpacing : Ident := 235
/-- The name `FalseTargetsAttribute` in /repo/opendis. -/
abbrev FalseTargetsAttribute : Ident := 236
/-- The name `minefieldNumber` in /repo/opendis. -/
abbrev minefieldNumber : Ident := 237
/-- The name `MinefieldIdentifier` in /repo/opendis. -/
abbrev MinefieldIdentifier : Ident := 238
/-- The name `domain` in /repo/opendis. -/
abbrev domain : Ident := 239
/-- The name `country` in /repo/opendis. -/
abbrev country : Ident := 240
/-- The name `category` in /repo/opendis. -/
abbrev category : Ident := 241
/-- The name `subcategory` in /repo/opendis. -/
abbrev subcategory : Ident := 242
/-- The name `specific` in /repo/opendis. -/
abbrev specific : Ident := 243
/-- The name `extra` in /repo/opendis. -/
abbrev extra : Ident := 244
/-- The name `entityKind` in /repo/opendis. -/
abbrev entityKind : Ident := 245
/-- The name `RadioType` in /repo/opendis. -/
abbrev RadioType : Ident := 246
/-- The name `stationName` in /repo/opendis. -/
abbrev stationName : Ident := 247
/-- The name `stationNumber` in /repo/opendis. -/
abbrev stationNumber : Ident := 248
/-- The name `NamedLocationIdentification` in /repo/opendis. -/
abbrev NamedLocationIdentification : Ident := 249
/-- The name `iffDataRecords` in /repo/opendis. -/
abbrev iffDataRecords : Ident := 250
/-- The name `numberOfIFFDataRecords` in /repo/opendis. -/
abbrev numberOfIFFDataRecords : Ident := 251
/-- The name `element` in /repo/opendis. -/
abbrev element : Ident := 252
/-- The name `IFFDataSpecification` in /repo/opendis. -/
abbrev IFFDataSpecification : Ident := 253
/-- The name `entityId` in /repo/opendis. -/
abbrev entityId : Ident := 254
/-- The name `ownershipStatus` in /repo/opendis. -/
abbrev ownershipStatus : Ident := 255
/-- The name `OwnershipStatus` in /repo/opendis. -/
abbrev OwnershipStatus : Ident := 256
/-- The name `detachedIndicator` in /repo/opendis. -/
abbrev detachedIndicator : Ident := 257
/-- The name `partAttachedTo` in /repo/opendis. -/
abbrev partAttachedTo : Ident := 258
/-- The name `parameterType` in /repo/opendis. -/
abbrev parameterType : Ident := 259
/-- The name `attachedPartType` in /repo/opendis. -/
abbrev attachedPartType : Ident := 260
/-- The name `parameterValue` in /repo/opendis. -/
abbrev parameterValue : Ident := 261
/-- The name `write_long` in /repo/opendis. -/
abbrev write_long : Ident := 262
/-- The name `read_long` in /repo/opendis. -/
abbrev read_long : Ident := 263
/-- The name `AttachedParts` in /repo/opendis. -/
abbrev AttachedParts : Ident := 264
/-- The name `recordSpecificFields` in /repo/opendis. -/
abbrev recordSpecificFields : Ident := 265
/-- The name `Attribute` in /repo/opendis. -/
abbrev Attribute : Ident := 266
/-- The name `recordIDs` in /repo/opendis. -/
abbrev recordIDs : Ident := 267
/-- The name `numberOfRecords` in /repo/opendis. -/
abbrev numberOfRecords : Ident := 268
/-- The name `RecordQuerySpecification` in /repo/opendis. -/
abbrev RecordQuerySpecification : Ident := 269
/-- The name `ArticulatedParts` in /repo/opendis. -/
abbrev ArticulatedParts : Ident := 270
/-- The name `objectKind` in /repo/opendis. -/
abbrev objectKind : Ident := 271
/-- The name `ObjectType` in /repo/opendis. -/
abbrev ObjectType : Ident := 272
/-- The name `associatedEntityID` in /repo/opendis. -/
abbrev associatedEntityID : Ident := 273
/-- The name `associatedLocation` in /repo/opendis. -/
abbrev associatedLocation : Ident := 274
/-- The name `padding4` in /repo/opendis. -/
abbrev padding4 : Ident := 275
/-- The name `Association` in /repo/opendis. -/
abbrev Association : Ident := 276
/-- The name `recordID` in /repo/opendis. -/
abbrev recordID : Ident := 277
/-- The name `recordSetSerialNumber` in /repo/opendis. -/
abbrev recordSetSerialNumber : Ident := 278
/-- The name `recordCount` in /repo/opendis. -/
abbrev recordCount : Ident := 279
/-- The name `recordValues` in /repo/opendis. -/
abbrev recordValues : Ident := 280
/-- The name `pad4` in /repo/opendis. -/
abbrev pad4 : Ident := 281
/-- The name `RecordSpecificationElement` in /repo/opendis. -/
abbrev RecordSpecificationElement : Ident := 282
/-- The name `antennaLocation` in /repo/opendis. -/
abbrev antennaLocation : Ident := 283
/-- The name `relativeAntennaLocation` in /repo/opendis. -/
abbrev relativeAntennaLocation : Ident := 284
/-- The name `AntennaLocation` in /repo/opendis. -/
abbrev AntennaLocation : Ident := 285
/-- The name `objectNumber` in /repo/opendis. -/
abbrev objectNumber : Ident := 286
/-- The name `ObjectIdentifier` in /repo/opendis. -/
abbrev ObjectIdentifier : Ident := 287
/-- The name `aggregateID` in /repo/opendis. -/
abbrev aggregateID : Ident := 288
/-- The name `AggregateIdentifier` in /repo/opendis. -/
abbrev AggregateIdentifier : Ident := 289
/-- The name `fixedDatumID` in /repo/opendis. -/
abbrev fixedDatumID : Ident := 290
/-- The name `fixedDatumValue` in /repo/opendis. -/
abbrev fixedDatumValue : Ident := 291
/-- The name `FixedDatum` in /repo/opendis. -/
abbrev FixedDatum : Ident := 292
/-- The name `variableParameterFields1` in /repo/opendis. -/
abbrev variableParameterFields1 : Ident := 293
/-- The name `variableParameterFields2` in /repo/opendis. -/
abbrev variableParameterFields2 : Ident := 294
/-- The name `variableParameterFields3` in /repo/opendis. -/
abbrev variableParameterFields3 : Ident := 295
/-- The name `variableParameterFields4` in /repo/opendis. -/
abbrev variableParameterFields4 : Ident := 296
/-- The name `write_double` in /repo/opendis. -/
abbrev write_double : Ident := 297
/-- The name `read_double` in /repo/opendis. -/
abbrev read_double : Ident := 298
/-- The name `VariableParameter` in /repo/opendis. -/
abbrev VariableParameter : Ident := 299
/-- The name `ChangeOptions` in /repo/opendis. -/
abbrev ChangeOptions : Ident := 300
/-- The name `liveSiteNumber` in /repo/opendis. -/
abbrev liveSiteNumber : Ident := 301
/-- The name `liveApplicationNumber` in /repo/opendis. -/
abbrev liveApplicationNumber : Ident := 302
/-- The name `LiveSimulationAddress` in /repo/opendis. -/
abbrev LiveSimulationAddress : Ident := 303
/-- The name `characterSet` in /repo/opendis. -/
abbrev characterSet : Ident := 304
/-- The name `characters` in /repo/opendis. -/
abbrev characters : Ident := 305
/-- The name `new_str` in /repo/opendis. -/
abbrev new_str : Ident := 306
/-- The name `ord` in /repo/opendis. -/
abbrev ord : Ident := 307
/-- The name `filter` in /repo/opendis. -/
abbrev filter : Ident := 308
/-- The name `bytes` in /repo/opendis. -/
abbrev bytes : Ident := 309
/-- The name `decode` in /repo/opendis. -/
abbrev decode : Ident := 310
/-- The name `write_byte` in /repo/opendis. -/
abbrev write_byte : Ident := 311
/-- The name `read_byte` in /repo/opendis. -/
abbrev read_byte : Ident := 312
/-- The name `setString` in /repo/opendis. -/
abbrev setString : Ident := 313
/-- The name `charactersString` in /repo/opendis. -/
abbrev charactersString : Ident := 314
/-- The name `EntityMarking` in /repo/opendis. -/
abbrev EntityMarking : Ident := 315
/-- The name `activeEmissionParameterIndex` in /repo/opendis. -/
abbrev activeEmissionParameterIndex : Ident := 316
/-- The name `scanPattern` in /repo/opendis. -/
abbrev scanPattern : Ident := 317
/-- The name `beamCenterAzimuthHorizontal` in /repo/opendis. -/
abbrev beamCenterAzimuthHorizontal : Ident := 318
/-- The name `azimuthBeamwidthHorizontal` in /repo/opendis. -/
abbrev azimuthBeamwidthHorizontal : Ident := 319
/-- The name `beamCenterDepressionElevation` in /repo/opendis. -/
abbrev beamCenterDepressionElevation : Ident := 320
/-- The name `beamwidthDownElevation` in /repo/opendis. -/
abbrev beamwidthDownElevation : Ident := 321
/-- The name `azimuthalBeamwidthHorizontal` in /repo/opendis. -/
abbrev azimuthalBeamwidthHorizontal : Ident := 322
/-- The name `UAFundamentalParameter` in /repo/opendis. -/
abbrev UAFundamentalParameter : Ident := 323
/-- The name `explodingObject` in /repo/opendis. -/
abbrev explodingObject : Ident := 324
/-- The name `explosiveMaterial` in /repo/opendis. -/
abbrev explosiveMaterial : Ident := 325
/-- The name `explosiveForce` in /repo/opendis. -/
abbrev explosiveForce : Ident := 326
/-- The name `ExplosionDescriptor` in /repo/opendis. -/
abbrev ExplosionDescriptor : Ident := 327
/-- The name `hour` in /repo/opendis. -/
abbrev hour : Ident := 328
/-- The name `timePastHour` in /repo/opendis. -/
abbrev timePastHour : Ident := 329
/-- The name `ClockTime` in /repo/opendis. -/
abbrev ClockTime : Ident := 330
/-- The name `operationalData1` in /repo/opendis. -/
abbrev operationalData1 : Ident := 331
/-- The name `operationalData2` in /repo/opendis. -/
abbrev operationalData2 : Ident := 332
/-- The name `numberOfIFFFundamentalParameterRecords` in /repo/opendis. -/
abbrev numberOfIFFFundamentalParameterRecords : Ident := 333
/-- The name `SecondaryOperationalData` in /repo/opendis. -/
abbrev SecondaryOperationalData : Ident := 334
/-- The name `entityClass` in /repo/opendis. -/
abbrev entityClass : Ident := 335
/-- The name `EnvironmentType` in /repo/opendis. -/
abbrev EnvironmentType : Ident := 336
/-- The name `totalRecordSets` in /repo/opendis. -/
abbrev totalRecordSets : Ident := 337
/-- The name `TotalRecordSets` in /repo/opendis. -/
abbrev TotalRecordSets : Ident := 338
/-- The name `mineEntityNumber` in /repo/opendis. -/
abbrev mineEntityNumber : Ident := 339
/-- The name `MineEntityIdentifier` in /repo/opendis. -/
abbrev MineEntityIdentifier : Ident := 340
/-- The name `nature` in /repo/opendis. -/
abbrev nature : Ident := 341
/-- The name `position` in /repo/opendis. -/
abbrev position : Ident := 342
/-- The name `Relationship` in /repo/opendis. -/
abbrev Relationship : Ident := 343
/-- The name `frequency` in /repo/opendis. -/
abbrev frequency : Ident := 344
/-- The name `frequencyRange` in /repo/opendis. -/
abbrev frequencyRange : Ident := 345
/-- The name `effectiveRadiatedPower` in /repo/opendis. -/
abbrev effectiveRadiatedPower : Ident := 346
/-- The name `pulseRepetitionFrequency` in /repo/opendis. -/
abbrev pulseRepetitionFrequency : Ident := 347
/-- The name `pulseWidth` in /repo/opendis. -/
abbrev pulseWidth : Ident := 348
/-- The name `beamAzimuthCenter` in /repo/opendis. -/
abbrev beamAzimuthCenter : Ident := 349
/-- The name `beamAzimuthSweep` in /repo/opendis. -/
abbrev beamAzimuthSweep : Ident := 350
/-- The name `beamElevationCenter` in /repo/opendis. -/
abbrev beamElevationCenter : Ident := 351
/-- The name `beamElevationSweep` in /repo/opendis. -/
abbrev beamElevationSweep : Ident := 352
/-- The name `beamSweepSync` in /repo/opendis. -/
abbrev beamSweepSync : Ident := 353
/-- The name `EEFundamentalParameterData` in /repo/opendis. -/
abbrev EEFundamentalParameterData : Ident := 354
/-- The name `kind` in /repo/opendis. -/
abbrev kind : Ident := 355
/-- The name `JammingTechnique` in /repo/opendis. -/
abbrev JammingTechnique : Ident := 356
/-- The name `fixedDatumRecords` in /repo/opendis. -/
abbrev fixedDatumRecords : Ident := 357
/-- The name `variableDatumRecords` in /repo/opendis. -/
abbrev variableDatumRecords : Ident := 358
/-- The name `numberOfFixedDatumRecords` in /repo/opendis. -/
abbrev numberOfFixedDatumRecords : Ident := 359
/-- The name `numberOfVariableDatumRecords` in /repo/opendis. -/
abbrev numberOfVariableDatumRecords : Ident := 360
/-- The name `VariableDatum` in /repo/opendis. -/
abbrev VariableDatum : Ident := 361
/-- The name `DatumSpecification` in /repo/opendis. -/
abbrev DatumSpecification : Ident := 362
/-- The name `expendable` in /repo/opendis. -/
abbrev expendable : Ident := 363
/-- The name `station` in /repo/opendis. -/
abbrev station : Ident := 364
/-- The name `expendableStatus` in /repo/opendis. -/
abbrev expendableStatus : Ident := 365
/-- The name `Expendable` in /repo/opendis. -/
abbrev Expendable : Ident := 366
/-- The name `communicationsNodeType` in /repo/opendis. -/
abbrev communicationsNodeType : Ident := 367
/-- The name `communicationsNodeID` in /repo/opendis. -/
abbrev communicationsNodeID : Ident := 368
/-- The name `communcationsNodeType` in /repo/opendis. -/
abbrev communcationsNodeType : Ident := 369
/-- The name `CommunicationsNodeID` in /repo/opendis. -/
abbrev CommunicationsNodeID : Ident := 370
/-- The name `IOCommunicationsNode` in /repo/opendis. -/
abbrev IOCommunicationsNode : Ident := 371
/-- The name `segmentNumber` in /repo/opendis. -/
abbrev segmentNumber : Ident := 372
/-- The name `segmentModification` in /repo/opendis. -/
abbrev segmentModification : Ident := 373
/-- The name `generalSegmentAppearance` in /repo/opendis. -/
abbrev generalSegmentAppearance : Ident := 374
/-- The name `specificSegmentAppearance` in /repo/opendis. -/
abbrev specificSegmentAppearance : Ident := 375
/-- The name `segmentLocation` in /repo/opendis. -/
abbrev segmentLocation : Ident := 376
/-- The name `segmentOrientation` in /repo/opendis. -/
abbrev segmentOrientation : Ident := 377
/-- The name `segmentLength` in /repo/opendis. -/
abbrev segmentLength : Ident := 378
/-- The name `segmentWidth` in /repo/opendis. -/
abbrev segmentWidth : Ident := 379
/-- The name `segmentHeight` in /repo/opendis. -/
abbrev segmentHeight : Ident := 380
/-- The name `segmentDepth` in /repo/opendis. -/
abbrev segmentDepth : Ident := 381
/-- The name `LinearSegmentParameter` in /repo/opendis. -/
abbrev LinearSegmentParameter : Ident := 382
/-- The name `systemType` in /repo/opendis. -/
abbrev systemType : Ident := 383
/-- The name `systemName` in /repo/opendis. -/
abbrev systemName : Ident := 384
/-- The name `systemMode` in /repo/opendis. -/
abbrev systemMode : Ident := 385
/-- The name `changeOptions` in /repo/opendis. -/
abbrev changeOptions : Ident := 386
/-- The name `SystemIdentifier` in /repo/opendis. -/
abbrev SystemIdentifier : Ident := 387
/-- The name `TrackJamData` in /repo/opendis. -/
abbrev TrackJamData : Ident := 388
/-- The name `aggregateKind` in /repo/opendis. -/
abbrev aggregateKind : Ident := 389
/-- The name `specificInfo` in /repo/opendis. -/
abbrev specificInfo : Ident := 390
/-- The name `AggregateType` in /repo/opendis. -/
abbrev AggregateType : Ident := 391
/-- The name `pduHeader` in /repo/opendis. -/
abbrev pduHeader : Ident := 392
/-- The name `originatingID` in /repo/opendis. -/
abbrev originatingID : Ident := 393
/-- The name `receivingID` in /repo/opendis. -/
abbrev receivingID : Ident := 394
/-- The name `PduHeader` in /repo/opendis. -/
abbrev PduHeader : Ident := 395
/-- The name `SimulationIdentifier` in /repo/opendis. -/
abbrev SimulationIdentifier : Ident := 396
/-- The name `SimulationManagementPduHeader` in /repo/opendis. -/
abbrev SimulationManagementPduHeader : Ident := 397
/-- The name `BeamData` in /repo/opendis. -/
abbrev BeamData : Ident := 398
/-- The name `fuelQuantity` in /repo/opendis. -/
abbrev fuelQuantity : Ident := 399
/-- The name `fuelMeasurementUnits` in /repo/opendis. -/
abbrev fuelMeasurementUnits : Ident := 400
/-- The name `fuelType` in /repo/opendis. -/
abbrev fuelType : Ident := 401
/-- The name `fuelLocation` in /repo/opendis. -/
abbrev fuelLocation : Ident := 402
/-- The name `EngineFuel` in /repo/opendis. -/
abbrev EngineFuel : Ident := 403
/-- The name `ioStatus` in /repo/opendis. -/
abbrev ioStatus : Ident := 404
/-- The name `ioLinkType` in /repo/opendis. -/
abbrev ioLinkType : Ident := 405
/-- The name `ioEffect` in /repo/opendis. -/
abbrev ioEffect : Ident := 406
/-- The name `ioEffectDutyCycle` in /repo/opendis. -/
abbrev ioEffectDutyCycle : Ident := 407
/-- The name `ioEffectDuration` in /repo/opendis. -/
abbrev ioEffectDuration : Ident := 408
/-- The name `ioProcess` in /repo/opendis. -/
abbrev ioProcess : Ident := 409
/-- The name `IOEffect` in /repo/opendis. -/
abbrev IOEffect : Ident := 410
/-- The name `domainInitialXi` in /repo/opendis. -/
abbrev domainInitialXi : Ident := 411
/-- The name `domainFinalXi` in /repo/opendis. -/
abbrev domainFinalXi : Ident := 412
/-- The name `domainPointsXi` in /repo/opendis. -/
abbrev domainPointsXi : Ident := 413
/-- The name `interleafFactor` in /repo/opendis. -/
abbrev interleafFactor : Ident := 414
/-- The name `axisType` in /repo/opendis. -/
abbrev axisType : Ident := 415
/-- The name `numberOfPointsOnXiAxis` in /repo/opendis. -/
abbrev numberOfPointsOnXiAxis : Ident := 416
/-- The name `initialIndex` in /repo/opendis. -/
abbrev initialIndex : Ident := 417
/-- The name `coordinateScaleXi` in /repo/opendis. -/
abbrev coordinateScaleXi : Ident := 418
/-- The name `coordinateOffsetXi` in /repo/opendis. -/
abbrev coordinateOffsetXi : Ident := 419
/-- The name `xiValues` in /repo/opendis. -/
abbrev xiValues : Ident := 420
/-- The name `null` in /repo/opendis. -/
abbrev null : Ident := 421
/-- The name `GridAxisDescriptorVariable` in /repo/opendis. -/
abbrev GridAxisDescriptorVariable : Ident := 422
/-- The name `supplyType` in /repo/opendis. -/
abbrev supplyType : Ident := 423
/-- The name `SupplyQuantity` in /repo/opendis. -/
abbrev SupplyQuantity : Ident := 424
/-- The name `numberOfEntities` in /repo/opendis. -/
abbrev numberOfEntities : Ident := 425
/-- The name `entityType` in /repo/opendis. -/
abbrev entityType : Ident := 426
/-- The name `appearanceRecordList` in /repo/opendis. -/
abbrev appearanceRecordList : Ident := 427
/-- The name `numberOfAppearanceRecords` in /repo/opendis. -/
abbrev numberOfAppearanceRecords : Ident := 428
/-- The name `SilentEntitySystem` in /repo/opendis. -/
abbrev SilentEntitySystem : Ident := 429
/-- The name `numberOfAggregates` in /repo/opendis. -/
abbrev numberOfAggregates : Ident := 430
/-- The name `aggregateType` in /repo/opendis. -/
abbrev aggregateType : Ident := 431
/-- The name `SilentAggregateSystem` in /repo/opendis. -/
abbrev SilentAggregateSystem : Ident := 432
/-- The name `leftAzimuth` in /repo/opendis. -/
abbrev leftAzimuth : Ident := 433
/-- The name `rightAzimuth` in /repo/opendis. -/
abbrev rightAzimuth : Ident := 434
/-- The name `lowerElevation` in /repo/opendis. -/
abbrev lowerElevation : Ident := 435
/-- The name `upperElevation` in /repo/opendis. -/
abbrev upperElevation : Ident := 436
/-- The name `residualPower` in /repo/opendis. -/
abbrev residualPower : Ident := 437
/-- The name `write_int` in /repo/opendis. -/
abbrev write_int : Ident := 438
/-- The name `read_int` in /repo/opendis. -/
abbrev read_int : Ident := 439
/-- The name `BlankingSector` in /repo/opendis. -/
abbrev BlankingSector : Ident := 440
/-- The name `targetLocation` in /repo/opendis. -/
abbrev targetLocation : Ident := 441
/-- The name `LaunchedMunitionRecord` in /repo/opendis. -/
abbrev LaunchedMunitionRecord : Ident := 442
/-- The name `erp` in /repo/opendis. -/
abbrev erp : Ident := 443
/-- The name `pgrf` in /repo/opendis. -/
abbrev pgrf : Ident := 444
/-- The name `burstLength` in /repo/opendis. -/
abbrev burstLength : Ident := 445
/-- The name `applicableModes` in /repo/opendis. -/
abbrev applicableModes : Ident := 446
/-- The name `systemSpecificData` in /repo/opendis. -/
abbrev systemSpecificData : Ident := 447
/-- The name `IFFFundamentalParameterData` in /repo/opendis. -/
abbrev IFFFundamentalParameterData : Ident := 448
/-- The name `systemStatus` in /repo/opendis. -/
abbrev systemStatus : Ident := 449
/-- The name `dataField1` in /repo/opendis. -/
abbrev dataField1 : Ident := 450
/-- The name `informationLayers` in /repo/opendis. -/
abbrev informationLayers : Ident := 451
/-- The name `dataField2` in /repo/opendis. -/
abbrev dataField2 : Ident := 452
/-- The name `parameter1` in /repo/opendis. -/
abbrev parameter1 : Ident := 453
/-- The name `parameter2` in /repo/opendis. -/
abbrev parameter2 : Ident := 454
/-- The name `parameter3` in /repo/opendis. -/
abbrev parameter3 : Ident := 455
/-- The name `parameter4` in /repo/opendis. -/
abbrev parameter4 : Ident := 456
/-- The name `parameter5` in /repo/opendis. -/
abbrev parameter5 : Ident := 457
/-- The name `parameter6` in /repo/opendis. -/
abbrev parameter6 : Ident := 458
/-- The name `FundamentalOperationalData` in /repo/opendis. -/
abbrev FundamentalOperationalData : Ident := 459
/-- The name `recordSpecificField` in /repo/opendis. -/
abbrev recordSpecificField : Ident := 460
/-- The name `IntercomCommunicationsParameters` in /repo/opendis. -/
abbrev IntercomCommunicationsParameters : Ident := 461
/-- The name `munitionStatus` in /repo/opendis. -/
abbrev munitionStatus : Ident := 462
/-- The name `Munition` in /repo/opendis. -/
abbrev Munition : Ident := 463
/-- The name `standardVariables` in /repo/opendis. -/
abbrev standardVariables : Ident := 464
/-- The name `numberOfStandardVariableRecords` in /repo/opendis. -/
abbrev numberOfStandardVariableRecords : Ident := 465
/-- The name `StandardVariableSpecification` in /repo/opendis. -/
abbrev StandardVariableSpecification : Ident := 466
/-- The name `Vector2Float` in /repo/opendis. -/
abbrev Vector2Float : Ident := 467
/-- The name `environmentType` in /repo/opendis. -/
abbrev environmentType : Ident := 468
/-- The name `index` in /repo/opendis. -/
abbrev index : Ident := 469
/-- The name `padding0` in /repo/opendis. -/
abbrev padding0 : Ident := 470
/-- The name `Environment` in /repo/opendis. -/
abbrev Environment : Ident := 471
/-- The name `acousticSystemName` in /repo/opendis. -/
abbrev acousticSystemName : Ident := 472
/-- The name `acousticFunction` in /repo/opendis. -/
abbrev acousticFunction : Ident := 473
/-- The name `acousticIDNumber` in /repo/opendis. -/
abbrev acousticIDNumber : Ident := 474
/-- The name `AcousticEmitter` in /repo/opendis. -/
abbrev AcousticEmitter : Ident := 475
/-- The name `AngularVelocityVector` in /repo/opendis. -/
abbrev AngularVelocityVector : Ident := 476
/-- The name `AggregateMarking` in /repo/opendis. -/
abbrev AggregateMarking : Ident := 477
/-- The name `bitFlags` in /repo/opendis. -/
abbrev bitFlags : Ident := 478
/-- The name `DataFilterRecord` in /repo/opendis. -/
abbrev DataFilterRecord : Ident := 479
/-- The name `intercomNumber` in /repo/opendis. -/
abbrev intercomNumber : Ident := 480
/-- The name `IntercomIdentifier` in /repo/opendis. -/
abbrev IntercomIdentifier : Ident := 481
/-- The name `StorageFuel` in /repo/opendis. -/
abbrev StorageFuel : Ident := 482
/-- The name `sensorTypeSource` in /repo/opendis. -/
abbrev sensorTypeSource : Ident := 483
/-- The name `sensorOnOffStatus` in /repo/opendis. -/
abbrev sensorOnOffStatus : Ident := 484
/-- The name `Sensor` in /repo/opendis. -/
abbrev Sensor : Ident := 485
/-- The name `standardQuantity` in /repo/opendis. -/
abbrev standardQuantity : Ident := 486
/-- The name `maximumQuantity` in /repo/opendis. -/
abbrev maximumQuantity : Ident := 487
/-- The name `standardQuantityReloadTime` in /repo/opendis. -/
abbrev standardQuantityReloadTime : Ident := 488
/-- The name `maximumQuantityReloadTime` in /repo/opendis. -/
abbrev maximumQuantityReloadTime : Ident := 489
/-- The name `MunitionReload` in /repo/opendis. -/
abbrev MunitionReload : Ident := 490
/-- The name `StorageFuelReload` in /repo/opendis. -/
abbrev StorageFuelReload : Ident := 491
/-- The name `ExpendableReload` in /repo/opendis. -/
abbrev ExpendableReload : Ident := 492
/-- The name `fuelMeasurmentUnits` in /repo/opendis. -/
abbrev fuelMeasurmentUnits : Ident := 493
/-- The name `EngineFuelReload` in /repo/opendis. -/
abbrev EngineFuelReload : Ident := 494
/-- The name `UnattachedIdentifier` in /repo/opendis. -/
abbrev UnattachedIdentifier : Ident := 495
/-- The name `EntityTypeVP` in /repo/opendis. -/
abbrev EntityTypeVP : Ident := 496
/-- The name `beamState` in /repo/opendis. -/
abbrev beamState : Ident := 497
/-- The name `BeamStatus` in /repo/opendis. -/
abbrev BeamStatus : Ident := 498
/-- The name `geometry` in /repo/opendis. -/
abbrev geometry : Ident := 499
/-- The name `EnvironmentGeneral` in /repo/opendis. -/
abbrev EnvironmentGeneral : Ident := 500
/-- The name `GridAxis` in /repo/opendis. -/
abbrev GridAxis : Ident := 501
/-- The name `recordSets` in /repo/opendis. -/
abbrev recordSets : Ident := 502
/-- The name `numberOfRecordSets` in /repo/opendis. -/
abbrev numberOfRecordSets : Ident := 503
/-- The name `RecordSpecification` in /repo/opendis. -/
abbrev RecordSpecification : Ident := 504
/-- The name `variableDatumID` in /repo/opendis. -/
abbrev variableDatumID : Ident := 505
/-- The name `variableDatumLength` in /repo/opendis. -/
abbrev variableDatumLength : Ident := 506
/-- The name `variableData` in /repo/opendis. -/
abbrev variableData : Ident := 507
/-- The name `remainder` in /repo/opendis. -/
abbrev remainder : Ident := 508
/-- The name `datumPaddingSizeInBits` in /repo/opendis. -/
abbrev datumPaddingSizeInBits : Ident := 509
/-- The name `EventIdentifierLiveEntity` in /repo/opendis. -/
abbrev EventIdentifierLiveEntity : Ident := 510
/-- The name `pduLength` in /repo/opendis. -/
abbrev pduLength : Ident := 511
/-- The name `PduSuperclass` in /repo/opendis. -/
abbrev PduSuperclass : Ident := 512
/-- The name `elementID` in /repo/opendis. -/
abbrev elementID : Ident := 513
/-- The name `expendableType` in /repo/opendis. -/
abbrev expendableType : Ident := 514
/-- The name `ExpendableDescriptor` in /repo/opendis. -/
abbrev ExpendableDescriptor : Ident := 515
/-- The name `powerSetting` in /repo/opendis. -/
abbrev powerSetting : Ident := 516
/-- The name `engineRpm` in /repo/opendis. -/
abbrev engineRpm : Ident := 517
/-- The name `PropulsionSystemData` in /repo/opendis. -/
abbrev PropulsionSystemData : Ident := 518
/-- The name `liveSimulationAddress` in /repo/opendis. -/
abbrev liveSimulationAddress : Ident := 519
/-- The name `LiveEntityIdentifier` in /repo/opendis. -/
abbrev LiveEntityIdentifier : Ident := 520
/-- The name `reasonForSeparation` in /repo/opendis. -/
abbrev reasonForSeparation : Ident := 521
/-- The name `preEntityIndicator` in /repo/opendis. -/
abbrev preEntityIndicator : Ident := 522
/-- The name `parentEntityID` in /repo/opendis. -/
abbrev parentEntityID : Ident := 523
/-- The name `stationLocation` in /repo/opendis. -/
abbrev stationLocation : Ident := 524
/-- The name `SeparationVP` in /repo/opendis. -/
abbrev SeparationVP : Ident := 525
/-- The name `emitterName` in /repo/opendis. -/
abbrev emitterName : Ident := 526
/-- The name `emitterFunction` in /repo/opendis. -/
abbrev emitterFunction : Ident := 527
/-- The name `emitterIDNumber` in /repo/opendis. -/
abbrev emitterIDNumber : Ident := 528
/-- The name `EmitterSystem` in /repo/opendis. -/
abbrev EmitterSystem : Ident := 529
/-- The name `PduStatus` in /repo/opendis. -/
abbrev PduStatus : Ident := 530
/-- The name `subprotocolNumber` in /repo/opendis. -/
abbrev subprotocolNumber : Ident := 531
/-- The name `LiveEntityPdu` in /repo/opendis. -/
abbrev LiveEntityPdu : Ident := 532
/-- The name `Pdu` in /repo/opendis. -/
abbrev Pdu : Ident := 533
/-- The name `EntityInformationFamilyPdu` in /repo/opendis. -/
abbrev EntityInformationFamilyPdu : Ident := 534
/-- The name `LogisticsFamilyPdu` in /repo/opendis. -/
abbrev LogisticsFamilyPdu : Ident := 535
/-- The name `entityLinearVelocity` in /repo/opendis. -/
abbrev entityLinearVelocity : Ident := 536
/-- The name `entityLocation` in /repo/opendis. -/
abbrev entityLocation : Ident := 537
/-- The name `entityOrientation` in /repo/opendis. -/
abbrev entityOrientation : Ident := 538
/-- The name `entityAppearance` in /repo/opendis. -/
abbrev entityAppearance : Ident := 539
/-- The name `variableParameters` in /repo/opendis. -/
abbrev variableParameters : Ident := 540
/-- The name `EntityStateUpdatePdu` in /repo/opendis. -/
abbrev EntityStateUpdatePdu : Ident := 541
/-- The name `numberOfVariableParameters` in /repo/opendis. -/
abbrev numberOfVariableParameters : Ident := 542
/-- The name `requestingEntityID` in /repo/opendis. -/
abbrev requestingEntityID : Ident := 543
/-- The name `servicingEntityID` in /repo/opendis. -/
abbrev servicingEntityID : Ident := 544
/-- The name `serviceTypeRequested` in /repo/opendis. -/
abbrev serviceTypeRequested : Ident := 545
/-- The name `supplies` in /repo/opendis. -/
abbrev supplies : Ident := 546
/-- The name `ServiceRequestPdu` in /repo/opendis. -/
abbrev ServiceRequestPdu : Ident := 547
/-- The name `serviceRequestPadding` in /repo/opendis. -/
abbrev serviceRequestPadding : Ident := 548
/-- The name `numberOfSupplyTypes` in /repo/opendis. -/
abbrev numberOfSupplyTypes : Ident := 549
/-- The name `write_short` in /repo/opendis. -/
abbrev write_short : Ident := 550
/-- The name `read_short` in /repo/opendis. -/
abbrev read_short : Ident := 551
/-- The name `repairingEntityID` in /repo/opendis. -/
abbrev repairingEntityID : Ident := 552
/-- The name `repair` in /repo/opendis. -/
abbrev repair : Ident := 553
/-- The name `RepairCompletePdu` in /repo/opendis. -/
abbrev RepairCompletePdu : Ident := 554
/-- The name `SyntheticEnvironmentFamilyPdu` in /repo/opendis. -/
abbrev SyntheticEnvironmentFamilyPdu : Ident := 555
/-- The name `issuingEntityID` in /repo/opendis. -/
abbrev issuingEntityID : Ident := 556
/-- The name `collidingEntityID` in /repo/opendis. -/
abbrev collidingEntityID : Ident := 557
/-- The name `eventID` in /repo/opendis. -/
abbrev eventID : Ident := 558
/-- The name `collisionType` in /repo/opendis. -/
abbrev collisionType : Ident := 559
/-- The name `velocity` in /repo/opendis. -/
abbrev velocity : Ident := 560
/-- The name `mass` in /repo/opendis. -/
abbrev mass : Ident := 561
/-- The name `location` in /repo/opendis. -/
abbrev location : Ident := 562
/-- The name `CollisionPdu` in /repo/opendis. -/
abbrev CollisionPdu : Ident := 563
/-- The name `pad` in /repo/opendis. -/
abbrev pad : Ident := 564
/-- The name `repairResult` in /repo/opendis. -/
abbrev repairResult : Ident := 565
/-- The name `RepairResponsePdu` in /repo/opendis. -/
abbrev RepairResponsePdu : Ident := 566
/-- The name `SimulationManagementFamilyPdu` in /repo/opendis. -/
abbrev SimulationManagementFamilyPdu : Ident := 567
/-- The name `timeInterval` in /repo/opendis. -/
abbrev timeInterval : Ident := 568
/-- The name `DataQueryPdu` in /repo/opendis. -/
abbrev DataQueryPdu : Ident := 569
/-- The name `_dataQuery` in /repo/opendis. -/
abbrev _dataQuery : Ident := 570
/-- The name `objectID` in /repo/opendis. -/
abbrev objectID : Ident := 571
/-- The name `referencedObjectID` in /repo/opendis. -/
abbrev referencedObjectID : Ident := 572
/-- The name `updateNumber` in /repo/opendis. -/
abbrev updateNumber : Ident := 573
/-- The name `forceID` in /repo/opendis. -/
abbrev forceID : Ident := 574
/-- The name `requesterID` in /repo/opendis. -/
abbrev requesterID : Ident := 575
/-- The name `objectType` in /repo/opendis. -/
abbrev objectType : Ident := 576
/-- The name `linearSegmentParameters` in /repo/opendis. -/
abbrev linearSegmentParameters : Ident := 577
/-- The name `LinearObjectStatePdu` in /repo/opendis. -/
abbrev LinearObjectStatePdu : Ident := 578
/-- The name `numberOfSegments` in /repo/opendis. -/
abbrev numberOfSegments : Ident := 579
/-- The name `CreateEntityPdu` in /repo/opendis. -/
abbrev CreateEntityPdu : Ident := 580
/-- The name `RadioCommunicationsFamilyPdu` in /repo/opendis. -/
abbrev RadioCommunicationsFamilyPdu : Ident := 581
/-- The name `communicationsDeviceID` in /repo/opendis. -/
abbrev communicationsDeviceID : Ident := 582
/-- The name `encodingScheme` in /repo/opendis. -/
abbrev encodingScheme : Ident := 583
/-- The name `tdlType` in /repo/opendis. -/
abbrev tdlType : Ident := 584
/-- The name `sampleRate` in /repo/opendis. -/
abbrev sampleRate : Ident := 585
/-- The name `samples` in /repo/opendis. -/
abbrev samples : Ident := 586
/-- The name `IntercomSignalPdu` in /repo/opendis. -/
abbrev IntercomSignalPdu : Ident := 587
/-- The name `dataLength` in /repo/opendis. -/
abbrev dataLength : Ident := 588
/-- The name `RemoveEntityPdu` in /repo/opendis. -/
abbrev RemoveEntityPdu : Ident := 589
/-- The name `supplyingEntityID` in /repo/opendis. -/
abbrev supplyingEntityID : Ident := 590
/-- The name `ResupplyReceivedPdu` in /repo/opendis. -/
abbrev ResupplyReceivedPdu : Ident := 591
/-- The name `WarfareFamilyPdu` in /repo/opendis. -/
abbrev WarfareFamilyPdu : Ident := 592
/-- The name `collisionEventID` in /repo/opendis. -/
abbrev collisionEventID : Ident := 593
/-- The name `contactVelocity` in /repo/opendis. -/
abbrev contactVelocity : Ident := 594
/-- The name `locationOfImpact` in /repo/opendis. -/
abbrev locationOfImpact : Ident := 595
/-- The name `collisionIntermediateResultXX` in /repo/opendis. -/
abbrev collisionIntermediateResultXX : Ident := 596
/-- The name `collisionIntermediateResultXY` in /repo/opendis. -/
abbrev collisionIntermediateResultXY : Ident := 597
/-- The name `collisionIntermediateResultXZ` in /repo/opendis. -/
abbrev collisionIntermediateResultXZ : Ident := 598
/-- The name `collisionIntermediateResultYY` in /repo/opendis. -/
abbrev collisionIntermediateResultYY : Ident := 599
/-- The name `collisionIntermediateResultYZ` in /repo/opendis. -/
abbrev collisionIntermediateResultYZ : Ident := 600
/-- The name `collisionIntermediateResultZZ` in /repo/opendis. -/
abbrev collisionIntermediateResultZZ : Ident := 601
/-- The name `unitSurfaceNormal` in /repo/opendis. -/
abbrev unitSurfaceNormal : Ident := 602
/-- The name `coefficientOfRestitution` in /repo/opendis. -/
abbrev coefficientOfRestitution : Ident := 603
/-- The name `CollisionElasticPdu` in /repo/opendis. -/
abbrev CollisionElasticPdu : Ident := 604
/-- The name `actionID` in /repo/opendis. -/
abbrev actionID : Ident := 605
/-- The name `ActionRequestPdu` in /repo/opendis. -/
abbrev ActionRequestPdu : Ident := 606
/-- The name `_datums` in /repo/opendis. -/
abbrev _datums : Ident := 607
/-- The name `acknowledgeFlag` in /repo/opendis. -/
abbrev acknowledgeFlag : Ident := 608
/-- The name `responseFlag` in /repo/opendis. -/
abbrev responseFlag : Ident := 609
/-- The name `AcknowledgePdu` in /repo/opendis. -/
abbrev AcknowledgePdu : Ident := 610
/-- The name `DistributedEmissionsFamilyPdu` in /repo/opendis. -/
abbrev DistributedEmissionsFamilyPdu : Ident := 611
/-- The name `SimulationManagementWithReliabilityFamilyPdu` in /repo/opendis. -/
abbrev SimulationManagementWithReliabilityFamilyPdu : Ident := 612
/-- The name `requiredReliabilityService` in /repo/opendis. -/
abbrev requiredReliabilityService : Ident := 613
/-- The name `ActionRequestReliablePdu` in /repo/opendis. -/
abbrev ActionRequestReliablePdu : Ident := 614
/-- The name `pad1` in /repo/opendis. -/
abbrev pad1 : Ident := 615
/-- The name `pad2` in /repo/opendis. -/
abbrev pad2 : Ident := 616
/-- The name `pad3` in /repo/opendis. -/
abbrev pad3 : Ident := 617
/-- The name `designatingEntityID` in /repo/opendis. -/
abbrev designatingEntityID : Ident := 618
/-- The name `codeName` in /repo/opendis. -/
abbrev codeName : Ident := 619
/-- The name `designatedEntityID` in /repo/opendis. -/
abbrev designatedEntityID : Ident := 620
/-- The name `designatorCode` in /repo/opendis. -/
abbrev designatorCode : Ident := 621
/-- The name `designatorPower` in /repo/opendis. -/
abbrev designatorPower : Ident := 622
/-- The name `designatorWavelength` in /repo/opendis. -/
abbrev designatorWavelength : Ident := 623
/-- The name `designatorSpotWrtDesignated` in /repo/opendis. -/
abbrev designatorSpotWrtDesignated : Ident := 624
/-- The name `designatorSpotLocation` in /repo/opendis. -/
abbrev designatorSpotLocation : Ident := 625
/-- The name `DesignatorPdu` in /repo/opendis. -/
abbrev DesignatorPdu : Ident := 626
/-- The name `realWorldTime` in /repo/opendis. -/
abbrev realWorldTime : Ident := 627
/-- The name `reason` in /repo/opendis. -/
abbrev reason : Ident := 628
/-- The name `frozenBehavior` in /repo/opendis. -/
abbrev frozenBehavior : Ident := 629
/-- The name `StopFreezePdu` in /repo/opendis. -/
abbrev StopFreezePdu : Ident := 630
/-- The name `forceId` in /repo/opendis. -/
abbrev forceId : Ident := 631
/-- The name `alternativeEntityType` in /repo/opendis. -/
abbrev alternativeEntityType : Ident := 632
/-- The name `deadReckoningParameters` in /repo/opendis. -/
abbrev deadReckoningParameters : Ident := 633
/-- The name `marking` in /repo/opendis. -/
abbrev marking : Ident := 634
/-- The name `capabilities` in /repo/opendis. -/
abbrev capabilities : Ident := 635
/-- The name `EntityStatePdu` in /repo/opendis. -/
abbrev EntityStatePdu : Ident := 636
/-- The name `EntityManagementFamilyPdu` in /repo/opendis. -/
abbrev EntityManagementFamilyPdu : Ident := 637
/-- The name `simulationTime` in /repo/opendis. -/
abbrev simulationTime : Ident := 638
/-- The name `StartResumePdu` in /repo/opendis. -/
abbrev StartResumePdu : Ident := 639
/-- The name `radioReferenceID` in /repo/opendis. -/
abbrev radioReferenceID : Ident := 640
/-- The name `radioEntityType` in /repo/opendis. -/
abbrev radioEntityType : Ident := 641
/-- The name `transmitState` in /repo/opendis. -/
abbrev transmitState : Ident := 642
/-- The name `inputSource` in /repo/opendis. -/
abbrev inputSource : Ident := 643
/-- The name `antennaPatternType` in /repo/opendis. -/
abbrev antennaPatternType : Ident := 644
/-- The name `transmitFrequencyBandwidth` in /repo/opendis. -/
abbrev transmitFrequencyBandwidth : Ident := 645
/-- The name `power` in /repo/opendis. -/
abbrev power : Ident := 646
/-- The name `modulationType` in /repo/opendis. -/
abbrev modulationType : Ident := 647
/-- The name `cryptoSystem` in /repo/opendis. -/
abbrev cryptoSystem : Ident := 648
/-- The name `cryptoKeyId` in /repo/opendis. -/
abbrev cryptoKeyId : Ident := 649
/-- The name `modulationParameters` in /repo/opendis. -/
abbrev modulationParameters : Ident := 650
/-- The name `antennaPattern` in /repo/opendis. -/
abbrev antennaPattern : Ident := 651
/-- The name `variableTransmitterParameters` in /repo/opendis. -/
abbrev variableTransmitterParameters : Ident := 652
/-- The name `TransmitterPdu` in /repo/opendis. -/
abbrev TransmitterPdu : Ident := 653
/-- The name `variableTransmitterParameterCount` in /repo/opendis. -/
abbrev variableTransmitterParameterCount : Ident := 654
/-- The name `antennaPatternLength` in /repo/opendis. -/
abbrev antennaPatternLength : Ident := 655
/-- The name `write_uint64` in /repo/opendis. -/
abbrev write_uint64 : Ident := 656
/-- The name `modulationParametersLength` in /repo/opendis. -/
abbrev modulationParametersLength : Ident := 657
/-- The name `vtp` in /repo/opendis. -/
abbrev vtp : Ident := 658
/-- The name `read_uint64` in /repo/opendis. -/
abbrev read_uint64 : Ident := 659
/-- The name `radio` in /repo/opendis. -/
abbrev radio : Ident := 660
/-- The name `parseStandardVariableRecord` in /repo/opendis. -/
abbrev parseStandardVariableRecord : Ident := 661
/-- The name `emittingEntityID` in /repo/opendis. -/
abbrev emittingEntityID : Ident := 662
/-- The name `stateUpdateIndicator` in /repo/opendis. -/
abbrev stateUpdateIndicator : Ident := 663
/-- The name `systems` in /repo/opendis. -/
abbrev systems : Ident := 664
/-- The name `ElectromagneticEmissionsPdu` in /repo/opendis. -/
abbrev ElectromagneticEmissionsPdu : Ident := 665
/-- The name `paddingForEmissionsPdu` in /repo/opendis. -/
abbrev paddingForEmissionsPdu : Ident := 666
/-- The name `numberOfSystems` in /repo/opendis. -/
abbrev numberOfSystems : Ident := 667
/-- The name `EmissionSystemRecord` in /repo/opendis. -/
abbrev EmissionSystemRecord : Ident := 668
/-- The name `beamDataLength` in /repo/opendis. -/
abbrev beamDataLength : Ident := 669
/-- The name `beamIDNumber` in /repo/opendis. -/
abbrev beamIDNumber : Ident := 670
/-- The name `beamParameterIndex` in /repo/opendis. -/
abbrev beamParameterIndex : Ident := 671
/-- The name `fundamentalParameterData` in /repo/opendis. -/
abbrev fundamentalParameterData : Ident := 672
/-- The name `beamFunction` in /repo/opendis. -/
abbrev beamFunction : Ident := 673
/-- The name `highDensityTrackJam` in /repo/opendis. -/
abbrev highDensityTrackJam : Ident := 674
/-- The name `beamStatus` in /repo/opendis. -/
abbrev beamStatus : Ident := 675
/-- The name `jammingModeSequence` in /repo/opendis. -/
abbrev jammingModeSequence : Ident := 676
/-- The name `trackJamRecords` in /repo/opendis. -/
abbrev trackJamRecords : Ident := 677
/-- The name `numberOfTargetsInTrackJam` in /repo/opendis. -/
abbrev numberOfTargetsInTrackJam : Ident := 678
/-- The name `EmissionSystemBeamRecord` in /repo/opendis. -/
abbrev EmissionSystemBeamRecord : Ident := 679
/-- The name `systemDataLength` in /repo/opendis. -/
abbrev systemDataLength : Ident := 680
/-- The name `emitterSystem` in /repo/opendis. -/
abbrev emitterSystem : Ident := 681
/-- The name `beamRecords` in /repo/opendis. -/
abbrev beamRecords : Ident := 682
/-- The name `numberOfBeams` in /repo/opendis. -/
abbrev numberOfBeams : Ident := 683
/-- The name `ResupplyOfferPdu` in /repo/opendis. -/
abbrev ResupplyOfferPdu : Ident := 684
/-- The name `originatingSimulationAddress` in /repo/opendis. -/
abbrev originatingSimulationAddress : Ident := 685
/-- The name `attributeRecordPduType` in /repo/opendis. -/
abbrev attributeRecordPduType : Ident := 686
/-- The name `attributeRecordProtocolVersion` in /repo/opendis. -/
abbrev attributeRecordProtocolVersion : Ident := 687
/-- The name `masterAttributeRecordType` in /repo/opendis. -/
abbrev masterAttributeRecordType : Ident := 688
/-- The name `actionCode` in /repo/opendis. -/
abbrev actionCode : Ident := 689
/-- The name `numberOfAttributeRecordSets` in /repo/opendis. -/
abbrev numberOfAttributeRecordSets : Ident := 690
/-- The name `AttributePdu` in /repo/opendis. -/
abbrev AttributePdu : Ident := 691
/-- The name `MinefieldFamilyPdu` in /repo/opendis. -/
abbrev MinefieldFamilyPdu : Ident := 692
/-- The name `SetDataReliablePdu` in /repo/opendis. -/
abbrev SetDataReliablePdu : Ident := 693
/-- The name `eventType` in /repo/opendis. -/
abbrev eventType : Ident := 694
/-- The name `EventReportPdu` in /repo/opendis. -/
abbrev EventReportPdu : Ident := 695
/-- The name `modifications` in /repo/opendis. -/
abbrev modifications : Ident := 696
/-- The name `objectLocation` in /repo/opendis. -/
abbrev objectLocation : Ident := 697
/-- The name `objectOrientation` in /repo/opendis. -/
abbrev objectOrientation : Ident := 698
/-- The name `objectAppearance` in /repo/opendis. -/
abbrev objectAppearance : Ident := 699
/-- The name `PointObjectStatePdu` in /repo/opendis. -/
abbrev PointObjectStatePdu : Ident := 700
/-- The name `DataPdu` in /repo/opendis. -/
abbrev DataPdu : Ident := 701
/-- The name `entity` in /repo/opendis. -/
abbrev entity : Ident := 702
/-- The name `altEntityKind` in /repo/opendis. -/
abbrev altEntityKind : Ident := 703
/-- The name `altDomain` in /repo/opendis. -/
abbrev altDomain : Ident := 704
/-- The name `altCountry` in /repo/opendis. -/
abbrev altCountry : Ident := 705
/-- The name `altCategory` in /repo/opendis. -/
abbrev altCategory : Ident := 706
/-- The name `altSubcategory` in /repo/opendis. -/
abbrev altSubcategory : Ident := 707
/-- The name `altSpecific` in /repo/opendis. -/
abbrev altSpecific : Ident := 708
/-- The name `altExtra` in /repo/opendis. -/
abbrev altExtra : Ident := 709
/-- The name `xVelocity` in /repo/opendis. -/
abbrev xVelocity : Ident := 710
/-- The name `yVelocity` in /repo/opendis. -/
abbrev yVelocity : Ident := 711
/-- The name `zVelocity` in /repo/opendis. -/
abbrev zVelocity : Ident := 712
/-- The name `xLocation` in /repo/opendis. -/
abbrev xLocation : Ident := 713
/-- The name `yLocation` in /repo/opendis. -/
abbrev yLocation : Ident := 714
/-- The name `zLocation` in /repo/opendis. -/
abbrev zLocation : Ident := 715
/-- The name `otherParameters` in /repo/opendis. -/
abbrev otherParameters : Ident := 716
/-- The name `xAcceleration` in /repo/opendis. -/
abbrev xAcceleration : Ident := 717
/-- The name `yAcceleration` in /repo/opendis. -/
abbrev yAcceleration : Ident := 718
/-- The name `zAcceleration` in /repo/opendis. -/
abbrev zAcceleration : Ident := 719
/-- The name `xAngularVelocity` in /repo/opendis. -/
abbrev xAngularVelocity : Ident := 720
/-- The name `yAngularVelocity` in /repo/opendis. -/
abbrev yAngularVelocity : Ident := 721
/-- The name `zAngularVelocity` in /repo/opendis. -/
abbrev zAngularVelocity : Ident := 722
/-- The name `FastEntityStatePdu` in /repo/opendis. -/
abbrev FastEntityStatePdu : Ident := 723
/-- The name `AcknowledgeReliablePdu` in /repo/opendis. -/
abbrev AcknowledgeReliablePdu : Ident := 724
/-- The name `StartResumeReliablePdu` in /repo/opendis. -/
abbrev StartResumeReliablePdu : Ident := 725
/-- The name `specificObjectAppearance` in /repo/opendis. -/
abbrev specificObjectAppearance : Ident := 726
/-- The name `generalObjectAppearance` in /repo/opendis. -/
abbrev generalObjectAppearance : Ident := 727
/-- The name `ArealObjectStatePdu` in /repo/opendis. -/
abbrev ArealObjectStatePdu : Ident := 728
/-- The name `numberOfPoints` in /repo/opendis. -/
abbrev numberOfPoints : Ident := 729
/-- The name `DataQueryReliablePdu` in /repo/opendis. -/
abbrev DataQueryReliablePdu : Ident := 730
/-- The name `minefieldID` in /repo/opendis. -/
abbrev minefieldID : Ident := 731
/-- The name `minefieldSequence` in /repo/opendis. -/
abbrev minefieldSequence : Ident := 732
/-- The name `minefieldType` in /repo/opendis. -/
abbrev minefieldType : Ident := 733
/-- The name `minefieldLocation` in /repo/opendis. -/
abbrev minefieldLocation : Ident := 734
/-- The name `minefieldOrientation` in /repo/opendis. -/
abbrev minefieldOrientation : Ident := 735
/-- The name `appearance` in /repo/opendis. -/
abbrev appearance : Ident := 736
/-- The name `perimeterPoints` in /repo/opendis. -/
abbrev perimeterPoints : Ident := 737
/-- The name `mineTypes` in /repo/opendis. -/
abbrev mineTypes : Ident := 738
/-- The name `MinefieldStatePdu` in /repo/opendis. -/
abbrev MinefieldStatePdu : Ident := 739
/-- The name `numberOfPerimeterPoints` in /repo/opendis. -/
abbrev numberOfPerimeterPoints : Ident := 740
/-- The name `numberOfMineTypes` in /repo/opendis. -/
abbrev numberOfMineTypes : Ident := 741
/-- The name `DataReliablePdu` in /repo/opendis. -/
abbrev DataReliablePdu : Ident := 742
/-- The name `CommentPdu` in /repo/opendis. -/
abbrev CommentPdu : Ident := 743
/-- The name `CommentReliablePdu` in /repo/opendis. -/
abbrev CommentReliablePdu : Ident := 744
/-- The name `shotStartTime` in /repo/opendis. -/
abbrev shotStartTime : Ident := 745
/-- The name `cumulativeShotTime` in /repo/opendis. -/
abbrev cumulativeShotTime : Ident := 746
/-- The name `apertureEmitterLocation` in /repo/opendis. -/
abbrev apertureEmitterLocation : Ident := 747
/-- The name `apertureDiameter` in /repo/opendis. -/
abbrev apertureDiameter : Ident := 748
/-- The name `wavelength` in /repo/opendis. -/
abbrev wavelength : Ident := 749
/-- The name `flags` in /repo/opendis. -/
abbrev flags : Ident := 750
/-- The name `pulseShape` in /repo/opendis. -/
abbrev pulseShape : Ident := 751
/-- The name `dERecords` in /repo/opendis. -/
abbrev dERecords : Ident := 752
/-- The name `DirectedEnergyFirePdu` in /repo/opendis. -/
abbrev DirectedEnergyFirePdu : Ident := 753
/-- The name `commulativeShotTime` in /repo/opendis. -/
abbrev commulativeShotTime : Ident := 754
/-- The name `numberOfDERecords` in /repo/opendis. -/
abbrev numberOfDERecords : Ident := 755
/-- The name `explodingEntityID` in /repo/opendis. -/
abbrev explodingEntityID : Ident := 756
/-- The name `descriptor` in /repo/opendis. -/
abbrev descriptor : Ident := 757
/-- The name `locationInEntityCoordinates` in /repo/opendis. -/
abbrev locationInEntityCoordinates : Ident := 758
/-- The name `detonationResult` in /repo/opendis. -/
abbrev detonationResult : Ident := 759
/-- The name `DetonationPdu` in /repo/opendis. -/
abbrev DetonationPdu : Ident := 760
/-- The name `SetDataPdu` in /repo/opendis. -/
abbrev SetDataPdu : Ident := 761
/-- The name `time` in /repo/opendis. -/
abbrev time : Ident := 762
/-- The name `RecordQueryReliablePdu` in /repo/opendis. -/
abbrev RecordQueryReliablePdu : Ident := 763
/-- The name `requestStatus` in /repo/opendis. -/
abbrev requestStatus : Ident := 764
/-- The name `ActionResponsePdu` in /repo/opendis. -/
abbrev ActionResponsePdu : Ident := 765
/-- The name `damagedEntityID` in /repo/opendis. -/
abbrev damagedEntityID : Ident := 766
/-- The name `damageDescriptions` in /repo/opendis. -/
abbrev damageDescriptions : Ident := 767
/-- The name `EntityDamageStatusPdu` in /repo/opendis. -/
abbrev EntityDamageStatusPdu : Ident := 768
/-- The name `damageDescriptionCount` in /repo/opendis. -/
abbrev damageDescriptionCount : Ident := 769
/-- The name `munitionExpendableID` in /repo/opendis. -/
abbrev munitionExpendableID : Ident := 770
/-- The name `fireMissionIndex` in /repo/opendis. -/
abbrev fireMissionIndex : Ident := 771
/-- The name `range_` in /repo/opendis. -/
abbrev range_ : Ident := 772
/-- The name `FirePdu` in /repo/opendis. -/
abbrev FirePdu : Ident := 773
/-- The name `receiverState` in /repo/opendis. -/
abbrev receiverState : Ident := 774
/-- The name `receivedPower` in /repo/opendis. -/
abbrev receivedPower : Ident := 775
/-- The name `transmitterEntityID` in /repo/opendis. -/
abbrev transmitterEntityID : Ident := 776
/-- The name `transmitterRadioId` in /repo/opendis. -/
abbrev transmitterRadioId : Ident := 777
/-- The name `ReceiverPdu` in /repo/opendis. -/
abbrev ReceiverPdu : Ident := 778
/-- The name `stateChangeIndicator` in /repo/opendis. -/
abbrev stateChangeIndicator : Ident := 779
/-- The name `passiveParameterIndex` in /repo/opendis. -/
abbrev passiveParameterIndex : Ident := 780
/-- The name `propulsionPlantConfiguration` in /repo/opendis. -/
abbrev propulsionPlantConfiguration : Ident := 781
/-- The name `shaftRPMs` in /repo/opendis. -/
abbrev shaftRPMs : Ident := 782
/-- The name `apaData` in /repo/opendis. -/
abbrev apaData : Ident := 783
/-- The name `emitterSystems` in /repo/opendis. -/
abbrev emitterSystems : Ident := 784
/-- The name `UaPdu` in /repo/opendis. -/
abbrev UaPdu : Ident := 785
/-- The name `numberOfShafts` in /repo/opendis. -/
abbrev numberOfShafts : Ident := 786
/-- The name `numberOfAPAs` in /repo/opendis. -/
abbrev numberOfAPAs : Ident := 787
/-- The name `numberOfUAEmitterSystems` in /repo/opendis. -/
abbrev numberOfUAEmitterSystems : Ident := 788
/-- The name `controlType` in /repo/opendis. -/
abbrev controlType : Ident := 789
/-- The name `communicationsChannelType` in /repo/opendis. -/
abbrev communicationsChannelType : Ident := 790
/-- The name `sourceEntityID` in /repo/opendis. -/
abbrev sourceEntityID : Ident := 791
/-- The name `sourceCommunicationsDeviceID` in /repo/opendis. -/
abbrev sourceCommunicationsDeviceID : Ident := 792
/-- The name `sourceLineID` in /repo/opendis. -/
abbrev sourceLineID : Ident := 793
/-- The name `transmitPriority` in /repo/opendis. -/
abbrev transmitPriority : Ident := 794
/-- The name `transmitLineState` in /repo/opendis. -/
abbrev transmitLineState : Ident := 795
/-- The name `command` in /repo/opendis. -/
abbrev command : Ident := 796
/-- The name `masterEntityID` in /repo/opendis. -/
abbrev masterEntityID : Ident := 797
/-- The name `masterCommunicationsDeviceID` in /repo/opendis. -/
abbrev masterCommunicationsDeviceID : Ident := 798
/-- The name `intercomParameters` in /repo/opendis. -/
abbrev intercomParameters : Ident := 799
/-- The name `IntercomControlPdu` in /repo/opendis. -/
abbrev IntercomControlPdu : Ident := 800
/-- The name `intercomParametersLength` in /repo/opendis. -/
abbrev intercomParametersLength : Ident := 801
/-- The name `radioID` in /repo/opendis. -/
abbrev radioID : Ident := 802
/-- The name `SignalPdu` in /repo/opendis. -/
abbrev SignalPdu : Ident := 803
/-- The name `b` in /repo/opendis. -/
abbrev b : Ident := 804
/-- The name `RemoveEntityReliablePdu` in /repo/opendis. -/
abbrev RemoveEntityReliablePdu : Ident := 805
/-- The name `infraredSignatureRepresentationIndex` in /repo/opendis. -/
abbrev infraredSignatureRepresentationIndex : Ident := 806
/-- The name `acousticSignatureRepresentationIndex` in /repo/opendis. -/
abbrev acousticSignatureRepresentationIndex : Ident := 807
/-- The name `radarCrossSectionSignatureRepresentationIndex` in /repo/opendis. -/
abbrev radarCrossSectionSignatureRepresentationIndex : Ident := 808
/-- The name `propulsionSystemData` in /repo/opendis. -/
abbrev propulsionSystemData : Ident := 809
/-- The name `vectoringSystemData` in /repo/opendis. -/
abbrev vectoringSystemData : Ident := 810
/-- The name `SeesPdu` in /repo/opendis. -/
abbrev SeesPdu : Ident := 811
/-- The name `orginatingEntityID` in /repo/opendis. -/
abbrev orginatingEntityID : Ident := 812
/-- The name `numberOfPropulsionSystems` in /repo/opendis. -/
abbrev numberOfPropulsionSystems : Ident := 813
/-- The name `numberOfVectoringNozzleSystems` in /repo/opendis. -/
abbrev numberOfVectoringNozzleSystems : Ident := 814
/-- The name `CreateEntityReliablePdu` in /repo/opendis. -/
abbrev CreateEntityReliablePdu : Ident := 815
/-- The name `StopFreezeReliablePdu` in /repo/opendis. -/
abbrev StopFreezeReliablePdu : Ident := 816
/-- The name `requiredReliablityService` in /repo/opendis. -/
abbrev requiredReliablityService : Ident := 817
/-- The name `EventReportReliablePdu` in /repo/opendis. -/
abbrev EventReportReliablePdu : Ident := 818
/-- The name `missingPduSequenceNumbers` in /repo/opendis. -/
abbrev missingPduSequenceNumbers : Ident := 819
/-- The name `MinefieldResponseNackPdu` in /repo/opendis. -/
abbrev MinefieldResponseNackPdu : Ident := 820
/-- The name `numberOfMissingPdus` in /repo/opendis. -/
abbrev numberOfMissingPdus : Ident := 821
/-- The name `responseStatus` in /repo/opendis. -/
abbrev responseStatus : Ident := 822
/-- The name `ActionResponseReliablePdu` in /repo/opendis. -/
abbrev ActionResponseReliablePdu : Ident := 823
/-- The name `relationship` in /repo/opendis. -/
abbrev relationship : Ident := 824
/-- The name `partLocation` in /repo/opendis. -/
abbrev partLocation : Ident := 825
/-- The name `namedLocationID` in /repo/opendis. -/
abbrev namedLocationID : Ident := 826
/-- The name `partEntityType` in /repo/opendis. -/
abbrev partEntityType : Ident := 827
/-- The name `IsPartOfPdu` in /repo/opendis. -/
abbrev IsPartOfPdu : Ident := 828
/-- The name `aggregateState` in /repo/opendis. -/
abbrev aggregateState : Ident := 829
/-- The name `formation` in /repo/opendis. -/
abbrev formation : Ident := 830
/-- The name `aggregateMarking` in /repo/opendis. -/
abbrev aggregateMarking : Ident := 831
/-- The name `dimensions` in /repo/opendis. -/
abbrev dimensions : Ident := 832
/-- The name `orientation` in /repo/opendis. -/
abbrev orientation : Ident := 833
/-- The name `centerOfMass` in /repo/opendis. -/
abbrev centerOfMass : Ident := 834
/-- The name `aggregateIDs` in /repo/opendis. -/
abbrev aggregateIDs : Ident := 835
/-- The name `entityIDs` in /repo/opendis. -/
abbrev entityIDs : Ident := 836
/-- The name `silentAggregateSystems` in /repo/opendis. -/
abbrev silentAggregateSystems : Ident := 837
/-- The name `silentEntitySystems` in /repo/opendis. -/
abbrev silentEntitySystems : Ident := 838
/-- The name `AggregateStatePdu` in /repo/opendis. -/
abbrev AggregateStatePdu : Ident := 839
/-- The name `numberOfAggregateIDs` in /repo/opendis. -/
abbrev numberOfAggregateIDs : Ident := 840
/-- The name `numberOfEntityIDs` in /repo/opendis. -/
abbrev numberOfEntityIDs : Ident := 841
/-- The name `numberOfSilentAggregateSystems` in /repo/opendis. -/
abbrev numberOfSilentAggregateSystems : Ident := 842
/-- The name `numberOfSilentEntitySystems` in /repo/opendis. -/
abbrev numberOfSilentEntitySystems : Ident := 843
/-- The name `silentAggregateSystem` in /repo/opendis. -/
abbrev silentAggregateSystem : Ident := 844
/-- The name `silentEntitySystem` in /repo/opendis. -/
abbrev silentEntitySystem : Ident := 845
/-- The name `variableDatumRecord` in /repo/opendis. -/
abbrev variableDatumRecord : Ident := 846
/-- The name `expectedType` in /repo/opendis. -/
abbrev expectedType : Ident := 847
/-- The name `base` in /repo/opendis. -/
abbrev base : Ident := 848
/-- The name `vrClass` in /repo/opendis. -/
abbrev vrClass : Ident := 849
/-- The name `svClass` in /repo/opendis. -/
abbrev svClass : Ident := 850
/-- The name `getStandardVariableClass` in /repo/opendis. -/
abbrev getStandardVariableClass : Ident := 851
/-- The name `sv_instance` in /repo/opendis. -/
abbrev sv_instance : Ident := 852
/-- The name `__module__` in /repo/opendis. -/
abbrev __module__ : Ident := 853

end I

end Dis.Src
