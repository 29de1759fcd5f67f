[
 {
  "id": "V1",
  "definition": "__init__",
  "claim": "constructors do what their text says (C77)",
  "expect": [
   "C77"
  ],
  "edits": [
   {
    "file": "Verif/Source/Dis3.lean",
    "within": "PduSuperclass.__init__",
    "old": "    .assign (.attr (.name I.self) I.length) (.name I.pduLength)]",
    "new": "    .assign (.attr (.name I.self) I.length) (.int 0)]",
    "descr": ".assign (.attr (.name I.self) I.length) (.name I.pduLength)] -> .assign (.attr (.name I.self) I.length) (.int 0)]"
   }
  ]
 },
 {
  "id": "V2",
  "definition": "__init__",
  "claim": "constructors do what their text says (C77)",
  "expect": [
   "C77"
  ],
  "edits": [
   {
    "file": "Verif/Source/Dis3.lean",
    "within": "LiveEntityPdu.__init__",
    "old": "    .assign (.attr (.name I.self) I.subprotocolNumber) (.name I.subprotocolNumber),",
    "new": "    .assign (.attr (.name I.self) I.subprotocolNumber) (.int 0),",
    "descr": ".assign (.attr (.name I.self) I.subprotocolNumber) (.name I.subprotocolNumber), -> .assign (.attr (.name I.self) I.subprotocolNumber) (.int 0),"
   },
   {
    "file": "Verif/Source/Dis3.lean",
    "within": "SimulationManagementFamilyPdu.__init__",
    "old": "    .assign (.attr (.name I.self) I.receivingEntityID) (.or (.name I.receivingEntityID) (.call I.EntityIdentifier [] []))]",
    "new": "    .assign (.attr (.name I.self) I.receivingEntityID) (.call I.EntityIdentifier [] [])]",
    "descr": ".assign (.attr (.name I.self) I.receivingEntityID) (.or (.name I.receivingEntityID) (.call I.EntityIdentifier  -> .assign (.attr (.name I.self) I.receivingEntityID) (.call I.EntityIdentifier [] [])]"
   },
   {
    "file": "Verif/Source/Dis3.lean",
    "within": "WarfareFamilyPdu.__init__",
    "old": "    .assign (.attr (.name I.self) I.firingEntityID) (.or (.name I.firingEntityID) (.call I.EntityIdentifier [] [])),",
    "new": "    .assign (.attr (.name I.self) I.firingEntityID) (.call I.EntityIdentifier [] []),",
    "descr": ".assign (.attr (.name I.self) I.firingEntityID) (.or (.name I.firingEntityID) (.call I.EntityIdentifier [] []) -> .assign (.attr (.name I.self) I.firingEntityID) (.call I.EntityIdentifier [] []),"
   },
   {
    "file": "Verif/Source/Dis3.lean",
    "within": "SimulationManagementWithReliabilityFamilyPdu.__init__",
    "old": "    .assign (.attr (.name I.self) I.originatingEntityID) (.or (.name I.originatingEntityID) (.call I.EntityIdentifier [] [])),",
    "new": "    .assign (.attr (.name I.self) I.originatingEntityID) (.call I.EntityIdentifier [] []),",
    "descr": ".assign (.attr (.name I.self) I.originatingEntityID) (.or (.name I.originatingEntityID) (.call I.EntityIdentif -> .assign (.attr (.name I.self) I.originatingEntityID) (.call I.EntityIdentifier [] []),"
   }
  ]
 },
 {
  "id": "V3",
  "definition": "__init__",
  "claim": "constructors do what their text says (C77)",
  "expect": [
   "C77"
  ],
  "edits": [
   {
    "file": "Verif/Source/Dis3.lean",
    "within": "LinearObjectStatePdu.__init__",
    "old": "    .assign (.attr (.name I.self) I.updateNumber) (.name I.updateNumber),",
    "new": "    .assign (.attr (.name I.self) I.updateNumber) (.name I.receivingID),",
    "descr": ".assign (.attr (.name I.self) I.updateNumber) (.name I.updateNumber), -> .assign (.attr (.name I.self) I.updateNumber) (.name I.receivingID),"
   },
   {
    "file": "Verif/Source/Dis4.lean",
    "within": "AttributePdu.__init__",
    "old": "    .assign (.attr (.name I.self) I.actionCode) (.name I.actionCode),",
    "new": "    .assign (.attr (.name I.self) I.actionCode) (.name I.attributeRecordProtocolVersion),",
    "descr": ".assign (.attr (.name I.self) I.actionCode) (.name I.actionCode), -> .assign (.attr (.name I.self) I.actionCode) (.name I.attributeRecordProtocolVersion),"
   },
   {
    "file": "Verif/Source/Records.lean",
    "within": "UnknownStandardVariableRecord.__init__",
    "old": "   [.assign (.attr (.name I.self) I.data) (.name I.data)]",
    "new": "   [.assign (.attr (.name I.self) I.data) (.int 0)]",
    "descr": "[.assign (.attr (.name I.self) I.data) (.name I.data)] -> [.assign (.attr (.name I.self) I.data) (.int 0)]"
   },
   {
    "file": "Verif/Source/Records.lean",
    "within": "HighFidelityHAVEQUICKRadio.__init__",
    "old": "    .assign (.attr (.name I.self) I.wod4) (.name I.wod4),",
    "new": "    .assign (.attr (.name I.self) I.wod4) (.name I.wod2),",
    "descr": ".assign (.attr (.name I.self) I.wod4) (.name I.wod4), -> .assign (.attr (.name I.self) I.wod4) (.name I.wod2),"
   }
  ]
 },
 {
  "id": "X1",
  "definition": "special records, radio and directed energy",
  "claim": "the classes do what their text says (C77)",
  "expect": [
   "C77"
  ],
  "edits": [
   {
    "file": "Verif/Source/Dis3.lean",
    "within": "TransmitterPdu.serialize",
    "old": "    .expr (.method (.name I.outputStream) I.write_uint16 [.attr (.name I.self) I.cryptoSystem] []),",
    "new": "    .expr (.method (.name I.outputStream) I.write_uint32 [.attr (.name I.self) I.cryptoSystem] []),",
    "descr": "I.write_uint16 -> I.write_uint32 in: .expr (.method (.name I.outputStream) I.write_uint16 [.attr (.name I.self) I.cryptoSystem] []),"
   },
   {
    "file": "Verif/Source/Dis3.lean",
    "within": "TransmitterPdu.parse",
    "old": "    .assign (.attr (.name I.self) I.cryptoKeyId) (.method (.name I.inputStream) I.read_uint16 [] []),\n    .assign (.name I.modulationParametersLength) (.method (.name I.inputStream) I.read_uint8 [] []),\n",
    "new": "    .assign (.name I.modulationParametersLength) (.method (.name I.inputStream) I.read_uint8 [] []),\n    .assign (.attr (.name I.self) I.cryptoKeyId) (.method (.name I.inputStream) I.read_uint16 [] []),\n",
    "descr": "swapped: .assign (.attr (.name I.self) I.cryptoKeyId) (.method (.name I.inputStream) I.read_uint16 [] []), / .assign (.name I.modulationParametersLength) (.method (.name I.inputStream) I.read_uint8 [] []),"
   },
   {
    "file": "Verif/Source/Dis4.lean",
    "within": "DirectedEnergyFirePdu.serialize",
    "old": "    .expr (.method (.name I.outputStream) I.write_uint32 [.attr (.name I.self) I.padding3] []),",
    "new": "    .expr (.method (.name I.outputStream) I.write_uint16 [.attr (.name I.self) I.padding3] []),",
    "descr": "I.write_uint32 -> I.write_uint16 in: .expr (.method (.name I.outputStream) I.write_uint32 [.attr (.name I.self) I.padding3] []),"
   },
   {
    "file": "Verif/Source/Dis4.lean",
    "within": "DirectedEnergyFirePdu.parse",
    "old": "    .assign (.attr (.name I.self) I.apertureDiameter) (.method (.name I.inputStream) I.read_float32 [] []),",
    "new": "    .assign (.attr (.name I.self) I.apertureDiameter) (.method (.name I.inputStream) I.read_float64 [] []),",
    "descr": "I.read_float32 -> I.read_float64 in: .assign (.attr (.name I.self) I.apertureDiameter) (.method (.name I.inputStream) I.read_float32 [] []),"
   },
   {
    "file": "Verif/Source/Dis4.lean",
    "within": "EntityDamageStatusPdu.serialize",
    "old": "    .expr (.method (.name I.outputStream) I.write_uint16 [.attr (.name I.self) I.damageDescriptionCount] []),",
    "new": "    .expr (.method (.name I.outputStream) I.write_uint32 [.attr (.name I.self) I.damageDescriptionCount] []),",
    "descr": "I.write_uint16 -> I.write_uint32 in: .expr (.method (.name I.outputStream) I.write_uint16 [.attr (.name I.self) I.damageDescriptionCount] []),"
   },
   {
    "file": "Verif/Source/Dis4.lean",
    "within": "EntityDamageStatusPdu.parse",
    "old": "    .assign (.name I.damageDescriptionCount) (.method (.name I.inputStream) I.read_uint16 [] []),\n",
    "new": "",
    "descr": "dropped: .assign (.name I.damageDescriptionCount) (.method (.name I.inputStream) I.read_uint16 [] []),"
   },
   {
    "file": "Verif/Source/Dis4.lean",
    "within": "IntercomControlPdu.serialize",
    "old": "    .expr (.method (.name I.outputStream) I.write_unsigned_byte [.attr (.name I.self) I.controlType] []),\n    .expr (.method (.name I.outputStream) I.write_unsigned_byte [.attr (.name I.self) I.communicationsChannelType] []),\n",
    "new": "    .expr (.method (.name I.outputStream) I.write_unsigned_byte [.attr (.name I.self) I.communicationsChannelType] []),\n    .expr (.method (.name I.outputStream) I.write_unsigned_byte [.attr (.name I.self) I.controlType] []),\n",
    "descr": "swapped: .expr (.method (.name I.outputStream) I.write_unsigned_byte [.attr (.name I.self) I.controlType] []), / .expr (.method (.name I.outputStream) I.write_unsigned_byte [.attr (.name I.self) I.communicationsChannelType] []),"
   },
   {
    "file": "Verif/Source/Dis4.lean",
    "within": "IntercomControlPdu.parse",
    "old": "    .assign (.attr (.name I.self) I.controlType) (.method (.name I.inputStream) I.read_unsigned_byte [] []),\n    .assign (.attr (.name I.self) I.communicationsChannelType) (.method (.name I.inputStream) I.read_unsigned_byte [] []),\n",
    "new": "    .assign (.attr (.name I.self) I.communicationsChannelType) (.method (.name I.inputStream) I.read_unsigned_byte [] []),\n    .assign (.attr (.name I.self) I.controlType) (.method (.name I.inputStream) I.read_unsigned_byte [] []),\n",
    "descr": "swapped: .assign (.attr (.name I.self) I.controlType) (.method (.name I.inputStream) I.read_unsigned_byte [] []), / .assign (.attr (.name I.self) I.communicationsChannelType) (.method (.name I.inputStream) I.read_unsigned_byte [] []),"
   },
   {
    "file": "Verif/Source/Records.lean",
    "within": "StandardVariableRecord.serialize",
    "old": "    .expr (.method (.name I.outputStream) I.write_uint32 [.attr (.name I.self) I.recordType] []),\n",
    "new": "",
    "descr": "dropped: .expr (.method (.name I.outputStream) I.write_uint32 [.attr (.name I.self) I.recordType] []),"
   },
   {
    "file": "Verif/Source/Records.lean",
    "within": "StandardVariableRecord.parse",
    "old": "    .ite (.not (.cmp .eq (.bin .mod (.name I.bytelength) (.int 8)) (.int 0)))",
    "new": "    .ite (.not (.cmp .eq (.bin .mod (.name I.bytelength) (.int 8)) (.int 1)))",
    "descr": ".int 0 -> .int 1 in: .ite (.not (.cmp .eq (.bin .mod (.name I.bytelength) (.int 8)) (.int 0)))"
   },
   {
    "file": "Verif/Source/Records.lean",
    "within": "BeamAntennaPattern.serialize",
    "old": "    .expr (.method (.name I.outputStream) I.write_float32 [.attr (.name I.self) I.ex] []),",
    "new": "    .expr (.method (.name I.outputStream) I.write_float64 [.attr (.name I.self) I.ex] []),",
    "descr": "I.write_float32 -> I.write_float64 in: .expr (.method (.name I.outputStream) I.write_float32 [.attr (.name I.self) I.ex] []),"
   },
   {
    "file": "Verif/Source/Records.lean",
    "within": "BeamAntennaPattern.parse",
    "old": "    .assign (.attr (.name I.self) I.ex) (.method (.name I.inputStream) I.read_float32 [] []),\n",
    "new": "",
    "descr": "dropped: .assign (.attr (.name I.self) I.ex) (.method (.name I.inputStream) I.read_float32 [] []),"
   },
   {
    "file": "Verif/Source/Records.lean",
    "within": "ModulationType.serialize",
    "old": "    .expr (.method (.name I.outputStream) I.write_uint16 [.attr (.name I.self) I.detail] []),\n",
    "new": "",
    "descr": "dropped: .expr (.method (.name I.outputStream) I.write_uint16 [.attr (.name I.self) I.detail] []),"
   },
   {
    "file": "Verif/Source/Records.lean",
    "within": "ModulationType.parse",
    "old": "    .assign (.attr (.name I.self) I.radioSystem) (.method (.name I.inputStream) I.read_uint16 [] [])]",
    "new": "    .assign (.attr (.name I.self) I.radioSystem) (.method (.name I.inputStream) I.read_uint32 [] [])]",
    "descr": "I.read_uint16 -> I.read_uint32 in: .assign (.attr (.name I.self) I.radioSystem) (.method (.name I.inputStream) I.read_uint16 [] [])]"
   },
   {
    "file": "Verif/Source/Records.lean",
    "within": "NetId.parse",
    "old": "    .assign (.attr (.name I.self) I.netNumber) (.attr (.name I.record_bitfield) I.netNumber),\n",
    "new": "",
    "descr": "dropped: .assign (.attr (.name I.self) I.netNumber) (.attr (.name I.record_bitfield) I.netNumber),"
   },
   {
    "file": "Verif/Source/Records.lean",
    "within": "BasicHaveQuickMP.serialize",
    "old": "    .expr (.method (.name I.outputStream) I.write_uint8 [.attr (.name I.self) I.reserved8_1] []),",
    "new": "    .expr (.method (.name I.outputStream) I.write_uint16 [.attr (.name I.self) I.reserved8_1] []),",
    "descr": "I.write_uint8 -> I.write_uint16 in: .expr (.method (.name I.outputStream) I.write_uint8 [.attr (.name I.self) I.reserved8_1] []),"
   },
   {
    "file": "Verif/Source/Records.lean",
    "within": "BasicHaveQuickMP.parse",
    "old": "    .assign (.attr (.name I.self) I.time_of_day) (.method (.name I.inputStream) I.read_uint32 [] []),",
    "new": "    .assign (.attr (.name I.self) I.time_of_day) (.method (.name I.inputStream) I.read_uint16 [] []),",
    "descr": "I.read_uint32 -> I.read_uint16 in: .assign (.attr (.name I.self) I.time_of_day) (.method (.name I.inputStream) I.read_uint32 [] []),"
   },
   {
    "file": "Verif/Source/Records.lean",
    "within": "CCTTSincgarsMP.serialize",
    "old": "    .expr (.method (.name I.outputStream) I.write_uint16 [.attr (.name I.self) I.transmission_security_key] []),\n",
    "new": "",
    "descr": "dropped: .expr (.method (.name I.outputStream) I.write_uint16 [.attr (.name I.self) I.transmission_security_key] []),"
   },
   {
    "file": "Verif/Source/Records.lean",
    "within": "CCTTSincgarsMP.parse",
    "old": "    .assign (.attr (.name I.self) I.start_of_message) (.method (.name I.inputStream) I.read_uint8 [] []),\n",
    "new": "",
    "descr": "dropped: .assign (.attr (.name I.self) I.start_of_message) (.method (.name I.inputStream) I.read_uint8 [] []),"
   },
   {
    "file": "Verif/Source/Records.lean",
    "within": "HighFidelityHAVEQUICKRadio.serialize",
    "old": "    .expr (.method (.name I.outputStream) I.write_uint16 [.attr (.name I.self) I.padding1] []),\n",
    "new": "",
    "descr": "dropped: .expr (.method (.name I.outputStream) I.write_uint16 [.attr (.name I.self) I.padding1] []),"
   },
   {
    "file": "Verif/Source/Records.lean",
    "within": "HighFidelityHAVEQUICKRadio.parse",
    "old": "    .assign (.attr (.name I.self) I.padding2) (.method (.name I.inputStream) I.read_uint8 [] []),",
    "new": "    .assign (.attr (.name I.self) I.padding2) (.method (.name I.inputStream) I.read_uint16 [] []),",
    "descr": "I.read_uint8 -> I.read_uint16 in: .assign (.attr (.name I.self) I.padding2) (.method (.name I.inputStream) I.read_uint8 [] []),"
   },
   {
    "file": "Verif/Source/Records.lean",
    "within": "DirectedEnergyDamage.serialize",
    "old": "    .expr (.method (.name I.outputStream) I.write_uint16 [.attr (.name I.self) I.padding] []),",
    "new": "    .expr (.method (.name I.outputStream) I.write_uint32 [.attr (.name I.self) I.padding] []),",
    "descr": "I.write_uint16 -> I.write_uint32 in: .expr (.method (.name I.outputStream) I.write_uint16 [.attr (.name I.self) I.padding] []),"
   },
   {
    "file": "Verif/Source/Records.lean",
    "within": "DirectedEnergyDamage.parse",
    "old": "    .expr (.method (.attr (.name I.self) I.damageLocation) I.parse [.name I.inputStream] []),\n",
    "new": "",
    "descr": "dropped: .expr (.method (.attr (.name I.self) I.damageLocation) I.parse [.name I.inputStream] []),"
   },
   {
    "file": "Verif/Source/Records.lean",
    "within": "DirectedEnergyAreaAimpoint.serialize",
    "old": "    .expr (.method (.name I.outputStream) I.write_uint16 [.attr (.name I.self) I.beamAntennaPatternCount] []),\n",
    "new": "",
    "descr": "dropped: .expr (.method (.name I.outputStream) I.write_uint16 [.attr (.name I.self) I.beamAntennaPatternCount] []),"
   },
   {
    "file": "Verif/Source/Records.lean",
    "within": "DirectedEnergyAreaAimpoint.parse",
    "old": "    .for I.\u00ab_\u00bb (.call I.range [.int 0, .name I.beamAntennaPatternCount] [])",
    "new": "    .for I.\u00ab_\u00bb (.call I.range [.int 1, .name I.beamAntennaPatternCount] [])",
    "descr": ".int 0 -> .int 1 in: .for I.\u00ab_\u00bb (.call I.range [.int 0, .name I.beamAntennaPatternCount] [])"
   },
   {
    "file": "Verif/Source/Records.lean",
    "within": "DirectedEnergyPrecisionAimpoint.serialize",
    "old": "    .expr (.method (.name I.outputStream) I.write_uint16 [.attr (.name I.self) I.padding] []),\n",
    "new": "",
    "descr": "dropped: .expr (.method (.name I.outputStream) I.write_uint16 [.attr (.name I.self) I.padding] []),"
   },
   {
    "file": "Verif/Source/Records.lean",
    "within": "DirectedEnergyPrecisionAimpoint.parse",
    "old": "    .assign (.attr (.name I.self) I.padding2) (.method (.name I.inputStream) I.read_uint32 [] [])]",
    "new": "    .assign (.attr (.name I.self) I.padding2) (.method (.name I.inputStream) I.read_uint16 [] [])]",
    "descr": "I.read_uint32 -> I.read_uint16 in: .assign (.attr (.name I.self) I.padding2) (.method (.name I.inputStream) I.read_uint32 [] [])]"
   },
   {
    "file": "Verif/Source/Records.lean",
    "within": "DirectedEnergyTargetEnergyDeposition.serialize",
    "old": "    .expr (.method (.name I.outputStream) I.write_uint16 [.attr (.name I.self) I.padding] []),",
    "new": "    .expr (.method (.name I.outputStream) I.write_uint32 [.attr (.name I.self) I.padding] []),",
    "descr": "I.write_uint16 -> I.write_uint32 in: .expr (.method (.name I.outputStream) I.write_uint16 [.attr (.name I.self) I.padding] []),"
   },
   {
    "file": "Verif/Source/Records.lean",
    "within": "DirectedEnergyTargetEnergyDeposition.parse",
    "old": "    .assign (.attr (.name I.self) I.peakIrradiance) (.method (.name I.inputStream) I.read_float32 [] [])]",
    "new": "    .assign (.attr (.name I.self) I.peakIrradiance) (.method (.name I.inputStream) I.read_float64 [] [])]",
    "descr": "I.read_float32 -> I.read_float64 in: .assign (.attr (.name I.self) I.peakIrradiance) (.method (.name I.inputStream) I.read_float32 [] [])]"
   }
  ]
 },
 {
  "id": "Y1",
  "definition": "Verif/Source/Calc.lean",
  "claim": "the numerical module does what its text says (C78)",
  "expect": [
   "C78"
  ],
  "edits": [
   {
    "file": "Verif/Source/Calc.lean",
    "within": "rangeCoordinates.GPS.lla2utm",
    "old": "    .assign (.name N.k0) (.dec 9996 (-4)),\n    .assign (.name N.eSquared) (.bin .pow (.attr (.attr (.name N.self) N.wgs84) N.e) (.int 2)),\n",
    "new": "    .assign (.name N.eSquared) (.bin .pow (.attr (.attr (.name N.self) N.wgs84) N.e) (.int 2)),\n    .assign (.name N.k0) (.dec 9996 (-4)),\n",
    "descr": "swapped: .assign (.name N.k0) (.dec 9996 (-4)), / .assign (.name N.eSquared) (.bin .pow (.attr (.attr (.name N.self) N.wgs84) N.e) (.int 2)),"
   },
   {
    "file": "Verif/Source/Calc.lean",
    "within": "deadReckoning.get_rotation_matrix",
    "old": "    .assign (.name N.r12) (.bin .sub (.bin .mul (.bin .mul (.name N.c_psi) (.name N.s_theta)) (.name N.s_phi)) (.bin .mul (.name N.s_psi) (.name N.c_phi))),",
    "new": "    .assign (.name N.r12) (.bin .sub (.bin .div (.bin .mul (.name N.c_psi) (.name N.s_theta)) (.name N.s_phi)) (.bin .mul (.name N.s_psi) (.name N.c_phi))),",
    "descr": ".bin .mul -> .bin .div in: .assign (.name N.r12) (.bin .sub (.bin .mul (.bin .mul (.name N.c_psi) (.name N.s_theta)) (.name N.s_phi)) (.bin .mul (."
   },
   {
    "file": "Verif/Source/Calc.lean",
    "within": "deadReckoning.get_angular_velocity_matrix",
    "old": "    .ret (.method (.name N.np) N.array [.list [.list [.int 0, .neg (.name N.wz), .name N.wy], .list [.name N.wz, .int 0, .neg (.name N.wx)], .list [.neg (.name N.wy), .name N.wx, .int 0]]] [])]",
    "new": "    .ret (.method (.name N.np) N.array [.list [.list [.int 0, (.name N.wz), .name N.wy], .list [.name N.wz, .int 0, .neg (.name N.wx)], .list [.neg (.name N.wy), .name N.wx, .int 0]]] [])]",
    "descr": ".neg ->  in: .ret (.method (.name N.np) N.array [.list [.list [.int 0, .neg (.name N.wz), .name N.wy], .list [.name N.wz, .int 0, .ne"
   },
   {
    "file": "Verif/Source/Calc.lean",
    "within": "deadReckoning.drm_fpw",
    "old": "    .assign (.name N.new_position) (.bin .add (.name N.pos) (.bin .mul (.name N.vel) (.name N.dt))),",
    "new": "    .assign (.name N.new_position) (.bin .add (.name N.pos) (.bin .div (.name N.vel) (.name N.dt))),",
    "descr": ".bin .mul -> .bin .div in: .assign (.name N.new_position) (.bin .add (.name N.pos) (.bin .mul (.name N.vel) (.name N.dt))),"
   },
   {
    "file": "Verif/Source/Calc.lean",
    "within": "deadReckoning.drm_rpw",
    "old": "    .assign (.name N.ori) (.call N._to_numpy [.name N.orientation] []),\n",
    "new": "",
    "descr": "dropped: .assign (.name N.ori) (.call N._to_numpy [.name N.orientation] []),"
   },
   {
    "file": "Verif/Source/Calc.lean",
    "within": "deadReckoning.drm_rvw",
    "old": "    .assign (.name N.new_position) (.bin .add (.bin .add (.name N.pos) (.bin .mul (.name N.vel) (.name N.dt))) (.bin .mul (.bin .mul (.dec 5 (-1)) (.name N.acc)) (.bin .pow (.name N.dt) (.int 2)))),",
    "new": "    .assign (.name N.new_position) (.bin .add (.bin .add (.name N.pos) (.bin .mul (.name N.vel) (.name N.dt))) (.bin .div (.bin .mul (.dec 5 (-1)) (.name N.acc)) (.bin .pow (.name N.dt) (.int 2)))),",
    "descr": ".bin .mul -> .bin .div in: .assign (.name N.new_position) (.bin .add (.bin .add (.name N.pos) (.bin .mul (.name N.vel) (.name N.dt))) (.bin .mul (."
   },
   {
    "file": "Verif/Source/Calc.lean",
    "within": "deadReckoning.drm_fvw",
    "old": "    .assign (.name N.new_position) (.bin .add (.bin .add (.name N.pos) (.bin .mul (.name N.vel) (.name N.dt))) (.bin .mul (.bin .mul (.dec 5 (-1)) (.name N.acc)) (.bin .pow (.name N.dt) (.int 2)))),",
    "new": "    .assign (.name N.new_position) (.bin .add (.bin .add (.name N.pos) (.bin .div (.name N.vel) (.name N.dt))) (.bin .mul (.bin .mul (.dec 5 (-1)) (.name N.acc)) (.bin .pow (.name N.dt) (.int 2)))),",
    "descr": ".bin .mul -> .bin .div in: .assign (.name N.new_position) (.bin .add (.bin .add (.name N.pos) (.bin .mul (.name N.vel) (.name N.dt))) (.bin .mul (."
   },
   {
    "file": "Verif/Source/Calc.lean",
    "within": "deadReckoning.drm_fpb",
    "old": "    .assign (.name N.new_position) (.bin .add (.name N.pos) (.bin .mul (.name N.velocity_world) (.name N.dt))),",
    "new": "    .assign (.name N.new_position) (.bin .add (.name N.pos) (.bin .div (.name N.velocity_world) (.name N.dt))),",
    "descr": ".bin .mul -> .bin .div in: .assign (.name N.new_position) (.bin .add (.name N.pos) (.bin .mul (.name N.velocity_world) (.name N.dt))),"
   },
   {
    "file": "Verif/Source/Calc.lean",
    "within": "deadReckoning.drm_rpb",
    "old": "    .assign (.name N.ori) (.call N._to_numpy [.name N.orientation] []),\n",
    "new": "",
    "descr": "dropped: .assign (.name N.ori) (.call N._to_numpy [.name N.orientation] []),"
   },
   {
    "file": "Verif/Source/Calc.lean",
    "within": "deadReckoning.drm_rvb",
    "old": "    .assign (.name N.R_wb) (.call N.get_rotation_matrix [.star (.name N.ori)] []),\n    .assign (.name N.displacement_body) (.bin .add (.bin .mul (.name N.vel) (.name N.dt)) (.bin .mul (.bin .mul (.dec 5 (-1)) (.name N.acc)) (.bin .pow (.name N.dt) (.int 2)))),\n",
    "new": "    .assign (.name N.displacement_body) (.bin .add (.bin .mul (.name N.vel) (.name N.dt)) (.bin .mul (.bin .mul (.dec 5 (-1)) (.name N.acc)) (.bin .pow (.name N.dt) (.int 2)))),\n    .assign (.name N.R_wb) (.call N.get_rotation_matrix [.star (.name N.ori)] []),\n",
    "descr": "swapped: .assign (.name N.R_wb) (.call N.get_rotation_matrix [.star (.name N.ori)] []), / .assign (.name N.displacement_body) (.bin .add (.bin .mul (.name N.vel) (.name N.dt)) (.bin .mul (.bin .mul (.dec 5 (-1)) (.name N.acc)) (.bin .pow (.name N.dt) (.int 2)))),"
   },
   {
    "file": "Verif/Source/Calc.lean",
    "within": "deadReckoning.drm_fvb",
    "old": "    .assign (.name N.displacement_body) (.bin .add (.bin .mul (.name N.vel) (.name N.dt)) (.bin .mul (.bin .mul (.dec 5 (-1)) (.name N.acc)) (.bin .pow (.name N.dt) (.int 2)))),",
    "new": "    .assign (.name N.displacement_body) (.bin .add (.bin .div (.name N.vel) (.name N.dt)) (.bin .mul (.bin .mul (.dec 5 (-1)) (.name N.acc)) (.bin .pow (.name N.dt) (.int 2)))),",
    "descr": ".bin .mul -> .bin .div in: .assign (.name N.displacement_body) (.bin .add (.bin .mul (.name N.vel) (.name N.dt)) (.bin .mul (.bin .mul (.dec 5 (-1)"
   }
  ]
 },
 {
  "id": "Y2",
  "definition": "Verif/Source/Calc.lean",
  "claim": "the numerical module does what its text says (C78)",
  "expect": [
   "C78"
  ],
  "edits": [
   {
    "file": "Verif/Source/Calc.lean",
    "within": "rangeCoordinates.GPS.lla2utm",
    "old": "    .assign (.name N.alt) (.index (.name N.lla) (.int 2)),",
    "new": "    .assign (.name N.alt) (.index (.name N.lla) (.int 3)),",
    "descr": "(.int 2) -> (.int 3) in: .assign (.name N.alt) (.index (.name N.lla) (.int 2)),"
   },
   {
    "file": "Verif/Source/Calc.lean",
    "within": "deadReckoning.get_rotation_matrix",
    "old": "    .assign (.name N.r23) (.bin .sub (.bin .mul (.bin .mul (.name N.s_psi) (.name N.s_theta)) (.name N.c_phi)) (.bin .mul (.name N.c_psi) (.name N.s_phi))),",
    "new": "    .assign (.name N.r23) (.bin .sub (.bin .div (.bin .mul (.name N.s_psi) (.name N.s_theta)) (.name N.c_phi)) (.bin .mul (.name N.c_psi) (.name N.s_phi))),",
    "descr": ".bin .mul -> .bin .div in: .assign (.name N.r23) (.bin .sub (.bin .mul (.bin .mul (.name N.s_psi) (.name N.s_theta)) (.name N.c_phi)) (.bin .mul (."
   },
   {
    "file": "Verif/Source/Calc.lean",
    "within": "deadReckoning.get_angular_velocity_matrix",
    "old": "    .ret (.method (.name N.np) N.array [.list [.list [.int 0, .neg (.name N.wz), .name N.wy], .list [.name N.wz, .int 0, .neg (.name N.wx)], .list [.neg (.name N.wy), .name N.wx, .int 0]]] [])]",
    "new": "    .ret (.method (.name N.np) N.array [.list [.list [.int 0, (.name N.wz), .name N.wy], .list [.name N.wz, .int 0, .neg (.name N.wx)], .list [.neg (.name N.wy), .name N.wx, .int 0]]] [])]",
    "descr": ".neg ->  in: .ret (.method (.name N.np) N.array [.list [.list [.int 0, .neg (.name N.wz), .name N.wy], .list [.name N.wz, .int 0, .ne"
   },
   {
    "file": "Verif/Source/Calc.lean",
    "within": "deadReckoning.drm_fpw",
    "old": "    .assign (.name N.new_position) (.bin .add (.name N.pos) (.bin .mul (.name N.vel) (.name N.dt))),\n",
    "new": "",
    "descr": "dropped: .assign (.name N.new_position) (.bin .add (.name N.pos) (.bin .mul (.name N.vel) (.name N.dt))),"
   },
   {
    "file": "Verif/Source/Calc.lean",
    "within": "deadReckoning.drm_rpw",
    "old": "    .assign (.name N.new_position) (.bin .add (.name N.pos) (.bin .mul (.name N.vel) (.name N.dt))),\n",
    "new": "",
    "descr": "dropped: .assign (.name N.new_position) (.bin .add (.name N.pos) (.bin .mul (.name N.vel) (.name N.dt))),"
   },
   {
    "file": "Verif/Source/Calc.lean",
    "within": "deadReckoning.drm_rvw",
    "old": "    .assign (.name N.new_position) (.bin .add (.bin .add (.name N.pos) (.bin .mul (.name N.vel) (.name N.dt))) (.bin .mul (.bin .mul (.dec 5 (-1)) (.name N.acc)) (.bin .pow (.name N.dt) (.int 2)))),",
    "new": "    .assign (.name N.new_position) (.bin .add (.bin .add (.name N.pos) (.bin .mul (.name N.vel) (.name N.dt))) (.bin .div (.bin .mul (.dec 5 (-1)) (.name N.acc)) (.bin .pow (.name N.dt) (.int 2)))),",
    "descr": ".bin .mul -> .bin .div in: .assign (.name N.new_position) (.bin .add (.bin .add (.name N.pos) (.bin .mul (.name N.vel) (.name N.dt))) (.bin .mul (."
   },
   {
    "file": "Verif/Source/Calc.lean",
    "within": "deadReckoning.drm_fvw",
    "old": "    .assign (.name N.new_position) (.bin .add (.bin .add (.name N.pos) (.bin .mul (.name N.vel) (.name N.dt))) (.bin .mul (.bin .mul (.dec 5 (-1)) (.name N.acc)) (.bin .pow (.name N.dt) (.int 2)))),\n",
    "new": "",
    "descr": "dropped: .assign (.name N.new_position) (.bin .add (.bin .add (.name N.pos) (.bin .mul (.name N.vel) (.name N.dt))) (.bin .mul (.bin .mul (.dec 5 (-1)) (.name N.acc)) (.bin .pow (.name N.dt) (.int 2)))),"
   },
   {
    "file": "Verif/Source/Calc.lean",
    "within": "deadReckoning.drm_fpb",
    "old": "    .assign (.name N.new_position) (.bin .add (.name N.pos) (.bin .mul (.name N.velocity_world) (.name N.dt))),",
    "new": "    .assign (.name N.new_position) (.bin .sub (.name N.pos) (.bin .mul (.name N.velocity_world) (.name N.dt))),",
    "descr": ".bin .add -> .bin .sub in: .assign (.name N.new_position) (.bin .add (.name N.pos) (.bin .mul (.name N.velocity_world) (.name N.dt))),"
   },
   {
    "file": "Verif/Source/Calc.lean",
    "within": "deadReckoning.drm_rpb",
    "old": "    .assign (.name N.new_position) (.bin .add (.name N.pos) (.bin .mul (.name N.velocity_world) (.name N.dt))),",
    "new": "    .assign (.name N.new_position) (.bin .add (.name N.pos) (.bin .div (.name N.velocity_world) (.name N.dt))),",
    "descr": ".bin .mul -> .bin .div in: .assign (.name N.new_position) (.bin .add (.name N.pos) (.bin .mul (.name N.velocity_world) (.name N.dt))),"
   },
   {
    "file": "Verif/Source/Calc.lean",
    "within": "deadReckoning.drm_rvb",
    "old": "    .assign (.name N.displacement_body) (.bin .add (.bin .mul (.name N.vel) (.name N.dt)) (.bin .mul (.bin .mul (.dec 5 (-1)) (.name N.acc)) (.bin .pow (.name N.dt) (.int 2)))),",
    "new": "    .assign (.name N.displacement_body) (.bin .add (.bin .mul (.name N.vel) (.name N.dt)) (.bin .mul (.bin .mul (.dec 5 (-1)) (.name N.acc)) (.bin .pow (.name N.dt) (.int 3)))),",
    "descr": "(.int 2) -> (.int 3) in: .assign (.name N.displacement_body) (.bin .add (.bin .mul (.name N.vel) (.name N.dt)) (.bin .mul (.bin .mul (.dec 5 (-1)"
   },
   {
    "file": "Verif/Source/Calc.lean",
    "within": "deadReckoning.drm_fvb",
    "old": "    .assign (.name N.new_position) (.bin .add (.name N.pos) (.name N.displacement_world)),",
    "new": "    .assign (.name N.new_position) (.bin .sub (.name N.pos) (.name N.displacement_world)),",
    "descr": ".bin .add -> .bin .sub in: .assign (.name N.new_position) (.bin .add (.name N.pos) (.name N.displacement_world)),"
   }
  ]
 },
 {
  "id": "Z1",
  "definition": "Verif/Source/Dis1.lean",
  "claim": "the properties and helpers do what their text says (C77)",
  "expect": [
   "C77"
  ],
  "edits": [
   {
    "file": "Verif/Source/Dis1.lean",
    "within": "DataQueryDatumSpecification.numberOfFixedDatumIDs",
    "old": "   [.ret (.call I.len [.attr (.name I.self) I.fixedDatumIDs] [])]",
    "new": "   [.ret (.call I.len [.attr (.name I.self) I.variableDatumIDs] [])]",
    "descr": "[.ret (.call I.len [.attr (.name I.self) I.fixedDatumIDs] [])] -> [.ret (.call I.len [.attr (.name I.self) I.variableDatumIDs] [])]"
   },
   {
    "file": "Verif/Source/Dis1.lean",
    "within": "DataQueryDatumSpecification.numberOfVariableDatumIDs",
    "old": "   [.ret (.call I.len [.attr (.name I.self) I.variableDatumIDs] [])]",
    "new": "   [.ret (.call I.len [.attr (.name I.self) I.fixedDatumIDs] [])]",
    "descr": "[.ret (.call I.len [.attr (.name I.self) I.variableDatumIDs] [])] -> [.ret (.call I.len [.attr (.name I.self) I.fixedDatumIDs] [])]"
   },
   {
    "file": "Verif/Source/Dis1.lean",
    "within": "IFFDataSpecification.numberOfIFFDataRecords",
    "old": "   [.ret (.call I.len [.attr (.name I.self) I.iffDataRecords] [])]",
    "new": "   [.ret (.call I.list [.attr (.name I.self) I.iffDataRecords] [])]",
    "descr": "[.ret (.call I.len [.attr (.name I.self) I.iffDataRecords] [])] -> [.ret (.call I.list [.attr (.name I.self) I.iffDataRecords] [])]"
   },
   {
    "file": "Verif/Source/Dis1.lean",
    "within": "RecordQuerySpecification.numberOfRecords",
    "old": "   [.ret (.call I.len [.attr (.name I.self) I.recordIDs] [])]",
    "new": "   [.ret (.call I.list [.attr (.name I.self) I.recordIDs] [])]",
    "descr": "[.ret (.call I.len [.attr (.name I.self) I.recordIDs] [])] -> [.ret (.call I.list [.attr (.name I.self) I.recordIDs] [])]"
   },
   {
    "file": "Verif/Source/Dis1.lean",
    "within": "EntityMarking.setString",
    "old": "   [.for I.idx (.call I.range [.int 0, .int 11] [])",
    "new": "   [.for I.idx (.call I.range [.int 1, .int 11] [])",
    "descr": "[.for I.idx (.call I.range [.int 0, .int 11] []) -> [.for I.idx (.call I.range [.int 1, .int 11] [])"
   },
   {
    "file": "Verif/Source/Dis1.lean",
    "within": "DatumSpecification.numberOfFixedDatumRecords",
    "old": "   [.ret (.call I.len [.attr (.name I.self) I.fixedDatumRecords] [])]",
    "new": "   [.ret (.call I.list [.attr (.name I.self) I.fixedDatumRecords] [])]",
    "descr": "[.ret (.call I.len [.attr (.name I.self) I.fixedDatumRecords] [])] -> [.ret (.call I.list [.attr (.name I.self) I.fixedDatumRecords] [])]"
   },
   {
    "file": "Verif/Source/Dis1.lean",
    "within": "DatumSpecification.numberOfVariableDatumRecords",
    "old": "   [.ret (.call I.len [.attr (.name I.self) I.variableDatumRecords] [])]",
    "new": "   [.ret (.call I.len [.attr (.name I.self) I.fixedDatumRecords] [])]",
    "descr": "[.ret (.call I.len [.attr (.name I.self) I.variableDatumRecords] [])] -> [.ret (.call I.len [.attr (.name I.self) I.fixedDatumRecords] [])]"
   }
  ]
 },
 {
  "id": "Z2",
  "definition": "Verif/Source/Dis2.lean",
  "claim": "the properties and helpers do what their text says (C77)",
  "expect": [
   "C77"
  ],
  "edits": [
   {
    "file": "Verif/Source/Dis2.lean",
    "within": "SilentEntitySystem.numberOfAppearanceRecords",
    "old": "   [.ret (.call I.len [.attr (.name I.self) I.appearanceRecordList] [])]",
    "new": "   [.ret (.call I.list [.attr (.name I.self) I.appearanceRecordList] [])]",
    "descr": "[.ret (.call I.len [.attr (.name I.self) I.appearanceRecordList] [])] -> [.ret (.call I.list [.attr (.name I.self) I.appearanceRecordList] [])]"
   },
   {
    "file": "Verif/Source/Dis2.lean",
    "within": "StandardVariableSpecification.numberOfStandardVariableRecords",
    "old": "   [.ret (.call I.len [.attr (.name I.self) I.standardVariables] [])]",
    "new": "   [.ret (.call I.list [.attr (.name I.self) I.standardVariables] [])]",
    "descr": "[.ret (.call I.len [.attr (.name I.self) I.standardVariables] [])] -> [.ret (.call I.list [.attr (.name I.self) I.standardVariables] [])]"
   },
   {
    "file": "Verif/Source/Dis2.lean",
    "within": "RecordSpecification.numberOfRecordSets",
    "old": "   [.ret (.call I.len [.attr (.name I.self) I.recordSets] [])]",
    "new": "   [.ret (.call I.list [.attr (.name I.self) I.recordSets] [])]",
    "descr": "[.ret (.call I.len [.attr (.name I.self) I.recordSets] [])] -> [.ret (.call I.list [.attr (.name I.self) I.recordSets] [])]"
   },
   {
    "file": "Verif/Source/Dis2.lean",
    "within": "VariableDatum.datumPaddingSizeInBits",
    "old": "   [.assign (.name I.padding) (.int 0),",
    "new": "   [.assign (.name I.padding) (.int 1),",
    "descr": "[.assign (.name I.padding) (.int 0), -> [.assign (.name I.padding) (.int 1),"
   }
  ]
 },
 {
  "id": "Z3",
  "definition": "Verif/Source/Dis3.lean",
  "claim": "the properties and helpers do what their text says (C77)",
  "expect": [
   "C77"
  ],
  "edits": [
   {
    "file": "Verif/Source/Dis3.lean",
    "within": "EntityStateUpdatePdu.numberOfVariableParameters",
    "old": "   [.ret (.call I.len [.attr (.name I.self) I.variableParameters] [])]",
    "new": "   [.ret (.call I.list [.attr (.name I.self) I.variableParameters] [])]",
    "descr": "[.ret (.call I.len [.attr (.name I.self) I.variableParameters] [])] -> [.ret (.call I.list [.attr (.name I.self) I.variableParameters] [])]"
   },
   {
    "file": "Verif/Source/Dis3.lean",
    "within": "ServiceRequestPdu.numberOfSupplyTypes",
    "old": "   [.ret (.call I.len [.attr (.name I.self) I.supplies] [])]",
    "new": "   [.ret (.call I.list [.attr (.name I.self) I.supplies] [])]",
    "descr": "[.ret (.call I.len [.attr (.name I.self) I.supplies] [])] -> [.ret (.call I.list [.attr (.name I.self) I.supplies] [])]"
   },
   {
    "file": "Verif/Source/Dis3.lean",
    "within": "DataQueryPdu.fixedDatumIDs",
    "old": "   [.ret (.attr (.attr (.name I.self) I._dataQuery) I.fixedDatumIDs)]",
    "new": "   [.ret (.attr (.attr (.name I.self) I._dataQuery) I.variableDatumIDs)]",
    "descr": "[.ret (.attr (.attr (.name I.self) I._dataQuery) I.fixedDatumIDs)] -> [.ret (.attr (.attr (.name I.self) I._dataQuery) I.variableDatumIDs)]"
   },
   {
    "file": "Verif/Source/Dis3.lean",
    "within": "DataQueryPdu.variableDatumIDs",
    "old": "   [.ret (.attr (.attr (.name I.self) I._dataQuery) I.variableDatumIDs)]",
    "new": "   [.ret (.attr (.attr (.name I.self) I._dataQuery) I.fixedDatumIDs)]",
    "descr": "[.ret (.attr (.attr (.name I.self) I._dataQuery) I.variableDatumIDs)] -> [.ret (.attr (.attr (.name I.self) I._dataQuery) I.fixedDatumIDs)]"
   },
   {
    "file": "Verif/Source/Dis3.lean",
    "within": "LinearObjectStatePdu.numberOfSegments",
    "old": "   [.ret (.call I.len [.attr (.name I.self) I.linearSegmentParameters] [])]",
    "new": "   [.ret (.call I.list [.attr (.name I.self) I.linearSegmentParameters] [])]",
    "descr": "[.ret (.call I.len [.attr (.name I.self) I.linearSegmentParameters] [])] -> [.ret (.call I.list [.attr (.name I.self) I.linearSegmentParameters] [])]"
   },
   {
    "file": "Verif/Source/Dis3.lean",
    "within": "IntercomSignalPdu.dataLength",
    "old": "   [.ret (.bin .mul (.call I.len [.attr (.name I.self) I.data] []) (.int 8))]",
    "new": "   [.ret (.bin .mul (.call I.list [.attr (.name I.self) I.data] []) (.int 8))]",
    "descr": "[.ret (.bin .mul (.call I.len [.attr (.name I.self) I.data] []) (.int 8))] -> [.ret (.bin .mul (.call I.list [.attr (.name I.self) I.data] []) (.int 8))]"
   },
   {
    "file": "Verif/Source/Dis3.lean",
    "within": "ResupplyReceivedPdu.numberOfSupplyTypes",
    "old": "   [.ret (.call I.len [.attr (.name I.self) I.supplies] [])]",
    "new": "   [.ret (.call I.list [.attr (.name I.self) I.supplies] [])]",
    "descr": "[.ret (.call I.len [.attr (.name I.self) I.supplies] [])] -> [.ret (.call I.list [.attr (.name I.self) I.supplies] [])]"
   },
   {
    "file": "Verif/Source/Dis3.lean",
    "within": "ActionRequestPdu.fixedDatumRecords",
    "old": "   [.ret (.attr (.attr (.name I.self) I._datums) I.fixedDatumRecords)]",
    "new": "   [.ret (.attr (.attr (.name I.self) I._datums) I.variableDatumRecords)]",
    "descr": "[.ret (.attr (.attr (.name I.self) I._datums) I.fixedDatumRecords)] -> [.ret (.attr (.attr (.name I.self) I._datums) I.variableDatumRecords)]"
   },
   {
    "file": "Verif/Source/Dis3.lean",
    "within": "ActionRequestPdu.variableDatumRecords",
    "old": "   [.ret (.attr (.attr (.name I.self) I._datums) I.variableDatumRecords)]",
    "new": "   [.ret (.attr (.attr (.name I.self) I._datums) I.fixedDatumRecords)]",
    "descr": "[.ret (.attr (.attr (.name I.self) I._datums) I.variableDatumRecords)] -> [.ret (.attr (.attr (.name I.self) I._datums) I.fixedDatumRecords)]"
   },
   {
    "file": "Verif/Source/Dis3.lean",
    "within": "ActionRequestReliablePdu.fixedDatumRecords",
    "old": "   [.ret (.attr (.attr (.name I.self) I._datums) I.fixedDatumRecords)]",
    "new": "   [.ret (.attr (.attr (.name I.self) I._datums) I.variableDatumRecords)]",
    "descr": "[.ret (.attr (.attr (.name I.self) I._datums) I.fixedDatumRecords)] -> [.ret (.attr (.attr (.name I.self) I._datums) I.variableDatumRecords)]"
   },
   {
    "file": "Verif/Source/Dis3.lean",
    "within": "ActionRequestReliablePdu.variableDatumRecords",
    "old": "   [.ret (.attr (.attr (.name I.self) I._datums) I.variableDatumRecords)]",
    "new": "   [.ret (.attr (.attr (.name I.self) I._datums) I.fixedDatumRecords)]",
    "descr": "[.ret (.attr (.attr (.name I.self) I._datums) I.variableDatumRecords)] -> [.ret (.attr (.attr (.name I.self) I._datums) I.fixedDatumRecords)]"
   },
   {
    "file": "Verif/Source/Dis3.lean",
    "within": "EntityStatePdu.numberOfVariableParameters",
    "old": "   [.ret (.call I.len [.attr (.name I.self) I.variableParameters] [])]",
    "new": "   [.ret (.call I.list [.attr (.name I.self) I.variableParameters] [])]",
    "descr": "[.ret (.call I.len [.attr (.name I.self) I.variableParameters] [])] -> [.ret (.call I.list [.attr (.name I.self) I.variableParameters] [])]"
   },
   {
    "file": "Verif/Source/Dis3.lean",
    "within": "TransmitterPdu.antennaPatternLength",
    "old": "      [.ret (.int 0)]]",
    "new": "      [.ret (.int 1)]]",
    "descr": "[.ret (.int 0)]] -> [.ret (.int 1)]]"
   },
   {
    "file": "Verif/Source/Dis3.lean",
    "within": "TransmitterPdu.modulationParametersLength",
    "old": "      [.ret (.int 0)]]",
    "new": "      [.ret (.int 1)]]",
    "descr": "[.ret (.int 0)]] -> [.ret (.int 1)]]"
   },
   {
    "file": "Verif/Source/Dis3.lean",
    "within": "TransmitterPdu.variableTransmitterParameterCount",
    "old": "   [.ret (.call I.len [.attr (.name I.self) I.variableTransmitterParameters] [])]",
    "new": "   [.ret (.call I.list [.attr (.name I.self) I.variableTransmitterParameters] [])]",
    "descr": "[.ret (.call I.len [.attr (.name I.self) I.variableTransmitterParameters] [])] -> [.ret (.call I.list [.attr (.name I.self) I.variableTransmitterParameters] [])]"
   },
   {
    "file": "Verif/Source/Dis3.lean",
    "within": "ElectromagneticEmissionsPdu.numberOfSystems",
    "old": "   [.ret (.call I.len [.attr (.name I.self) I.systems] [])]",
    "new": "   [.ret (.call I.list [.attr (.name I.self) I.systems] [])]",
    "descr": "[.ret (.call I.len [.attr (.name I.self) I.systems] [])] -> [.ret (.call I.list [.attr (.name I.self) I.systems] [])]"
   },
   {
    "file": "Verif/Source/Dis3.lean",
    "within": "EmissionSystemBeamRecord.numberOfTargetsInTrackJam",
    "old": "   [.ret (.call I.len [.attr (.name I.self) I.trackJamRecords] [])]",
    "new": "   [.ret (.call I.list [.attr (.name I.self) I.trackJamRecords] [])]",
    "descr": "[.ret (.call I.len [.attr (.name I.self) I.trackJamRecords] [])] -> [.ret (.call I.list [.attr (.name I.self) I.trackJamRecords] [])]"
   },
   {
    "file": "Verif/Source/Dis3.lean",
    "within": "EmissionSystemRecord.numberOfBeams",
    "old": "   [.ret (.call I.len [.attr (.name I.self) I.beamRecords] [])]",
    "new": "   [.ret (.call I.list [.attr (.name I.self) I.beamRecords] [])]",
    "descr": "[.ret (.call I.len [.attr (.name I.self) I.beamRecords] [])] -> [.ret (.call I.list [.attr (.name I.self) I.beamRecords] [])]"
   },
   {
    "file": "Verif/Source/Dis3.lean",
    "within": "ResupplyOfferPdu.numberOfSupplyTypes",
    "old": "   [.ret (.call I.len [.attr (.name I.self) I.supplies] [])]",
    "new": "   [.ret (.call I.list [.attr (.name I.self) I.supplies] [])]",
    "descr": "[.ret (.call I.len [.attr (.name I.self) I.supplies] [])] -> [.ret (.call I.list [.attr (.name I.self) I.supplies] [])]"
   }
  ]
 },
 {
  "id": "Z4",
  "definition": "Verif/Source/Dis4.lean",
  "claim": "the properties and helpers do what their text says (C77)",
  "expect": [
   "C77"
  ],
  "edits": [
   {
    "file": "Verif/Source/Dis4.lean",
    "within": "SetDataReliablePdu.fixedDatumRecords",
    "old": "   [.ret (.attr (.attr (.name I.self) I._datums) I.fixedDatumRecords)]",
    "new": "   [.ret (.attr (.attr (.name I.self) I._datums) I.variableDatumRecords)]",
    "descr": "[.ret (.attr (.attr (.name I.self) I._datums) I.fixedDatumRecords)] -> [.ret (.attr (.attr (.name I.self) I._datums) I.variableDatumRecords)]"
   },
   {
    "file": "Verif/Source/Dis4.lean",
    "within": "SetDataReliablePdu.variableDatumRecords",
    "old": "   [.ret (.attr (.attr (.name I.self) I._datums) I.variableDatumRecords)]",
    "new": "   [.ret (.attr (.attr (.name I.self) I._datums) I.fixedDatumRecords)]",
    "descr": "[.ret (.attr (.attr (.name I.self) I._datums) I.variableDatumRecords)] -> [.ret (.attr (.attr (.name I.self) I._datums) I.fixedDatumRecords)]"
   },
   {
    "file": "Verif/Source/Dis4.lean",
    "within": "DataPdu.fixedDatumRecords",
    "old": "   [.ret (.attr (.attr (.name I.self) I._datums) I.fixedDatumRecords)]",
    "new": "   [.ret (.attr (.attr (.name I.self) I._datums) I.variableDatumRecords)]",
    "descr": "[.ret (.attr (.attr (.name I.self) I._datums) I.fixedDatumRecords)] -> [.ret (.attr (.attr (.name I.self) I._datums) I.variableDatumRecords)]"
   },
   {
    "file": "Verif/Source/Dis4.lean",
    "within": "DataPdu.variableDatumRecords",
    "old": "   [.ret (.attr (.attr (.name I.self) I._datums) I.variableDatumRecords)]",
    "new": "   [.ret (.attr (.attr (.name I.self) I._datums) I.fixedDatumRecords)]",
    "descr": "[.ret (.attr (.attr (.name I.self) I._datums) I.variableDatumRecords)] -> [.ret (.attr (.attr (.name I.self) I._datums) I.fixedDatumRecords)]"
   },
   {
    "file": "Verif/Source/Dis4.lean",
    "within": "ArealObjectStatePdu.numberOfPoints",
    "old": "   [.ret (.call I.len [.attr (.name I.self) I.objectLocation] [])]",
    "new": "   [.ret (.call I.list [.attr (.name I.self) I.objectLocation] [])]",
    "descr": "[.ret (.call I.len [.attr (.name I.self) I.objectLocation] [])] -> [.ret (.call I.list [.attr (.name I.self) I.objectLocation] [])]"
   },
   {
    "file": "Verif/Source/Dis4.lean",
    "within": "DataQueryReliablePdu.fixedDatumIDs",
    "old": "   [.ret (.attr (.attr (.name I.self) I._dataQuery) I.fixedDatumIDs)]",
    "new": "   [.ret (.attr (.attr (.name I.self) I._dataQuery) I.variableDatumIDs)]",
    "descr": "[.ret (.attr (.attr (.name I.self) I._dataQuery) I.fixedDatumIDs)] -> [.ret (.attr (.attr (.name I.self) I._dataQuery) I.variableDatumIDs)]"
   },
   {
    "file": "Verif/Source/Dis4.lean",
    "within": "DataQueryReliablePdu.variableDatumIDs",
    "old": "   [.ret (.attr (.attr (.name I.self) I._dataQuery) I.variableDatumIDs)]",
    "new": "   [.ret (.attr (.attr (.name I.self) I._dataQuery) I.fixedDatumIDs)]",
    "descr": "[.ret (.attr (.attr (.name I.self) I._dataQuery) I.variableDatumIDs)] -> [.ret (.attr (.attr (.name I.self) I._dataQuery) I.fixedDatumIDs)]"
   },
   {
    "file": "Verif/Source/Dis4.lean",
    "within": "MinefieldStatePdu.numberOfPerimeterPoints",
    "old": "   [.ret (.call I.len [.attr (.name I.self) I.perimeterPoints] [])]",
    "new": "   [.ret (.call I.list [.attr (.name I.self) I.perimeterPoints] [])]",
    "descr": "[.ret (.call I.len [.attr (.name I.self) I.perimeterPoints] [])] -> [.ret (.call I.list [.attr (.name I.self) I.perimeterPoints] [])]"
   },
   {
    "file": "Verif/Source/Dis4.lean",
    "within": "MinefieldStatePdu.numberOfMineTypes",
    "old": "   [.ret (.call I.len [.attr (.name I.self) I.mineTypes] [])]",
    "new": "   [.ret (.call I.list [.attr (.name I.self) I.mineTypes] [])]",
    "descr": "[.ret (.call I.len [.attr (.name I.self) I.mineTypes] [])] -> [.ret (.call I.list [.attr (.name I.self) I.mineTypes] [])]"
   },
   {
    "file": "Verif/Source/Dis4.lean",
    "within": "DataReliablePdu.fixedDatumRecords",
    "old": "   [.ret (.attr (.attr (.name I.self) I._datums) I.fixedDatumRecords)]",
    "new": "   [.ret (.attr (.attr (.name I.self) I._datums) I.variableDatumRecords)]",
    "descr": "[.ret (.attr (.attr (.name I.self) I._datums) I.fixedDatumRecords)] -> [.ret (.attr (.attr (.name I.self) I._datums) I.variableDatumRecords)]"
   },
   {
    "file": "Verif/Source/Dis4.lean",
    "within": "DataReliablePdu.variableDatumRecords",
    "old": "   [.ret (.attr (.attr (.name I.self) I._datums) I.variableDatumRecords)]",
    "new": "   [.ret (.attr (.attr (.name I.self) I._datums) I.fixedDatumRecords)]",
    "descr": "[.ret (.attr (.attr (.name I.self) I._datums) I.variableDatumRecords)] -> [.ret (.attr (.attr (.name I.self) I._datums) I.fixedDatumRecords)]"
   },
   {
    "file": "Verif/Source/Dis4.lean",
    "within": "CommentPdu.fixedDatumRecords",
    "old": "   [.ret (.attr (.attr (.name I.self) I._datums) I.fixedDatumRecords)]",
    "new": "   [.ret (.attr (.attr (.name I.self) I._datums) I.variableDatumRecords)]",
    "descr": "[.ret (.attr (.attr (.name I.self) I._datums) I.fixedDatumRecords)] -> [.ret (.attr (.attr (.name I.self) I._datums) I.variableDatumRecords)]"
   },
   {
    "file": "Verif/Source/Dis4.lean",
    "within": "CommentPdu.variableDatumRecords",
    "old": "   [.ret (.attr (.attr (.name I.self) I._datums) I.variableDatumRecords)]",
    "new": "   [.ret (.attr (.attr (.name I.self) I._datums) I.fixedDatumRecords)]",
    "descr": "[.ret (.attr (.attr (.name I.self) I._datums) I.variableDatumRecords)] -> [.ret (.attr (.attr (.name I.self) I._datums) I.fixedDatumRecords)]"
   },
   {
    "file": "Verif/Source/Dis4.lean",
    "within": "CommentReliablePdu.fixedDatumRecords",
    "old": "   [.ret (.attr (.attr (.name I.self) I._datums) I.fixedDatumRecords)]",
    "new": "   [.ret (.attr (.attr (.name I.self) I._datums) I.variableDatumRecords)]",
    "descr": "[.ret (.attr (.attr (.name I.self) I._datums) I.fixedDatumRecords)] -> [.ret (.attr (.attr (.name I.self) I._datums) I.variableDatumRecords)]"
   },
   {
    "file": "Verif/Source/Dis4.lean",
    "within": "CommentReliablePdu.variableDatumRecords",
    "old": "   [.ret (.attr (.attr (.name I.self) I._datums) I.variableDatumRecords)]",
    "new": "   [.ret (.attr (.attr (.name I.self) I._datums) I.fixedDatumRecords)]",
    "descr": "[.ret (.attr (.attr (.name I.self) I._datums) I.variableDatumRecords)] -> [.ret (.attr (.attr (.name I.self) I._datums) I.fixedDatumRecords)]"
   },
   {
    "file": "Verif/Source/Dis4.lean",
    "within": "DirectedEnergyFirePdu.numberOfDERecords",
    "old": "   [.ret (.call I.len [.attr (.name I.self) I.dERecords] [])]",
    "new": "   [.ret (.call I.list [.attr (.name I.self) I.dERecords] [])]",
    "descr": "[.ret (.call I.len [.attr (.name I.self) I.dERecords] [])] -> [.ret (.call I.list [.attr (.name I.self) I.dERecords] [])]"
   },
   {
    "file": "Verif/Source/Dis4.lean",
    "within": "DetonationPdu.numberOfVariableParameters",
    "old": "   [.ret (.call I.len [.attr (.name I.self) I.variableParameters] [])]",
    "new": "   [.ret (.call I.list [.attr (.name I.self) I.variableParameters] [])]",
    "descr": "[.ret (.call I.len [.attr (.name I.self) I.variableParameters] [])] -> [.ret (.call I.list [.attr (.name I.self) I.variableParameters] [])]"
   },
   {
    "file": "Verif/Source/Dis4.lean",
    "within": "SetDataPdu.fixedDatumRecords",
    "old": "   [.ret (.attr (.attr (.name I.self) I._datums) I.fixedDatumRecords)]",
    "new": "   [.ret (.attr (.attr (.name I.self) I._datums) I.variableDatumRecords)]",
    "descr": "[.ret (.attr (.attr (.name I.self) I._datums) I.fixedDatumRecords)] -> [.ret (.attr (.attr (.name I.self) I._datums) I.variableDatumRecords)]"
   },
   {
    "file": "Verif/Source/Dis4.lean",
    "within": "SetDataPdu.variableDatumRecords",
    "old": "   [.ret (.attr (.attr (.name I.self) I._datums) I.variableDatumRecords)]",
    "new": "   [.ret (.attr (.attr (.name I.self) I._datums) I.fixedDatumRecords)]",
    "descr": "[.ret (.attr (.attr (.name I.self) I._datums) I.variableDatumRecords)] -> [.ret (.attr (.attr (.name I.self) I._datums) I.fixedDatumRecords)]"
   },
   {
    "file": "Verif/Source/Dis4.lean",
    "within": "RecordQueryReliablePdu.numberOfRecords",
    "old": "   [.ret (.call I.len [.attr (.name I.self) I.recordIDs] [])]",
    "new": "   [.ret (.call I.list [.attr (.name I.self) I.recordIDs] [])]",
    "descr": "[.ret (.call I.len [.attr (.name I.self) I.recordIDs] [])] -> [.ret (.call I.list [.attr (.name I.self) I.recordIDs] [])]"
   },
   {
    "file": "Verif/Source/Dis4.lean",
    "within": "ActionResponsePdu.fixedDatumRecords",
    "old": "   [.ret (.attr (.attr (.name I.self) I._datums) I.fixedDatumRecords)]",
    "new": "   [.ret (.attr (.attr (.name I.self) I._datums) I.variableDatumRecords)]",
    "descr": "[.ret (.attr (.attr (.name I.self) I._datums) I.fixedDatumRecords)] -> [.ret (.attr (.attr (.name I.self) I._datums) I.variableDatumRecords)]"
   },
   {
    "file": "Verif/Source/Dis4.lean",
    "within": "ActionResponsePdu.variableDatumRecords",
    "old": "   [.ret (.attr (.attr (.name I.self) I._datums) I.variableDatumRecords)]",
    "new": "   [.ret (.attr (.attr (.name I.self) I._datums) I.fixedDatumRecords)]",
    "descr": "[.ret (.attr (.attr (.name I.self) I._datums) I.variableDatumRecords)] -> [.ret (.attr (.attr (.name I.self) I._datums) I.fixedDatumRecords)]"
   },
   {
    "file": "Verif/Source/Dis4.lean",
    "within": "EntityDamageStatusPdu.damageDescriptionCount",
    "old": "   [.ret (.call I.len [.attr (.name I.self) I.damageDescriptions] [])]",
    "new": "   [.ret (.call I.list [.attr (.name I.self) I.damageDescriptions] [])]",
    "descr": "[.ret (.call I.len [.attr (.name I.self) I.damageDescriptions] [])] -> [.ret (.call I.list [.attr (.name I.self) I.damageDescriptions] [])]"
   },
   {
    "file": "Verif/Source/Dis4.lean",
    "within": "UaPdu.numberOfShafts",
    "old": "   [.ret (.call I.len [.attr (.name I.self) I.shaftRPMs] [])]",
    "new": "   [.ret (.call I.list [.attr (.name I.self) I.shaftRPMs] [])]",
    "descr": "[.ret (.call I.len [.attr (.name I.self) I.shaftRPMs] [])] -> [.ret (.call I.list [.attr (.name I.self) I.shaftRPMs] [])]"
   },
   {
    "file": "Verif/Source/Dis4.lean",
    "within": "UaPdu.numberOfAPAs",
    "old": "   [.ret (.call I.len [.attr (.name I.self) I.apaData] [])]",
    "new": "   [.ret (.call I.list [.attr (.name I.self) I.apaData] [])]",
    "descr": "[.ret (.call I.len [.attr (.name I.self) I.apaData] [])] -> [.ret (.call I.list [.attr (.name I.self) I.apaData] [])]"
   },
   {
    "file": "Verif/Source/Dis4.lean",
    "within": "UaPdu.numberOfUAEmitterSystems",
    "old": "   [.ret (.call I.len [.attr (.name I.self) I.emitterSystems] [])]",
    "new": "   [.ret (.call I.list [.attr (.name I.self) I.emitterSystems] [])]",
    "descr": "[.ret (.call I.len [.attr (.name I.self) I.emitterSystems] [])] -> [.ret (.call I.list [.attr (.name I.self) I.emitterSystems] [])]"
   },
   {
    "file": "Verif/Source/Dis4.lean",
    "within": "IntercomControlPdu.intercomParametersLength",
    "old": "   [.ret (.call I.len [.attr (.name I.self) I.intercomParameters] [])]",
    "new": "   [.ret (.call I.list [.attr (.name I.self) I.intercomParameters] [])]",
    "descr": "[.ret (.call I.len [.attr (.name I.self) I.intercomParameters] [])] -> [.ret (.call I.list [.attr (.name I.self) I.intercomParameters] [])]"
   },
   {
    "file": "Verif/Source/Dis4.lean",
    "within": "SignalPdu.dataLength",
    "old": "   [.ret (.bin .mul (.call I.len [.attr (.name I.self) I.data] []) (.int 8))]",
    "new": "   [.ret (.bin .add (.call I.len [.attr (.name I.self) I.data] []) (.int 8))]",
    "descr": "[.ret (.bin .mul (.call I.len [.attr (.name I.self) I.data] []) (.int 8))] -> [.ret (.bin .add (.call I.len [.attr (.name I.self) I.data] []) (.int 8))]"
   },
   {
    "file": "Verif/Source/Dis4.lean",
    "within": "SeesPdu.numberOfPropulsionSystems",
    "old": "   [.ret (.call I.len [.attr (.name I.self) I.propulsionSystemData] [])]",
    "new": "   [.ret (.call I.list [.attr (.name I.self) I.propulsionSystemData] [])]",
    "descr": "[.ret (.call I.len [.attr (.name I.self) I.propulsionSystemData] [])] -> [.ret (.call I.list [.attr (.name I.self) I.propulsionSystemData] [])]"
   },
   {
    "file": "Verif/Source/Dis4.lean",
    "within": "SeesPdu.numberOfVectoringNozzleSystems",
    "old": "   [.ret (.call I.len [.attr (.name I.self) I.vectoringSystemData] [])]",
    "new": "   [.ret (.call I.list [.attr (.name I.self) I.vectoringSystemData] [])]",
    "descr": "[.ret (.call I.len [.attr (.name I.self) I.vectoringSystemData] [])] -> [.ret (.call I.list [.attr (.name I.self) I.vectoringSystemData] [])]"
   },
   {
    "file": "Verif/Source/Dis4.lean",
    "within": "EventReportReliablePdu.fixedDatumRecords",
    "old": "   [.ret (.attr (.attr (.name I.self) I._datums) I.fixedDatumRecords)]",
    "new": "   [.ret (.attr (.attr (.name I.self) I._datums) I.variableDatumRecords)]",
    "descr": "[.ret (.attr (.attr (.name I.self) I._datums) I.fixedDatumRecords)] -> [.ret (.attr (.attr (.name I.self) I._datums) I.variableDatumRecords)]"
   },
   {
    "file": "Verif/Source/Dis4.lean",
    "within": "EventReportReliablePdu.variableDatumRecords",
    "old": "   [.ret (.attr (.attr (.name I.self) I._datums) I.variableDatumRecords)]",
    "new": "   [.ret (.attr (.attr (.name I.self) I._datums) I.fixedDatumRecords)]",
    "descr": "[.ret (.attr (.attr (.name I.self) I._datums) I.variableDatumRecords)] -> [.ret (.attr (.attr (.name I.self) I._datums) I.fixedDatumRecords)]"
   },
   {
    "file": "Verif/Source/Dis4.lean",
    "within": "MinefieldResponseNackPdu.numberOfMissingPdus",
    "old": "   [.ret (.call I.len [.attr (.name I.self) I.missingPduSequenceNumbers] [])]",
    "new": "   [.ret (.call I.list [.attr (.name I.self) I.missingPduSequenceNumbers] [])]",
    "descr": "[.ret (.call I.len [.attr (.name I.self) I.missingPduSequenceNumbers] [])] -> [.ret (.call I.list [.attr (.name I.self) I.missingPduSequenceNumbers] [])]"
   },
   {
    "file": "Verif/Source/Dis4.lean",
    "within": "ActionResponseReliablePdu.fixedDatumRecords",
    "old": "   [.ret (.attr (.attr (.name I.self) I._datums) I.fixedDatumRecords)]",
    "new": "   [.ret (.attr (.attr (.name I.self) I._datums) I.variableDatumRecords)]",
    "descr": "[.ret (.attr (.attr (.name I.self) I._datums) I.fixedDatumRecords)] -> [.ret (.attr (.attr (.name I.self) I._datums) I.variableDatumRecords)]"
   },
   {
    "file": "Verif/Source/Dis4.lean",
    "within": "ActionResponseReliablePdu.variableDatumRecords",
    "old": "   [.ret (.attr (.attr (.name I.self) I._datums) I.variableDatumRecords)]",
    "new": "   [.ret (.attr (.attr (.name I.self) I._datums) I.fixedDatumRecords)]",
    "descr": "[.ret (.attr (.attr (.name I.self) I._datums) I.variableDatumRecords)] -> [.ret (.attr (.attr (.name I.self) I._datums) I.fixedDatumRecords)]"
   },
   {
    "file": "Verif/Source/Dis4.lean",
    "within": "AggregateStatePdu.numberOfAggregateIDs",
    "old": "   [.ret (.call I.len [.attr (.name I.self) I.aggregateIDs] [])]",
    "new": "   [.ret (.call I.list [.attr (.name I.self) I.aggregateIDs] [])]",
    "descr": "[.ret (.call I.len [.attr (.name I.self) I.aggregateIDs] [])] -> [.ret (.call I.list [.attr (.name I.self) I.aggregateIDs] [])]"
   },
   {
    "file": "Verif/Source/Dis4.lean",
    "within": "AggregateStatePdu.numberOfEntityIDs",
    "old": "   [.ret (.call I.len [.attr (.name I.self) I.entityIDs] [])]",
    "new": "   [.ret (.call I.list [.attr (.name I.self) I.entityIDs] [])]",
    "descr": "[.ret (.call I.len [.attr (.name I.self) I.entityIDs] [])] -> [.ret (.call I.list [.attr (.name I.self) I.entityIDs] [])]"
   },
   {
    "file": "Verif/Source/Dis4.lean",
    "within": "AggregateStatePdu.numberOfSilentAggregateSystems",
    "old": "   [.ret (.call I.len [.attr (.name I.self) I.silentAggregateSystems] [])]",
    "new": "   [.ret (.call I.list [.attr (.name I.self) I.silentAggregateSystems] [])]",
    "descr": "[.ret (.call I.len [.attr (.name I.self) I.silentAggregateSystems] [])] -> [.ret (.call I.list [.attr (.name I.self) I.silentAggregateSystems] [])]"
   },
   {
    "file": "Verif/Source/Dis4.lean",
    "within": "AggregateStatePdu.numberOfSilentEntitySystems",
    "old": "   [.ret (.call I.len [.attr (.name I.self) I.silentEntitySystems] [])]",
    "new": "   [.ret (.call I.list [.attr (.name I.self) I.silentEntitySystems] [])]",
    "descr": "[.ret (.call I.len [.attr (.name I.self) I.silentEntitySystems] [])] -> [.ret (.call I.list [.attr (.name I.self) I.silentEntitySystems] [])]"
   },
   {
    "file": "Verif/Source/Dis4.lean",
    "within": "AggregateStatePdu.numberOfVariableDatumRecords",
    "old": "   [.ret (.call I.len [.attr (.name I.self) I.variableDatumRecords] [])]",
    "new": "   [.ret (.call I.len [.attr (.name I.self) I.fixedDatumRecords] [])]",
    "descr": "[.ret (.call I.len [.attr (.name I.self) I.variableDatumRecords] [])] -> [.ret (.call I.len [.attr (.name I.self) I.fixedDatumRecords] [])]"
   }
  ]
 },
 {
  "id": "Z5",
  "definition": "Verif/Source/Records.lean",
  "claim": "the properties and helpers do what their text says (C77)",
  "expect": [
   "C77"
  ],
  "edits": [
   {
    "file": "Verif/Source/Records.lean",
    "within": "EntityIdentifier.marshalledSize",
    "old": "   [.ret (.bin .add (.method (.attr (.name I.self) I.simulationAddress) I.marshalledSize [] []) (.int 2))]",
    "new": "   [.ret (.bin .add (.method (.attr (.name I.self) I.simulationAddress) I.marshalledSize [] []) (.int 3))]",
    "descr": "[.ret (.bin .add (.method (.attr (.name I.self) I.simulationAddress) I.marshalledSize [] []) (.int 2))] -> [.ret (.bin .add (.method (.attr (.name I.self) I.simulationAddress) I.marshalledSize [] []) (.int 3))]"
   },
   {
    "file": "Verif/Source/Records.lean",
    "within": "EventIdentifier.marshalledSize",
    "old": "   [.ret (.bin .add (.method (.attr (.name I.self) I.simulationAddress) I.marshalledSize [] []) (.int 2))]",
    "new": "   [.ret (.bin .add (.method (.attr (.name I.self) I.simulationAddress) I.marshalledSize [] []) (.int 3))]",
    "descr": "[.ret (.bin .add (.method (.attr (.name I.self) I.simulationAddress) I.marshalledSize [] []) (.int 2))] -> [.ret (.bin .add (.method (.attr (.name I.self) I.simulationAddress) I.marshalledSize [] []) (.int 3))]"
   },
   {
    "file": "Verif/Source/Records.lean",
    "within": "SimulationAddress.marshalledSize",
    "old": "   [.ret (.int 4)]",
    "new": "   [.ret (.int 5)]",
    "descr": "[.ret (.int 4)] -> [.ret (.int 5)]"
   },
   {
    "file": "Verif/Source/Records.lean",
    "within": "WorldCoordinates.marshalledSize",
    "old": "   [.ret (.int 24)]",
    "new": "   [.ret (.int 34)]",
    "descr": "[.ret (.int 24)] -> [.ret (.int 34)]"
   },
   {
    "file": "Verif/Source/Records.lean",
    "within": "VariableRecord.is_positive_int",
    "old": "   [.ret (.and (.isInt (.name I.value)) (.cmp .ge (.name I.value) (.int 0)))]",
    "new": "   [.ret (.and (.isInt (.name I.value)) (.cmp .ge (.name I.value) (.int 1)))]",
    "descr": "[.ret (.and (.isInt (.name I.value)) (.cmp .ge (.name I.value) (.int 0)))] -> [.ret (.and (.isInt (.name I.value)) (.cmp .ge (.name I.value) (.int 1)))]"
   },
   {
    "file": "Verif/Source/Records.lean",
    "within": "StandardVariableRecord.is_positive_int",
    "old": "   [.ret (.and (.isInt (.name I.value)) (.cmp .ge (.name I.value) (.int 0)))]",
    "new": "   [.ret (.and (.isInt (.name I.value)) (.cmp .ge (.name I.value) (.int 1)))]",
    "descr": "[.ret (.and (.isInt (.name I.value)) (.cmp .ge (.name I.value) (.int 0)))] -> [.ret (.and (.isInt (.name I.value)) (.cmp .ge (.name I.value) (.int 1)))]"
   },
   {
    "file": "Verif/Source/Records.lean",
    "within": "UnknownStandardVariableRecord.marshalledSize",
    "old": "   [.ret (.bin .add (.int 6) (.call I.len [.attr (.name I.self) I.data] []))]",
    "new": "   [.ret (.bin .add (.int 6) (.call I.list [.attr (.name I.self) I.data] []))]",
    "descr": "[.ret (.bin .add (.int 6) (.call I.len [.attr (.name I.self) I.data] []))] -> [.ret (.bin .add (.int 6) (.call I.list [.attr (.name I.self) I.data] []))]"
   },
   {
    "file": "Verif/Source/Records.lean",
    "within": "UnknownRadio.marshalledSize",
    "old": "   [.ret (.call I.len [.attr (.name I.self) I.data] [])]",
    "new": "   [.ret (.call I.list [.attr (.name I.self) I.data] [])]",
    "descr": "[.ret (.call I.len [.attr (.name I.self) I.data] [])] -> [.ret (.call I.list [.attr (.name I.self) I.data] [])]"
   },
   {
    "file": "Verif/Source/Records.lean",
    "within": "UnknownAntennaPattern.marshalledSize",
    "old": "   [.ret (.call I.len [.attr (.name I.self) I.data] [])]",
    "new": "   [.ret (.call I.list [.attr (.name I.self) I.data] [])]",
    "descr": "[.ret (.call I.len [.attr (.name I.self) I.data] [])] -> [.ret (.call I.list [.attr (.name I.self) I.data] [])]"
   },
   {
    "file": "Verif/Source/Records.lean",
    "within": "BeamAntennaPattern.marshalledSize",
    "old": "   [.ret (.int 40)]",
    "new": "   [.ret (.int 50)]",
    "descr": "[.ret (.int 40)] -> [.ret (.int 50)]"
   },
   {
    "file": "Verif/Source/Records.lean",
    "within": "ModulationType.marshalledSize",
    "old": "   [.assign (.name I.size) (.int 0),",
    "new": "   [.assign (.name I.size) (.int 1),",
    "descr": "[.assign (.name I.size) (.int 0), -> [.assign (.name I.size) (.int 1),"
   },
   {
    "file": "Verif/Source/Records.lean",
    "within": "GenericRadio.marshalledSize",
    "old": "   [.ret (.int 0)]",
    "new": "   [.ret (.int 1)]",
    "descr": "[.ret (.int 0)] -> [.ret (.int 1)]"
   },
   {
    "file": "Verif/Source/Records.lean",
    "within": "SimpleIntercomRadio.marshalledSize",
    "old": "   [.ret (.int 0)]",
    "new": "   [.ret (.int 1)]",
    "descr": "[.ret (.int 0)] -> [.ret (.int 1)]"
   },
   {
    "file": "Verif/Source/Records.lean",
    "within": "HighFidelityHAVEQUICKRadio.marshalledSize",
    "old": "   [.ret (.int 40)]",
    "new": "   [.ret (.int 50)]",
    "descr": "[.ret (.int 40)] -> [.ret (.int 50)]"
   },
   {
    "file": "Verif/Source/Records.lean",
    "within": "DirectedEnergyDamage.marshalledSize",
    "old": "   [.ret (.int 40)]",
    "new": "   [.ret (.int 50)]",
    "descr": "[.ret (.int 40)] -> [.ret (.int 50)]"
   },
   {
    "file": "Verif/Source/Records.lean",
    "within": "DirectedEnergyAreaAimpoint.beamAntennaPatternCount",
    "old": "   [.ret (.call I.len [.attr (.name I.self) I.beamAntennaPatterns] [])]",
    "new": "   [.ret (.call I.list [.attr (.name I.self) I.beamAntennaPatterns] [])]",
    "descr": "[.ret (.call I.len [.attr (.name I.self) I.beamAntennaPatterns] [])] -> [.ret (.call I.list [.attr (.name I.self) I.beamAntennaPatterns] [])]"
   },
   {
    "file": "Verif/Source/Records.lean",
    "within": "DirectedEnergyAreaAimpoint.directedEnergyTargetEnergyDepositionCount",
    "old": "   [.ret (.call I.len [.attr (.name I.self) I.directedEnergyTargetEnergyDepositions] [])]",
    "new": "   [.ret (.call I.list [.attr (.name I.self) I.directedEnergyTargetEnergyDepositions] [])]",
    "descr": "[.ret (.call I.len [.attr (.name I.self) I.directedEnergyTargetEnergyDepositions] [])] -> [.ret (.call I.list [.attr (.name I.self) I.directedEnergyTargetEnergyDepositions] [])]"
   },
   {
    "file": "Verif/Source/Records.lean",
    "within": "DirectedEnergyAreaAimpoint.marshalledSize",
    "old": "   [.assign (.name I.size) (.int 8),",
    "new": "   [.assign (.name I.size) (.int 4),",
    "descr": "[.assign (.name I.size) (.int 8), -> [.assign (.name I.size) (.int 4),"
   },
   {
    "file": "Verif/Source/Records.lean",
    "within": "DirectedEnergyTargetEnergyDeposition.marshalledSize",
    "old": "   [.ret (.bin .add (.method (.attr (.name I.self) I.targetEntityID) I.marshalledSize [] []) (.int 6))]",
    "new": "   [.ret (.bin .sub (.method (.attr (.name I.self) I.targetEntityID) I.marshalledSize [] []) (.int 6))]",
    "descr": "[.ret (.bin .add (.method (.attr (.name I.self) I.targetEntityID) I.marshalledSize [] []) (.int 6))] -> [.ret (.bin .sub (.method (.attr (.name I.self) I.targetEntityID) I.marshalledSize [] []) (.int 6))]"
   }
  ]
 },
 {
  "id": "Z6",
  "definition": "Verif/Source/Functions.lean",
  "claim": "the properties and helpers do what their text says (C77)",
  "expect": [
   "C77"
  ],
  "edits": [
   {
    "file": "Verif/Source/Functions.lean",
    "within": "Module.getStandardVariableClass",
    "old": "    .ite (.or (.not (.isInt (.name I.recordType))) (.cmp .lt (.name I.recordType) (.int 0)))",
    "new": "    .ite (.or (.not (.isInt (.name I.recordType))) (.cmp .lt (.name I.recordType) (.int 1)))",
    "descr": ".ite (.or (.not (.isInt (.name I.recordType))) (.cmp .lt (.name I.recordType) (.int 0))) -> .ite (.or (.not (.isInt (.name I.recordType))) (.cmp .lt (.name I.recordType) (.int 1)))"
   }
  ]
 }
]