{
 "S01": {
  "tightened": [
   "C03_boolean"
  ]
 },
 "S02": {
  "tightened": [
   "C03_boolean"
  ]
 },
 "B14": {
  "tightened": [
   "C29_decoding",
   "C29_received"
  ]
 },
 "H20": {
  "tightened": [
   "C66_outside"
  ]
 },
 "B20": {
  "note": "equivalent: no observable difference"
 },
 "G49": {
  "tightened": [
   "C55_conformal",
   "C55_length"
  ]
 },
 "G56": {
  "tightened": [
   "C53_difference",
   "C53_offset"
  ]
 },
 "T1.6": {
  "note": "equivalent: the two statements do not depend on each other"
 },
 "T1.12": {
  "note": "equivalent: the two statements do not depend on each other"
 },
 "T1.27": {
  "note": "equivalent: the two statements do not depend on each other"
 },
 "T2.5": {
  "note": "equivalent: the two statements do not depend on each other"
 },
 "Y1.1": {
  "note": "equivalent: the two statements do not depend on each other"
 },
 "Y1.10": {
  "note": "equivalent: the two statements do not depend on each other"
 },
 "Q1.39": {
  "note": "equivalent: the two statements do not depend on each other"
 },
 "Q1.48": {
  "note": "equivalent: the two statements do not depend on each other"
 },
 "F26": {
  "note": "equivalent: no observable difference"
 },
 "F30": {
  "note": "equivalent: no observable difference"
 },
 "F41": {
  "note": "equivalent: no observable difference"
 },
 "S11": {
  "note": "equivalent: no observable difference"
 },
 "T1.17": {
  "tightened": [
   "C78_transpose"
  ],
  "note": "transpose was not compared at the time"
 },
 "T2.17": {
  "tightened": [
   "C78_transpose"
  ],
  "note": "transpose was not compared at the time"
 },
 "T1:deadReckoning.get_rotation_matrix": {
  "note": "the module of the lemma runs out of memory when several of these edits are built together, so nothing is assigned to this edit; repeated alone as D02"
 },
 "T1:deadReckoning.get_angular_velocity_matrix": {
  "note": "the module of the lemma runs out of memory when several of these edits are built together, so nothing is assigned to this edit; repeated alone as D03"
 },
 "T1:deadReckoning.drm_fpw": {
  "note": "the module of the lemma runs out of memory when several of these edits are built together, so nothing is assigned to this edit; repeated alone as D04"
 },
 "T1:deadReckoning.drm_rpw": {
  "note": "the module of the lemma runs out of memory when several of these edits are built together, so nothing is assigned to this edit; repeated alone as D05"
 },
 "T1:deadReckoning.drm_rvw": {
  "note": "the module of the lemma runs out of memory when several of these edits are built together, so nothing is assigned to this edit; repeated alone as D06"
 },
 "T1:deadReckoning.drm_fvw": {
  "note": "the module of the lemma runs out of memory when several of these edits are built together, so nothing is assigned to this edit; repeated alone as D07"
 },
 "T1:deadReckoning.drm_fpb": {
  "note": "the module of the lemma runs out of memory when several of these edits are built together, so nothing is assigned to this edit; repeated alone as D08"
 },
 "T1:deadReckoning.drm_rpb": {
  "note": "the module of the lemma runs out of memory when several of these edits are built together, so nothing is assigned to this edit; repeated alone as D09"
 },
 "T1:deadReckoning.drm_fvb": {
  "note": "the module of the lemma runs out of memory when several of these edits are built together, so nothing is assigned to this edit; repeated alone as D11"
 },
 "Y1:deadReckoning.get_rotation_matrix": {
  "note": "the module of the lemma runs out of memory when several of these edits are built together, so nothing is assigned to this edit; repeated alone as D02"
 },
 "Y1:deadReckoning.get_angular_velocity_matrix": {
  "note": "the module of the lemma runs out of memory when several of these edits are built together, so nothing is assigned to this edit; repeated alone as D03"
 },
 "Y1:deadReckoning.drm_fpw": {
  "note": "the module of the lemma runs out of memory when several of these edits are built together, so nothing is assigned to this edit; repeated alone as D04"
 },
 "Y1:deadReckoning.drm_rpw": {
  "note": "the module of the lemma runs out of memory when several of these edits are built together, so nothing is assigned to this edit; repeated alone as D05"
 },
 "Y1:deadReckoning.drm_rvw": {
  "note": "the module of the lemma runs out of memory when several of these edits are built together, so nothing is assigned to this edit; repeated alone as D06"
 },
 "Y1:deadReckoning.drm_fvw": {
  "note": "the module of the lemma runs out of memory when several of these edits are built together, so nothing is assigned to this edit; repeated alone as D07"
 },
 "Y1:deadReckoning.drm_fpb": {
  "note": "the module of the lemma runs out of memory when several of these edits are built together, so nothing is assigned to this edit; repeated alone as D08"
 },
 "Y1:deadReckoning.drm_rpb": {
  "note": "the module of the lemma runs out of memory when several of these edits are built together, so nothing is assigned to this edit; repeated alone as D09"
 },
 "Y1:deadReckoning.drm_fvb": {
  "note": "the module of the lemma runs out of memory when several of these edits are built together, so nothing is assigned to this edit; repeated alone as D11"
 },
 "Q1:deadReckoning.get_rotation_matrix": {
  "note": "the module of the lemma runs out of memory when several of these edits are built together, so nothing is assigned to this edit; repeated alone as D02"
 },
 "Q1:deadReckoning.get_angular_velocity_matrix": {
  "note": "the module of the lemma runs out of memory when several of these edits are built together, so nothing is assigned to this edit; repeated alone as D03"
 },
 "Q1:deadReckoning.drm_fpw": {
  "note": "the module of the lemma runs out of memory when several of these edits are built together, so nothing is assigned to this edit; repeated alone as D04"
 },
 "Q1:deadReckoning.drm_rpw": {
  "note": "the module of the lemma runs out of memory when several of these edits are built together, so nothing is assigned to this edit; repeated alone as D05"
 },
 "Q1:deadReckoning.drm_rvw": {
  "note": "the module of the lemma runs out of memory when several of these edits are built together, so nothing is assigned to this edit; repeated alone as D06"
 },
 "Q1:deadReckoning.drm_fvw": {
  "note": "the module of the lemma runs out of memory when several of these edits are built together, so nothing is assigned to this edit; repeated alone as D07"
 },
 "Q1:deadReckoning.drm_fpb": {
  "note": "the module of the lemma runs out of memory when several of these edits are built together, so nothing is assigned to this edit; repeated alone as D08"
 },
 "Q1:deadReckoning.drm_rpb": {
  "note": "the module of the lemma runs out of memory when several of these edits are built together, so nothing is assigned to this edit; repeated alone as D09"
 },
 "Q1:deadReckoning.drm_fvb": {
  "note": "the module of the lemma runs out of memory when several of these edits are built together, so nothing is assigned to this edit; repeated alone as D11"
 },
 "T2:deadReckoning.get_rotation_matrix": {
  "note": "the module of the lemma runs out of memory when several of these edits are built together, so nothing is assigned to this edit; repeated alone as D20"
 },
 "Q2:deadReckoning.get_rotation_matrix": {
  "note": "the module of the lemma runs out of memory when several of these edits are built together, so nothing is assigned to this edit; repeated alone as D20"
 },
 "T2:deadReckoning.get_angular_velocity_matrix": {
  "note": "the module of the lemma runs out of memory when several of these edits are built together, so nothing is assigned to this edit; repeated alone as D21"
 },
 "Q2:deadReckoning.get_angular_velocity_matrix": {
  "note": "the module of the lemma runs out of memory when several of these edits are built together, so nothing is assigned to this edit; repeated alone as D21"
 },
 "T2:deadReckoning.drm_fpw": {
  "note": "the module of the lemma runs out of memory when several of these edits are built together, so nothing is assigned to this edit; repeated alone as D22"
 },
 "Q2:deadReckoning.drm_fpw": {
  "note": "the module of the lemma runs out of memory when several of these edits are built together, so nothing is assigned to this edit; repeated alone as D22"
 },
 "T2:deadReckoning.drm_rpw": {
  "note": "the module of the lemma runs out of memory when several of these edits are built together, so nothing is assigned to this edit; repeated alone as D23"
 },
 "Q2:deadReckoning.drm_rpw": {
  "note": "the module of the lemma runs out of memory when several of these edits are built together, so nothing is assigned to this edit; repeated alone as D23"
 },
 "T2:deadReckoning.drm_rvw": {
  "note": "the module of the lemma runs out of memory when several of these edits are built together, so nothing is assigned to this edit; repeated alone as D24"
 },
 "Q2:deadReckoning.drm_rvw": {
  "note": "the module of the lemma runs out of memory when several of these edits are built together, so nothing is assigned to this edit; repeated alone as D24"
 },
 "T2:deadReckoning.drm_fvw": {
  "note": "the module of the lemma runs out of memory when several of these edits are built together, so nothing is assigned to this edit; repeated alone as D25"
 },
 "Q2:deadReckoning.drm_fvw": {
  "note": "the module of the lemma runs out of memory when several of these edits are built together, so nothing is assigned to this edit; repeated alone as D25"
 },
 "T2:deadReckoning.drm_fpb": {
  "note": "the module of the lemma runs out of memory when several of these edits are built together, so nothing is assigned to this edit; repeated alone as D26"
 },
 "Q2:deadReckoning.drm_fpb": {
  "note": "the module of the lemma runs out of memory when several of these edits are built together, so nothing is assigned to this edit; repeated alone as D26"
 },
 "T2:deadReckoning.drm_rpb": {
  "note": "the module of the lemma runs out of memory when several of these edits are built together, so nothing is assigned to this edit; repeated alone as D27"
 },
 "Q2:deadReckoning.drm_rpb": {
  "note": "the module of the lemma runs out of memory when several of these edits are built together, so nothing is assigned to this edit; repeated alone as D27"
 },
 "T2:deadReckoning.drm_rvb": {
  "note": "the module of the lemma runs out of memory when several of these edits are built together, so nothing is assigned to this edit; repeated alone as D28"
 },
 "Q2:deadReckoning.drm_rvb": {
  "note": "the module of the lemma runs out of memory when several of these edits are built together, so nothing is assigned to this edit; repeated alone as D28"
 },
 "T2:deadReckoning.drm_fvb": {
  "note": "the module of the lemma runs out of memory when several of these edits are built together, so nothing is assigned to this edit; repeated alone as D29"
 },
 "Q2:deadReckoning.drm_fvb": {
  "note": "the module of the lemma runs out of memory when several of these edits are built together, so nothing is assigned to this edit; repeated alone as D29"
 },
 "U3:TransmitterPdu.serialize": {
  "tightened": [
   "C77_transmitter_serialize"
  ],
  "note": "the class was not compared with its syntax tree at the time; confirmed in Q1"
 },
 "U3:TransmitterPdu.parse": {
  "tightened": [
   "C77_transmitter_parse"
  ],
  "note": "the class was not compared with its syntax tree at the time; confirmed in Q1"
 },
 "U4:TransmitterPdu.serialize": {
  "tightened": [
   "C77_transmitter_serialize"
  ],
  "note": "the class was not compared with its syntax tree at the time; confirmed in Q1"
 },
 "U4:TransmitterPdu.parse": {
  "tightened": [
   "C77_transmitter_parse"
  ],
  "note": "the class was not compared with its syntax tree at the time; confirmed in Q1"
 },
 "U3:IntercomControlPdu.serialize": {
  "tightened": [
   "C77_intercom_serialize"
  ],
  "note": "the class was not compared with its syntax tree at the time; confirmed in Q1"
 },
 "U3:IntercomControlPdu.parse": {
  "tightened": [
   "C77_intercom_parse"
  ],
  "note": "the class was not compared with its syntax tree at the time; confirmed in Q1"
 },
 "U4:IntercomControlPdu.serialize": {
  "tightened": [
   "C77_intercom_serialize"
  ],
  "note": "the class was not compared with its syntax tree at the time; confirmed in Q1"
 },
 "U4:IntercomControlPdu.parse": {
  "tightened": [
   "C77_intercom_parse"
  ],
  "note": "the class was not compared with its syntax tree at the time; confirmed in Q1"
 },
 "U4:DirectedEnergyFirePdu.serialize": {
  "tightened": [
   "C77_serialize"
  ],
  "note": "the class was not compared with its syntax tree at the time; confirmed in Q1"
 },
 "U4:DirectedEnergyFirePdu.parse": {
  "tightened": [
   "C77_parse"
  ],
  "note": "the class was not compared with its syntax tree at the time; confirmed in Q1"
 },
 "U4:EntityDamageStatusPdu.serialize": {
  "tightened": [
   "C77_serialize"
  ],
  "note": "the class was not compared with its syntax tree at the time; confirmed in Q1"
 },
 "U4:EntityDamageStatusPdu.parse": {
  "tightened": [
   "C77_parse"
  ],
  "note": "the class was not compared with its syntax tree at the time; confirmed in Q1"
 },
 "U5:BeamAntennaPattern.serialize": {
  "tightened": [
   "C77_transmitter_serialize"
  ],
  "note": "the class was not compared with its syntax tree at the time; confirmed in Q1"
 },
 "U5:BeamAntennaPattern.parse": {
  "tightened": [
   "C77_transmitter_parse"
  ],
  "note": "the class was not compared with its syntax tree at the time; confirmed in Q1"
 },
 "U5:SpreadSpectrum.serialize": {
  "tightened": [
   "C77_transmitter_serialize"
  ],
  "note": "the class was not compared with its syntax tree at the time; confirmed in Q1"
 },
 "U5:SpreadSpectrum.parse": {
  "tightened": [
   "C77_transmitter_parse"
  ],
  "note": "the class was not compared with its syntax tree at the time; confirmed in Q1"
 },
 "U5:ModulationType.serialize": {
  "tightened": [
   "C77_transmitter_serialize"
  ],
  "note": "the class was not compared with its syntax tree at the time; confirmed in Q1"
 },
 "U5:ModulationType.parse": {
  "tightened": [
   "C77_transmitter_parse"
  ],
  "note": "the class was not compared with its syntax tree at the time; confirmed in Q1"
 },
 "U5:NetId.serialize": {
  "tightened": [
   "C77_transmitter_serialize"
  ],
  "note": "the class was not compared with its syntax tree at the time; confirmed in Q1"
 },
 "U5:NetId.parse": {
  "tightened": [
   "C77_transmitter_parse"
  ],
  "note": "the class was not compared with its syntax tree at the time; confirmed in Q1"
 },
 "U5:BasicHaveQuickMP.serialize": {
  "tightened": [
   "C77_transmitter_serialize"
  ],
  "note": "the class was not compared with its syntax tree at the time; confirmed in Q1"
 },
 "U5:BasicHaveQuickMP.parse": {
  "tightened": [
   "C77_transmitter_parse"
  ],
  "note": "the class was not compared with its syntax tree at the time; confirmed in Q1"
 },
 "U5:CCTTSincgarsMP.serialize": {
  "tightened": [
   "C77_transmitter_serialize"
  ],
  "note": "the class was not compared with its syntax tree at the time; confirmed in Q1"
 },
 "U5:CCTTSincgarsMP.parse": {
  "tightened": [
   "C77_transmitter_parse"
  ],
  "note": "the class was not compared with its syntax tree at the time; confirmed in Q1"
 },
 "U5:HighFidelityHAVEQUICKRadio.serialize": {
  "tightened": [
   "C77_transmitter_serialize"
  ],
  "note": "the class was not compared with its syntax tree at the time; confirmed in Q1"
 },
 "U5:HighFidelityHAVEQUICKRadio.parse": {
  "tightened": [
   "C77_transmitter_parse"
  ],
  "note": "the class was not compared with its syntax tree at the time; confirmed in Q1"
 },
 "U5:DirectedEnergyDamage.serialize": {
  "tightened": [
   "C77_serialize"
  ],
  "note": "the class was not compared with its syntax tree at the time; confirmed in Q1"
 },
 "U5:DirectedEnergyDamage.parse": {
  "tightened": [
   "C77_parse"
  ],
  "note": "the class was not compared with its syntax tree at the time; confirmed in Q1"
 },
 "U5:DirectedEnergyAreaAimpoint.serialize": {
  "tightened": [
   "C77_serialize"
  ],
  "note": "the class was not compared with its syntax tree at the time; confirmed in Q1"
 },
 "U5:DirectedEnergyAreaAimpoint.parse": {
  "tightened": [
   "C77_parse"
  ],
  "note": "the class was not compared with its syntax tree at the time; confirmed in Q1"
 },
 "U5:DirectedEnergyPrecisionAimpoint.serialize": {
  "tightened": [
   "C77_serialize"
  ],
  "note": "the class was not compared with its syntax tree at the time; confirmed in Q1"
 },
 "U5:DirectedEnergyPrecisionAimpoint.parse": {
  "tightened": [
   "C77_parse"
  ],
  "note": "the class was not compared with its syntax tree at the time; confirmed in Q1"
 },
 "U5:DirectedEnergyTargetEnergyDeposition.serialize": {
  "tightened": [
   "C77_serialize"
  ],
  "note": "the class was not compared with its syntax tree at the time; confirmed in Q1"
 },
 "U5:DirectedEnergyTargetEnergyDeposition.parse": {
  "tightened": [
   "C77_parse"
  ],
  "note": "the class was not compared with its syntax tree at the time; confirmed in Q1"
 },
 "U5:StandardVariableRecord.serialize": {
  "tightened": [
   "C77_serializeRecord"
  ],
  "note": "the class was not compared with its syntax tree at the time"
 },
 "Q1:StandardVariableRecord.serialize": {
  "note": "its failures cannot be told from those of the records built with it; repeated alone as E1"
 },
 "U5:StandardVariableRecord.parse": {
  "tightened": [
   "C77_parseStandardVariableRecord"
  ],
  "note": "the class was not compared with its syntax tree at the time"
 },
 "Q1:StandardVariableRecord.parse": {
  "note": "its failures cannot be told from those of the records built with it; repeated alone as E2"
 },
 "W3:PduSuperclass.__init__": {
  "tightened": [
   "C77_header_init"
  ],
  "note": "__init__ of this class was not compared with its syntax tree at the time; confirmed in Q1"
 },
 "W5:PduSuperclass.__init__": {
  "tightened": [
   "C77_header_init"
  ],
  "note": "__init__ of this class was not compared with its syntax tree at the time; confirmed in Q1"
 },
 "V1:PduSuperclass.__init__": {
  "tightened": [
   "C77_header_init"
  ],
  "note": "__init__ of this class was not compared with its syntax tree at the time; confirmed in Q1"
 },
 "V2:PduSuperclass.__init__": {
  "tightened": [
   "C77_header_init"
  ],
  "note": "__init__ of this class was not compared with its syntax tree at the time; confirmed in Q1"
 },
 "W3:LiveEntityPdu.__init__": {
  "tightened": [
   "C77_pdu_init"
  ],
  "note": "__init__ of this class was not compared with its syntax tree at the time; confirmed in Q1"
 },
 "W5:LiveEntityPdu.__init__": {
  "tightened": [
   "C77_pdu_init"
  ],
  "note": "__init__ of this class was not compared with its syntax tree at the time; confirmed in Q1"
 },
 "V1:LiveEntityPdu.__init__": {
  "tightened": [
   "C77_pdu_init"
  ],
  "note": "__init__ of this class was not compared with its syntax tree at the time; confirmed in Q1"
 },
 "V2:LiveEntityPdu.__init__": {
  "tightened": [
   "C77_pdu_init"
  ],
  "note": "__init__ of this class was not compared with its syntax tree at the time; confirmed in Q1"
 },
 "W3:SimulationManagementFamilyPdu.__init__": {
  "tightened": [
   "C77_management_init"
  ],
  "note": "__init__ of this class was not compared with its syntax tree at the time; confirmed in Q1"
 },
 "W5:SimulationManagementFamilyPdu.__init__": {
  "tightened": [
   "C77_management_init"
  ],
  "note": "__init__ of this class was not compared with its syntax tree at the time; confirmed in Q1"
 },
 "V1:SimulationManagementFamilyPdu.__init__": {
  "tightened": [
   "C77_management_init"
  ],
  "note": "__init__ of this class was not compared with its syntax tree at the time; confirmed in Q1"
 },
 "V2:SimulationManagementFamilyPdu.__init__": {
  "tightened": [
   "C77_management_init"
  ],
  "note": "__init__ of this class was not compared with its syntax tree at the time; confirmed in Q1"
 },
 "W3:WarfareFamilyPdu.__init__": {
  "tightened": [
   "C77_warfare_init"
  ],
  "note": "__init__ of this class was not compared with its syntax tree at the time; confirmed in Q1"
 },
 "W5:WarfareFamilyPdu.__init__": {
  "tightened": [
   "C77_warfare_init"
  ],
  "note": "__init__ of this class was not compared with its syntax tree at the time; confirmed in Q1"
 },
 "V1:WarfareFamilyPdu.__init__": {
  "tightened": [
   "C77_warfare_init"
  ],
  "note": "__init__ of this class was not compared with its syntax tree at the time; confirmed in Q1"
 },
 "V2:WarfareFamilyPdu.__init__": {
  "tightened": [
   "C77_warfare_init"
  ],
  "note": "__init__ of this class was not compared with its syntax tree at the time; confirmed in Q1"
 },
 "W3:SimulationManagementWithReliabilityFamilyPdu.__init__": {
  "tightened": [
   "C77_management_init"
  ],
  "note": "__init__ of this class was not compared with its syntax tree at the time; confirmed in Q1"
 },
 "W5:SimulationManagementWithReliabilityFamilyPdu.__init__": {
  "tightened": [
   "C77_management_init"
  ],
  "note": "__init__ of this class was not compared with its syntax tree at the time; confirmed in Q1"
 },
 "V1:SimulationManagementWithReliabilityFamilyPdu.__init__": {
  "tightened": [
   "C77_management_init"
  ],
  "note": "__init__ of this class was not compared with its syntax tree at the time; confirmed in Q1"
 },
 "V2:SimulationManagementWithReliabilityFamilyPdu.__init__": {
  "tightened": [
   "C77_management_init"
  ],
  "note": "__init__ of this class was not compared with its syntax tree at the time; confirmed in Q1"
 },
 "W3:UnknownStandardVariableRecord.__init__": {
  "tightened": [
   "C77_construct_unknown"
  ],
  "note": "__init__ of this class was not compared with its syntax tree at the time; confirmed in Q1"
 },
 "W5:UnknownStandardVariableRecord.__init__": {
  "tightened": [
   "C77_construct_unknown"
  ],
  "note": "__init__ of this class was not compared with its syntax tree at the time; confirmed in Q1"
 },
 "V1:UnknownStandardVariableRecord.__init__": {
  "tightened": [
   "C77_construct_unknown"
  ],
  "note": "__init__ of this class was not compared with its syntax tree at the time; confirmed in Q1"
 },
 "V2:UnknownStandardVariableRecord.__init__": {
  "tightened": [
   "C77_construct_unknown"
  ],
  "note": "__init__ of this class was not compared with its syntax tree at the time; confirmed in Q1"
 },
 "W3:HighFidelityHAVEQUICKRadio.__init__": {
  "tightened": [
   "C77_construct_radio"
  ],
  "note": "__init__ of this class was not compared with its syntax tree at the time; confirmed in Q1"
 },
 "W5:HighFidelityHAVEQUICKRadio.__init__": {
  "tightened": [
   "C77_construct_radio"
  ],
  "note": "__init__ of this class was not compared with its syntax tree at the time; confirmed in Q1"
 },
 "V1:HighFidelityHAVEQUICKRadio.__init__": {
  "tightened": [
   "C77_construct_radio"
  ],
  "note": "__init__ of this class was not compared with its syntax tree at the time; confirmed in Q1"
 },
 "V2:HighFidelityHAVEQUICKRadio.__init__": {
  "tightened": [
   "C77_construct_radio"
  ],
  "note": "__init__ of this class was not compared with its syntax tree at the time; confirmed in Q1"
 },
 "W3:LinearObjectStatePdu.__init__": {
  "note": "the constructor raises before or after the edited statement in every call, so the edit makes no observable difference; that it raises is C77_raises_with"
 },
 "W4:LinearObjectStatePdu.__init__": {
  "note": "the constructor raises before or after the edited statement in every call, so the edit makes no observable difference; that it raises is C77_raises_with"
 },
 "Q1:LinearObjectStatePdu.__init__": {
  "note": "the constructor raises before or after the edited statement in every call, so the edit makes no observable difference; that it raises is C77_raises_with"
 },
 "W3:AttributePdu.__init__": {
  "note": "the constructor raises before or after the edited statement in every call, so the edit makes no observable difference; that it raises is C77_raises_with"
 },
 "W4:AttributePdu.__init__": {
  "note": "the constructor raises before or after the edited statement in every call, so the edit makes no observable difference; that it raises is C77_raises_with"
 },
 "Q1:AttributePdu.__init__": {
  "note": "the constructor raises before or after the edited statement in every call, so the edit makes no observable difference; that it raises is C77_raises_with"
 },
 "S24": {
  "note": "the payload of a NaN widened from float32: the edit keeps the quiet bit of a quiet NaN and differs on signalling ones only, which the platform decides; not claimed"
 },
 "F02": {
  "tightened": [
   "C62_sum_zero"
  ],
  "note": "repeated with the new theorem: C62_sum_comm, C62_sum_zero and C62_difference_self fail"
 },
 "D02": {
  "failed": [
   "get_rotation_matrix_runs",
   "drm_fpb_runs",
   "drm_rpb_runs"
  ],
  "note": "the claims of C78 rest on these lemmas; after that error the prover ran out of memory, so the other claims of the module were not reached"
 },
 "D05": {
  "failed": [
   "drm_rpw_runs"
  ],
  "note": "the claims of C78 rest on these lemmas; after that error the prover ran out of memory, so the other claims of the module were not reached"
 },
 "D06": {
  "failed": [
   "drm_rvw_runs"
  ],
  "note": "the claims of C78 rest on these lemmas; after that error the prover ran out of memory, so the other claims of the module were not reached"
 },
 "D09": {
  "failed": [
   "drm_rpb_runs"
  ],
  "note": "the claims of C78 rest on this lemma; after that error the prover ran out of memory, so the other claims of the module were not reached"
 },
 "L06": {
  "failed": [
   "drm_fpb_runs",
   "drm_rpb_runs"
  ],
  "note": "the claims of C78 rest on these lemmas; after that error the prover ran out of memory, so the other claims of the module were not reached"
 },
 "L15": {
  "failed": [
   "get_rotation_matrix_runs",
   "drm_rpw_runs"
  ],
  "note": "the claims of C78 rest on these lemmas; after that error the prover ran out of memory, so the other claims of the module were not reached"
 },
 "L07": {
  "failed": [
   "lla_pre"
  ],
  "note": "the build was stopped at the first module that failed; the claims of C78 rest on these lemmas"
 },
 "L08": {
  "failed": [
   "compare_int_le",
   "compare_int_lt"
  ],
  "note": "the build was stopped at the first module that failed; the claims of C78 rest on these lemmas"
 },
 "L09": {
  "failed": [
   "ecef2ned_gives",
   "ned2ecef_gives"
  ],
  "note": "the build was stopped at the first module that failed; the claims of C78 rest on these lemmas"
 },
 "L11": {
  "failed": [
   "lla_pre"
  ],
  "note": "the build was stopped at the first module that failed; the claims of C78 rest on these lemmas"
 },
 "L12": {
  "failed": [
   "lla_test"
  ],
  "note": "the build was stopped at the first module that failed; the claims of C78 rest on these lemmas"
 },
 "L13": {
  "failed": [
   "item_past"
  ],
  "note": "the build was stopped at the first module that failed; the claims of C78 rest on these lemmas"
 },
 "L14": {
  "failed": [
   "llarpy2ecef_np",
   "ecef2llarpy_np"
  ],
  "note": "the build was stopped at the first module that failed; the claims of C78 rest on these lemmas"
 },
 "L03": {
  "failed": [],
  "note": "equivalent for these programs: the one division of numpy scalars (DeadReckoning.py:199) is behind a test that the divisor is not small; the proofs about it (Proof/CalcDr) run out of memory, all others go through"
 },
 "L10": {
  "failed": [],
  "tightened": [
   "C78_whole_arrays",
   "C78_dead_reckoning_lists",
   "C78_array_overflow"
  ],
  "note": "no theorem called dead reckoning with lists of whole numbers; repeated with the new theorems, array_numbers and array_refused fail"
 },
 "D20": {
  "failed": [
   "get_rotation_matrix_runs",
   "drm_fpb_runs",
   "drm_rpb_runs"
  ],
  "note": "the claims of C78 rest on these lemmas; after that error the prover ran out of memory, so the other claims of the module were not reached"
 },
 "D23": {
  "failed": [],
  "note": "the prover ran out of memory in Proof/CalcDr before it reported an error; without the edit that module builds in half a minute"
 },
 "D24": {
  "failed": [
   "drm_rvw_runs"
  ],
  "note": "the claims of C78 rest on these lemmas; after that error the prover ran out of memory, so the other claims of the module were not reached"
 },
 "D27": {
  "failed": [
   "drm_rpb_runs"
  ],
  "note": "the claims of C78 rest on these lemmas; after that error the prover ran out of memory, so the other claims of the module were not reached"
 },
 "D28": {
  "failed": [
   "drm_rvb_runs"
  ],
  "note": "the claims of C78 rest on these lemmas; after that error the prover ran out of memory, so the other claims of the module were not reached"
 }
}