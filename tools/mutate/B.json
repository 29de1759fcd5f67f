[
 {
  "id": "B01",
  "edits": [
   {
    "file": "Verif/Model/Bitfield.lean",
    "within": "packBits",
    "old": "* 2 ^ ws.sum + packBits ws vs.tail",
    "new": "+ 2 ^ w * packBits ws vs.tail",
    "count": 1
   }
  ],
  "definition": "packBits",
  "edit": "* 2 ^ ws.sum + packBits ws vs.tail -> + 2 ^ w * packBits ws vs.tail",
  "claim": "first field in the most significant bits",
  "expect": [
   "C24"
  ]
 },
 {
  "id": "B02",
  "edits": [
   {
    "file": "Verif/Model/Bitfield.lean",
    "within": "packBits",
    "old": "(vs.headD 0 % 2 ^ w).toNat",
    "new": "(vs.headD 0).toNat",
    "count": 1
   }
  ],
  "definition": "packBits",
  "edit": "(vs.headD 0 % 2 ^ w).toNat -> (vs.headD 0).toNat",
  "claim": "values are truncated to the field width",
  "expect": [
   "C24"
  ]
 },
 {
  "id": "B03",
  "edits": [
   {
    "file": "Verif/Model/Bitfield.lean",
    "within": "packBits",
    "old": "* 2 ^ ws.sum + packBits ws vs.tail",
    "new": "+ 2 ^ w * packBits ws vs.tail",
    "count": 1
   },
   {
    "file": "Verif/Model/Bitfield.lean",
    "within": "unpackBits",
    "old": "n / 2 ^ ws.sum % 2 ^ w",
    "new": "n % 2 ^ w",
    "count": 1
   },
   {
    "file": "Verif/Model/Bitfield.lean",
    "within": "unpackBits",
    "old": ":: unpackBits ws n",
    "new": ":: unpackBits ws (n / 2 ^ w)",
    "count": 1
   }
  ],
  "definition": "packBits, unpackBits",
  "edit": "first field in the least significant bits in both directions",
  "claim": "fields are laid out most significant first",
  "expect": [
   "C24"
  ]
 },
 {
  "id": "B04",
  "edits": [
   {
    "file": "Verif/Model/Bitfield.lean",
    "within": "bitfieldFirstPass",
    "old": "bits ≤ 0 ∨ bits > 32",
    "new": "bits < 0 ∨ bits > 32",
    "count": 1
   }
  ],
  "definition": "bitfieldFirstPass",
  "edit": "bits ≤ 0 ∨ bits > 32 -> bits < 0 ∨ bits > 32",
  "claim": "zero-width fields are rejected",
  "expect": [
   "C25"
  ]
 },
 {
  "id": "B05",
  "edits": [
   {
    "file": "Verif/Model/Bitfield.lean",
    "within": "bitfield",
    "old": "if bitsize = 0 then .error .valueError\n    else if",
    "new": "if",
    "count": 1
   }
  ],
  "definition": "bitfield",
  "edit": "if bitsize = 0 then .error .valueError\n    else if -> if",
  "claim": "empty field lists are rejected with ValueError",
  "expect": [
   "C25"
  ]
 },
 {
  "id": "B06",
  "edits": [
   {
    "file": "Verif/Model/Bitfield.lean",
    "within": "bitfieldBaseSize",
    "old": "bitsize ≤ 16 then .ok 2",
    "new": "bitsize ≤ 16 then .ok 4",
    "count": 1
   }
  ],
  "definition": "bitfieldBaseSize",
  "edit": "bitsize ≤ 16 then .ok 2 -> bitsize ≤ 16 then .ok 4",
  "claim": "16-bit structures",
  "expect": [
   "C25"
  ]
 },
 {
  "id": "B07",
  "edits": [
   {
    "file": "Verif/Model/Bitfield.lean",
    "within": "Bitfield.fromBufferCopy",
    "old": "if b.length < ws.sum / 8 then .error .valueError\n  else",
    "new": "if False then .error .valueError\n  else",
    "count": 1
   }
  ],
  "definition": "Bitfield.fromBufferCopy",
  "edit": "if b.length < ws.sum / 8 then .error .valueError\n  else -> if False then .error .valueError\n  else",
  "claim": "short bit fields are rejected",
  "expect": [
   "C10",
   "C24"
  ]
 },
 {
  "id": "B08",
  "edits": [
   {
    "file": "Verif/Model/Bitfield.lean",
    "within": "bitfield",
    "old": "if size = bitsize / 8 then .ok ws else .error .assertionError",
    "new": ".ok ws",
    "count": 1
   }
  ],
  "definition": "bitfield",
  "edit": "if size = bitsize / 8 then .ok ws else .error .assertionError -> .ok ws",
  "claim": "24-bit totals are rejected",
  "expect": [
   "C25"
  ]
 },
 {
  "id": "B09",
  "edits": [
   {
    "file": "Verif/Model/Bitfield.lean",
    "within": "bitfieldFirstPass",
    "old": "if f.isInteger = false then .error .valueError\n    else ",
    "new": "",
    "count": 1
   }
  ],
  "definition": "bitfieldFirstPass",
  "edit": "if f.isInteger = false then .error .valueError\n    else -> ",
  "claim": "non-integer fields are rejected",
  "expect": []
 },
 {
  "id": "B10",
  "edits": [
   {
    "file": "Verif/Model/Text.lean",
    "within": "EntityMarking.setStringLoop",
    "old": "else 0)",
    "new": "else 32)",
    "count": 1
   }
  ],
  "definition": "EntityMarking.setStringLoop",
  "edit": "else 0) -> else 32)",
  "claim": "short texts are padded with NUL",
  "expect": [
   "C29"
  ]
 },
 {
  "id": "B11",
  "edits": [
   {
    "file": "Verif/Model/Text.lean",
    "within": "EntityMarking.setString",
    "old": "0 11 self",
    "new": "0 10 self",
    "count": 1
   }
  ],
  "definition": "EntityMarking.setString",
  "edit": "0 11 self -> 0 10 self",
  "claim": "all eleven characters are set",
  "expect": [
   "C29"
  ]
 },
 {
  "id": "B12",
  "edits": [
   {
    "file": "Verif/Model/Text.lean",
    "within": "EntityMarking.charactersString",
    "old": "c ≠ 0",
    "new": "c > 32",
    "count": 1
   }
  ],
  "definition": "EntityMarking.charactersString",
  "edit": "c ≠ 0 -> c > 32",
  "claim": "only NULs are dropped",
  "expect": [
   "C29"
  ]
 },
 {
  "id": "B13",
  "edits": [
   {
    "file": "Verif/Model/Text.lean",
    "within": "toBytes",
    "old": "v < 256",
    "new": "v < 128",
    "count": 1
   }
  ],
  "definition": "toBytes",
  "edit": "v < 256 -> v < 128",
  "claim": "bytes of 128..255 are accepted by bytes()",
  "expect": [
   "C29"
  ]
 },
 {
  "id": "B14",
  "edits": [
   {
    "file": "Verif/Model/Text.lean",
    "within": "utf8Decode",
    "old": "(a.toNat - 0xC0) * 64",
    "new": "(a.toNat - 0xC0) * 32",
    "count": 1
   }
  ],
  "definition": "utf8Decode",
  "edit": "(a.toNat - 0xC0) * 64 -> (a.toNat - 0xC0) * 32",
  "claim": "UTF-8 decoding of two-byte characters",
  "expect": [
   "C29"
  ]
 },
 {
  "id": "B15",
  "edits": [
   {
    "file": "Verif/Model/Factory.lean",
    "within": "getPdu",
    "old": "read_byte",
    "new": "read_unsigned_byte",
    "count": 1
   }
  ],
  "definition": "getPdu",
  "edit": "read_byte -> read_unsigned_byte",
  "claim": "type bytes of 128 and above (equivalent: no such entries)",
  "expect": []
 },
 {
  "id": "B16",
  "edits": [
   {
    "file": "Verif/Model/Factory.lean",
    "within": "getPdu",
    "old": "R.seek 2",
    "new": "R.seek 3",
    "count": 1
   }
  ],
  "definition": "getPdu",
  "edit": "R.seek 2 -> R.seek 3",
  "claim": "the third byte selects the class",
  "expect": [
   "C19"
  ]
 },
 {
  "id": "B17",
  "edits": [
   {
    "file": "Verif/Model/Factory.lean",
    "within": "PduTypeDecoders",
    "old": "(2, .FirePdu)",
    "new": "(2, .DetonationPdu)",
    "count": 1
   }
  ],
  "definition": "PduTypeDecoders",
  "edit": "(2, .FirePdu) -> (2, .DetonationPdu)",
  "claim": "type 2 is FirePdu",
  "expect": [
   "C19",
   "C21",
   "C22"
  ]
 },
 {
  "id": "B18",
  "edits": [
   {
    "file": "Verif/Model/Factory.lean",
    "within": "PduTypeDecoders",
    "old": "(41, .PointObjectStatePdu)",
    "new": "(41, .ArealObjectStatePdu)",
    "count": 1
   }
  ],
  "definition": "PduTypeDecoders",
  "edit": "(41, .PointObjectStatePdu) -> (41, .ArealObjectStatePdu)",
  "claim": "documented wrong entry 41",
  "expect": [
   "C22"
  ]
 },
 {
  "id": "B19",
  "edits": [
   {
    "file": "Verif/Model/Factory.lean",
    "within": "getPdu",
    "old": "| none => return none",
    "new": "| none => R.throw .typeError",
    "count": 1
   }
  ],
  "definition": "getPdu",
  "edit": "| none => return none -> | none => R.throw .typeError",
  "claim": "unknown types give None",
  "expect": [
   "C19"
  ]
 },
 {
  "id": "B20",
  "edits": [
   {
    "file": "Verif/Model/Factory.lean",
    "within": "createPdu",
    "old": "⟨data, 0⟩",
    "new": "⟨data, 1⟩",
    "count": 1
   }
  ],
  "definition": "createPdu",
  "edit": "⟨data, 0⟩ -> ⟨data, 1⟩",
  "claim": "(equivalent: getPdu seeks)",
  "expect": []
 },
 {
  "id": "B21",
  "edits": [
   {
    "file": "Verif/Model/Factory.lean",
    "within": "PduTypeDecoders",
    "old": "  (69, .EntityDamageStatusPdu)]",
    "new": "  (68, .EntityDamageStatusPdu)]",
    "count": 1
   }
  ],
  "definition": "PduTypeDecoders",
  "edit": "(69, .EntityDamageStatusPdu)] -> (68, .EntityDamageStatusPdu)]",
  "claim": "type 69 is EntityDamageStatusPdu",
  "expect": [
   "C19",
   "C21",
   "C22"
  ]
 },
 {
  "id": "B22",
  "edits": [
   {
    "file": "Verif/Model/Radio.lean",
    "within": "SpreadSpectrum.parse",
    "old": "record_bitfield.getD 1 0",
    "new": "record_bitfield.getD 2 0",
    "count": 1
   }
  ],
  "definition": "SpreadSpectrum.parse",
  "edit": "record_bitfield.getD 1 0 -> record_bitfield.getD 2 0",
  "claim": "each flag is read from its own bit",
  "expect": [
   "C24",
   "C08"
  ]
 },
 {
  "id": "B23",
  "edits": [
   {
    "file": "Verif/Model/Radio.lean",
    "within": "NetId.struct",
    "old": "[10, 2, 2, 2]",
    "new": "[2, 2, 2, 10]",
    "count": 1
   }
  ],
  "definition": "NetId.struct",
  "edit": "[10, 2, 2, 2] -> [2, 2, 2, 10]",
  "claim": "NetId layout",
  "expect": [
   "C24",
   "C25"
  ]
 },
 {
  "id": "B24",
  "edits": [
   {
    "file": "Verif/Model/Radio.lean",
    "within": "NetId.serialize",
    "old": "[self.netNumber, self.frequencyTable, self.mode, self.padding]",
    "new": "[self.netNumber, self.mode, self.frequencyTable, self.padding]",
    "count": 1
   },
   {
    "file": "Verif/Model/Radio.lean",
    "within": "NetId.parse",
    "old": "frequencyTable := record_bitfield.getD 1 0\n    mode := record_bitfield.getD 2 0",
    "new": "frequencyTable := record_bitfield.getD 2 0\n    mode := record_bitfield.getD 1 0",
    "count": 1
   }
  ],
  "definition": "NetId.serialize, NetId.parse",
  "edit": "frequencyTable and mode swapped in both",
  "claim": "NetId wire layout",
  "expect": [
   "C45"
  ]
 },
 {
  "id": "B25",
  "edits": [
   {
    "file": "Verif/Model/Radio.lean",
    "within": "UnknownAntennaPattern.parse",
    "old": "bytelength - 6",
    "new": "bytelength",
    "count": 1
   }
  ],
  "definition": "UnknownAntennaPattern.parse",
  "edit": "bytelength - 6 -> bytelength",
  "claim": "unknown antenna patterns lose six bytes (documented defect)",
  "expect": [
   "C26"
  ]
 },
 {
  "id": "B26",
  "edits": [
   {
    "file": "Verif/Model/Radio.lean",
    "within": "UnknownRadio.parse",
    "old": "read_bytes n",
    "new": "read_bytes (n - 6)",
    "count": 1
   }
  ],
  "definition": "UnknownRadio.parse",
  "edit": "read_bytes n -> read_bytes (n - 6)",
  "claim": "unknown radios keep all bytes",
  "expect": [
   "C26"
  ]
 },
 {
  "id": "B27",
  "edits": [
   {
    "file": "Verif/Model/Radio.lean",
    "within": "StandardVariableRecord.parse",
    "old": "bytelength % 8 = 0",
    "new": "True",
    "count": 1
   }
  ],
  "definition": "StandardVariableRecord.parse",
  "edit": "bytelength % 8 = 0 -> True",
  "claim": "lengths not divisible by 8 are rejected",
  "expect": [
   "C27"
  ]
 },
 {
  "id": "B28",
  "edits": [
   {
    "file": "Verif/Model/Radio.lean",
    "within": "StandardVariableRecord.serialize",
    "old": "write_uint32 marshalledSize",
    "new": "write_uint16 marshalledSize",
    "count": 1
   }
  ],
  "definition": "StandardVariableRecord.serialize",
  "edit": "write_uint32 marshalledSize -> write_uint16 marshalledSize",
  "claim": "the length field is 32 bits on the wire (documented defect)",
  "expect": [
   "C27",
   "C45"
  ]
 },
 {
  "id": "B29",
  "edits": [
   {
    "file": "Verif/Model/Radio.lean",
    "within": "VariableRecord.parse",
    "old": "n ≥ 0",
    "new": "n > 0",
    "count": 1
   }
  ],
  "definition": "VariableRecord.parse",
  "edit": "n ≥ 0 -> n > 0",
  "claim": "length zero is legal",
  "expect": [
   "C27",
   "C28"
  ]
 },
 {
  "id": "B30",
  "edits": [
   {
    "file": "Verif/Model/Special.lean",
    "within": "TransmitterPdu.parseModulationParameters",
    "old": "modulationType.radioSystem = 6",
    "new": "modulationType.radioSystem = 5",
    "count": 1
   }
  ],
  "definition": "TransmitterPdu.parseModulationParameters",
  "edit": "modulationType.radioSystem = 6 -> modulationType.radioSystem = 5",
  "claim": "CCTT SINCGARS is radio system 6",
  "expect": [
   "C26"
  ]
 },
 {
  "id": "B31",
  "edits": [
   {
    "file": "Verif/Model/Special.lean",
    "within": "TransmitterPdu.parseModulationParameters",
    "old": "if modulationType.majorModulation = 0 then pure (some .simpleIntercom)\n      else pure (some .generic)",
    "new": "pure (some .generic)",
    "count": 1
   }
  ],
  "definition": "TransmitterPdu.parseModulationParameters",
  "edit": "if modulationType.majorModulation = 0 then pure (some .simpleIntercom)\n      else pure (some .generic) -> pure (some .generic)",
  "claim": "intercom radios come back as SimpleIntercomRadio",
  "expect": [
   "C26"
  ]
 },
 {
  "id": "B32",
  "edits": [
   {
    "file": "Verif/Model/Special.lean",
    "within": "TransmitterPdu.antennaPatternLength",
    "old": "p.marshalledSize",
    "new": "p.marshalledSize + 4",
    "count": 1
   }
  ],
  "definition": "TransmitterPdu.antennaPatternLength",
  "edit": "p.marshalledSize -> p.marshalledSize + 4",
  "claim": "antenna pattern length",
  "expect": [
   "C26",
   "C45"
  ]
 },
 {
  "id": "B33",
  "edits": [
   {
    "file": "Verif/Model/Special.lean",
    "within": "TransmitterPdu.serialize",
    "old": "  W.whenSome self.modulationParameters ModulationParametersRecord.serialize\n  W.whenSome self.antennaPattern AntennaPatternRecord.serialize",
    "new": "  W.whenSome self.antennaPattern AntennaPatternRecord.serialize\n  W.whenSome self.modulationParameters ModulationParametersRecord.serialize",
    "count": 1
   }
  ],
  "definition": "TransmitterPdu.serialize",
  "edit": "antenna pattern before modulation parameters",
  "claim": "order of the variable parts",
  "expect": [
   "C26"
  ]
 },
 {
  "id": "B34",
  "edits": [
   {
    "file": "Verif/Model/Special.lean",
    "within": "TransmitterPdu.serialize",
    "old": "write_uint16 self.variableTransmitterParameters.length",
    "new": "write_uint16 0",
    "count": 1
   }
  ],
  "definition": "TransmitterPdu.serialize",
  "edit": "write_uint16 self.variableTransmitterParameters.length -> write_uint16 0",
  "claim": "variable parameter count",
  "expect": [
   "C15",
   "C26"
  ]
 },
 {
  "id": "B35",
  "edits": [
   {
    "file": "Verif/Model/Special.lean",
    "within": "TransmitterPdu.parse",
    "old": "self.variableTransmitterParameters ++ vtps",
    "new": "vtps",
    "count": 1
   }
  ],
  "definition": "TransmitterPdu.parse",
  "edit": "self.variableTransmitterParameters ++ vtps -> vtps",
  "claim": "parsing into a used object appends",
  "expect": [
   "C18"
  ]
 },
 {
  "id": "B36",
  "edits": [
   {
    "file": "Verif/Model/Warfare.lean",
    "within": "variableRecordClass",
    "old": "recordType = 4001",
    "new": "recordType = 4002",
    "count": 1
   }
  ],
  "definition": "variableRecordClass",
  "edit": "recordType = 4001 -> recordType = 4002",
  "claim": "record type 4001 is the area aimpoint",
  "expect": [
   "C28"
  ]
 },
 {
  "id": "B37",
  "edits": [
   {
    "file": "Verif/Model/Warfare.lean",
    "within": "SVClass.isSubclass",
    "old": ".directedEnergyDamage, .damageDescription => true",
    "new": ".directedEnergyDamage, .variableTransmitterParameters => true",
    "count": 1
   }
  ],
  "definition": "SVClass.isSubclass",
  "edit": ".directedEnergyDamage, .damageDescription => true -> .directedEnergyDamage, .variableTransmitterParameters => true",
  "claim": "DirectedEnergyDamage is a DamageDescriptionRecord",
  "expect": [
   "C28"
  ]
 },
 {
  "id": "B38",
  "edits": [
   {
    "file": "Verif/Model/Warfare.lean",
    "within": "UnknownStandardVariableRecord.serialize",
    "old": "  write_uint32 self.recordType\n  write_uint16 self.marshalledSize\n",
    "new": "",
    "count": 1
   }
  ],
  "definition": "UnknownStandardVariableRecord.serialize",
  "edit": "write_uint32 self.recordType\n  write_uint16 self.marshalledSize -> ",
  "claim": "unknown records repeat type and length (documented defect)",
  "expect": [
   "C27"
  ]
 },
 {
  "id": "B39",
  "edits": [
   {
    "file": "Verif/Model/Warfare.lean",
    "within": "getStandardVariableClass",
    "old": "recordType < 0",
    "new": "recordType ≤ 0",
    "count": 1
   }
  ],
  "definition": "getStandardVariableClass",
  "edit": "recordType < 0 -> recordType ≤ 0",
  "claim": "record type 0 is unknown, not an error",
  "expect": [
   "C28"
  ]
 },
 {
  "id": "B40",
  "edits": [
   {
    "file": "Verif/Model/Warfare.lean",
    "within": "parseStandardVariableRecord",
    "old": "read_uint16",
    "new": "read_uint32",
    "count": 1
   }
  ],
  "definition": "parseStandardVariableRecord",
  "edit": "read_uint16 -> read_uint32",
  "claim": "the reader takes a 16-bit length (documented defect)",
  "expect": [
   "C27"
  ]
 },
 {
  "id": "B41",
  "edits": [
   {
    "file": "Verif/Model/Special.lean",
    "within": "IntercomControlPdu.parse",
    "old": "let intercomParameters ← R.throw .typeError",
    "new": "let intercomParameters := IntercomParametersValue.none",
    "count": 1
   }
  ],
  "definition": "IntercomControlPdu.parse",
  "edit": "let intercomParameters ← R.throw .typeError -> let intercomParameters := IntercomParametersValue.none",
  "claim": "type 32 never decodes",
  "expect": [
   "C23"
  ]
 },
 {
  "id": "B42",
  "edits": [
   {
    "file": "Verif/Model/Special.lean",
    "within": "DirectedEnergyFirePdu.serialize",
    "old": "W.using (attr self.commulativeShotTime) write_float32",
    "new": "write_float32 self.cumulativeShotTime",
    "count": 1
   }
  ],
  "definition": "DirectedEnergyFirePdu.serialize",
  "edit": "W.using (attr self.commulativeShotTime) write_float32 -> write_float32 self.cumulativeShotTime",
  "claim": "a fresh DirectedEnergyFirePdu cannot be serialized (documented defect)",
  "expect": [
   "C12"
  ]
 }
]