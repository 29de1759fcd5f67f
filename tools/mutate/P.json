[
 {
  "id": "P01",
  "edits": [
   {
    "file": "Verif/Model/Pdus1.lean",
    "within": "PduSuperclass.serialize",
    "old": "  write_unsigned_byte self.pduType\n  write_unsigned_byte self.protocolFamily",
    "new": "  write_unsigned_byte self.protocolFamily\n  write_unsigned_byte self.pduType",
    "count": 1
   },
   {
    "file": "Verif/Model/Pdus1.lean",
    "within": "PduSuperclass.parse",
    "old": "  let pduType ← read_unsigned_byte\n  let protocolFamily ← read_unsigned_byte",
    "new": "  let protocolFamily ← read_unsigned_byte\n  let pduType ← read_unsigned_byte",
    "count": 1
   }
  ],
  "definition": "PduSuperclass.serialize/parse",
  "edit": "type and family swapped in both",
  "claim": "header layout",
  "expect": [
   "C14",
   "C45"
  ]
 },
 {
  "id": "P02",
  "edits": [
   {
    "file": "Verif/Model/Pdus1.lean",
    "within": "PduSuperclass.serialize",
    "old": "write_unsigned_short (self.length : Int)",
    "new": "write_unsigned_short ((self.length + 1 : Int))",
    "count": 1
   }
  ],
  "definition": "PduSuperclass.serialize",
  "edit": "length + 1 written",
  "claim": "length is written as stored",
  "expect": [
   "C08",
   "C14"
  ]
 },
 {
  "id": "P03",
  "edits": [
   {
    "file": "Verif/Model/Common.lean",
    "within": "WorldCoordinates.serialize",
    "old": "  write_float64 self.y\n  write_float64 self.z",
    "new": "  write_float64 self.z\n  write_float64 self.y",
    "count": 1
   },
   {
    "file": "Verif/Model/Common.lean",
    "within": "WorldCoordinates.parse",
    "old": "  let y ← read_float64\n  let z ← read_float64",
    "new": "  let z ← read_float64\n  let y ← read_float64",
    "count": 1
   }
  ],
  "definition": "WorldCoordinates.serialize/parse",
  "edit": "y and z swapped in both",
  "claim": "wire layout",
  "expect": [
   "C45"
  ]
 },
 {
  "id": "P04",
  "edits": [
   {
    "file": "Verif/Model/Common.lean",
    "within": "EulerAngles.serialize",
    "old": "write_float32",
    "new": "write_float64",
    "count": 3
   },
   {
    "file": "Verif/Model/Common.lean",
    "within": "EulerAngles.parse",
    "old": "read_float32",
    "new": "read_float64",
    "count": 3
   }
  ],
  "definition": "EulerAngles.serialize/parse",
  "edit": "double precision in both",
  "claim": "EulerAngles is 12 bytes of single precision",
  "expect": [
   "C13",
   "C45"
  ]
 },
 {
  "id": "P05",
  "edits": [
   {
    "file": "Verif/Model/Pdus3.lean",
    "within": "EntityStatePdu.serialize",
    "old": "write_unsigned_byte (self.variableParameters.length : Int)",
    "new": "write_unsigned_byte ((self.variableParameters.length + 1 : Int))",
    "count": 1
   }
  ],
  "definition": "EntityStatePdu.serialize",
  "edit": "count one too high",
  "claim": "count fields tell the truth",
  "expect": [
   "C15",
   "C08"
  ]
 },
 {
  "id": "P06",
  "edits": [
   {
    "file": "Verif/Model/Pdus3.lean",
    "within": "EntityStatePdu.parse",
    "old": "R.times numberOfVariableParameters.toNat",
    "new": "R.times (numberOfVariableParameters - 1).toNat",
    "count": 1
   }
  ],
  "definition": "EntityStatePdu.parse",
  "edit": "reads one parameter too few",
  "claim": "round trip",
  "expect": [
   "C08"
  ]
 },
 {
  "id": "P07",
  "edits": [
   {
    "file": "Verif/Model/Pdus3.lean",
    "within": "EntityStatePdu.parse",
    "old": "alternativeEntityType := alternativeEntityType",
    "new": "alternativeEntityType := entityType",
    "count": 1
   }
  ],
  "definition": "EntityStatePdu.parse",
  "edit": "alternativeEntityType assigned from entityType",
  "claim": "round trip",
  "expect": [
   "C08"
  ]
 },
 {
  "id": "P08",
  "edits": [
   {
    "file": "Verif/Model/Pdus5.lean",
    "within": "FirePdu.serialize",
    "old": "  Vector3Float.serialize self.velocity\n  write_float self.range",
    "new": "  write_float self.range\n  Vector3Float.serialize self.velocity",
    "count": 1
   },
   {
    "file": "Verif/Model/Pdus5.lean",
    "within": "FirePdu.parse",
    "old": "  let velocity ← Vector3Float.parse self.velocity\n  let range ← read_float",
    "new": "  let range ← read_float\n  let velocity ← Vector3Float.parse self.velocity",
    "count": 1
   }
  ],
  "definition": "FirePdu.serialize/parse",
  "edit": "velocity and range swapped in both",
  "claim": "wire layout of FirePdu",
  "expect": [
   "C45"
  ]
 },
 {
  "id": "P09",
  "edits": [
   {
    "file": "Verif/Model/Pdus5.lean",
    "within": "SignalPdu.serialize",
    "old": "(self.data.length : Int) * 8",
    "new": "(self.data.length : Int)",
    "count": 1
   },
   {
    "file": "Verif/Model/Pdus5.lean",
    "within": "SignalPdu.parse",
    "old": "(dataLength / 8).toNat",
    "new": "dataLength.toNat",
    "count": 1
   }
  ],
  "definition": "SignalPdu.serialize/parse",
  "edit": "length in bytes in both",
  "claim": "data length is in bits",
  "expect": [
   "C31"
  ]
 },
 {
  "id": "P10",
  "edits": [
   {
    "file": "Verif/Model/Pdus5.lean",
    "within": "SignalPdu.parse",
    "old": "data := self.data ++ data",
    "new": "data := data",
    "count": 1
   }
  ],
  "definition": "SignalPdu.parse",
  "edit": "replaces instead of appending",
  "claim": "parsing into a used object appends",
  "expect": [
   "C18"
  ]
 },
 {
  "id": "P11",
  "edits": [
   {
    "file": "Verif/Model/Records3.lean",
    "within": "VariableDatum.datumPaddingSizeInBits",
    "old": "64 - self.variableDatumLength % 64",
    "new": "self.variableDatumLength % 64",
    "count": 1
   }
  ],
  "definition": "VariableDatum.datumPaddingSizeInBits",
  "edit": "padding is the remainder",
  "claim": "multiple of 8 bytes",
  "expect": [
   "C30"
  ]
 },
 {
  "id": "P12",
  "edits": [
   {
    "file": "Verif/Model/Records3.lean",
    "within": "VariableDatum.serialize",
    "old": "fun _ => write_unsigned_byte 0",
    "new": "fun _ => write_unsigned_byte 255",
    "count": 1
   }
  ],
  "definition": "VariableDatum.serialize",
  "edit": "padding bytes 255",
  "claim": "padding is zero",
  "expect": [
   "C30",
   "C45"
  ]
 },
 {
  "id": "P13",
  "edits": [
   {
    "file": "Verif/Model/Records3.lean",
    "within": "VariableDatum.datumPaddingSizeInBits",
    "old": "64",
    "new": "32",
    "count": 3
   }
  ],
  "definition": "VariableDatum.datumPaddingSizeInBits",
  "edit": "pads to 4 bytes",
  "claim": "multiple of 8 bytes",
  "expect": [
   "C30"
  ]
 },
 {
  "id": "P14",
  "edits": [
   {
    "file": "Verif/Model/Records3.lean",
    "within": "DatumSpecification.serialize",
    "old": "  write_unsigned_int (self.fixedDatumRecords.length : Int)\n  write_unsigned_int (self.variableDatumRecords.length : Int)",
    "new": "  write_unsigned_int (self.variableDatumRecords.length : Int)\n  write_unsigned_int (self.fixedDatumRecords.length : Int)",
    "count": 1
   }
  ],
  "definition": "DatumSpecification.serialize",
  "edit": "counts swapped",
  "claim": "counts tell the truth",
  "expect": [
   "C15",
   "C08"
  ]
 },
 {
  "id": "P15",
  "edits": [
   {
    "file": "Verif/Model/Records5.lean",
    "within": "EmissionSystemRecord.serialize",
    "old": "write_unsigned_short 0",
    "new": "write_unsigned_short 1",
    "count": 1
   }
  ],
  "definition": "EmissionSystemRecord.serialize",
  "edit": "filler is 1",
  "claim": "filler is zero",
  "expect": [
   "C45"
  ]
 },
 {
  "id": "P16",
  "edits": [
   {
    "file": "Verif/Model/Pdus1.lean",
    "within": "CollisionPdu.init",
    "old": "issuingEntityID.getD",
    "new": "collidingEntityID.getD",
    "count": 1
   }
  ],
  "definition": "CollisionPdu.init",
  "edit": "issuingEntityID taken from the wrong argument",
  "claim": "constructor stores its arguments",
  "expect": []
 },
 {
  "id": "P17",
  "edits": [
   {
    "file": "Verif/Model/Pdus1.lean",
    "within": "EntityStateUpdatePdu",
    "old": "pduType := 67",
    "new": "pduType := 68",
    "count": 1
   }
  ],
  "definition": "EntityStateUpdatePdu",
  "edit": "pduType 68",
  "claim": "type number of a fresh object",
  "expect": [
   "C21",
   "C22"
  ]
 },
 {
  "id": "P18",
  "edits": [
   {
    "file": "Verif/Model/Pdus1.lean",
    "within": "LogisticsFamilyPdu",
    "old": "protocolFamily := 3",
    "new": "protocolFamily := 4",
    "count": 1
   }
  ],
  "definition": "LogisticsFamilyPdu",
  "edit": "family number 4",
  "claim": "family number of a fresh object",
  "expect": []
 },
 {
  "id": "P19",
  "edits": [
   {
    "file": "Verif/Model/Records1.lean",
    "within": "EntityType.serialize",
    "old": "write_unsigned_short self.country",
    "new": "write_short self.country",
    "count": 1
   },
   {
    "file": "Verif/Model/Records1.lean",
    "within": "EntityType.parse",
    "old": "country ← read_unsigned_short",
    "new": "country ← read_short",
    "count": 1
   }
  ],
  "definition": "EntityType.serialize/parse",
  "edit": "country signed in both",
  "claim": "country is unsigned",
  "expect": [
   "C12",
   "C45"
  ]
 },
 {
  "id": "P20",
  "edits": [
   {
    "file": "Verif/Model/Pdus4.lean",
    "within": "MinefieldStatePdu.serialize",
    "old": "  W.forEach self.perimeterPoints Vector2Float.serialize\n  W.forEach self.mineTypes EntityType.serialize",
    "new": "  W.forEach self.mineTypes EntityType.serialize\n  W.forEach self.perimeterPoints Vector2Float.serialize",
    "count": 1
   },
   {
    "file": "Verif/Model/Pdus4.lean",
    "within": "MinefieldStatePdu.parse",
    "old": "  let perimeterPoints ← R.times numberOfPerimeterPoints.toNat (Vector2Float.parse Vector2Float.init)\n  let mineTypes ← R.times numberOfMineTypes.toNat (EntityType.parse EntityType.init)",
    "new": "  let mineTypes ← R.times numberOfMineTypes.toNat (EntityType.parse EntityType.init)\n  let perimeterPoints ← R.times numberOfPerimeterPoints.toNat (Vector2Float.parse Vector2Float.init)",
    "count": 1
   }
  ],
  "definition": "MinefieldStatePdu.serialize/parse",
  "edit": "lists swapped in both",
  "claim": "wire layout",
  "expect": [
   "C45"
  ]
 },
 {
  "id": "P21",
  "edits": [
   {
    "file": "Verif/Model/Pdus4.lean",
    "within": "FastEntityStatePdu.serialize",
    "old": "write_byte (self.variableParameters.length : Int)",
    "new": "write_unsigned_byte (self.variableParameters.length : Int)",
    "count": 1
   }
  ],
  "definition": "FastEntityStatePdu.serialize",
  "edit": "count unsigned",
  "claim": "count written as signed byte",
  "expect": [
   "C15",
   "C45"
  ]
 },
 {
  "id": "P22",
  "edits": [
   {
    "file": "Verif/Model/Records1.lean",
    "within": "IFFData.serialize",
    "old": "(self.iffData.length : Int)",
    "new": "(self.iffData.length + 6 : Int)",
    "count": 1
   }
  ],
  "definition": "IFFData.serialize",
  "edit": "length includes the six header bytes (repairs the defect)",
  "claim": "IFFData loses six bytes (documented defect)",
  "expect": []
 },
 {
  "id": "P23",
  "edits": [
   {
    "file": "Verif/Model/Pdus4.lean",
    "within": "DetonationPdu.serialize",
    "old": "  Vector3Float.serialize self.locationInEntityCoordinates\n",
    "new": "",
    "count": 1
   }
  ],
  "definition": "DetonationPdu.serialize",
  "edit": "locationInEntityCoordinates not written",
  "claim": "round trip, layout",
  "expect": [
   "C08",
   "C45"
  ]
 },
 {
  "id": "P24",
  "edits": [
   {
    "file": "Verif/Model/Pdus4.lean",
    "within": "DetonationPdu.serialize",
    "old": "  Vector3Float.serialize self.locationInEntityCoordinates\n",
    "new": "",
    "count": 1
   },
   {
    "file": "Verif/Model/Pdus4.lean",
    "within": "DetonationPdu.parse",
    "old": "  let locationInEntityCoordinates ← Vector3Float.parse self.locationInEntityCoordinates\n",
    "new": "",
    "count": 1
   },
   {
    "file": "Verif/Model/Pdus4.lean",
    "within": "DetonationPdu.parse",
    "old": "locationInEntityCoordinates := locationInEntityCoordinates",
    "new": "locationInEntityCoordinates := self.locationInEntityCoordinates",
    "count": 1
   }
  ],
  "definition": "DetonationPdu.serialize/parse",
  "edit": "locationInEntityCoordinates left out of both",
  "claim": "layout",
  "expect": [
   "C45",
   "C13"
  ]
 },
 {
  "id": "P25",
  "edits": [
   {
    "file": "Verif/Model/Pdus3.lean",
    "within": "StartResumePdu.serialize",
    "old": "  ClockTime.serialize self.realWorldTime\n  ClockTime.serialize self.simulationTime",
    "new": "  ClockTime.serialize self.simulationTime\n  ClockTime.serialize self.realWorldTime",
    "count": 1
   },
   {
    "file": "Verif/Model/Pdus3.lean",
    "within": "StartResumePdu.parse",
    "old": "  let realWorldTime ← ClockTime.parse self.realWorldTime\n  let simulationTime ← ClockTime.parse self.simulationTime",
    "new": "  let simulationTime ← ClockTime.parse self.simulationTime\n  let realWorldTime ← ClockTime.parse self.realWorldTime",
    "count": 1
   }
  ],
  "definition": "StartResumePdu.serialize/parse",
  "edit": "the two times swapped in both",
  "claim": "layout",
  "expect": [
   "C45"
  ]
 },
 {
  "id": "P26",
  "edits": [
   {
    "file": "Verif/Model/Pdus5.lean",
    "within": "IsPartOfPdu.parse",
    "old": "Relationship.parse self.relationship",
    "new": "Relationship.parse {}",
    "count": 1
   }
  ],
  "definition": "IsPartOfPdu.parse",
  "edit": "parses into a fresh Relationship",
  "claim": "off-wire attributes of contained records are kept",
  "expect": []
 },
 {
  "id": "P27",
  "edits": [
   {
    "file": "Verif/Model/Records2.lean",
    "within": "EntityMarking.serialize",
    "old": "W.forRange 0 11",
    "new": "W.forRange 0 10",
    "count": 1
   },
   {
    "file": "Verif/Model/Records2.lean",
    "within": "EntityMarking.parse",
    "old": "R.times 11",
    "new": "R.times 10",
    "count": 1
   }
  ],
  "definition": "EntityMarking.serialize/parse",
  "edit": "ten characters in both",
  "claim": "marking has eleven characters",
  "expect": [
   "C13",
   "C45"
  ]
 },
 {
  "id": "P28",
  "edits": [
   {
    "file": "Verif/Model/Pdus1.lean",
    "within": "Pdu.parse",
    "old": "padding := padding",
    "new": "padding := 0",
    "count": 1
   }
  ],
  "definition": "Pdu.parse",
  "edit": "padding forced to zero",
  "claim": "round trip of the padding byte",
  "expect": [
   "C08",
   "C11"
  ]
 },
 {
  "id": "P29",
  "edits": [
   {
    "file": "Verif/Model/Pdus3.lean",
    "within": "DesignatorPdu.init",
    "old": "designatorPower := designatorPower",
    "new": "designatorPower := 0",
    "count": 1
   }
  ],
  "definition": "DesignatorPdu.init",
  "edit": "designatorPower argument ignored",
  "claim": "constructor stores its arguments",
  "expect": []
 },
 {
  "id": "P30",
  "edits": [
   {
    "file": "Verif/Model/Records1.lean",
    "within": "EntityType.init",
    "old": "(extra : Int := 0)",
    "new": "(extra : Int := 1)",
    "count": 1
   }
  ],
  "definition": "EntityType.init",
  "edit": "default of extra is 1",
  "claim": "default values",
  "expect": []
 }
]