[
 {
  "id": "H01",
  "edits": [
   {
    "file": "Verif/Model/Heap1.lean",
    "within": "EntityIdentifier.initHeap",
    "old": "H.setOr self \"simulationAddress\" simulationAddress SimulationAddress.newHeap",
    "new": "H.setOr self \"simulationAddress\" simulationAddress (pure 0)",
    "count": 1
   }
  ],
  "definition": "EntityIdentifier.initHeap",
  "edit": "without an argument all objects get the object in cell 0 instead of a new SimulationAddress (mutable default argument)",
  "claim": "objects made by constructors share nothing",
  "expect": [
   "C66"
  ]
 },
 {
  "id": "H02",
  "edits": [
   {
    "file": "Verif/Model/Heap4.lean",
    "within": "ElectromagneticEmissionsPdu.parseHeap",
    "old": "  H.appendObjs numberOfSystems.toNat EmissionSystemRecord.newHeap",
    "new": "  let element \u2190 EmissionSystemRecord.newHeap\n  H.appendObjs numberOfSystems.toNat (pure element)",
    "count": 1
   }
  ],
  "definition": "ElectromagneticEmissionsPdu.parseHeap",
  "edit": "the element is made once, before the loop, and appended again and again",
  "claim": "list elements are objects of their own",
  "expect": [
   "C66",
   "C67"
  ]
 },
 {
  "id": "H03",
  "edits": [
   {
    "file": "Verif/Model/Heap4.lean",
    "within": "EntityStatePdu.parseHeap",
    "old": "  H.call self \"entityType\" EntityType.parseHeap\n  H.call self \"alternativeEntityType\" EntityType.parseHeap",
    "new": "  H.call self \"alternativeEntityType\" EntityType.parseHeap\n  H.call self \"entityType\" EntityType.parseHeap",
    "count": 1
   }
  ],
  "definition": "EntityStatePdu.parseHeap",
  "edit": "entityType and alternativeEntityType parsed in the other order",
  "claim": "parse of an object in memory is parse of its value",
  "expect": [
   "C66",
   "C67"
  ]
 },
 {
  "id": "H04",
  "edits": [
   {
    "file": "Verif/Model/Heap4.lean",
    "within": "EntityStatePdu.parseHeap",
    "old": "  H.call self \"alternativeEntityType\" EntityType.parseHeap",
    "new": "  H.call self \"alternativeEntityType\" EntityType.parseHeap\n  let t \u2190 H.attr self \"entityType\"\n  H.setAttr self \"alternativeEntityType\" t",
    "count": 1
   }
  ],
  "definition": "EntityStatePdu.parseHeap",
  "edit": "alternativeEntityType becomes the same object as entityType",
  "claim": "parts of a parsed object are apart",
  "expect": [
   "C66",
   "C67"
  ]
 },
 {
  "id": "H05",
  "edits": [
   {
    "file": "Verif/Model/Heap2.lean",
    "within": "EntityMarking.parseHeap",
    "old": "H.fillReads 11 read_byte self \"characters\"",
    "new": "H.setReads 0 11 read_byte self \"characters\"",
    "count": 1
   }
  ],
  "definition": "EntityMarking.parseHeap",
  "edit": "the characters are stored in the list that is there, not in a new one",
  "claim": "parse of an object in memory is parse of its value",
  "expect": [
   "C66",
   "C67"
  ]
 },
 {
  "id": "H06",
  "edits": [
   {
    "file": "Verif/Model/Heap5.lean",
    "within": "AggregateStatePdu.parseHeap",
    "old": "EntityIdentifier.newHeap EntityIdentifier.parseHeap self \"entityIDs\"",
    "new": "EntityIdentifier.newHeap EntityIdentifier.parseHeap self \"aggregateIDs\"",
    "count": 1
   }
  ],
  "definition": "AggregateStatePdu.parseHeap",
  "edit": "entity identifiers appended to the list of aggregate identifiers",
  "claim": "parse of an object in memory is parse of its value",
  "expect": [
   "C66",
   "C67"
  ]
 },
 {
  "id": "H07",
  "edits": [
   {
    "file": "Verif/Model/HeapSpecial.lean",
    "within": "TransmitterPdu.radioHeap",
    "old": "radioSystem = 3 \u2228 radioSystem = 4",
    "new": "radioSystem = 3 \u2228 radioSystem = 4 \u2228 radioSystem = 5",
    "count": 1
   }
  ],
  "definition": "TransmitterPdu.radioHeap",
  "edit": "radio system 5 also decoded as Have Quick",
  "claim": "parse of an object in memory is parse of its value",
  "expect": [
   "C66",
   "C67"
  ]
 },
 {
  "id": "H08",
  "edits": [
   {
    "file": "Verif/Model/HeapSpecial.lean",
    "within": "TransmitterPdu.parseAntennaPatternHeap",
    "old": "      H.setNew self \"antennaPattern\" BeamAntennaPattern.newHeap\n",
    "new": "",
    "count": 1
   }
  ],
  "definition": "TransmitterPdu.parseAntennaPatternHeap",
  "edit": "an old antenna pattern is kept and parsed again",
  "claim": "parse of an object in memory is parse of its value",
  "expect": [
   "C66"
  ]
 },
 {
  "id": "H09",
  "edits": [
   {
    "file": "Verif/Model/HeapFactory.lean",
    "within": "getPduHeap",
    "old": "  H.read (R.seek 0)\n",
    "new": "",
    "count": 1
   }
  ],
  "definition": "getPduHeap",
  "edit": "no rewind before parsing",
  "claim": "the factory on the memory is the factory on values",
  "expect": [
   "C67"
  ]
 },
 {
  "id": "H10",
  "edits": [
   {
    "file": "Verif/Model/HeapFactory.lean",
    "within": "PduClass.decodeHeap",
    "old": "| .FirePdu => H.load FirePdu.newHeap FirePdu.parseHeap",
    "new": "| .FirePdu => H.load DetonationPdu.newHeap DetonationPdu.parseHeap",
    "count": 1
   }
  ],
  "definition": "PduClass.decodeHeap",
  "edit": "FirePdu messages are parsed into a DetonationPdu",
  "claim": "the factory on the memory is the factory on values",
  "expect": [
   "C67"
  ]
 },
 {
  "id": "H11",
  "edits": [
   {
    "file": "Verif/Model/HeapFactory.lean",
    "within": "PduClass.decodeHeap",
    "old": "| .CommentPdu => H.load CommentPdu.newHeap CommentPdu.parseHeap",
    "new": "| .CommentPdu => H.load (pure 0) CommentPdu.parseHeap",
    "count": 1
   }
  ],
  "definition": "PduClass.decodeHeap",
  "edit": "CommentPdu messages parsed into one object kept for them (cell 0)",
  "claim": "the factory makes new objects",
  "expect": [
   "C67"
  ]
 },
 {
  "id": "H12",
  "edits": [
   {
    "file": "Verif/Model/HeapFactory.lean",
    "within": "PduClass.serializeHeap",
    "old": "| .SignalPdu => SignalPdu.serializeHeap",
    "new": "| .SignalPdu => RadioCommunicationsFamilyPdu.serializeHeap",
    "count": 1
   }
  ],
  "definition": "PduClass.serializeHeap",
  "edit": "SignalPdu serialized without its data",
  "claim": "a PDU in memory serializes as its value",
  "expect": [
   "C67"
  ]
 },
 {
  "id": "H13",
  "edits": [
   {
    "file": "Verif/Model/HeapFactory.lean",
    "within": "createPduHeap",
    "old": "\u27e8data, 0\u27e9",
    "new": "\u27e8data, 1\u27e9",
    "count": 1
   }
  ],
  "definition": "createPduHeap",
  "edit": "the stream starts at byte 1",
  "claim": "the factory on the memory is the factory on values",
  "expect": []
 },
 {
  "id": "H14",
  "edits": [
   {
    "file": "Verif/Py/Heap.lean",
    "within": "orNew",
    "old": "if \u2190 truth v then return v else return .ref (\u2190 m)",
    "new": "let _ \u2190 truth v; return .ref (\u2190 m)",
    "count": 1
   }
  ],
  "definition": "H.orNew",
  "edit": "a new object even when one is given",
  "claim": "constructors keep the object they are given",
  "expect": [
   "C66_shared_violated"
  ]
 },
 {
  "id": "H15",
  "edits": [
   {
    "file": "Verif/Py/Heap.lean",
    "old": "    | some (.list vs) => (.ok (!vs.isEmpty), h, s)\n    | _ => (.ok true, h, s)",
    "new": "    | some (.list _) => (.ok true, h, s)\n    | _ => (.ok true, h, s)",
    "count": 1
   }
  ],
  "definition": "H.truth",
  "edit": "empty lists are true",
  "claim": "constructors replace an empty list",
  "expect": [
   "C66_empty_list_violated"
  ]
 },
 {
  "id": "H16",
  "edits": [
   {
    "file": "Verif/Model/Heap4.lean",
    "within": "DetonationPdu.serializeHeap",
    "old": "  S.putLen self \"variableParameters\" write_unsigned_byte\n",
    "new": "",
    "count": 1
   }
  ],
  "definition": "DetonationPdu.serializeHeap",
  "edit": "count written after the parameters",
  "claim": "an object in memory serializes as its value",
  "expect": [
   "C66",
   "C67"
  ]
 },
 {
  "id": "H17",
  "edits": [
   {
    "file": "Verif/Model/HeapFactory.lean",
    "within": "LinearObjectStatePdu.initHeap",
    "old": "  H.throw .nameError",
    "new": "  pure ()",
    "count": 1
   }
  ],
  "definition": "LinearObjectStatePdu.initHeap",
  "edit": "the wrong assignment left out: the constructor succeeds",
  "claim": "LinearObjectStatePdu() raises NameError",
  "expect": [
   "C67"
  ]
 },
 {
  "id": "H18",
  "edits": [
   {
    "file": "Verif/Model/Heap4.lean",
    "within": "AttributePdu.attrs",
    "old": "(\"pduType\", .absent)",
    "new": "(\"pduType\", .int 72)",
    "count": 1
   }
  ],
  "definition": "AttributePdu.attrs",
  "edit": "the class has a pduType",
  "claim": "AttributePdu() raises ValueError",
  "expect": [
   "C67"
  ]
 },
 {
  "id": "H19",
  "edits": [
   {
    "file": "Verif/Model/HeapSpecial.lean",
    "within": "IntercomControlPdu.parseHeap",
    "old": ".typeError",
    "new": ".structError",
    "count": 1
   }
  ],
  "definition": "IntercomControlPdu.parseHeap",
  "edit": "the last statement raises struct.error instead of TypeError",
  "claim": "parse of an object in memory is parse of its value",
  "expect": [
   "C66"
  ]
 },
 {
  "id": "H20",
  "edits": [
   {
    "file": "Verif/Py/Heap.lean",
    "within": "setItem",
    "old": "else (.error .indexError, h, s)",
    "new": "else (.ok (), h.set l (.list (vs ++ [v])), s)",
    "count": 1
   }
  ],
  "definition": "H.setItem",
  "edit": "assignment outside a list appends",
  "claim": "assignments as in Python",
  "expect": []
 },
 {
  "id": "H21",
  "edits": [
   {
    "file": "Verif/Py/Heap.lean",
    "within": "append",
    "old": "(.ok (), h.set l (.list (vs ++ [v])), s)",
    "new": "(.ok (), h ++ [.list (vs ++ [v])], s)",
    "count": 1
   }
  ],
  "definition": "H.append",
  "edit": "the list is copied and the copy extended, so that the object keeps the old list",
  "claim": "append changes the list in place",
  "expect": [
   "C66"
  ]
 },
 {
  "id": "H22",
  "edits": [
   {
    "file": "Verif/Py/Heap.lean",
    "within": "alloc",
    "old": "(.ok h.length, h ++ [c], s)",
    "new": "(.ok (h.length - 1), h.set (h.length - 1) c, s)",
    "count": 1
   }
  ],
  "definition": "H.alloc",
  "edit": "a new object in the cell of the last one",
  "claim": "new objects share nothing",
  "expect": [
   "C66",
   "C67"
  ]
 },
 {
  "id": "H23",
  "edits": [
   {
    "file": "Verif/Py/Heap.lean",
    "within": "listOrNew",
    "old": "| some (.list vs) => alloc (.list vs) h s",
    "new": "| some (.list _) => (.ok r, h, s)",
    "count": 1
   }
  ],
  "definition": "H.listOrNew",
  "edit": "keeps the list it is given",
  "claim": "-",
  "expect": []
 },
 {
  "id": "H24",
  "edits": [
   {
    "file": "Verif/Model/Heap3.lean",
    "within": "Pdu.parseHeap",
    "old": "H.setAttr self \"padding\"",
    "new": "H.setAttr self \"pduStatus\"",
    "count": 1
   }
  ],
  "definition": "Pdu.parseHeap",
  "edit": "padding stored in pduStatus",
  "claim": "parse of an object in memory is parse of its value",
  "expect": [
   "C66",
   "C67"
  ]
 }
]