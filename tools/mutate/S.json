[
 {
  "id": "S01",
  "edits": [
   {
    "file": "Verif/Stream.lean",
    "within": "read_boolean",
    "old": "(v ≠ 0)",
    "new": "(v = 1)",
    "count": 1
   }
  ],
  "definition": "read_boolean",
  "edit": "(v ≠ 0) -> (v = 1)",
  "claim": "boolean reads any non-zero byte as true",
  "expect": [
   "C01"
  ]
 },
 {
  "id": "S02",
  "edits": [
   {
    "file": "Verif/Stream.lean",
    "within": "write_boolean",
    "old": "if b then 1 else 0",
    "new": "if b then 255 else 0",
    "count": 1
   }
  ],
  "definition": "write_boolean",
  "edit": "if b then 1 else 0 -> if b then 255 else 0",
  "claim": "write_boolean emits 1 for True",
  "expect": [
   "C03"
  ]
 },
 {
  "id": "S03",
  "edits": [
   {
    "file": "Verif/Stream.lean",
    "within": "read_int",
    "old": "unpackS 4",
    "new": "unpackU 4",
    "count": 1
   }
  ],
  "definition": "read_int",
  "edit": "unpackS 4 -> unpackU 4",
  "claim": "int round trip for negative values",
  "expect": [
   "C01"
  ]
 },
 {
  "id": "S04",
  "edits": [
   {
    "file": "Verif/Stream.lean",
    "within": "read_int",
    "old": "unpackS 4",
    "new": "unpackU 4",
    "count": 1
   },
   {
    "file": "Verif/Stream.lean",
    "within": "write_int",
    "old": "packS 4",
    "new": "packU 4",
    "count": 1
   }
  ],
  "definition": "read_int, write_int",
  "edit": "both use the unsigned format",
  "claim": "write_int accepts -2^31..2^31-1",
  "expect": [
   "C01",
   "C02",
   "C03"
  ]
 },
 {
  "id": "S05",
  "edits": [
   {
    "file": "Verif/Stream.lean",
    "within": "read_unsigned_short",
    "old": "2 (unpackU 2)",
    "new": "4 (unpackU 4)",
    "count": 1
   },
   {
    "file": "Verif/Stream.lean",
    "within": "write_unsigned_short",
    "old": "packU 2",
    "new": "packU 4",
    "count": 1
   }
  ],
  "definition": "read/write_unsigned_short",
  "edit": "both four bytes wide",
  "claim": "unsigned_short is two bytes wide",
  "expect": [
   "C03",
   "C13"
  ]
 },
 {
  "id": "S06",
  "edits": [
   {
    "file": "Verif/Stream.lean",
    "within": "write_utf",
    "old": "packU 2 string.length",
    "new": "packU 2 (string.length % 65536 : Nat)",
    "count": 1
   }
  ],
  "definition": "write_utf",
  "edit": "packU 2 string.length -> packU 2 (string.length % 65536 : Nat)",
  "claim": "write_utf rejects strings longer than 65535",
  "expect": [
   "C06"
  ]
 },
 {
  "id": "S07",
  "edits": [
   {
    "file": "Verif/Stream.lean",
    "within": "read_utf",
    "old": "R.readRaw utf_length",
    "new": "R.readRaw (utf_length + 1)",
    "count": 1
   }
  ],
  "definition": "read_utf",
  "edit": "R.readRaw utf_length -> R.readRaw (utf_length + 1)",
  "claim": "read_utf reads exactly the written bytes",
  "expect": [
   "C06"
  ]
 },
 {
  "id": "S08",
  "edits": [
   {
    "file": "Verif/Stream.lean",
    "within": "read_uint64",
    "old": "read_long",
    "new": "R.readFixed 8 (unpackU 8)",
    "count": 1
   }
  ],
  "definition": "read_uint64",
  "edit": "read_long -> R.readFixed 8 (unpackU 8)",
  "claim": "large uint64 come back negative (documented defect)",
  "expect": [
   "C07"
  ]
 },
 {
  "id": "S09",
  "edits": [
   {
    "file": "Verif/Stream.lean",
    "within": "write_char8",
    "old": "write_byte val",
    "new": "write_char val",
    "count": 1
   }
  ],
  "definition": "write_char8",
  "edit": "write_byte val -> write_char val",
  "claim": "write_char8 writes one byte (documented defect)",
  "expect": [
   "C07"
  ]
 },
 {
  "id": "S10",
  "edits": [
   {
    "file": "Verif/Py/Num.lean",
    "within": "beBytes",
    "old": "v / 256 ^ n % 256",
    "new": "v / 256 ^ (n - n) % 256",
    "count": 1
   }
  ],
  "definition": "beBytes",
  "edit": "every byte is the lowest digit",
  "claim": "bytes are the base-256 digits",
  "expect": [
   "C03"
  ]
 },
 {
  "id": "S11",
  "edits": [
   {
    "file": "Verif/Py/Num.lean",
    "within": "beBytes",
    "old": "UInt8.ofNat (v / 256 ^ n % 256) :: beBytes n v",
    "new": "beBytes n (v / 256) ++ [UInt8.ofNat (v % 256)]",
    "count": 1
   }
  ],
  "definition": "beBytes",
  "edit": "equivalent recursion from the other end",
  "claim": "(equivalent mutant: only proofs may break)",
  "expect": []
 },
 {
  "id": "S12",
  "edits": [
   {
    "file": "Verif/Py/Num.lean",
    "within": "beBytes",
    "old": "UInt8.ofNat (v / 256 ^ n % 256) :: beBytes n v",
    "new": "UInt8.ofNat (v % 256) :: beBytes n (v / 256)",
    "count": 1
   },
   {
    "file": "Verif/Py/Num.lean",
    "within": "beNat",
    "old": "b.toNat * 256 ^ bs.length + beNat bs",
    "new": "b.toNat + 256 * beNat bs",
    "count": 1
   }
  ],
  "definition": "beBytes, beNat",
  "edit": "little-endian in both directions",
  "claim": "network byte order",
  "expect": [
   "C03"
  ]
 },
 {
  "id": "S13",
  "edits": [
   {
    "file": "Verif/Py/Num.lean",
    "within": "packU",
    "old": "0 ≤ v ∧ v < (256 ^ n : Nat)",
    "new": "0 ≤ v ∧ v ≤ (256 ^ n : Nat)",
    "count": 1
   }
  ],
  "definition": "packU",
  "edit": "0 ≤ v ∧ v < (256 ^ n : Nat) -> 0 ≤ v ∧ v ≤ (256 ^ n : Nat)",
  "claim": "values of 256^n are rejected",
  "expect": [
   "C02"
  ]
 },
 {
  "id": "S14",
  "edits": [
   {
    "file": "Verif/Py/Num.lean",
    "within": "packS",
    "old": "≤ v ∧ v <",
    "new": "< v ∧ v <",
    "count": 1
   }
  ],
  "definition": "packS",
  "edit": "≤ v ∧ v < -> < v ∧ v <",
  "claim": "the least negative value is accepted",
  "expect": [
   "C01"
  ]
 },
 {
  "id": "S15",
  "edits": [
   {
    "file": "Verif/Py/Num.lean",
    "within": "packU",
    "old": "if 0 ≤ v ∧ v < (256 ^ n : Nat) then .ok (beBytes n v.toNat) else .error .structError",
    "new": ".ok (beBytes n (v % (256 ^ n : Nat)).toNat)",
    "count": 1
   }
  ],
  "definition": "packU",
  "edit": "if 0 ≤ v ∧ v < (256 ^ n : Nat) then .ok (beBytes n v.toNat) else .error .structError -> .ok (beBytes n (v % (256 ^ n : Nat)).toNat)",
  "claim": "out-of-range values are rejected",
  "expect": [
   "C02"
  ]
 },
 {
  "id": "S16",
  "edits": [
   {
    "file": "Verif/Py/Num.lean",
    "within": "unpackU",
    "old": "b.length = n",
    "new": "b.length ≤ n",
    "count": 1
   }
  ],
  "definition": "unpackU",
  "edit": "b.length = n -> b.length ≤ n",
  "claim": "short reads raise struct.error",
  "expect": [
   "C05"
  ]
 },
 {
  "id": "S17",
  "edits": [
   {
    "file": "Verif/Py/Num.lean",
    "within": "unpackS",
    "old": "beNat b < 256 ^ n / 2",
    "new": "beNat b ≤ 256 ^ n / 2",
    "count": 1
   }
  ],
  "definition": "unpackS",
  "edit": "beNat b < 256 ^ n / 2 -> beNat b ≤ 256 ^ n / 2",
  "claim": "two's complement",
  "expect": [
   "C01"
  ]
 },
 {
  "id": "S18",
  "edits": [
   {
    "file": "Verif/Py/Float.lean",
    "within": "rne",
    "old": "q % 2 = 1",
    "new": "q % 2 = 0",
    "count": 1
   }
  ],
  "definition": "rne",
  "edit": "q % 2 = 1 -> q % 2 = 0",
  "claim": "ties go to the even neighbour",
  "expect": [
   "C04"
  ]
 },
 {
  "id": "S19",
  "edits": [
   {
    "file": "Verif/Py/Float.lean",
    "within": "rne",
    "old": "if 2 * r > 2 ^ s ∨ (2 * r = 2 ^ s ∧ q % 2 = 1) then q + 1 else q",
    "new": "q",
    "count": 1
   }
  ],
  "definition": "rne",
  "edit": "if 2 * r > 2 ^ s ∨ (2 * r = 2 ^ s ∧ q % 2 = 1) then q + 1 else q -> q",
  "claim": "rounds to nearest instead of truncating",
  "expect": [
   "C04"
  ]
 },
 {
  "id": "S20",
  "edits": [
   {
    "file": "Verif/Py/Float.lean",
    "within": "narrow",
    "old": "if m < 255 * 2 ^ 23 then .ok (BitVec.ofNat 32 (s * 2 ^ 31 + m))\n    else .error .overflowError",
    "new": ".ok (BitVec.ofNat 32 (s * 2 ^ 31 + min m (255 * 2 ^ 23)))",
    "count": 1
   }
  ],
  "definition": "narrow",
  "edit": "if m < 255 * 2 ^ 23 then .ok (BitVec.ofNat 32 (s * 2 ^ 31 + m))\n    else .error .overflowError -> .ok (BitVec.ofNat 32 (s * 2 ^ 31 + min m (255 * 2 ^ 23)))",
  "claim": "overflow raises OverflowError",
  "expect": [
   "C04"
  ]
 },
 {
  "id": "S21",
  "edits": [
   {
    "file": "Verif/Py/Float.lean",
    "within": "widen",
    "old": "k + 874",
    "new": "k + 873",
    "count": 1
   }
  ],
  "definition": "widen",
  "edit": "k + 874 -> k + 873",
  "claim": "subnormal singles widen exactly",
  "expect": [
   "C04"
  ]
 },
 {
  "id": "S22",
  "edits": [
   {
    "file": "Verif/Py/Float.lean",
    "within": "narrowMag",
    "old": "29 + (897 - e')",
    "new": "29 + (896 - e')",
    "count": 1
   }
  ],
  "definition": "narrowMag",
  "edit": "29 + (897 - e') -> 29 + (896 - e')",
  "claim": "subnormal rounding",
  "expect": [
   "C04"
  ]
 },
 {
  "id": "S23",
  "edits": [
   {
    "file": "Verif/Py/Float.lean",
    "within": "narrow",
    "old": "s * 2 ^ 31 + 255 * 2 ^ 23 + 2 ^ 22 + f / 2 ^ 29 % 2 ^ 22",
    "new": "s * 2 ^ 31 + 255 * 2 ^ 23",
    "count": 1
   }
  ],
  "definition": "narrow",
  "edit": "s * 2 ^ 31 + 255 * 2 ^ 23 + 2 ^ 22 + f / 2 ^ 29 % 2 ^ 22 -> s * 2 ^ 31 + 255 * 2 ^ 23",
  "claim": "NaN stays NaN",
  "expect": [
   "C04"
  ]
 },
 {
  "id": "S24",
  "edits": [
   {
    "file": "Verif/Py/Float.lean",
    "within": "widen",
    "old": "F64.mk s 2047 (2 ^ 51 + (f % 2 ^ 22) * 2 ^ 29)",
    "new": "F64.mk s 2047 (f * 2 ^ 29)",
    "count": 1
   }
  ],
  "definition": "widen",
  "edit": "F64.mk s 2047 (2 ^ 51 + (f % 2 ^ 22) * 2 ^ 29) -> F64.mk s 2047 (f * 2 ^ 29)",
  "claim": "NaN payload is quieted",
  "expect": [
   "C04",
   "C08",
   "C11"
  ]
 },
 {
  "id": "S25",
  "edits": [
   {
    "file": "Verif/Py/Basic.lean",
    "within": "R.readRaw",
    "old": "pos := s.pos + got.length",
    "new": "pos := s.pos + n.toNat",
    "count": 1
   }
  ],
  "definition": "R.readRaw",
  "edit": "pos := s.pos + got.length -> pos := s.pos + n.toNat",
  "claim": "position moves by what was read",
  "expect": [
   "C05",
   "C09"
  ]
 },
 {
  "id": "S26",
  "edits": [
   {
    "file": "Verif/Py/Basic.lean",
    "within": "R.readRaw",
    "old": "if n < 0 then rest else",
    "new": "if n < 0 then [] else",
    "count": 1
   }
  ],
  "definition": "R.readRaw",
  "edit": "if n < 0 then rest else -> if n < 0 then [] else",
  "claim": "a negative count reads everything left",
  "expect": [
   "C27"
  ]
 },
 {
  "id": "S27",
  "edits": [
   {
    "file": "Verif/Py/Basic.lean",
    "within": "bind",
    "old": "⟨w.out ++ (k a).out, (k a).res⟩",
    "new": "⟨(k a).out ++ w.out, (k a).res⟩",
    "count": 1
   }
  ],
  "definition": "bind",
  "edit": "⟨w.out ++ (k a).out, (k a).res⟩ -> ⟨(k a).out ++ w.out, (k a).res⟩",
  "claim": "bytes are appended in program order",
  "expect": [
   "C03",
   "C14"
  ]
 },
 {
  "id": "S28",
  "edits": [
   {
    "file": "Verif/Py/Basic.lean",
    "within": "R.times",
    "old": "return x :: xs",
    "new": "return xs ++ [x]",
    "count": 1
   }
  ],
  "definition": "R.times",
  "edit": "return x :: xs -> return xs ++ [x]",
  "claim": "list elements keep their order",
  "expect": [
   "C08",
   "C16"
  ]
 },
 {
  "id": "S29",
  "edits": [
   {
    "file": "Verif/Py/Basic.lean",
    "within": "W.forEach",
    "old": "do body x; W.forEach xs body",
    "new": "do W.forEach xs body; body x",
    "count": 1
   }
  ],
  "definition": "W.forEach",
  "edit": "do body x; W.forEach xs body -> do W.forEach xs body; body x",
  "claim": "list elements keep their order on the wire",
  "expect": [
   "C45"
  ]
 },
 {
  "id": "S30",
  "edits": [
   {
    "file": "Verif/Py/Basic.lean",
    "within": "R.seek",
    "old": "pos := n",
    "new": "pos := s.pos",
    "count": 1
   }
  ],
  "definition": "R.seek",
  "edit": "pos := n -> pos := s.pos",
  "claim": "getPdu reads from the start of the stream",
  "expect": [
   "C19",
   "C20"
  ]
 },
 {
  "id": "S31",
  "edits": [
   {
    "file": "Verif/Stream.lean",
    "within": "write_bytes",
    "old": "W.emit val",
    "new": "W.emit (val ++ [0])",
    "count": 1
   }
  ],
  "definition": "write_bytes",
  "edit": "W.emit val -> W.emit (val ++ [0])",
  "claim": "write_bytes writes the bytes as given",
  "expect": [
   "C06"
  ]
 },
 {
  "id": "S32",
  "edits": [
   {
    "file": "Verif/Stream.lean",
    "within": "write_float64",
    "old": "write_double val",
    "new": "write_float val",
    "count": 1
   }
  ],
  "definition": "write_float64",
  "edit": "write_double val -> write_float val",
  "claim": "double fields are eight bytes wide",
  "expect": [
   "C13"
  ]
 },
 {
  "id": "S33",
  "edits": [
   {
    "file": "Verif/Stream.lean",
    "within": "read_uint16",
    "old": "read_unsigned_short",
    "new": "read_short",
    "count": 1
   }
  ],
  "definition": "read_uint16",
  "edit": "read_unsigned_short -> read_short",
  "claim": "uint16 reads are unsigned",
  "expect": [
   "C01"
  ]
 }
]