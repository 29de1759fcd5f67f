/-- The object `s` after it parsed what an `o` without data serialized
(/repo/opendis/dis7.py:184-190,192-201). -/
def IFFData.after (s o : IFFData) : IFFData :=
  { s with recordType := o.recordType, recordLength := 0, iffData := s.iffData ++ [] }

/-- Every field of `o` fits its wire type (/repo/opendis/dis7.py:184-190). -/
def IFFData.WireOk (o : IFFData) : Prop :=
  U32 o.recordType ∧ U16 (o.iffData.length : Int) ∧ ∀ x ∈ o.iffData, U8 x

/-- Form of an object that survives a round trip (/repo/opendis/dis7.py:184-190,192-201). -/
def IFFData.Canon (o : IFFData) : Prop := o.recordLength = 0 ∧ o.iffData = []

/-- No single-precision fields (/repo/opendis/dis7.py:184-190). -/
def IFFData.NoNaN (_o : IFFData) : Prop := True

/-- `serialize` writes `len(iffData)` where `parse` expects `len(iffData) + 6`, so only empty data is
read back (/repo/opendis/dis7.py:187,197). -/
def IFFData.Decodable (o : IFFData) : Prop := o.iffData = []

/-- `serialize` reproduces only a zero record length (/repo/opendis/dis7.py:187,197). -/
def IFFData.Live (o : IFFData) : Prop := o.recordLength = 0

/-- Number of bytes `serialize` writes (/repo/opendis/dis7.py:184-190). -/
def IFFData.wireSize (o : IFFData) : Nat := 6 + 1 * o.iffData.length
