/-- The object `s` after it parsed what `o` serialized: the first `length // 8` data bytes are appended
(/repo/opendis/dis7.py:3318-3327,3329-3339). -/
def VariableDatum.after (s o : VariableDatum) : VariableDatum :=
  { s with
    variableDatumID := o.variableDatumID,
    variableDatumLength := o.variableDatumLength,
    variableData := s.variableData ++ o.variableData.take (o.variableDatumLength / 8).toNat }

/-- Every field fits and there are at least as many data bytes as the bit length announces
(/repo/opendis/dis7.py:3318-3327). -/
def VariableDatum.WireOk (o : VariableDatum) : Prop :=
  U32 o.variableDatumID ∧ U32 o.variableDatumLength ∧
  (o.variableDatumLength / 8).toNat ≤ o.variableData.length ∧
  ∀ x ∈ o.variableData.take (o.variableDatumLength / 8).toNat, U8 x

/-- The data list has exactly the announced number of whole bytes
(/repo/opendis/dis7.py:3329-3339). -/
def VariableDatum.Canon (o : VariableDatum) : Prop :=
  o.variableData.length = (o.variableDatumLength / 8).toNat

/-- No single-precision fields (/repo/opendis/dis7.py:3318-3327). -/
def VariableDatum.NoNaN (_o : VariableDatum) : Prop := True

/-- Bytes written: id, length, whole data bytes, whole padding bytes up to the next multiple of 64
bits (/repo/opendis/dis7.py:3311-3327). -/
def VariableDatum.wireSize (o : VariableDatum) : Nat :=
  8 + (o.variableDatumLength / 8).toNat + ((-o.variableDatumLength) % 64 / 8).toNat
