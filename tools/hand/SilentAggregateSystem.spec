/-- The object `s` after it parsed what `o` serialized: `serialize` takes the type from `entityType`,
`parse` stores it in `aggregateType` (/repo/opendis/dis7.py:2234-2242). -/
def SilentAggregateSystem.after (s o : SilentAggregateSystem) : SilentAggregateSystem :=
  { s with
    numberOfAggregates := o.numberOfAggregates,
    aggregateType := AggregateType.after s.aggregateType (o.entityType.getD AggregateType.init) }

/-- `serialize` needs an attribute `entityType`, which no constructor creates
(/repo/opendis/dis7.py:2227-2237). -/
def SilentAggregateSystem.WireOk (o : SilentAggregateSystem) : Prop :=
  U16 o.numberOfAggregates ∧ ∃ t, o.entityType = some t ∧ AggregateType.WireOk t

/-- No object survives a round trip: `parse` never sets `entityType`
(/repo/opendis/dis7.py:2239-2242). -/
def SilentAggregateSystem.Canon (_o : SilentAggregateSystem) : Prop := False

/-- No single-precision fields (/repo/opendis/dis7.py:2234-2237). -/
def SilentAggregateSystem.NoNaN (_o : SilentAggregateSystem) : Prop := True

/-- No parsed object can be serialized again (/repo/opendis/dis7.py:2234-2242). -/
def SilentAggregateSystem.Live (_o : SilentAggregateSystem) : Prop := False

/-- Number of bytes `serialize` writes (/repo/opendis/dis7.py:2234-2237). -/
def SilentAggregateSystem.wireSize (_o : SilentAggregateSystem) : Nat := 10
