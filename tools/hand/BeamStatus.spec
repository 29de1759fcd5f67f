/-- The object `s` after it parsed what `o` serialized: only the lowest bit travels
(/repo/opendis/dis7.py:3158-3160,3162-3165). -/
def BeamStatus.after (s o : BeamStatus) : BeamStatus := { s with beamState := o.beamState % 2 }

/-- `serialize` masks the field, so it always fits (/repo/opendis/dis7.py:3158-3160). -/
def BeamStatus.WireOk (_o : BeamStatus) : Prop := True

/-- The state is a single bit (/repo/opendis/dis7.py:3162-3165). -/
def BeamStatus.Canon (o : BeamStatus) : Prop := o.beamState = 0 ∨ o.beamState = 1

/-- No single-precision fields (/repo/opendis/dis7.py:3158-3160). -/
def BeamStatus.NoNaN (_o : BeamStatus) : Prop := True

/-- Number of bytes `serialize` writes (/repo/opendis/dis7.py:3158-3160). -/
def BeamStatus.wireSize (_o : BeamStatus) : Nat := 1
