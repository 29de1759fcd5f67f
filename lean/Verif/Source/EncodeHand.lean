import Verif.Source.Encode4

/-!
# Objects of the model as values: attributes that may be missing or of two kinds

Attributes that the constructor does not create are an `Option` in the model; here they are left out.
-/

namespace Dis.Src

/-- An attribute, if it exists (e.g. `parameterValue`, /repo/opendis/dis7.py:809). -/
abbrev optional {α : Type} (f : Ident) (inj : α → Val) : Option α → List (Ident × Val)
  | some v => [(f, inj v)]
  | none => []

/-- An attribute that may be `None` (`geometry`, /repo/opendis/dis7.py:3187). -/
abbrev orNone : Option Int → Val
  | some v => .int v
  | none => .none

/-- The attributes of an `AttachedParts` object (/repo/opendis/dis7.py:776-810). -/
abbrev AttachedParts.fields (x : Dis.AttachedParts) : List (Ident × Val) :=
   [(I.recordType, .int x.recordType),
    (I.detachedIndicator, .int x.detachedIndicator),
    (I.partAttachedTo, .int x.partAttachedTo),
    (I.parameterType, .int x.parameterType),
    (I.attachedPartType, EntityType.enc x.attachedPartType)] ++
   optional I.parameterValue .int x.parameterValue

/-- An `AttachedParts` object (/repo/opendis/dis7.py:776-810). -/
abbrev AttachedParts.enc (x : Dis.AttachedParts) : Val := .obj I.AttachedParts (AttachedParts.fields x)

/-- The attributes of a `SilentAggregateSystem` object (/repo/opendis/dis7.py:2221-2243). -/
abbrev SilentAggregateSystem.fields (x : Dis.SilentAggregateSystem) : List (Ident × Val) :=
   optional I.entityType AggregateType.enc x.entityType ++
   [(I.numberOfAggregates, .int x.numberOfAggregates),
    (I.aggregateType, AggregateType.enc x.aggregateType)]

/-- A `SilentAggregateSystem` object (/repo/opendis/dis7.py:2221-2243). -/
abbrev SilentAggregateSystem.enc (x : Dis.SilentAggregateSystem) : Val :=
  .obj I.SilentAggregateSystem (SilentAggregateSystem.fields x)

/-- The attributes of an `EnvironmentGeneral` object (/repo/opendis/dis7.py:3168-3213). -/
abbrev EnvironmentGeneral.fields (x : Dis.EnvironmentGeneral) : List (Ident × Val) :=
   [(I.length, .int x.length),
    (I.padding, .int x.padding)] ++
   (optional I.padding1 .int x.padding1 ++
   [(I.padding2, .int x.padding2),
    (I.environmentType, .int x.environmentType),
    (I.index, .int x.index),
    (I.geometry, orNone x.geometry)])

/-- An `EnvironmentGeneral` object (/repo/opendis/dis7.py:3168-3213). -/
abbrev EnvironmentGeneral.enc (x : Dis.EnvironmentGeneral) : Val := .obj I.EnvironmentGeneral (EnvironmentGeneral.fields x)

/-- The attributes of an `Environment` object (/repo/opendis/dis7.py:2636-2667). -/
abbrev Environment.fields (x : Dis.Environment) : List (Ident × Val) :=
   [(I.length, .int x.length)] ++
   (optional I.padding .int x.padding ++
   [(I.padding1, .int x.padding1),
    (I.environmentType, .int x.environmentType),
    (I.index, .int x.index),
    (I.padding0, .int x.padding0)])

/-- An `Environment` object (/repo/opendis/dis7.py:2636-2667). -/
abbrev Environment.enc (x : Dis.Environment) : Val := .obj I.Environment (Environment.fields x)

/-- The value of `stationLocation` (/repo/opendis/dis7.py:3600, :3621). -/
abbrev stationValue : IntOr Dis.NamedLocationIdentification → Val
  | .int v => .int v
  | .obj o => NamedLocationIdentification.enc o

/-- The attributes of a `SeparationVP` object (/repo/opendis/dis7.py:3580-3621). -/
abbrev SeparationVP.fields (x : Dis.SeparationVP) : List (Ident × Val) :=
   [(I.recordType, .int x.recordType),
    (I.padding1, .int x.padding1),
    (I.padding2, .int x.padding2),
    (I.reasonForSeparation, .int x.reasonForSeparation),
    (I.preEntityIndicator, .int x.preEntityIndicator),
    (I.parentEntityID, EntityIdentifier.enc x.parentEntityID),
    (I.stationLocation, stationValue x.stationLocation)]

/-- A `SeparationVP` object (/repo/opendis/dis7.py:3580-3621). -/
abbrev SeparationVP.enc (x : Dis.SeparationVP) : Val := .obj I.SeparationVP (SeparationVP.fields x)

/-- The attributes of a `VariableDatum` object (/repo/opendis/dis7.py:3293-3339). -/
abbrev VariableDatum.fields (x : Dis.VariableDatum) : List (Ident × Val) :=
   [(I.variableDatumID, .int x.variableDatumID),
    (I.variableDatumLength, .int x.variableDatumLength),
    (I.variableData, .list (x.variableData.map .int))]

/-- A `VariableDatum` object (/repo/opendis/dis7.py:3293-3339). -/
abbrev VariableDatum.enc (x : Dis.VariableDatum) : Val := .obj I.VariableDatum (VariableDatum.fields x)

end Dis.Src
