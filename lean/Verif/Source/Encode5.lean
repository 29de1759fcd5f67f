import Verif.Source.EncodeHand

/-!
# Objects of the model as values, part 5

Written by `tools/gensourceproof.py`.
-/

set_option linter.unusedVariables false
set_option linter.unusedSimpArgs false

namespace Dis.Src

/-- The attributes of a `DatumSpecification` object (/repo/opendis/dis7.py:1593-1637). -/
abbrev DatumSpecification.fields (x : Dis.DatumSpecification) : List (Ident × Val) :=
   [(I.fixedDatumRecords, .list (x.fixedDatumRecords.map FixedDatum.enc)),
    (I.variableDatumRecords, .list (x.variableDatumRecords.map VariableDatum.enc))]

/-- A `DatumSpecification` object (/repo/opendis/dis7.py:1593-1637). -/
abbrev DatumSpecification.enc (x : Dis.DatumSpecification) : Val := .obj I.DatumSpecification (DatumSpecification.fields x)

/-- The attributes a `ActionRequestPdu` object has besides the inherited ones (/repo/opendis/dis7.py:4477-4527). -/
abbrev ActionRequestPdu.own (x : Dis.ActionRequestPdu) : List (Ident × Val) :=
   [(I.requestID, .int x.requestID),
    (I.actionID, .int x.actionID),
    (I._datums, DatumSpecification.enc x._datums)]

/-- The attributes of a `ActionRequestPdu` object (/repo/opendis/dis7.py:4477-4527). -/
abbrev ActionRequestPdu.fields (x : Dis.ActionRequestPdu) : List (Ident × Val) := SimulationManagementFamilyPdu.fields x.toSimulationManagementFamilyPdu ++ ActionRequestPdu.own x

/-- A `ActionRequestPdu` object (/repo/opendis/dis7.py:4477-4527). -/
abbrev ActionRequestPdu.enc (x : Dis.ActionRequestPdu) : Val := .obj I.ActionRequestPdu (ActionRequestPdu.fields x)

/-- The attributes a `ActionRequestReliablePdu` object has besides the inherited ones (/repo/opendis/dis7.py:4613-4675). -/
abbrev ActionRequestReliablePdu.own (x : Dis.ActionRequestReliablePdu) : List (Ident × Val) :=
   [(I.requestID, .int x.requestID),
    (I.actionID, .int x.actionID),
    (I._datums, DatumSpecification.enc x._datums),
    (I.requiredReliabilityService, .int x.requiredReliabilityService),
    (I.pad1, .int x.pad1),
    (I.pad2, .int x.pad2),
    (I.pad3, .int x.pad3)]

/-- The attributes of a `ActionRequestReliablePdu` object (/repo/opendis/dis7.py:4613-4675). -/
abbrev ActionRequestReliablePdu.fields (x : Dis.ActionRequestReliablePdu) : List (Ident × Val) := SimulationManagementWithReliabilityFamilyPdu.fields x.toSimulationManagementWithReliabilityFamilyPdu ++ ActionRequestReliablePdu.own x

/-- A `ActionRequestReliablePdu` object (/repo/opendis/dis7.py:4613-4675). -/
abbrev ActionRequestReliablePdu.enc (x : Dis.ActionRequestReliablePdu) : Val := .obj I.ActionRequestReliablePdu (ActionRequestReliablePdu.fields x)

/-- The attributes a `SetDataReliablePdu` object has besides the inherited ones (/repo/opendis/dis7.py:5413-5468). -/
abbrev SetDataReliablePdu.own (x : Dis.SetDataReliablePdu) : List (Ident × Val) :=
   [(I.requestID, .int x.requestID),
    (I._datums, DatumSpecification.enc x._datums),
    (I.requiredReliabilityService, .int x.requiredReliabilityService),
    (I.pad1, .int x.pad1),
    (I.pad2, .int x.pad2)]

/-- The attributes of a `SetDataReliablePdu` object (/repo/opendis/dis7.py:5413-5468). -/
abbrev SetDataReliablePdu.fields (x : Dis.SetDataReliablePdu) : List (Ident × Val) := SimulationManagementWithReliabilityFamilyPdu.fields x.toSimulationManagementWithReliabilityFamilyPdu ++ SetDataReliablePdu.own x

/-- A `SetDataReliablePdu` object (/repo/opendis/dis7.py:5413-5468). -/
abbrev SetDataReliablePdu.enc (x : Dis.SetDataReliablePdu) : Val := .obj I.SetDataReliablePdu (SetDataReliablePdu.fields x)

/-- The attributes a `EventReportPdu` object has besides the inherited ones (/repo/opendis/dis7.py:5471-5502). -/
abbrev EventReportPdu.own (x : Dis.EventReportPdu) : List (Ident × Val) :=
   [(I.padding1, .int x.padding1),
    (I._datums, DatumSpecification.enc x._datums),
    (I.eventType, .int x.eventType)]

/-- The attributes of a `EventReportPdu` object (/repo/opendis/dis7.py:5471-5502). -/
abbrev EventReportPdu.fields (x : Dis.EventReportPdu) : List (Ident × Val) := SimulationManagementFamilyPdu.fields x.toSimulationManagementFamilyPdu ++ EventReportPdu.own x

/-- A `EventReportPdu` object (/repo/opendis/dis7.py:5471-5502). -/
abbrev EventReportPdu.enc (x : Dis.EventReportPdu) : Val := .obj I.EventReportPdu (EventReportPdu.fields x)

/-- The attributes a `DataPdu` object has besides the inherited ones (/repo/opendis/dis7.py:5585-5634). -/
abbrev DataPdu.own (x : Dis.DataPdu) : List (Ident × Val) :=
   [(I.padding1, .int x.padding1),
    (I.requestID, .int x.requestID),
    (I._datums, DatumSpecification.enc x._datums)]

/-- The attributes of a `DataPdu` object (/repo/opendis/dis7.py:5585-5634). -/
abbrev DataPdu.fields (x : Dis.DataPdu) : List (Ident × Val) := SimulationManagementFamilyPdu.fields x.toSimulationManagementFamilyPdu ++ DataPdu.own x

/-- A `DataPdu` object (/repo/opendis/dis7.py:5585-5634). -/
abbrev DataPdu.enc (x : Dis.DataPdu) : Val := .obj I.DataPdu (DataPdu.fields x)

/-- The attributes a `DataReliablePdu` object has besides the inherited ones (/repo/opendis/dis7.py:6175-6230). -/
abbrev DataReliablePdu.own (x : Dis.DataReliablePdu) : List (Ident × Val) :=
   [(I.requestID, .int x.requestID),
    (I._datums, DatumSpecification.enc x._datums),
    (I.requiredReliabilityService, .int x.requiredReliabilityService),
    (I.pad1, .int x.pad1),
    (I.pad2, .int x.pad2)]

/-- The attributes of a `DataReliablePdu` object (/repo/opendis/dis7.py:6175-6230). -/
abbrev DataReliablePdu.fields (x : Dis.DataReliablePdu) : List (Ident × Val) := SimulationManagementWithReliabilityFamilyPdu.fields x.toSimulationManagementWithReliabilityFamilyPdu ++ DataReliablePdu.own x

/-- A `DataReliablePdu` object (/repo/opendis/dis7.py:6175-6230). -/
abbrev DataReliablePdu.enc (x : Dis.DataReliablePdu) : Val := .obj I.DataReliablePdu (DataReliablePdu.fields x)

/-- The attributes a `CommentPdu` object has besides the inherited ones (/repo/opendis/dis7.py:6233-6272). -/
abbrev CommentPdu.own (x : Dis.CommentPdu) : List (Ident × Val) :=
   [(I._datums, DatumSpecification.enc x._datums)]

/-- The attributes of a `CommentPdu` object (/repo/opendis/dis7.py:6233-6272). -/
abbrev CommentPdu.fields (x : Dis.CommentPdu) : List (Ident × Val) := SimulationManagementFamilyPdu.fields x.toSimulationManagementFamilyPdu ++ CommentPdu.own x

/-- A `CommentPdu` object (/repo/opendis/dis7.py:6233-6272). -/
abbrev CommentPdu.enc (x : Dis.CommentPdu) : Val := .obj I.CommentPdu (CommentPdu.fields x)

/-- The attributes a `CommentReliablePdu` object has besides the inherited ones (/repo/opendis/dis7.py:6275-6315). -/
abbrev CommentReliablePdu.own (x : Dis.CommentReliablePdu) : List (Ident × Val) :=
   [(I._datums, DatumSpecification.enc x._datums)]

/-- The attributes of a `CommentReliablePdu` object (/repo/opendis/dis7.py:6275-6315). -/
abbrev CommentReliablePdu.fields (x : Dis.CommentReliablePdu) : List (Ident × Val) := SimulationManagementWithReliabilityFamilyPdu.fields x.toSimulationManagementWithReliabilityFamilyPdu ++ CommentReliablePdu.own x

/-- A `CommentReliablePdu` object (/repo/opendis/dis7.py:6275-6315). -/
abbrev CommentReliablePdu.enc (x : Dis.CommentReliablePdu) : Val := .obj I.CommentReliablePdu (CommentReliablePdu.fields x)

/-- The attributes a `SetDataPdu` object has besides the inherited ones (/repo/opendis/dis7.py:6478-6524). -/
abbrev SetDataPdu.own (x : Dis.SetDataPdu) : List (Ident × Val) :=
   [(I.padding1, .int x.padding1),
    (I.requestID, .int x.requestID),
    (I._datums, DatumSpecification.enc x._datums)]

/-- The attributes of a `SetDataPdu` object (/repo/opendis/dis7.py:6478-6524). -/
abbrev SetDataPdu.fields (x : Dis.SetDataPdu) : List (Ident × Val) := SimulationManagementFamilyPdu.fields x.toSimulationManagementFamilyPdu ++ SetDataPdu.own x

/-- A `SetDataPdu` object (/repo/opendis/dis7.py:6478-6524). -/
abbrev SetDataPdu.enc (x : Dis.SetDataPdu) : Val := .obj I.SetDataPdu (SetDataPdu.fields x)

/-- The attributes a `ActionResponsePdu` object has besides the inherited ones (/repo/opendis/dis7.py:6584-6632). -/
abbrev ActionResponsePdu.own (x : Dis.ActionResponsePdu) : List (Ident × Val) :=
   [(I.requestID, .int x.requestID),
    (I._datums, DatumSpecification.enc x._datums),
    (I.requestStatus, .int x.requestStatus)]

/-- The attributes of a `ActionResponsePdu` object (/repo/opendis/dis7.py:6584-6632). -/
abbrev ActionResponsePdu.fields (x : Dis.ActionResponsePdu) : List (Ident × Val) := SimulationManagementFamilyPdu.fields x.toSimulationManagementFamilyPdu ++ ActionResponsePdu.own x

/-- A `ActionResponsePdu` object (/repo/opendis/dis7.py:6584-6632). -/
abbrev ActionResponsePdu.enc (x : Dis.ActionResponsePdu) : Val := .obj I.ActionResponsePdu (ActionResponsePdu.fields x)

/-- The attributes a `EventReportReliablePdu` object has besides the inherited ones (/repo/opendis/dis7.py:7202-7250). -/
abbrev EventReportReliablePdu.own (x : Dis.EventReportReliablePdu) : List (Ident × Val) :=
   [(I._datums, DatumSpecification.enc x._datums),
    (I.pad1, .int x.pad1),
    (I.eventType, .int x.eventType)]

/-- The attributes of a `EventReportReliablePdu` object (/repo/opendis/dis7.py:7202-7250). -/
abbrev EventReportReliablePdu.fields (x : Dis.EventReportReliablePdu) : List (Ident × Val) := SimulationManagementWithReliabilityFamilyPdu.fields x.toSimulationManagementWithReliabilityFamilyPdu ++ EventReportReliablePdu.own x

/-- A `EventReportReliablePdu` object (/repo/opendis/dis7.py:7202-7250). -/
abbrev EventReportReliablePdu.enc (x : Dis.EventReportReliablePdu) : Val := .obj I.EventReportReliablePdu (EventReportReliablePdu.fields x)

/-- The attributes a `ActionResponseReliablePdu` object has besides the inherited ones (/repo/opendis/dis7.py:7302-7349). -/
abbrev ActionResponseReliablePdu.own (x : Dis.ActionResponseReliablePdu) : List (Ident × Val) :=
   [(I.requestID, .int x.requestID),
    (I._datums, DatumSpecification.enc x._datums),
    (I.responseStatus, .int x.responseStatus)]

/-- The attributes of a `ActionResponseReliablePdu` object (/repo/opendis/dis7.py:7302-7349). -/
abbrev ActionResponseReliablePdu.fields (x : Dis.ActionResponseReliablePdu) : List (Ident × Val) := SimulationManagementWithReliabilityFamilyPdu.fields x.toSimulationManagementWithReliabilityFamilyPdu ++ ActionResponseReliablePdu.own x

/-- A `ActionResponseReliablePdu` object (/repo/opendis/dis7.py:7302-7349). -/
abbrev ActionResponseReliablePdu.enc (x : Dis.ActionResponseReliablePdu) : Val := .obj I.ActionResponseReliablePdu (ActionResponseReliablePdu.fields x)

/-- The attributes a `AggregateStatePdu` object has besides the inherited ones (/repo/opendis/dis7.py:7400-7537). -/
abbrev AggregateStatePdu.own (x : Dis.AggregateStatePdu) : List (Ident × Val) :=
   [(I.aggregateID, AggregateIdentifier.enc x.aggregateID),
    (I.variableDatumRecords, .list (x.variableDatumRecords.map VariableDatum.enc)),
    (I.aggregateType, AggregateType.enc x.aggregateType),
    (I.velocity, WorldCoordinates.enc x.velocity),
    (I.forceID, .int x.forceID),
    (I.aggregateState, .int x.aggregateState),
    (I.formation, .int x.formation),
    (I.aggregateMarking, AggregateMarking.enc x.aggregateMarking),
    (I.dimensions, Vector3Float.enc x.dimensions),
    (I.orientation, EulerAngles.enc x.orientation),
    (I.centerOfMass, Vector3Float.enc x.centerOfMass),
    (I.aggregateIDs, .list (x.aggregateIDs.map AggregateIdentifier.enc)),
    (I.entityIDs, .list (x.entityIDs.map EntityIdentifier.enc)),
    (I.silentAggregateSystems, .list (x.silentAggregateSystems.map SilentAggregateSystem.enc)),
    (I.silentEntitySystems, .list (x.silentEntitySystems.map SilentEntitySystem.enc))]

/-- The attributes of a `AggregateStatePdu` object (/repo/opendis/dis7.py:7400-7537). -/
abbrev AggregateStatePdu.fields (x : Dis.AggregateStatePdu) : List (Ident × Val) := EntityManagementFamilyPdu.fields x.toEntityManagementFamilyPdu ++ AggregateStatePdu.own x

/-- A `AggregateStatePdu` object (/repo/opendis/dis7.py:7400-7537). -/
abbrev AggregateStatePdu.enc (x : Dis.AggregateStatePdu) : Val := .obj I.AggregateStatePdu (AggregateStatePdu.fields x)

end Dis.Src
