import Verif.Source.Encode3

/-!
# Objects of the model as values, part 4

Written by `tools/gensourceproof.py`.
-/

set_option linter.unusedVariables false
set_option linter.unusedSimpArgs false

namespace Dis.Src

/-- The attributes a `AcknowledgePdu` object has besides the inherited ones (/repo/opendis/dis7.py:4530-4562). -/
abbrev AcknowledgePdu.own (x : Dis.AcknowledgePdu) : List (Ident × Val) :=
   [(I.requestID, .int x.requestID),
    (I.acknowledgeFlag, .int x.acknowledgeFlag),
    (I.responseFlag, .int x.responseFlag)]

/-- The attributes of a `AcknowledgePdu` object (/repo/opendis/dis7.py:4530-4562). -/
abbrev AcknowledgePdu.fields (x : Dis.AcknowledgePdu) : List (Ident × Val) := SimulationManagementFamilyPdu.fields x.toSimulationManagementFamilyPdu ++ AcknowledgePdu.own x

/-- A `AcknowledgePdu` object (/repo/opendis/dis7.py:4530-4562). -/
abbrev AcknowledgePdu.enc (x : Dis.AcknowledgePdu) : Val := .obj I.AcknowledgePdu (AcknowledgePdu.fields x)

/-- The attributes a `DistributedEmissionsFamilyPdu` object has besides the inherited ones (/repo/opendis/dis7.py:4565-4581). -/
abbrev DistributedEmissionsFamilyPdu.own (_x : Dis.DistributedEmissionsFamilyPdu) : List (Ident × Val) :=
   []

/-- The attributes of a `DistributedEmissionsFamilyPdu` object (/repo/opendis/dis7.py:4565-4581). -/
abbrev DistributedEmissionsFamilyPdu.fields (x : Dis.DistributedEmissionsFamilyPdu) : List (Ident × Val) := Pdu.fields x.toPdu ++ DistributedEmissionsFamilyPdu.own x

/-- A `DistributedEmissionsFamilyPdu` object (/repo/opendis/dis7.py:4565-4581). -/
abbrev DistributedEmissionsFamilyPdu.enc (x : Dis.DistributedEmissionsFamilyPdu) : Val := .obj I.DistributedEmissionsFamilyPdu (DistributedEmissionsFamilyPdu.fields x)

/-- The attributes a `SimulationManagementWithReliabilityFamilyPdu` object has besides the inherited ones (/repo/opendis/dis7.py:4584-4610). -/
abbrev SimulationManagementWithReliabilityFamilyPdu.own (x : Dis.SimulationManagementWithReliabilityFamilyPdu) : List (Ident × Val) :=
   [(I.originatingEntityID, EntityIdentifier.enc x.originatingEntityID),
    (I.receivingEntityID, EntityIdentifier.enc x.receivingEntityID)]

/-- The attributes of a `SimulationManagementWithReliabilityFamilyPdu` object (/repo/opendis/dis7.py:4584-4610). -/
abbrev SimulationManagementWithReliabilityFamilyPdu.fields (x : Dis.SimulationManagementWithReliabilityFamilyPdu) : List (Ident × Val) := Pdu.fields x.toPdu ++ SimulationManagementWithReliabilityFamilyPdu.own x

/-- A `SimulationManagementWithReliabilityFamilyPdu` object (/repo/opendis/dis7.py:4584-4610). -/
abbrev SimulationManagementWithReliabilityFamilyPdu.enc (x : Dis.SimulationManagementWithReliabilityFamilyPdu) : Val := .obj I.SimulationManagementWithReliabilityFamilyPdu (SimulationManagementWithReliabilityFamilyPdu.fields x)

/-- The attributes a `DesignatorPdu` object has besides the inherited ones (/repo/opendis/dis7.py:4678-4753). -/
abbrev DesignatorPdu.own (x : Dis.DesignatorPdu) : List (Ident × Val) :=
   [(I.padding1, .int x.padding1),
    (I.padding2, .int x.padding2),
    (I.deadReckoningAlgorithm, .int x.deadReckoningAlgorithm),
    (I.entityLinearAcceleration, Vector3Float.enc x.entityLinearAcceleration),
    (I.designatingEntityID, EntityIdentifier.enc x.designatingEntityID),
    (I.codeName, .int x.codeName),
    (I.designatedEntityID, EntityIdentifier.enc x.designatedEntityID),
    (I.designatorCode, .int x.designatorCode),
    (I.designatorPower, .float x.designatorPower),
    (I.designatorWavelength, .float x.designatorWavelength),
    (I.designatorSpotWrtDesignated, Vector3Float.enc x.designatorSpotWrtDesignated),
    (I.designatorSpotLocation, WorldCoordinates.enc x.designatorSpotLocation)]

/-- The attributes of a `DesignatorPdu` object (/repo/opendis/dis7.py:4678-4753). -/
abbrev DesignatorPdu.fields (x : Dis.DesignatorPdu) : List (Ident × Val) := DistributedEmissionsFamilyPdu.fields x.toDistributedEmissionsFamilyPdu ++ DesignatorPdu.own x

/-- A `DesignatorPdu` object (/repo/opendis/dis7.py:4678-4753). -/
abbrev DesignatorPdu.enc (x : Dis.DesignatorPdu) : Val := .obj I.DesignatorPdu (DesignatorPdu.fields x)

/-- The attributes a `StopFreezePdu` object has besides the inherited ones (/repo/opendis/dis7.py:4756-4795). -/
abbrev StopFreezePdu.own (x : Dis.StopFreezePdu) : List (Ident × Val) :=
   [(I.padding1, .int x.padding1),
    (I.requestID, .int x.requestID),
    (I.realWorldTime, ClockTime.enc x.realWorldTime),
    (I.reason, .int x.reason),
    (I.frozenBehavior, .int x.frozenBehavior)]

/-- The attributes of a `StopFreezePdu` object (/repo/opendis/dis7.py:4756-4795). -/
abbrev StopFreezePdu.fields (x : Dis.StopFreezePdu) : List (Ident × Val) := SimulationManagementFamilyPdu.fields x.toSimulationManagementFamilyPdu ++ StopFreezePdu.own x

/-- A `StopFreezePdu` object (/repo/opendis/dis7.py:4756-4795). -/
abbrev StopFreezePdu.enc (x : Dis.StopFreezePdu) : Val := .obj I.StopFreezePdu (StopFreezePdu.fields x)

/-- The attributes a `EntityStatePdu` object has besides the inherited ones (/repo/opendis/dis7.py:4798-4887). -/
abbrev EntityStatePdu.own (x : Dis.EntityStatePdu) : List (Ident × Val) :=
   [(I.entityID, EntityIdentifier.enc x.entityID),
    (I.entityType, EntityType.enc x.entityType),
    (I.entityLinearVelocity, Vector3Float.enc x.entityLinearVelocity),
    (I.entityLocation, WorldCoordinates.enc x.entityLocation),
    (I.entityOrientation, EulerAngles.enc x.entityOrientation),
    (I.entityAppearance, .int x.entityAppearance),
    (I.variableParameters, .list (x.variableParameters.map VariableParameter.enc)),
    (I.forceId, .int x.forceId),
    (I.alternativeEntityType, EntityType.enc x.alternativeEntityType),
    (I.deadReckoningParameters, DeadReckoningParameters.enc x.deadReckoningParameters),
    (I.marking, EntityMarking.enc x.marking),
    (I.capabilities, .int x.capabilities)]

/-- The attributes of a `EntityStatePdu` object (/repo/opendis/dis7.py:4798-4887). -/
abbrev EntityStatePdu.fields (x : Dis.EntityStatePdu) : List (Ident × Val) := EntityInformationFamilyPdu.fields x.toEntityInformationFamilyPdu ++ EntityStatePdu.own x

/-- A `EntityStatePdu` object (/repo/opendis/dis7.py:4798-4887). -/
abbrev EntityStatePdu.enc (x : Dis.EntityStatePdu) : Val := .obj I.EntityStatePdu (EntityStatePdu.fields x)

/-- The attributes a `EntityManagementFamilyPdu` object has besides the inherited ones (/repo/opendis/dis7.py:4890-4906). -/
abbrev EntityManagementFamilyPdu.own (_x : Dis.EntityManagementFamilyPdu) : List (Ident × Val) :=
   []

/-- The attributes of a `EntityManagementFamilyPdu` object (/repo/opendis/dis7.py:4890-4906). -/
abbrev EntityManagementFamilyPdu.fields (x : Dis.EntityManagementFamilyPdu) : List (Ident × Val) := Pdu.fields x.toPdu ++ EntityManagementFamilyPdu.own x

/-- A `EntityManagementFamilyPdu` object (/repo/opendis/dis7.py:4890-4906). -/
abbrev EntityManagementFamilyPdu.enc (x : Dis.EntityManagementFamilyPdu) : Val := .obj I.EntityManagementFamilyPdu (EntityManagementFamilyPdu.fields x)

/-- The attributes a `StartResumePdu` object has besides the inherited ones (/repo/opendis/dis7.py:4909-4940). -/
abbrev StartResumePdu.own (x : Dis.StartResumePdu) : List (Ident × Val) :=
   [(I.requestID, .int x.requestID),
    (I.realWorldTime, ClockTime.enc x.realWorldTime),
    (I.simulationTime, ClockTime.enc x.simulationTime)]

/-- The attributes of a `StartResumePdu` object (/repo/opendis/dis7.py:4909-4940). -/
abbrev StartResumePdu.fields (x : Dis.StartResumePdu) : List (Ident × Val) := SimulationManagementFamilyPdu.fields x.toSimulationManagementFamilyPdu ++ StartResumePdu.own x

/-- A `StartResumePdu` object (/repo/opendis/dis7.py:4909-4940). -/
abbrev StartResumePdu.enc (x : Dis.StartResumePdu) : Val := .obj I.StartResumePdu (StartResumePdu.fields x)

/-- The attributes a `ElectromagneticEmissionsPdu` object has besides the inherited ones (/repo/opendis/dis7.py:5119-5169). -/
abbrev ElectromagneticEmissionsPdu.own (x : Dis.ElectromagneticEmissionsPdu) : List (Ident × Val) :=
   [(I.eventID, EventIdentifier.enc x.eventID),
    (I.emittingEntityID, EntityIdentifier.enc x.emittingEntityID),
    (I.stateUpdateIndicator, .int x.stateUpdateIndicator),
    (I.systems, .list (x.systems.map EmissionSystemRecord.enc)),
    (I.paddingForEmissionsPdu, .int x.paddingForEmissionsPdu)]

/-- The attributes of a `ElectromagneticEmissionsPdu` object (/repo/opendis/dis7.py:5119-5169). -/
abbrev ElectromagneticEmissionsPdu.fields (x : Dis.ElectromagneticEmissionsPdu) : List (Ident × Val) := DistributedEmissionsFamilyPdu.fields x.toDistributedEmissionsFamilyPdu ++ ElectromagneticEmissionsPdu.own x

/-- A `ElectromagneticEmissionsPdu` object (/repo/opendis/dis7.py:5119-5169). -/
abbrev ElectromagneticEmissionsPdu.enc (x : Dis.ElectromagneticEmissionsPdu) : Val := .obj I.ElectromagneticEmissionsPdu (ElectromagneticEmissionsPdu.fields x)

/-- The attributes a `ResupplyOfferPdu` object has besides the inherited ones (/repo/opendis/dis7.py:5279-5327). -/
abbrev ResupplyOfferPdu.own (x : Dis.ResupplyOfferPdu) : List (Ident × Val) :=
   [(I.receivingEntityID, EntityIdentifier.enc x.receivingEntityID),
    (I.padding1, .int x.padding1),
    (I.padding2, .int x.padding2),
    (I.supplies, .list (x.supplies.map SupplyQuantity.enc)),
    (I.supplyingEntityID, EntityIdentifier.enc x.supplyingEntityID)]

/-- The attributes of a `ResupplyOfferPdu` object (/repo/opendis/dis7.py:5279-5327). -/
abbrev ResupplyOfferPdu.fields (x : Dis.ResupplyOfferPdu) : List (Ident × Val) := LogisticsFamilyPdu.fields x.toLogisticsFamilyPdu ++ ResupplyOfferPdu.own x

/-- A `ResupplyOfferPdu` object (/repo/opendis/dis7.py:5279-5327). -/
abbrev ResupplyOfferPdu.enc (x : Dis.ResupplyOfferPdu) : Val := .obj I.ResupplyOfferPdu (ResupplyOfferPdu.fields x)

/-- The attributes a `AttributePdu` object has besides the inherited ones (/repo/opendis/dis7.py:5330-5391). -/
abbrev AttributePdu.own (x : Dis.AttributePdu) : List (Ident × Val) :=
   [(I.padding1, .int x.padding1),
    (I.padding2, .int x.padding2),
    (I.padding3, .int x.padding3),
    (I.originatingSimulationAddress, SimulationAddress.enc x.originatingSimulationAddress),
    (I.attributeRecordPduType, .int x.attributeRecordPduType),
    (I.attributeRecordProtocolVersion, .int x.attributeRecordProtocolVersion),
    (I.masterAttributeRecordType, .int x.masterAttributeRecordType),
    (I.actionCode, .int x.actionCode),
    (I.numberOfAttributeRecordSets, .int x.numberOfAttributeRecordSets)]

/-- The attributes of a `AttributePdu` object (/repo/opendis/dis7.py:5330-5391). -/
abbrev AttributePdu.fields (x : Dis.AttributePdu) : List (Ident × Val) := EntityInformationFamilyPdu.fields x.toEntityInformationFamilyPdu ++ AttributePdu.own x

/-- A `AttributePdu` object (/repo/opendis/dis7.py:5330-5391). -/
abbrev AttributePdu.enc (x : Dis.AttributePdu) : Val := .obj I.AttributePdu (AttributePdu.fields x)

/-- The attributes a `MinefieldFamilyPdu` object has besides the inherited ones (/repo/opendis/dis7.py:5394-5410). -/
abbrev MinefieldFamilyPdu.own (_x : Dis.MinefieldFamilyPdu) : List (Ident × Val) :=
   []

/-- The attributes of a `MinefieldFamilyPdu` object (/repo/opendis/dis7.py:5394-5410). -/
abbrev MinefieldFamilyPdu.fields (x : Dis.MinefieldFamilyPdu) : List (Ident × Val) := Pdu.fields x.toPdu ++ MinefieldFamilyPdu.own x

/-- A `MinefieldFamilyPdu` object (/repo/opendis/dis7.py:5394-5410). -/
abbrev MinefieldFamilyPdu.enc (x : Dis.MinefieldFamilyPdu) : Val := .obj I.MinefieldFamilyPdu (MinefieldFamilyPdu.fields x)

/-- The attributes a `PointObjectStatePdu` object has besides the inherited ones (/repo/opendis/dis7.py:5505-5582). -/
abbrev PointObjectStatePdu.own (x : Dis.PointObjectStatePdu) : List (Ident × Val) :=
   [(I.receivingID, SimulationAddress.enc x.receivingID),
    (I.objectID, EntityIdentifier.enc x.objectID),
    (I.referencedObjectID, EntityIdentifier.enc x.referencedObjectID),
    (I.updateNumber, .int x.updateNumber),
    (I.forceID, .int x.forceID),
    (I.requesterID, SimulationAddress.enc x.requesterID),
    (I.objectType, ObjectType.enc x.objectType),
    (I.pad1, .int x.pad1),
    (I.pad2, .int x.pad2),
    (I.modifications, .int x.modifications),
    (I.objectLocation, WorldCoordinates.enc x.objectLocation),
    (I.objectOrientation, EulerAngles.enc x.objectOrientation),
    (I.objectAppearance, .float x.objectAppearance)]

/-- The attributes of a `PointObjectStatePdu` object (/repo/opendis/dis7.py:5505-5582). -/
abbrev PointObjectStatePdu.fields (x : Dis.PointObjectStatePdu) : List (Ident × Val) := SyntheticEnvironmentFamilyPdu.fields x.toSyntheticEnvironmentFamilyPdu ++ PointObjectStatePdu.own x

/-- A `PointObjectStatePdu` object (/repo/opendis/dis7.py:5505-5582). -/
abbrev PointObjectStatePdu.enc (x : Dis.PointObjectStatePdu) : Val := .obj I.PointObjectStatePdu (PointObjectStatePdu.fields x)

/-- A `PointObjectStatePdu` object of the model, and what the attributes hold that the constructor gives an integer (/repo/opendis/dis7.py:5505-5582). -/
structure PointObjectStatePdu.Raw where
  obj : Dis.PointObjectStatePdu
  objectAppearance : Val

/-- The object of the model (/repo/opendis/dis7.py:5505-5582). -/
abbrev PointObjectStatePdu.Raw.out (r : PointObjectStatePdu.Raw) : Dis.PointObjectStatePdu := r.obj

/-- The attributes it has besides the inherited ones (/repo/opendis/dis7.py:5505-5582). -/
abbrev PointObjectStatePdu.rawOwn (r : PointObjectStatePdu.Raw) : List (Ident × Val) :=
   [(I.receivingID, SimulationAddress.enc r.obj.receivingID),
    (I.objectID, EntityIdentifier.enc r.obj.objectID),
    (I.referencedObjectID, EntityIdentifier.enc r.obj.referencedObjectID),
    (I.updateNumber, .int r.obj.updateNumber),
    (I.forceID, .int r.obj.forceID),
    (I.requesterID, SimulationAddress.enc r.obj.requesterID),
    (I.objectType, ObjectType.enc r.obj.objectType),
    (I.pad1, .int r.obj.pad1),
    (I.pad2, .int r.obj.pad2),
    (I.modifications, .int r.obj.modifications),
    (I.objectLocation, WorldCoordinates.enc r.obj.objectLocation),
    (I.objectOrientation, EulerAngles.enc r.obj.objectOrientation),
    (I.objectAppearance, r.objectAppearance)]

/-- Its attributes (/repo/opendis/dis7.py:5505-5582). -/
abbrev PointObjectStatePdu.rawFields (r : PointObjectStatePdu.Raw) : List (Ident × Val) := SyntheticEnvironmentFamilyPdu.fields r.obj.toSyntheticEnvironmentFamilyPdu ++ PointObjectStatePdu.rawOwn r

/-- What the constructor makes (/repo/opendis/dis7.py:5505-5582). -/
abbrev PointObjectStatePdu.made : PointObjectStatePdu.Raw := ⟨Dis.PointObjectStatePdu.init, .int 0⟩

/-- `PointObjectStatePdu.parse` (/repo/opendis/dis7.py:5568-5582). -/
def PointObjectStatePdu.parseRaw : P PointObjectStatePdu.Raw Unit := do
  P.call ⟨(·.obj.toSyntheticEnvironmentFamilyPdu), fun o v => { o with obj := { o.obj with toSyntheticEnvironmentFamilyPdu := v } }⟩ Dis.SyntheticEnvironmentFamilyPdu.parseInto
  P.call ⟨(·.obj.objectID), fun o v => { o with obj := { o.obj with objectID := v } }⟩ Dis.EntityIdentifier.parseInto
  P.call ⟨(·.obj.referencedObjectID), fun o v => { o with obj := { o.obj with referencedObjectID := v } }⟩ Dis.EntityIdentifier.parseInto
  let updateNumber ← P.read read_unsigned_short
  P.set fun o => { o with obj := { o.obj with updateNumber := updateNumber } }
  let forceID ← P.read read_unsigned_byte
  P.set fun o => { o with obj := { o.obj with forceID := forceID } }
  let modifications ← P.read read_unsigned_byte
  P.set fun o => { o with obj := { o.obj with modifications := modifications } }
  P.call ⟨(·.obj.objectType), fun o v => { o with obj := { o.obj with objectType := v } }⟩ Dis.ObjectType.parseInto
  P.call ⟨(·.obj.objectLocation), fun o v => { o with obj := { o.obj with objectLocation := v } }⟩ Dis.WorldCoordinates.parseInto
  P.call ⟨(·.obj.objectOrientation), fun o v => { o with obj := { o.obj with objectOrientation := v } }⟩ Dis.EulerAngles.parseInto
  let objectAppearance ← P.read read_double
  P.set fun o => { o with obj := { o.obj with objectAppearance := objectAppearance }, objectAppearance := .float objectAppearance }
  P.call ⟨(·.obj.requesterID), fun o v => { o with obj := { o.obj with requesterID := v } }⟩ Dis.SimulationAddress.parseInto
  P.call ⟨(·.obj.receivingID), fun o v => { o with obj := { o.obj with receivingID := v } }⟩ Dis.SimulationAddress.parseInto
  let pad2 ← P.read read_unsigned_int
  P.set fun o => { o with obj := { o.obj with pad2 := pad2 } }
  return ()
/-- The attributes a `FastEntityStatePdu` object has besides the inherited ones (/repo/opendis/dis7.py:5637-5868). -/
abbrev FastEntityStatePdu.own (x : Dis.FastEntityStatePdu) : List (Ident × Val) :=
   [(I.psi, .float x.psi),
    (I.theta, .float x.theta),
    (I.phi, .float x.phi),
    (I.site, .int x.site),
    (I.application, .int x.application),
    (I.deadReckoningAlgorithm, .int x.deadReckoningAlgorithm),
    (I.domain, .int x.domain),
    (I.country, .int x.country),
    (I.category, .int x.category),
    (I.subcategory, .int x.subcategory),
    (I.specific, .int x.specific),
    (I.extra, .int x.extra),
    (I.entityKind, .int x.entityKind),
    (I.entityAppearance, .int x.entityAppearance),
    (I.variableParameters, .list (x.variableParameters.map VariableParameter.enc)),
    (I.numberOfVariableParameters, .int x.numberOfVariableParameters),
    (I.forceId, .int x.forceId),
    (I.marking, .list (x.marking.map .int)),
    (I.capabilities, .int x.capabilities),
    (I.entity, .int x.entity),
    (I.altEntityKind, .int x.altEntityKind),
    (I.altDomain, .int x.altDomain),
    (I.altCountry, .int x.altCountry),
    (I.altCategory, .int x.altCategory),
    (I.altSubcategory, .int x.altSubcategory),
    (I.altSpecific, .int x.altSpecific),
    (I.altExtra, .int x.altExtra),
    (I.xVelocity, .float x.xVelocity),
    (I.yVelocity, .float x.yVelocity),
    (I.zVelocity, .float x.zVelocity),
    (I.xLocation, .float x.xLocation),
    (I.yLocation, .float x.yLocation),
    (I.zLocation, .float x.zLocation),
    (I.otherParameters, .list (x.otherParameters.map .int)),
    (I.xAcceleration, .float x.xAcceleration),
    (I.yAcceleration, .float x.yAcceleration),
    (I.zAcceleration, .float x.zAcceleration),
    (I.xAngularVelocity, .float x.xAngularVelocity),
    (I.yAngularVelocity, .float x.yAngularVelocity),
    (I.zAngularVelocity, .float x.zAngularVelocity)]

/-- The attributes of a `FastEntityStatePdu` object (/repo/opendis/dis7.py:5637-5868). -/
abbrev FastEntityStatePdu.fields (x : Dis.FastEntityStatePdu) : List (Ident × Val) := EntityInformationFamilyPdu.fields x.toEntityInformationFamilyPdu ++ FastEntityStatePdu.own x

/-- A `FastEntityStatePdu` object (/repo/opendis/dis7.py:5637-5868). -/
abbrev FastEntityStatePdu.enc (x : Dis.FastEntityStatePdu) : Val := .obj I.FastEntityStatePdu (FastEntityStatePdu.fields x)

/-- A `FastEntityStatePdu` object of the model, and what the attributes hold that the constructor gives an integer (/repo/opendis/dis7.py:5637-5868). -/
structure FastEntityStatePdu.Raw where
  obj : Dis.FastEntityStatePdu
  xVelocity : Val
  yVelocity : Val
  zVelocity : Val
  xLocation : Val
  yLocation : Val
  zLocation : Val
  xAcceleration : Val
  yAcceleration : Val
  zAcceleration : Val
  xAngularVelocity : Val
  yAngularVelocity : Val
  zAngularVelocity : Val
  psi : Val
  theta : Val
  phi : Val

/-- The object of the model (/repo/opendis/dis7.py:5637-5868). -/
abbrev FastEntityStatePdu.Raw.out (r : FastEntityStatePdu.Raw) : Dis.FastEntityStatePdu := r.obj

/-- The attributes it has besides the inherited ones (/repo/opendis/dis7.py:5637-5868). -/
abbrev FastEntityStatePdu.rawOwn (r : FastEntityStatePdu.Raw) : List (Ident × Val) :=
   [(I.psi, r.psi),
    (I.theta, r.theta),
    (I.phi, r.phi),
    (I.site, .int r.obj.site),
    (I.application, .int r.obj.application),
    (I.deadReckoningAlgorithm, .int r.obj.deadReckoningAlgorithm),
    (I.domain, .int r.obj.domain),
    (I.country, .int r.obj.country),
    (I.category, .int r.obj.category),
    (I.subcategory, .int r.obj.subcategory),
    (I.specific, .int r.obj.specific),
    (I.extra, .int r.obj.extra),
    (I.entityKind, .int r.obj.entityKind),
    (I.entityAppearance, .int r.obj.entityAppearance),
    (I.variableParameters, .list (r.obj.variableParameters.map VariableParameter.enc)),
    (I.numberOfVariableParameters, .int r.obj.numberOfVariableParameters),
    (I.forceId, .int r.obj.forceId),
    (I.marking, .list (r.obj.marking.map .int)),
    (I.capabilities, .int r.obj.capabilities),
    (I.entity, .int r.obj.entity),
    (I.altEntityKind, .int r.obj.altEntityKind),
    (I.altDomain, .int r.obj.altDomain),
    (I.altCountry, .int r.obj.altCountry),
    (I.altCategory, .int r.obj.altCategory),
    (I.altSubcategory, .int r.obj.altSubcategory),
    (I.altSpecific, .int r.obj.altSpecific),
    (I.altExtra, .int r.obj.altExtra),
    (I.xVelocity, r.xVelocity),
    (I.yVelocity, r.yVelocity),
    (I.zVelocity, r.zVelocity),
    (I.xLocation, r.xLocation),
    (I.yLocation, r.yLocation),
    (I.zLocation, r.zLocation),
    (I.otherParameters, .list (r.obj.otherParameters.map .int)),
    (I.xAcceleration, r.xAcceleration),
    (I.yAcceleration, r.yAcceleration),
    (I.zAcceleration, r.zAcceleration),
    (I.xAngularVelocity, r.xAngularVelocity),
    (I.yAngularVelocity, r.yAngularVelocity),
    (I.zAngularVelocity, r.zAngularVelocity)]

/-- Its attributes (/repo/opendis/dis7.py:5637-5868). -/
abbrev FastEntityStatePdu.rawFields (r : FastEntityStatePdu.Raw) : List (Ident × Val) := EntityInformationFamilyPdu.fields r.obj.toEntityInformationFamilyPdu ++ FastEntityStatePdu.rawOwn r

/-- What the constructor makes (/repo/opendis/dis7.py:5637-5868). -/
abbrev FastEntityStatePdu.made : FastEntityStatePdu.Raw := ⟨Dis.FastEntityStatePdu.init, .int 0, .int 0, .int 0, .int 0, .int 0, .int 0, .int 0, .int 0, .int 0, .int 0, .int 0, .int 0, .int 0, .int 0, .int 0⟩

/-- `FastEntityStatePdu.parse` (/repo/opendis/dis7.py:5813-5868). -/
def FastEntityStatePdu.parseRaw : P FastEntityStatePdu.Raw Unit := do
  P.call ⟨(·.obj.toEntityInformationFamilyPdu), fun o v => { o with obj := { o.obj with toEntityInformationFamilyPdu := v } }⟩ Dis.EntityInformationFamilyPdu.parseInto
  let site ← P.read read_unsigned_short
  P.set fun o => { o with obj := { o.obj with site := site } }
  let application ← P.read read_unsigned_short
  P.set fun o => { o with obj := { o.obj with application := application } }
  let entity ← P.read read_unsigned_short
  P.set fun o => { o with obj := { o.obj with entity := entity } }
  let forceId ← P.read read_unsigned_byte
  P.set fun o => { o with obj := { o.obj with forceId := forceId } }
  let numberOfVariableParameters ← P.read read_byte
  P.set fun o => { o with obj := { o.obj with numberOfVariableParameters := numberOfVariableParameters } }
  let entityKind ← P.read read_unsigned_byte
  P.set fun o => { o with obj := { o.obj with entityKind := entityKind } }
  let domain ← P.read read_unsigned_byte
  P.set fun o => { o with obj := { o.obj with domain := domain } }
  let country ← P.read read_unsigned_short
  P.set fun o => { o with obj := { o.obj with country := country } }
  let category ← P.read read_unsigned_byte
  P.set fun o => { o with obj := { o.obj with category := category } }
  let subcategory ← P.read read_unsigned_byte
  P.set fun o => { o with obj := { o.obj with subcategory := subcategory } }
  let specific ← P.read read_unsigned_byte
  P.set fun o => { o with obj := { o.obj with specific := specific } }
  let extra ← P.read read_unsigned_byte
  P.set fun o => { o with obj := { o.obj with extra := extra } }
  let altEntityKind ← P.read read_unsigned_byte
  P.set fun o => { o with obj := { o.obj with altEntityKind := altEntityKind } }
  let altDomain ← P.read read_unsigned_byte
  P.set fun o => { o with obj := { o.obj with altDomain := altDomain } }
  let altCountry ← P.read read_unsigned_short
  P.set fun o => { o with obj := { o.obj with altCountry := altCountry } }
  let altCategory ← P.read read_unsigned_byte
  P.set fun o => { o with obj := { o.obj with altCategory := altCategory } }
  let altSubcategory ← P.read read_unsigned_byte
  P.set fun o => { o with obj := { o.obj with altSubcategory := altSubcategory } }
  let altSpecific ← P.read read_unsigned_byte
  P.set fun o => { o with obj := { o.obj with altSpecific := altSpecific } }
  let altExtra ← P.read read_unsigned_byte
  P.set fun o => { o with obj := { o.obj with altExtra := altExtra } }
  let xVelocity ← P.read read_float
  P.set fun o => { o with obj := { o.obj with xVelocity := xVelocity }, xVelocity := .float xVelocity }
  let yVelocity ← P.read read_float
  P.set fun o => { o with obj := { o.obj with yVelocity := yVelocity }, yVelocity := .float yVelocity }
  let zVelocity ← P.read read_float
  P.set fun o => { o with obj := { o.obj with zVelocity := zVelocity }, zVelocity := .float zVelocity }
  let xLocation ← P.read read_double
  P.set fun o => { o with obj := { o.obj with xLocation := xLocation }, xLocation := .float xLocation }
  let yLocation ← P.read read_double
  P.set fun o => { o with obj := { o.obj with yLocation := yLocation }, yLocation := .float yLocation }
  let zLocation ← P.read read_double
  P.set fun o => { o with obj := { o.obj with zLocation := zLocation }, zLocation := .float zLocation }
  let psi ← P.read read_float
  P.set fun o => { o with obj := { o.obj with psi := psi }, psi := .float psi }
  let theta ← P.read read_float
  P.set fun o => { o with obj := { o.obj with theta := theta }, theta := .float theta }
  let phi ← P.read read_float
  P.set fun o => { o with obj := { o.obj with phi := phi }, phi := .float phi }
  let entityAppearance ← P.read read_int
  P.set fun o => { o with obj := { o.obj with entityAppearance := entityAppearance } }
  let deadReckoningAlgorithm ← P.read read_unsigned_byte
  P.set fun o => { o with obj := { o.obj with deadReckoningAlgorithm := deadReckoningAlgorithm } }
  P.fillReads 15 read_byte ⟨(·.obj.otherParameters), fun o v => { o with obj := { o.obj with otherParameters := v } }⟩
  let xAcceleration ← P.read read_float
  P.set fun o => { o with obj := { o.obj with xAcceleration := xAcceleration }, xAcceleration := .float xAcceleration }
  let yAcceleration ← P.read read_float
  P.set fun o => { o with obj := { o.obj with yAcceleration := yAcceleration }, yAcceleration := .float yAcceleration }
  let zAcceleration ← P.read read_float
  P.set fun o => { o with obj := { o.obj with zAcceleration := zAcceleration }, zAcceleration := .float zAcceleration }
  let xAngularVelocity ← P.read read_float
  P.set fun o => { o with obj := { o.obj with xAngularVelocity := xAngularVelocity }, xAngularVelocity := .float xAngularVelocity }
  let yAngularVelocity ← P.read read_float
  P.set fun o => { o with obj := { o.obj with yAngularVelocity := yAngularVelocity }, yAngularVelocity := .float yAngularVelocity }
  let zAngularVelocity ← P.read read_float
  P.set fun o => { o with obj := { o.obj with zAngularVelocity := zAngularVelocity }, zAngularVelocity := .float zAngularVelocity }
  P.fillReads 12 read_byte ⟨(·.obj.marking), fun o v => { o with obj := { o.obj with marking := v } }⟩
  let capabilities ← P.read read_int
  P.set fun o => { o with obj := { o.obj with capabilities := capabilities } }
  P.appendObjs numberOfVariableParameters.toNat Dis.VariableParameter.init Dis.VariableParameter.parseInto ⟨(·.obj.variableParameters), fun o v => { o with obj := { o.obj with variableParameters := v } }⟩
  return ()
/-- The attributes a `AcknowledgeReliablePdu` object has besides the inherited ones (/repo/opendis/dis7.py:5871-5902). -/
abbrev AcknowledgeReliablePdu.own (x : Dis.AcknowledgeReliablePdu) : List (Ident × Val) :=
   [(I.requestID, .int x.requestID),
    (I.acknowledgeFlag, .int x.acknowledgeFlag),
    (I.responseFlag, .int x.responseFlag)]

/-- The attributes of a `AcknowledgeReliablePdu` object (/repo/opendis/dis7.py:5871-5902). -/
abbrev AcknowledgeReliablePdu.fields (x : Dis.AcknowledgeReliablePdu) : List (Ident × Val) := SimulationManagementWithReliabilityFamilyPdu.fields x.toSimulationManagementWithReliabilityFamilyPdu ++ AcknowledgeReliablePdu.own x

/-- A `AcknowledgeReliablePdu` object (/repo/opendis/dis7.py:5871-5902). -/
abbrev AcknowledgeReliablePdu.enc (x : Dis.AcknowledgeReliablePdu) : Val := .obj I.AcknowledgeReliablePdu (AcknowledgeReliablePdu.fields x)

/-- The attributes a `StartResumeReliablePdu` object has besides the inherited ones (/repo/opendis/dis7.py:5905-5946). -/
abbrev StartResumeReliablePdu.own (x : Dis.StartResumeReliablePdu) : List (Ident × Val) :=
   [(I.requestID, .int x.requestID),
    (I.requiredReliabilityService, .int x.requiredReliabilityService),
    (I.pad1, .int x.pad1),
    (I.pad2, .int x.pad2),
    (I.realWorldTime, ClockTime.enc x.realWorldTime),
    (I.simulationTime, ClockTime.enc x.simulationTime)]

/-- The attributes of a `StartResumeReliablePdu` object (/repo/opendis/dis7.py:5905-5946). -/
abbrev StartResumeReliablePdu.fields (x : Dis.StartResumeReliablePdu) : List (Ident × Val) := SimulationManagementWithReliabilityFamilyPdu.fields x.toSimulationManagementWithReliabilityFamilyPdu ++ StartResumeReliablePdu.own x

/-- A `StartResumeReliablePdu` object (/repo/opendis/dis7.py:5905-5946). -/
abbrev StartResumeReliablePdu.enc (x : Dis.StartResumeReliablePdu) : Val := .obj I.StartResumeReliablePdu (StartResumeReliablePdu.fields x)

/-- The attributes a `ArealObjectStatePdu` object has besides the inherited ones (/repo/opendis/dis7.py:5949-6025). -/
abbrev ArealObjectStatePdu.own (x : Dis.ArealObjectStatePdu) : List (Ident × Val) :=
   [(I.receivingID, SimulationAddress.enc x.receivingID),
    (I.objectID, EntityIdentifier.enc x.objectID),
    (I.referencedObjectID, EntityIdentifier.enc x.referencedObjectID),
    (I.updateNumber, .int x.updateNumber),
    (I.forceID, .int x.forceID),
    (I.requesterID, SimulationAddress.enc x.requesterID),
    (I.objectType, ObjectType.enc x.objectType),
    (I.modifications, .int x.modifications),
    (I.objectLocation, .list (x.objectLocation.map WorldCoordinates.enc)),
    (I.specificObjectAppearance, .int x.specificObjectAppearance),
    (I.generalObjectAppearance, .int x.generalObjectAppearance)]

/-- The attributes of a `ArealObjectStatePdu` object (/repo/opendis/dis7.py:5949-6025). -/
abbrev ArealObjectStatePdu.fields (x : Dis.ArealObjectStatePdu) : List (Ident × Val) := SyntheticEnvironmentFamilyPdu.fields x.toSyntheticEnvironmentFamilyPdu ++ ArealObjectStatePdu.own x

/-- A `ArealObjectStatePdu` object (/repo/opendis/dis7.py:5949-6025). -/
abbrev ArealObjectStatePdu.enc (x : Dis.ArealObjectStatePdu) : Val := .obj I.ArealObjectStatePdu (ArealObjectStatePdu.fields x)

/-- The attributes a `DataQueryReliablePdu` object has besides the inherited ones (/repo/opendis/dis7.py:6028-6087). -/
abbrev DataQueryReliablePdu.own (x : Dis.DataQueryReliablePdu) : List (Ident × Val) :=
   [(I.requestID, .int x.requestID),
    (I.timeInterval, .int x.timeInterval),
    (I._dataQuery, DataQueryDatumSpecification.enc x._dataQuery),
    (I.requiredReliabilityService, .int x.requiredReliabilityService),
    (I.pad1, .int x.pad1),
    (I.pad2, .int x.pad2)]

/-- The attributes of a `DataQueryReliablePdu` object (/repo/opendis/dis7.py:6028-6087). -/
abbrev DataQueryReliablePdu.fields (x : Dis.DataQueryReliablePdu) : List (Ident × Val) := SimulationManagementWithReliabilityFamilyPdu.fields x.toSimulationManagementWithReliabilityFamilyPdu ++ DataQueryReliablePdu.own x

/-- A `DataQueryReliablePdu` object (/repo/opendis/dis7.py:6028-6087). -/
abbrev DataQueryReliablePdu.enc (x : Dis.DataQueryReliablePdu) : Val := .obj I.DataQueryReliablePdu (DataQueryReliablePdu.fields x)

/-- The attributes a `MinefieldStatePdu` object has besides the inherited ones (/repo/opendis/dis7.py:6090-6172). -/
abbrev MinefieldStatePdu.own (x : Dis.MinefieldStatePdu) : List (Ident × Val) :=
   [(I.protocolMode, .int x.protocolMode),
    (I.forceID, .int x.forceID),
    (I.minefieldID, MinefieldIdentifier.enc x.minefieldID),
    (I.minefieldSequence, .int x.minefieldSequence),
    (I.minefieldType, EntityType.enc x.minefieldType),
    (I.minefieldLocation, WorldCoordinates.enc x.minefieldLocation),
    (I.minefieldOrientation, EulerAngles.enc x.minefieldOrientation),
    (I.appearance, .int x.appearance),
    (I.perimeterPoints, .list (x.perimeterPoints.map Vector2Float.enc)),
    (I.mineTypes, .list (x.mineTypes.map EntityType.enc))]

/-- The attributes of a `MinefieldStatePdu` object (/repo/opendis/dis7.py:6090-6172). -/
abbrev MinefieldStatePdu.fields (x : Dis.MinefieldStatePdu) : List (Ident × Val) := MinefieldFamilyPdu.fields x.toMinefieldFamilyPdu ++ MinefieldStatePdu.own x

/-- A `MinefieldStatePdu` object (/repo/opendis/dis7.py:6090-6172). -/
abbrev MinefieldStatePdu.enc (x : Dis.MinefieldStatePdu) : Val := .obj I.MinefieldStatePdu (MinefieldStatePdu.fields x)

/-- The attributes a `DetonationPdu` object has besides the inherited ones (/repo/opendis/dis7.py:6406-6475). -/
abbrev DetonationPdu.own (x : Dis.DetonationPdu) : List (Ident × Val) :=
   [(I.variableParameters, .list (x.variableParameters.map VariableParameter.enc)),
    (I.eventID, EventIdentifier.enc x.eventID),
    (I.velocity, Vector3Float.enc x.velocity),
    (I.location, WorldCoordinates.enc x.location),
    (I.pad, .int x.pad),
    (I.explodingEntityID, EntityIdentifier.enc x.explodingEntityID),
    (I.descriptor, MunitionDescriptor.enc x.descriptor),
    (I.locationInEntityCoordinates, Vector3Float.enc x.locationInEntityCoordinates),
    (I.detonationResult, .int x.detonationResult)]

/-- The attributes of a `DetonationPdu` object (/repo/opendis/dis7.py:6406-6475). -/
abbrev DetonationPdu.fields (x : Dis.DetonationPdu) : List (Ident × Val) := WarfareFamilyPdu.fields x.toWarfareFamilyPdu ++ DetonationPdu.own x

/-- A `DetonationPdu` object (/repo/opendis/dis7.py:6406-6475). -/
abbrev DetonationPdu.enc (x : Dis.DetonationPdu) : Val := .obj I.DetonationPdu (DetonationPdu.fields x)

/-- The attributes a `RecordQueryReliablePdu` object has besides the inherited ones (/repo/opendis/dis7.py:6527-6581). -/
abbrev RecordQueryReliablePdu.own (x : Dis.RecordQueryReliablePdu) : List (Ident × Val) :=
   [(I.requestID, .int x.requestID),
    (I.recordIDs, .list (x.recordIDs.map .int)),
    (I.requiredReliabilityService, .int x.requiredReliabilityService),
    (I.pad1, .int x.pad1),
    (I.pad2, .int x.pad2),
    (I.eventType, .int x.eventType),
    (I.time, .int x.time)]

/-- The attributes of a `RecordQueryReliablePdu` object (/repo/opendis/dis7.py:6527-6581). -/
abbrev RecordQueryReliablePdu.fields (x : Dis.RecordQueryReliablePdu) : List (Ident × Val) := SimulationManagementWithReliabilityFamilyPdu.fields x.toSimulationManagementWithReliabilityFamilyPdu ++ RecordQueryReliablePdu.own x

/-- A `RecordQueryReliablePdu` object (/repo/opendis/dis7.py:6527-6581). -/
abbrev RecordQueryReliablePdu.enc (x : Dis.RecordQueryReliablePdu) : Val := .obj I.RecordQueryReliablePdu (RecordQueryReliablePdu.fields x)

/-- The attributes a `FirePdu` object has besides the inherited ones (/repo/opendis/dis7.py:6680-6733). -/
abbrev FirePdu.own (x : Dis.FirePdu) : List (Ident × Val) :=
   [(I.range, .float x.range),
    (I.eventID, EventIdentifier.enc x.eventID),
    (I.velocity, Vector3Float.enc x.velocity),
    (I.location, WorldCoordinates.enc x.location),
    (I.descriptor, MunitionDescriptor.enc x.descriptor),
    (I.munitionExpendableID, EntityIdentifier.enc x.munitionExpendableID),
    (I.fireMissionIndex, .int x.fireMissionIndex)]

/-- The attributes of a `FirePdu` object (/repo/opendis/dis7.py:6680-6733). -/
abbrev FirePdu.fields (x : Dis.FirePdu) : List (Ident × Val) := WarfareFamilyPdu.fields x.toWarfareFamilyPdu ++ FirePdu.own x

/-- A `FirePdu` object (/repo/opendis/dis7.py:6680-6733). -/
abbrev FirePdu.enc (x : Dis.FirePdu) : Val := .obj I.FirePdu (FirePdu.fields x)

/-- The attributes a `ReceiverPdu` object has besides the inherited ones (/repo/opendis/dis7.py:6736-6775). -/
abbrev ReceiverPdu.own (x : Dis.ReceiverPdu) : List (Ident × Val) :=
   [(I.padding1, .int x.padding1),
    (I.receiverState, .int x.receiverState),
    (I.receivedPower, .float x.receivedPower),
    (I.transmitterEntityID, EntityIdentifier.enc x.transmitterEntityID),
    (I.transmitterRadioId, .int x.transmitterRadioId)]

/-- The attributes of a `ReceiverPdu` object (/repo/opendis/dis7.py:6736-6775). -/
abbrev ReceiverPdu.fields (x : Dis.ReceiverPdu) : List (Ident × Val) := RadioCommunicationsFamilyPdu.fields x.toRadioCommunicationsFamilyPdu ++ ReceiverPdu.own x

/-- A `ReceiverPdu` object (/repo/opendis/dis7.py:6736-6775). -/
abbrev ReceiverPdu.enc (x : Dis.ReceiverPdu) : Val := .obj I.ReceiverPdu (ReceiverPdu.fields x)

/-- The attributes a `UaPdu` object has besides the inherited ones (/repo/opendis/dis7.py:6778-6870). -/
abbrev UaPdu.own (x : Dis.UaPdu) : List (Ident × Val) :=
   [(I.eventID, EventIdentifier.enc x.eventID),
    (I.pad, .int x.pad),
    (I.emittingEntityID, EntityIdentifier.enc x.emittingEntityID),
    (I.stateChangeIndicator, .int x.stateChangeIndicator),
    (I.passiveParameterIndex, .int x.passiveParameterIndex),
    (I.propulsionPlantConfiguration, .int x.propulsionPlantConfiguration),
    (I.shaftRPMs, .list (x.shaftRPMs.map .int)),
    (I.apaData, .list (x.apaData.map .int)),
    (I.emitterSystems, .list (x.emitterSystems.map .int))]

/-- The attributes of a `UaPdu` object (/repo/opendis/dis7.py:6778-6870). -/
abbrev UaPdu.fields (x : Dis.UaPdu) : List (Ident × Val) := DistributedEmissionsFamilyPdu.fields x.toDistributedEmissionsFamilyPdu ++ UaPdu.own x

/-- A `UaPdu` object (/repo/opendis/dis7.py:6778-6870). -/
abbrev UaPdu.enc (x : Dis.UaPdu) : Val := .obj I.UaPdu (UaPdu.fields x)

/-- The attributes a `SignalPdu` object has besides the inherited ones (/repo/opendis/dis7.py:6957-7015). -/
abbrev SignalPdu.own (x : Dis.SignalPdu) : List (Ident × Val) :=
   [(I.data, .list (x.data.map .int)),
    (I.entityID, EntityIdentifier.enc x.entityID),
    (I.encodingScheme, .int x.encodingScheme),
    (I.tdlType, .int x.tdlType),
    (I.sampleRate, .int x.sampleRate),
    (I.samples, .int x.samples),
    (I.radioID, .int x.radioID)]

/-- The attributes of a `SignalPdu` object (/repo/opendis/dis7.py:6957-7015). -/
abbrev SignalPdu.fields (x : Dis.SignalPdu) : List (Ident × Val) := RadioCommunicationsFamilyPdu.fields x.toRadioCommunicationsFamilyPdu ++ SignalPdu.own x

/-- A `SignalPdu` object (/repo/opendis/dis7.py:6957-7015). -/
abbrev SignalPdu.enc (x : Dis.SignalPdu) : Val := .obj I.SignalPdu (SignalPdu.fields x)

/-- The attributes a `RemoveEntityReliablePdu` object has besides the inherited ones (/repo/opendis/dis7.py:7018-7049). -/
abbrev RemoveEntityReliablePdu.own (x : Dis.RemoveEntityReliablePdu) : List (Ident × Val) :=
   [(I.requestID, .int x.requestID),
    (I.requiredReliabilityService, .int x.requiredReliabilityService),
    (I.pad1, .int x.pad1),
    (I.pad2, .int x.pad2)]

/-- The attributes of a `RemoveEntityReliablePdu` object (/repo/opendis/dis7.py:7018-7049). -/
abbrev RemoveEntityReliablePdu.fields (x : Dis.RemoveEntityReliablePdu) : List (Ident × Val) := SimulationManagementWithReliabilityFamilyPdu.fields x.toSimulationManagementWithReliabilityFamilyPdu ++ RemoveEntityReliablePdu.own x

/-- A `RemoveEntityReliablePdu` object (/repo/opendis/dis7.py:7018-7049). -/
abbrev RemoveEntityReliablePdu.enc (x : Dis.RemoveEntityReliablePdu) : Val := .obj I.RemoveEntityReliablePdu (RemoveEntityReliablePdu.fields x)

/-- The attributes a `SeesPdu` object has besides the inherited ones (/repo/opendis/dis7.py:7052-7119). -/
abbrev SeesPdu.own (x : Dis.SeesPdu) : List (Ident × Val) :=
   [(I.infraredSignatureRepresentationIndex, .int x.infraredSignatureRepresentationIndex),
    (I.acousticSignatureRepresentationIndex, .int x.acousticSignatureRepresentationIndex),
    (I.radarCrossSectionSignatureRepresentationIndex, .int x.radarCrossSectionSignatureRepresentationIndex),
    (I.propulsionSystemData, .list (x.propulsionSystemData.map PropulsionSystemData.enc)),
    (I.vectoringSystemData, .list (x.vectoringSystemData.map VectoringNozzleSystem.enc)),
    (I.orginatingEntityID, EntityIdentifier.enc x.orginatingEntityID)]

/-- The attributes of a `SeesPdu` object (/repo/opendis/dis7.py:7052-7119). -/
abbrev SeesPdu.fields (x : Dis.SeesPdu) : List (Ident × Val) := DistributedEmissionsFamilyPdu.fields x.toDistributedEmissionsFamilyPdu ++ SeesPdu.own x

/-- A `SeesPdu` object (/repo/opendis/dis7.py:7052-7119). -/
abbrev SeesPdu.enc (x : Dis.SeesPdu) : Val := .obj I.SeesPdu (SeesPdu.fields x)

/-- The attributes a `CreateEntityReliablePdu` object has besides the inherited ones (/repo/opendis/dis7.py:7122-7153). -/
abbrev CreateEntityReliablePdu.own (x : Dis.CreateEntityReliablePdu) : List (Ident × Val) :=
   [(I.requestID, .int x.requestID),
    (I.requiredReliabilityService, .int x.requiredReliabilityService),
    (I.pad1, .int x.pad1),
    (I.pad2, .int x.pad2)]

/-- The attributes of a `CreateEntityReliablePdu` object (/repo/opendis/dis7.py:7122-7153). -/
abbrev CreateEntityReliablePdu.fields (x : Dis.CreateEntityReliablePdu) : List (Ident × Val) := SimulationManagementWithReliabilityFamilyPdu.fields x.toSimulationManagementWithReliabilityFamilyPdu ++ CreateEntityReliablePdu.own x

/-- A `CreateEntityReliablePdu` object (/repo/opendis/dis7.py:7122-7153). -/
abbrev CreateEntityReliablePdu.enc (x : Dis.CreateEntityReliablePdu) : Val := .obj I.CreateEntityReliablePdu (CreateEntityReliablePdu.fields x)

/-- The attributes a `StopFreezeReliablePdu` object has besides the inherited ones (/repo/opendis/dis7.py:7156-7199). -/
abbrev StopFreezeReliablePdu.own (x : Dis.StopFreezeReliablePdu) : List (Ident × Val) :=
   [(I.requestID, .int x.requestID),
    (I.pad1, .int x.pad1),
    (I.realWorldTime, ClockTime.enc x.realWorldTime),
    (I.reason, .int x.reason),
    (I.frozenBehavior, .int x.frozenBehavior),
    (I.requiredReliablityService, .int x.requiredReliablityService)]

/-- The attributes of a `StopFreezeReliablePdu` object (/repo/opendis/dis7.py:7156-7199). -/
abbrev StopFreezeReliablePdu.fields (x : Dis.StopFreezeReliablePdu) : List (Ident × Val) := SimulationManagementWithReliabilityFamilyPdu.fields x.toSimulationManagementWithReliabilityFamilyPdu ++ StopFreezeReliablePdu.own x

/-- A `StopFreezeReliablePdu` object (/repo/opendis/dis7.py:7156-7199). -/
abbrev StopFreezeReliablePdu.enc (x : Dis.StopFreezeReliablePdu) : Val := .obj I.StopFreezeReliablePdu (StopFreezeReliablePdu.fields x)

/-- The attributes a `MinefieldResponseNackPdu` object has besides the inherited ones (/repo/opendis/dis7.py:7253-7299). -/
abbrev MinefieldResponseNackPdu.own (x : Dis.MinefieldResponseNackPdu) : List (Ident × Val) :=
   [(I.requestID, .int x.requestID),
    (I.requestingEntityID, EntityIdentifier.enc x.requestingEntityID),
    (I.minefieldID, EntityIdentifier.enc x.minefieldID),
    (I.missingPduSequenceNumbers, .list (x.missingPduSequenceNumbers.map .int))]

/-- The attributes of a `MinefieldResponseNackPdu` object (/repo/opendis/dis7.py:7253-7299). -/
abbrev MinefieldResponseNackPdu.fields (x : Dis.MinefieldResponseNackPdu) : List (Ident × Val) := MinefieldFamilyPdu.fields x.toMinefieldFamilyPdu ++ MinefieldResponseNackPdu.own x

/-- A `MinefieldResponseNackPdu` object (/repo/opendis/dis7.py:7253-7299). -/
abbrev MinefieldResponseNackPdu.enc (x : Dis.MinefieldResponseNackPdu) : Val := .obj I.MinefieldResponseNackPdu (MinefieldResponseNackPdu.fields x)

/-- The attributes a `IsPartOfPdu` object has besides the inherited ones (/repo/opendis/dis7.py:7352-7397). -/
abbrev IsPartOfPdu.own (x : Dis.IsPartOfPdu) : List (Ident × Val) :=
   [(I.receivingEntityID, EntityIdentifier.enc x.receivingEntityID),
    (I.orginatingEntityID, EntityIdentifier.enc x.orginatingEntityID),
    (I.relationship, Relationship.enc x.relationship),
    (I.partLocation, Vector3Float.enc x.partLocation),
    (I.namedLocationID, NamedLocationIdentification.enc x.namedLocationID),
    (I.partEntityType, EntityType.enc x.partEntityType)]

/-- The attributes of a `IsPartOfPdu` object (/repo/opendis/dis7.py:7352-7397). -/
abbrev IsPartOfPdu.fields (x : Dis.IsPartOfPdu) : List (Ident × Val) := EntityManagementFamilyPdu.fields x.toEntityManagementFamilyPdu ++ IsPartOfPdu.own x

/-- A `IsPartOfPdu` object (/repo/opendis/dis7.py:7352-7397). -/
abbrev IsPartOfPdu.enc (x : Dis.IsPartOfPdu) : Val := .obj I.IsPartOfPdu (IsPartOfPdu.fields x)

end Dis.Src
