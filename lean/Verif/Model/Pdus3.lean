import Verif.Model.Pdus2

/-!
# PDUs of `opendis/dis7.py`, part 3

Generated by `tools/gen.py` from the Python source; each definition cites the lines it transliterates.
-/

set_option linter.unusedVariables false

namespace Dis

/-- Attributes of a `DesignatorPdu` object, /repo/opendis/dis7.py:4678-4753; default values are those of an
object made by `DesignatorPdu()`, /repo/opendis/dis7.py:4685-4721. -/
structure DesignatorPdu extends DistributedEmissionsFamilyPdu where
  designatingEntityID : EntityIdentifier := EntityIdentifier.init
  codeName : Int := 0
  designatedEntityID : EntityIdentifier := EntityIdentifier.init
  designatorCode : Int := 0
  designatorPower : F64 := 0x0000000000000000
  designatorWavelength : F64 := 0x0000000000000000
  designatorSpotWrtDesignated : Vector3Float := Vector3Float.init
  designatorSpotLocation : WorldCoordinates := WorldCoordinates.init
  deadReckoningAlgorithm : Int := 0
  padding1 : Int := 0
  padding2 : Int := 0
  entityLinearAcceleration : Vector3Float := Vector3Float.init
  pduType := 24
  deriving DecidableEq

/-- Constructor `DesignatorPdu(...)`, /repo/opendis/dis7.py:4685-4721. `x or T()` and `x or []` keep a given
value and replace `None` (absent) by a fresh one. -/
def DesignatorPdu.init (designatingEntityID : Option EntityIdentifier := none)
    (codeName : Int := 0) (designatedEntityID : Option EntityIdentifier := none)
    (designatorCode : Int := 0) (designatorPower : F64 := 0x0000000000000000)
    (designatorWavelength : F64 := 0x0000000000000000)
    (designatorSpotWrtDesignated : Option Vector3Float := none)
    (designatorSpotLocation : Option WorldCoordinates := none)
    (deadReckoningAlgorithm : Int := 0) (entityLinearAcceleration : Option Vector3Float := none) : DesignatorPdu :=
  { designatingEntityID := designatingEntityID.getD EntityIdentifier.init,
    codeName := codeName,
    designatedEntityID := designatedEntityID.getD EntityIdentifier.init,
    designatorCode := designatorCode,
    designatorPower := designatorPower,
    designatorWavelength := designatorWavelength,
    designatorSpotWrtDesignated := designatorSpotWrtDesignated.getD Vector3Float.init,
    designatorSpotLocation := designatorSpotLocation.getD WorldCoordinates.init,
    deadReckoningAlgorithm := deadReckoningAlgorithm,
    padding1 := 0,
    padding2 := 0,
    entityLinearAcceleration := entityLinearAcceleration.getD Vector3Float.init }

/-- `DesignatorPdu.serialize`, /repo/opendis/dis7.py:4723-4737. -/
def DesignatorPdu.serialize (self : DesignatorPdu) : W Unit := do
  DistributedEmissionsFamilyPdu.serialize self.toDistributedEmissionsFamilyPdu
  EntityIdentifier.serialize self.designatingEntityID
  write_unsigned_short self.codeName
  EntityIdentifier.serialize self.designatedEntityID
  write_unsigned_short self.designatorCode
  write_float self.designatorPower
  write_float self.designatorWavelength
  Vector3Float.serialize self.designatorSpotWrtDesignated
  WorldCoordinates.serialize self.designatorSpotLocation
  write_byte self.deadReckoningAlgorithm
  write_unsigned_short self.padding1
  write_byte self.padding2
  Vector3Float.serialize self.entityLinearAcceleration

/-- `DesignatorPdu.parse`, /repo/opendis/dis7.py:4739-4753; returns the updated object. -/
def DesignatorPdu.parse (self : DesignatorPdu) : R DesignatorPdu := do
  let base ← DistributedEmissionsFamilyPdu.parse self.toDistributedEmissionsFamilyPdu
  let designatingEntityID ← EntityIdentifier.parse self.designatingEntityID
  let codeName ← read_unsigned_short
  let designatedEntityID ← EntityIdentifier.parse self.designatedEntityID
  let designatorCode ← read_unsigned_short
  let designatorPower ← read_float
  let designatorWavelength ← read_float
  let designatorSpotWrtDesignated ← Vector3Float.parse self.designatorSpotWrtDesignated
  let designatorSpotLocation ← WorldCoordinates.parse self.designatorSpotLocation
  let deadReckoningAlgorithm ← read_byte
  let padding1 ← read_unsigned_short
  let padding2 ← read_byte
  let entityLinearAcceleration ← Vector3Float.parse self.entityLinearAcceleration
  return { self with
    toDistributedEmissionsFamilyPdu := base,
    designatingEntityID := designatingEntityID,
    codeName := codeName,
    designatedEntityID := designatedEntityID,
    designatorCode := designatorCode,
    designatorPower := designatorPower,
    designatorWavelength := designatorWavelength,
    designatorSpotWrtDesignated := designatorSpotWrtDesignated,
    designatorSpotLocation := designatorSpotLocation,
    deadReckoningAlgorithm := deadReckoningAlgorithm,
    padding1 := padding1,
    padding2 := padding2,
    entityLinearAcceleration := entityLinearAcceleration }

/-- Attributes of a `StopFreezePdu` object, /repo/opendis/dis7.py:4756-4795; default values are those of an
object made by `StopFreezePdu()`, /repo/opendis/dis7.py:4763-4777. -/
structure StopFreezePdu extends SimulationManagementFamilyPdu where
  realWorldTime : ClockTime := ClockTime.init
  reason : Int := 0
  frozenBehavior : Int := 0
  padding1 : Int := 0
  requestID : Int := 0
  pduType := 14
  deriving DecidableEq

/-- Constructor `StopFreezePdu(...)`, /repo/opendis/dis7.py:4763-4777. `x or T()` and `x or []` keep a given
value and replace `None` (absent) by a fresh one. -/
def StopFreezePdu.init (realWorldTime : Option ClockTime := none) (reason : Int := 0)
    (frozenBehavior : Int := 0) (requestID : Int := 0) : StopFreezePdu :=
  { realWorldTime := realWorldTime.getD ClockTime.init,
    reason := reason,
    frozenBehavior := frozenBehavior,
    padding1 := 0,
    requestID := requestID }

/-- `StopFreezePdu.serialize`, /repo/opendis/dis7.py:4779-4786. -/
def StopFreezePdu.serialize (self : StopFreezePdu) : W Unit := do
  SimulationManagementFamilyPdu.serialize self.toSimulationManagementFamilyPdu
  ClockTime.serialize self.realWorldTime
  write_unsigned_byte self.reason
  write_unsigned_byte self.frozenBehavior
  write_short self.padding1
  write_unsigned_int self.requestID

/-- `StopFreezePdu.parse`, /repo/opendis/dis7.py:4788-4795; returns the updated object. -/
def StopFreezePdu.parse (self : StopFreezePdu) : R StopFreezePdu := do
  let base ← SimulationManagementFamilyPdu.parse self.toSimulationManagementFamilyPdu
  let realWorldTime ← ClockTime.parse self.realWorldTime
  let reason ← read_unsigned_byte
  let frozenBehavior ← read_unsigned_byte
  let padding1 ← read_short
  let requestID ← read_unsigned_int
  return { self with
    toSimulationManagementFamilyPdu := base,
    realWorldTime := realWorldTime,
    reason := reason,
    frozenBehavior := frozenBehavior,
    padding1 := padding1,
    requestID := requestID }

/-- Attributes of a `EntityStatePdu` object, /repo/opendis/dis7.py:4798-4887; default values are those of an
object made by `EntityStatePdu()`, /repo/opendis/dis7.py:4805-4842. -/
structure EntityStatePdu extends EntityInformationFamilyPdu where
  entityID : EntityIdentifier := EntityIdentifier.init
  forceId : Int := 0
  entityType : EntityType := EntityType.init
  alternativeEntityType : EntityType := EntityType.init
  entityLinearVelocity : Vector3Float := Vector3Float.init
  entityLocation : WorldCoordinates := WorldCoordinates.init
  entityOrientation : EulerAngles := EulerAngles.init
  entityAppearance : Int := 0
  deadReckoningParameters : DeadReckoningParameters := DeadReckoningParameters.init
  marking : EntityMarking := EntityMarking.init
  capabilities : Int := 0
  variableParameters : List VariableParameter := []
  pduType := 1
  deriving DecidableEq

/-- Constructor `EntityStatePdu(...)`, /repo/opendis/dis7.py:4805-4842. `x or T()` and `x or []` keep a given
value and replace `None` (absent) by a fresh one. -/
def EntityStatePdu.init (entityID : Option EntityIdentifier := none) (forceId : Int := 0)
    (entityType : Option EntityType := none) (alternativeEntityType : Option EntityType := none)
    (entityLinearVelocity : Option Vector3Float := none)
    (entityLocation : Option WorldCoordinates := none)
    (entityOrientation : Option EulerAngles := none) (entityAppearance : Int := 0)
    (deadReckoningParameters : Option DeadReckoningParameters := none)
    (marking : Option EntityMarking := none) (capabilities : Int := 0)
    (variableParameters : List VariableParameter := []) : EntityStatePdu :=
  { entityID := entityID.getD EntityIdentifier.init,
    forceId := forceId,
    entityType := entityType.getD EntityType.init,
    alternativeEntityType := alternativeEntityType.getD EntityType.init,
    entityLinearVelocity := entityLinearVelocity.getD Vector3Float.init,
    entityLocation := entityLocation.getD WorldCoordinates.init,
    entityOrientation := entityOrientation.getD EulerAngles.init,
    entityAppearance := entityAppearance,
    deadReckoningParameters := deadReckoningParameters.getD DeadReckoningParameters.init,
    marking := marking.getD EntityMarking.init,
    capabilities := capabilities,
    variableParameters := variableParameters }

/-- `EntityStatePdu.serialize`, /repo/opendis/dis7.py:4851-4867. -/
def EntityStatePdu.serialize (self : EntityStatePdu) : W Unit := do
  EntityInformationFamilyPdu.serialize self.toEntityInformationFamilyPdu
  EntityIdentifier.serialize self.entityID
  write_unsigned_byte self.forceId
  write_unsigned_byte (self.variableParameters.length : Int)
  EntityType.serialize self.entityType
  EntityType.serialize self.alternativeEntityType
  Vector3Float.serialize self.entityLinearVelocity
  WorldCoordinates.serialize self.entityLocation
  EulerAngles.serialize self.entityOrientation
  write_unsigned_int self.entityAppearance
  DeadReckoningParameters.serialize self.deadReckoningParameters
  EntityMarking.serialize self.marking
  write_unsigned_int self.capabilities
  W.forEach self.variableParameters VariableParameter.serialize

/-- `EntityStatePdu.parse`, /repo/opendis/dis7.py:4869-4887; returns the updated object. -/
def EntityStatePdu.parse (self : EntityStatePdu) : R EntityStatePdu := do
  let base ← EntityInformationFamilyPdu.parse self.toEntityInformationFamilyPdu
  let entityID ← EntityIdentifier.parse self.entityID
  let forceId ← read_unsigned_byte
  let numberOfVariableParameters ← read_unsigned_byte
  let entityType ← EntityType.parse self.entityType
  let alternativeEntityType ← EntityType.parse self.alternativeEntityType
  let entityLinearVelocity ← Vector3Float.parse self.entityLinearVelocity
  let entityLocation ← WorldCoordinates.parse self.entityLocation
  let entityOrientation ← EulerAngles.parse self.entityOrientation
  let entityAppearance ← read_unsigned_int
  let deadReckoningParameters ← DeadReckoningParameters.parse self.deadReckoningParameters
  let marking ← EntityMarking.parse self.marking
  let capabilities ← read_unsigned_int
  let variableParameters ← R.times numberOfVariableParameters.toNat (VariableParameter.parse VariableParameter.init)
  return { self with
    toEntityInformationFamilyPdu := base,
    entityID := entityID,
    forceId := forceId,
    entityType := entityType,
    alternativeEntityType := alternativeEntityType,
    entityLinearVelocity := entityLinearVelocity,
    entityLocation := entityLocation,
    entityOrientation := entityOrientation,
    entityAppearance := entityAppearance,
    deadReckoningParameters := deadReckoningParameters,
    marking := marking,
    capabilities := capabilities,
    variableParameters := self.variableParameters ++ variableParameters }

/-- Attributes of a `EntityManagementFamilyPdu` object, /repo/opendis/dis7.py:4890-4906; default values are those of an
object made by `EntityManagementFamilyPdu()`, /repo/opendis/dis7.py:4897-4898. -/
structure EntityManagementFamilyPdu extends Pdu where
  protocolFamily := 7
  deriving DecidableEq

/-- `EntityManagementFamilyPdu.serialize`, /repo/opendis/dis7.py:4900-4902. -/
def EntityManagementFamilyPdu.serialize (self : EntityManagementFamilyPdu) : W Unit := do
  Pdu.serialize self.toPdu

/-- `EntityManagementFamilyPdu.parse`, /repo/opendis/dis7.py:4904-4906; returns the updated object. -/
def EntityManagementFamilyPdu.parse (self : EntityManagementFamilyPdu) : R EntityManagementFamilyPdu := do
  let base ← Pdu.parse self.toPdu
  return { self with toPdu := base }

/-- Attributes of a `StartResumePdu` object, /repo/opendis/dis7.py:4909-4940; default values are those of an
object made by `StartResumePdu()`, /repo/opendis/dis7.py:4916-4926. -/
structure StartResumePdu extends SimulationManagementFamilyPdu where
  realWorldTime : ClockTime := ClockTime.init
  simulationTime : ClockTime := ClockTime.init
  requestID : Int := 0
  pduType := 13
  deriving DecidableEq

/-- Constructor `StartResumePdu(...)`, /repo/opendis/dis7.py:4916-4926. `x or T()` and `x or []` keep a given
value and replace `None` (absent) by a fresh one. -/
def StartResumePdu.init (realWorldTime : Option ClockTime := none)
    (simulationTime : Option ClockTime := none) (requestID : Int := 0) : StartResumePdu :=
  { realWorldTime := realWorldTime.getD ClockTime.init,
    simulationTime := simulationTime.getD ClockTime.init,
    requestID := requestID }

/-- `StartResumePdu.serialize`, /repo/opendis/dis7.py:4928-4933. -/
def StartResumePdu.serialize (self : StartResumePdu) : W Unit := do
  SimulationManagementFamilyPdu.serialize self.toSimulationManagementFamilyPdu
  ClockTime.serialize self.realWorldTime
  ClockTime.serialize self.simulationTime
  write_unsigned_int self.requestID

/-- `StartResumePdu.parse`, /repo/opendis/dis7.py:4935-4940; returns the updated object. -/
def StartResumePdu.parse (self : StartResumePdu) : R StartResumePdu := do
  let base ← SimulationManagementFamilyPdu.parse self.toSimulationManagementFamilyPdu
  let realWorldTime ← ClockTime.parse self.realWorldTime
  let simulationTime ← ClockTime.parse self.simulationTime
  let requestID ← read_unsigned_int
  return { self with
    toSimulationManagementFamilyPdu := base,
    realWorldTime := realWorldTime,
    simulationTime := simulationTime,
    requestID := requestID }

/-- Attributes of a `ElectromagneticEmissionsPdu` object, /repo/opendis/dis7.py:5119-5169; default values are those of an
object made by `ElectromagneticEmissionsPdu()`, /repo/opendis/dis7.py:5127-5140. -/
structure ElectromagneticEmissionsPdu extends DistributedEmissionsFamilyPdu where
  emittingEntityID : EntityIdentifier := EntityIdentifier.init
  eventID : EventIdentifier := EventIdentifier.init
  stateUpdateIndicator : Int := 0
  systems : List EmissionSystemRecord := []
  paddingForEmissionsPdu : Int := 0
  pduType := 23
  deriving DecidableEq

/-- Constructor `ElectromagneticEmissionsPdu(...)`, /repo/opendis/dis7.py:5127-5140. `x or T()` and `x or []` keep a given
value and replace `None` (absent) by a fresh one. -/
def ElectromagneticEmissionsPdu.init (emittingEntityID : Option EntityIdentifier := none)
    (eventID : Option EventIdentifier := none) (stateUpdateIndicator : Int := 0)
    (systems : List EmissionSystemRecord := []) : ElectromagneticEmissionsPdu :=
  { emittingEntityID := emittingEntityID.getD EntityIdentifier.init,
    eventID := eventID.getD EventIdentifier.init,
    stateUpdateIndicator := stateUpdateIndicator,
    systems := systems,
    paddingForEmissionsPdu := 0 }

/-- `ElectromagneticEmissionsPdu.serialize`, /repo/opendis/dis7.py:5146-5155. -/
def ElectromagneticEmissionsPdu.serialize (self : ElectromagneticEmissionsPdu) : W Unit := do
  DistributedEmissionsFamilyPdu.serialize self.toDistributedEmissionsFamilyPdu
  EntityIdentifier.serialize self.emittingEntityID
  EventIdentifier.serialize self.eventID
  write_unsigned_byte self.stateUpdateIndicator
  write_unsigned_byte (self.systems.length : Int)
  write_unsigned_short self.paddingForEmissionsPdu
  W.forEach self.systems EmissionSystemRecord.serialize

/-- `ElectromagneticEmissionsPdu.parse`, /repo/opendis/dis7.py:5157-5169; returns the updated object. -/
def ElectromagneticEmissionsPdu.parse (self : ElectromagneticEmissionsPdu) : R ElectromagneticEmissionsPdu := do
  let base ← DistributedEmissionsFamilyPdu.parse self.toDistributedEmissionsFamilyPdu
  let emittingEntityID ← EntityIdentifier.parse self.emittingEntityID
  let eventID ← EventIdentifier.parse self.eventID
  let stateUpdateIndicator ← read_unsigned_byte
  let numberOfSystems ← read_unsigned_byte
  let paddingForEmissionsPdu ← read_unsigned_short
  let systems ← R.times numberOfSystems.toNat (EmissionSystemRecord.parse EmissionSystemRecord.init)
  return { self with
    toDistributedEmissionsFamilyPdu := base,
    emittingEntityID := emittingEntityID,
    eventID := eventID,
    stateUpdateIndicator := stateUpdateIndicator,
    paddingForEmissionsPdu := paddingForEmissionsPdu,
    systems := self.systems ++ systems }

/-- Attributes of a `ResupplyOfferPdu` object, /repo/opendis/dis7.py:5279-5327; default values are those of an
object made by `ResupplyOfferPdu()`, /repo/opendis/dis7.py:5287-5299. -/
structure ResupplyOfferPdu extends LogisticsFamilyPdu where
  receivingEntityID : EntityIdentifier := EntityIdentifier.init
  supplyingEntityID : EntityIdentifier := EntityIdentifier.init
  padding1 : Int := 0
  padding2 : Int := 0
  supplies : List SupplyQuantity := []
  pduType := 6
  deriving DecidableEq

/-- Constructor `ResupplyOfferPdu(...)`, /repo/opendis/dis7.py:5287-5299. `x or T()` and `x or []` keep a given
value and replace `None` (absent) by a fresh one. -/
def ResupplyOfferPdu.init (receivingEntityID : Option EntityIdentifier := none)
    (supplyingEntityID : Option EntityIdentifier := none) (supplies : List SupplyQuantity := []) : ResupplyOfferPdu :=
  { receivingEntityID := receivingEntityID.getD EntityIdentifier.init,
    supplyingEntityID := supplyingEntityID.getD EntityIdentifier.init,
    padding1 := 0,
    padding2 := 0,
    supplies := supplies }

/-- `ResupplyOfferPdu.serialize`, /repo/opendis/dis7.py:5305-5314. -/
def ResupplyOfferPdu.serialize (self : ResupplyOfferPdu) : W Unit := do
  LogisticsFamilyPdu.serialize self.toLogisticsFamilyPdu
  EntityIdentifier.serialize self.receivingEntityID
  EntityIdentifier.serialize self.supplyingEntityID
  write_unsigned_byte (self.supplies.length : Int)
  write_byte self.padding1
  write_short self.padding2
  W.forEach self.supplies SupplyQuantity.serialize

/-- `ResupplyOfferPdu.parse`, /repo/opendis/dis7.py:5316-5327; returns the updated object. -/
def ResupplyOfferPdu.parse (self : ResupplyOfferPdu) : R ResupplyOfferPdu := do
  let base ← LogisticsFamilyPdu.parse self.toLogisticsFamilyPdu
  let receivingEntityID ← EntityIdentifier.parse self.receivingEntityID
  let supplyingEntityID ← EntityIdentifier.parse self.supplyingEntityID
  let numberOfSupplyTypes ← read_unsigned_byte
  let padding1 ← read_byte
  let padding2 ← read_short
  let supplies ← R.times numberOfSupplyTypes.toNat (SupplyQuantity.parse SupplyQuantity.init)
  return { self with
    toLogisticsFamilyPdu := base,
    receivingEntityID := receivingEntityID,
    supplyingEntityID := supplyingEntityID,
    padding1 := padding1,
    padding2 := padding2,
    supplies := self.supplies ++ supplies }

/-- Attributes of a `AttributePdu` object, /repo/opendis/dis7.py:5330-5391; default values are those of an
object made by `AttributePdu()`, /repo/opendis/dis7.py:5342-5365. -/
structure AttributePdu extends EntityInformationFamilyPdu where
  originatingSimulationAddress : SimulationAddress := SimulationAddress.init
  padding1 : Int := 0
  padding2 : Int := 0
  attributeRecordPduType : Int := 0
  attributeRecordProtocolVersion : Int := 0
  masterAttributeRecordType : Int := 0
  actionCode : Int := 0
  padding3 : Int := 0
  numberOfAttributeRecordSets : Int := 0
  deriving DecidableEq

/-- `AttributePdu(...)` raises whatever the arguments, /repo/opendis/dis7.py:5342-5365. -/
def AttributePdu.init : Except PyErr AttributePdu := .error .valueError

/-- `AttributePdu.serialize`, /repo/opendis/dis7.py:5367-5378. -/
def AttributePdu.serialize (self : AttributePdu) : W Unit := do
  EntityInformationFamilyPdu.serialize self.toEntityInformationFamilyPdu
  SimulationAddress.serialize self.originatingSimulationAddress
  write_int self.padding1
  write_short self.padding2
  write_unsigned_byte self.attributeRecordPduType
  write_unsigned_byte self.attributeRecordProtocolVersion
  write_unsigned_int self.masterAttributeRecordType
  write_unsigned_byte self.actionCode
  write_byte self.padding3
  write_unsigned_short self.numberOfAttributeRecordSets

/-- `AttributePdu.parse`, /repo/opendis/dis7.py:5380-5391; returns the updated object. -/
def AttributePdu.parse (self : AttributePdu) : R AttributePdu := do
  let base ← EntityInformationFamilyPdu.parse self.toEntityInformationFamilyPdu
  let originatingSimulationAddress ← SimulationAddress.parse self.originatingSimulationAddress
  let padding1 ← read_int
  let padding2 ← read_short
  let attributeRecordPduType ← read_unsigned_byte
  let attributeRecordProtocolVersion ← read_unsigned_byte
  let masterAttributeRecordType ← read_unsigned_int
  let actionCode ← read_unsigned_byte
  let padding3 ← read_byte
  let numberOfAttributeRecordSets ← read_unsigned_short
  return { self with
    toEntityInformationFamilyPdu := base,
    originatingSimulationAddress := originatingSimulationAddress,
    padding1 := padding1,
    padding2 := padding2,
    attributeRecordPduType := attributeRecordPduType,
    attributeRecordProtocolVersion := attributeRecordProtocolVersion,
    masterAttributeRecordType := masterAttributeRecordType,
    actionCode := actionCode,
    padding3 := padding3,
    numberOfAttributeRecordSets := numberOfAttributeRecordSets }

/-- Attributes of a `MinefieldFamilyPdu` object, /repo/opendis/dis7.py:5394-5410; default values are those of an
object made by `MinefieldFamilyPdu()`, /repo/opendis/dis7.py:5400-5402. -/
structure MinefieldFamilyPdu extends Pdu where
  protocolFamily := 8
  deriving DecidableEq

/-- `MinefieldFamilyPdu.serialize`, /repo/opendis/dis7.py:5404-5406. -/
def MinefieldFamilyPdu.serialize (self : MinefieldFamilyPdu) : W Unit := do
  Pdu.serialize self.toPdu

/-- `MinefieldFamilyPdu.parse`, /repo/opendis/dis7.py:5408-5410; returns the updated object. -/
def MinefieldFamilyPdu.parse (self : MinefieldFamilyPdu) : R MinefieldFamilyPdu := do
  let base ← Pdu.parse self.toPdu
  return { self with toPdu := base }

/-- Attributes of a `SetDataReliablePdu` object, /repo/opendis/dis7.py:5413-5468; default values are those of an
object made by `SetDataReliablePdu()`, /repo/opendis/dis7.py:5421-5434. -/
structure SetDataReliablePdu extends SimulationManagementWithReliabilityFamilyPdu where
  requiredReliabilityService : Int := 0
  pad1 : Int := 0
  pad2 : Int := 0
  requestID : Int := 0
  _datums : DatumSpecification := DatumSpecification.init
  pduType := 59
  deriving DecidableEq

/-- Constructor `SetDataReliablePdu(...)`, /repo/opendis/dis7.py:5421-5434. `x or T()` and `x or []` keep a given
value and replace `None` (absent) by a fresh one. -/
def SetDataReliablePdu.init (requiredReliabilityService : Int := 0) (requestID : Int := 0)
    (fixedDatumRecords : List FixedDatum := []) (variableDatumRecords : List VariableDatum := []) : SetDataReliablePdu :=
  { requiredReliabilityService := requiredReliabilityService,
    pad1 := 0,
    pad2 := 0,
    requestID := requestID,
    _datums := DatumSpecification.init fixedDatumRecords variableDatumRecords }

/-- `SetDataReliablePdu.serialize`, /repo/opendis/dis7.py:5452-5459. -/
def SetDataReliablePdu.serialize (self : SetDataReliablePdu) : W Unit := do
  SimulationManagementWithReliabilityFamilyPdu.serialize self.toSimulationManagementWithReliabilityFamilyPdu
  write_unsigned_byte self.requiredReliabilityService
  write_unsigned_short self.pad1
  write_unsigned_byte self.pad2
  write_unsigned_int self.requestID
  DatumSpecification.serialize self._datums

/-- `SetDataReliablePdu.parse`, /repo/opendis/dis7.py:5461-5468; returns the updated object. -/
def SetDataReliablePdu.parse (self : SetDataReliablePdu) : R SetDataReliablePdu := do
  let base ← SimulationManagementWithReliabilityFamilyPdu.parse self.toSimulationManagementWithReliabilityFamilyPdu
  let requiredReliabilityService ← read_unsigned_byte
  let pad1 ← read_unsigned_short
  let pad2 ← read_unsigned_byte
  let requestID ← read_unsigned_int
  let _datums ← DatumSpecification.parse self._datums
  return { self with
    toSimulationManagementWithReliabilityFamilyPdu := base,
    requiredReliabilityService := requiredReliabilityService,
    pad1 := pad1,
    pad2 := pad2,
    requestID := requestID,
    _datums := _datums }

/-- Attributes of a `EventReportPdu` object, /repo/opendis/dis7.py:5471-5502; default values are those of an
object made by `EventReportPdu()`, /repo/opendis/dis7.py:5479-5488. -/
structure EventReportPdu extends SimulationManagementFamilyPdu where
  eventType : Int := 0
  padding1 : Int := 0
  _datums : DatumSpecification := DatumSpecification.init
  pduType := 21
  deriving DecidableEq

/-- Constructor `EventReportPdu(...)`, /repo/opendis/dis7.py:5479-5488. `x or T()` and `x or []` keep a given
value and replace `None` (absent) by a fresh one. -/
def EventReportPdu.init (eventType : Int := 0) (fixedDatumRecords : List FixedDatum := [])
    (variableDatumRecords : List VariableDatum := []) : EventReportPdu :=
  { eventType := eventType,
    padding1 := 0,
    _datums := DatumSpecification.init fixedDatumRecords variableDatumRecords }

/-- `EventReportPdu.serialize`, /repo/opendis/dis7.py:5490-5495. -/
def EventReportPdu.serialize (self : EventReportPdu) : W Unit := do
  SimulationManagementFamilyPdu.serialize self.toSimulationManagementFamilyPdu
  write_unsigned_int self.eventType
  write_unsigned_int self.padding1
  DatumSpecification.serialize self._datums

/-- `EventReportPdu.parse`, /repo/opendis/dis7.py:5497-5502; returns the updated object. -/
def EventReportPdu.parse (self : EventReportPdu) : R EventReportPdu := do
  let base ← SimulationManagementFamilyPdu.parse self.toSimulationManagementFamilyPdu
  let eventType ← read_unsigned_int
  let padding1 ← read_unsigned_int
  let _datums ← DatumSpecification.parse self._datums
  return { self with
    toSimulationManagementFamilyPdu := base,
    eventType := eventType,
    padding1 := padding1,
    _datums := _datums }

/-- Attributes of a `PointObjectStatePdu` object, /repo/opendis/dis7.py:5505-5582; default values are those of an
object made by `PointObjectStatePdu()`, /repo/opendis/dis7.py:5513-5550. -/
structure PointObjectStatePdu extends SyntheticEnvironmentFamilyPdu where
  objectID : EntityIdentifier := EntityIdentifier.init
  referencedObjectID : EntityIdentifier := EntityIdentifier.init
  updateNumber : Int := 0
  forceID : Int := 0
  modifications : Int := 0
  objectType : ObjectType := ObjectType.init
  objectLocation : WorldCoordinates := WorldCoordinates.init
  objectOrientation : EulerAngles := EulerAngles.init
  objectAppearance : F64 := 0x0000000000000000
  pad1 : Int := 0
  requesterID : SimulationAddress := SimulationAddress.init
  receivingID : SimulationAddress := SimulationAddress.init
  pad2 : Int := 0
  pduType := 43
  deriving DecidableEq

/-- Constructor `PointObjectStatePdu(...)`, /repo/opendis/dis7.py:5513-5550. `x or T()` and `x or []` keep a given
value and replace `None` (absent) by a fresh one. -/
def PointObjectStatePdu.init (objectID : Option EntityIdentifier := none)
    (referencedObjectID : Option EntityIdentifier := none) (updateNumber : Int := 0)
    (forceID : Int := 0) (modifications : Int := 0) (objectType : Option ObjectType := none)
    (objectLocation : Option WorldCoordinates := none)
    (objectOrientation : Option EulerAngles := none)
    (objectAppearance : F64 := 0x0000000000000000)
    (requesterID : Option SimulationAddress := none)
    (receivingID : Option SimulationAddress := none) : PointObjectStatePdu :=
  { objectID := objectID.getD EntityIdentifier.init,
    referencedObjectID := referencedObjectID.getD EntityIdentifier.init,
    updateNumber := updateNumber,
    forceID := forceID,
    modifications := modifications,
    objectType := objectType.getD ObjectType.init,
    objectLocation := objectLocation.getD WorldCoordinates.init,
    objectOrientation := objectOrientation.getD EulerAngles.init,
    objectAppearance := objectAppearance,
    pad1 := 0,
    requesterID := requesterID.getD SimulationAddress.init,
    receivingID := receivingID.getD SimulationAddress.init,
    pad2 := 0 }

/-- `PointObjectStatePdu.serialize`, /repo/opendis/dis7.py:5552-5566. -/
def PointObjectStatePdu.serialize (self : PointObjectStatePdu) : W Unit := do
  SyntheticEnvironmentFamilyPdu.serialize self.toSyntheticEnvironmentFamilyPdu
  EntityIdentifier.serialize self.objectID
  EntityIdentifier.serialize self.referencedObjectID
  write_unsigned_short self.updateNumber
  write_unsigned_byte self.forceID
  write_unsigned_byte self.modifications
  ObjectType.serialize self.objectType
  WorldCoordinates.serialize self.objectLocation
  EulerAngles.serialize self.objectOrientation
  write_double self.objectAppearance
  SimulationAddress.serialize self.requesterID
  SimulationAddress.serialize self.receivingID
  write_unsigned_int self.pad2

/-- `PointObjectStatePdu.parse`, /repo/opendis/dis7.py:5568-5582; returns the updated object. -/
def PointObjectStatePdu.parse (self : PointObjectStatePdu) : R PointObjectStatePdu := do
  let base ← SyntheticEnvironmentFamilyPdu.parse self.toSyntheticEnvironmentFamilyPdu
  let objectID ← EntityIdentifier.parse self.objectID
  let referencedObjectID ← EntityIdentifier.parse self.referencedObjectID
  let updateNumber ← read_unsigned_short
  let forceID ← read_unsigned_byte
  let modifications ← read_unsigned_byte
  let objectType ← ObjectType.parse self.objectType
  let objectLocation ← WorldCoordinates.parse self.objectLocation
  let objectOrientation ← EulerAngles.parse self.objectOrientation
  let objectAppearance ← read_double
  let requesterID ← SimulationAddress.parse self.requesterID
  let receivingID ← SimulationAddress.parse self.receivingID
  let pad2 ← read_unsigned_int
  return { self with
    toSyntheticEnvironmentFamilyPdu := base,
    objectID := objectID,
    referencedObjectID := referencedObjectID,
    updateNumber := updateNumber,
    forceID := forceID,
    modifications := modifications,
    objectType := objectType,
    objectLocation := objectLocation,
    objectOrientation := objectOrientation,
    objectAppearance := objectAppearance,
    requesterID := requesterID,
    receivingID := receivingID,
    pad2 := pad2 }

/-- Attributes of a `DataPdu` object, /repo/opendis/dis7.py:5585-5634; default values are those of an
object made by `DataPdu()`, /repo/opendis/dis7.py:5593-5603. -/
structure DataPdu extends SimulationManagementFamilyPdu where
  requestID : Int := 0
  padding1 : Int := 0
  _datums : DatumSpecification := DatumSpecification.init
  pduType := 20
  deriving DecidableEq

/-- Constructor `DataPdu(...)`, /repo/opendis/dis7.py:5593-5603. `x or T()` and `x or []` keep a given
value and replace `None` (absent) by a fresh one. -/
def DataPdu.init (requestID : Int := 0) (fixedDatumRecords : List FixedDatum := [])
    (variableDatumRecords : List VariableDatum := []) : DataPdu :=
  { requestID := requestID,
    padding1 := 0,
    _datums := DatumSpecification.init fixedDatumRecords variableDatumRecords }

/-- `DataPdu.serialize`, /repo/opendis/dis7.py:5621-5626. -/
def DataPdu.serialize (self : DataPdu) : W Unit := do
  SimulationManagementFamilyPdu.serialize self.toSimulationManagementFamilyPdu
  write_unsigned_int self.requestID
  write_unsigned_int self.padding1
  DatumSpecification.serialize self._datums

/-- `DataPdu.parse`, /repo/opendis/dis7.py:5628-5634; returns the updated object. -/
def DataPdu.parse (self : DataPdu) : R DataPdu := do
  let base ← SimulationManagementFamilyPdu.parse self.toSimulationManagementFamilyPdu
  let requestID ← read_unsigned_int
  let padding1 ← read_unsigned_int
  let _datums ← DatumSpecification.parse self._datums
  return { self with
    toSimulationManagementFamilyPdu := base,
    requestID := requestID,
    padding1 := padding1,
    _datums := _datums }

end Dis
