import Verif.Model.Factory
import Verif.Model.Text
import Verif.Spec.Float

/-!
# Validation of the model against the recorded messages of the test suite

Generated by `tools/genvalid.py`. These are tests, not proofs of properties: the model decodes the
messages `/repo/tests/*.raw` as the assertions of `/repo/tests/test_*.py` demand, and sends each of
them on unchanged (but for two padding bytes of the emission message). They guard against a model that
differs from the code; `#guard` evaluates the model and makes the build fail if the result is not
`true`.
-/

namespace Dis.Validation

/-- `assertAlmostEqual(d / 10^15, x, places)` of the unit tests (/repo/tests/test_EntityStatePdu.py:67-75):
the values differ by at most half a unit of the last place, `x` being an exact multiple of 2^-1074. -/
def near (x : F64) (d : Int) (places : Nat) : Prop :=
  (2 * 10 ^ places * (x.units * 10 ^ 15 - d * 2 ^ 1074)).natAbs ≤ 10 ^ 15 * 2 ^ 1074

instance (x : F64) (d : Int) (places : Nat) : Decidable (near x d places) := by
  unfold near; infer_instance

/-- The PDU decodes and, sent again, gives the same bytes (/repo/tests/test_SignalPdu.py:40-44). -/
def same (w : W Unit) (b : Bytes) : Bool := decide (w.out = b) && decide (w.res = .ok ())

/-- The file /repo/tests/EntityStatePdu-26.raw (144 bytes), used at /repo/tests/test_EntityStatePdu.py:16-79. -/
def entityState26 : Bytes :=
  [6, 7, 1, 1, 0, 30, 145, 226, 0, 144, 0, 0, 0, 42, 0, 4, 0, 26, 1, 0, 1, 1, 0, 39, 7, 2, 1, 0,
   1, 1, 0, 39, 7, 2, 1, 0, 0, 0, 0, 0, 0, 0, 0, 0, 0, 0, 0, 0, 65, 80, 175, 144, 179, 130, 194,
   74, 65, 57, 114, 95, 245, 17, 174, 220, 65, 80, 121, 19, 23, 156, 26, 8, 63, 247, 175, 161,
   128, 0, 0, 0, 192, 20, 110, 96, 0, 32, 0, 0, 2, 0, 0, 0, 0, 0, 0, 0, 0, 0, 0, 0, 0, 0, 0, 0,
   0, 0, 0, 0, 0, 0, 0, 0, 0, 0, 0, 0, 0, 0, 0, 0, 0, 0, 0, 0, 0, 0, 0, 0, 1, 50, 54, 0, 0, 0, 0,
   0, 0, 0, 0, 0, 0, 0, 0, 0]

/-- The assertions of /repo/tests/test_EntityStatePdu.py:16-79. -/
def entityState26_asserted (p : EntityStatePdu) : Bool :=
  decide (p.protocolVersion = 6) &&
  decide (p.exerciseID = 7) &&
  decide (p.pduType = 1) &&
  decide (p.protocolFamily = 1) &&
  decide (p.length = 144) &&
  decide (p.padding = 0) &&
  decide (p.entityID.simulationAddress.site = 42) &&
  decide (p.entityID.simulationAddress.application = 4) &&
  decide (p.entityID.entityNumber = 26) &&
  decide (p.forceId = 1) &&
  decide (p.variableParameters.length = 0) &&
  decide (p.entityType.entityKind = 1) &&
  decide (p.entityType.domain = 1) &&
  decide (p.entityType.country = 39) &&
  decide (p.entityType.category = 7) &&
  decide (p.entityType.subcategory = 2) &&
  decide (p.entityType.specific = 1) &&
  decide (p.entityType.extra = 0) &&
  decide (p.alternativeEntityType.entityKind = 1) &&
  decide (p.alternativeEntityType.domain = 1) &&
  decide (p.alternativeEntityType.country = 39) &&
  decide (p.alternativeEntityType.category = 7) &&
  decide (p.alternativeEntityType.subcategory = 2) &&
  decide (p.alternativeEntityType.specific = 1) &&
  decide (p.alternativeEntityType.extra = 0) &&
  decide (p.entityLinearVelocity.x.units = 0 * 2 ^ 1074) &&
  decide (p.entityLinearVelocity.y.units = 0 * 2 ^ 1074) &&
  decide (p.entityLinearVelocity.z.units = 0 * 2 ^ 1074) &&
  decide (near p.entityLocation.x (4374082804855890000000) 7) &&
  decide (near p.entityLocation.y (1667679957301070000000) 7) &&
  decide (near p.entityLocation.z (4318284368902690000000) 7) &&
  decide (near p.entityOrientation.psi (1935050000000000) 5) &&
  decide (near p.entityOrientation.theta (0) 7) &&
  decide (near p.entityOrientation.phi (-2319240000000000) 5) &&
  decide (p.marking.charactersString = .ok [50, 54])

#guard match createPdu entityState26 with
  | .ok (some (.EntityStatePdu p)) => entityState26_asserted p && same p.serialize entityState26
  | _ => false

/-- The file /repo/tests/TransmitterPdu.raw (104 bytes), used at /repo/tests/test_TransmitterPdu.py:16-32. -/
def transmitter : Bytes :=
  [6, 1, 25, 4, 27, 227, 177, 44, 0, 104, 0, 0, 6, 141, 6, 142, 0, 169, 0, 1, 7, 0, 0, 0, 1, 0,
   0, 0, 2, 0, 0, 0, 0, 0, 0, 0, 0, 0, 0, 0, 0, 0, 0, 0, 0, 0, 0, 0, 0, 0, 0, 0, 0, 0, 0, 0, 0,
   0, 0, 0, 0, 0, 0, 0, 0, 0, 0, 0, 0, 0, 0, 0, 0, 0, 0, 2, 84, 11, 228, 0, 70, 156, 64, 0, 66,
   12, 0, 0, 0, 0, 0, 0, 0, 0, 0, 0, 0, 0, 0, 0, 0, 0, 0, 0]

/-- The assertions of /repo/tests/test_TransmitterPdu.py:16-32. -/
def transmitter_asserted (p : TransmitterPdu) : Bool :=
  decide (p.protocolVersion = 6) &&
  decide (p.exerciseID = 1) &&
  decide (p.pduType = 25) &&
  decide (p.protocolFamily = 4) &&
  decide (p.length = 104) &&
  decide (p.radioReferenceID.simulationAddress.site = 1677) &&
  decide (p.radioReferenceID.simulationAddress.application = 1678) &&
  decide (p.radioReferenceID.entityNumber = 169) &&
  decide (p.radioNumber = 1) &&
  decide (p.transmitState = 2) &&
  decide (p.frequency = 10000000000) &&
  decide (p.transmitFrequencyBandwidth.units = 20000 * 2 ^ 1074) &&
  decide (p.power.units = 35 * 2 ^ 1074)

#guard match createPdu transmitter with
  | .ok (some (.TransmitterPdu p)) => transmitter_asserted p && same p.serialize transmitter
  | _ => false

/-- The file /repo/tests/SignalPdu.raw (1056 bytes), used at /repo/tests/test_SignalPdu.py:17-43. -/
def signal : Bytes :=
  [6, 1, 26, 4, 28, 48, 238, 252, 4, 32, 0, 0, 6, 141, 6, 142, 0, 169, 0, 1, 0, 4, 0, 0, 0, 0,
   86, 34, 32, 0, 2, 0, 69, 128, 68, 0, 67, 0, 66, 128, 66, 0, 64, 128, 63, 128, 64, 0, 63, 128,
   63, 0, 63, 128, 65, 0, 65, 128, 68, 0, 69, 0, 69, 128, 69, 128, 68, 128, 69, 0, 67, 128, 65,
   128, 64, 0, 63, 0, 62, 128, 62, 0, 62, 0, 63, 0, 62, 128, 63, 128, 63, 128, 63, 128, 64, 128,
   64, 0, 64, 128, 64, 128, 62, 128, 60, 0, 59, 0, 56, 128, 54, 128, 54, 128, 54, 0, 54, 0, 55,
   0, 57, 128, 58, 0, 58, 128, 60, 128, 62, 0, 62, 128, 62, 0, 63, 0, 63, 128, 63, 128, 62, 128,
   62, 0, 61, 0, 60, 0, 60, 128, 61, 128, 63, 0, 64, 0, 65, 128, 67, 0, 69, 0, 69, 128, 68, 0,
   67, 128, 67, 0, 66, 128, 65, 0, 63, 0, 62, 128, 62, 0, 62, 128, 61, 0, 60, 128, 61, 128, 62,
   128, 63, 0, 63, 128, 63, 0, 61, 0, 60, 0, 59, 0, 57, 0, 54, 0, 52, 128, 53, 128, 55, 0, 55,
   128, 57, 0, 57, 128, 58, 0, 58, 128, 59, 128, 60, 128, 61, 0, 60, 128, 59, 128, 59, 0, 57, 0,
   57, 0, 59, 0, 59, 128, 59, 128, 59, 128, 60, 128, 61, 128, 64, 0, 65, 128, 66, 0, 65, 128, 63,
   128, 62, 0, 64, 0, 66, 0, 66, 0, 65, 128, 64, 128, 64, 0, 65, 128, 67, 0, 68, 0, 68, 0, 67,
   128, 68, 128, 67, 128, 66, 0, 66, 128, 69, 128, 70, 128, 70, 128, 67, 128, 65, 128, 68, 0, 72,
   128, 75, 128, 74, 0, 70, 0, 68, 128, 69, 128, 73, 128, 75, 0, 75, 0, 74, 128, 73, 128, 72,
   128, 70, 128, 72, 0, 74, 0, 77, 0, 76, 128, 72, 0, 69, 0, 69, 0, 71, 0, 73, 0, 73, 0, 71, 0,
   68, 0, 66, 128, 68, 0, 69, 128, 70, 0, 68, 0, 66, 128, 65, 0, 64, 128, 65, 128, 67, 0, 67, 0,
   65, 128, 63, 128, 62, 0, 62, 0, 64, 0, 65, 128, 65, 128, 63, 0, 60, 0, 60, 0, 60, 128, 61,
   128, 62, 0, 60, 0, 58, 0, 57, 128, 58, 128, 60, 128, 61, 0, 62, 0, 62, 128, 62, 0, 62, 0, 62,
   128, 64, 0, 65, 0, 66, 0, 65, 128, 63, 128, 62, 128, 62, 128, 63, 128, 65, 128, 65, 128, 65,
   0, 64, 128, 65, 128, 66, 0, 67, 128, 68, 0, 68, 0, 68, 0, 68, 0, 67, 0, 67, 0, 67, 0, 67, 128,
   67, 128, 67, 0, 66, 128, 65, 128, 65, 128, 66, 0, 67, 0, 67, 128, 67, 0, 65, 128, 65, 0, 64,
   0, 63, 128, 62, 0, 62, 128, 63, 0, 62, 0, 62, 0, 61, 0, 60, 0, 61, 0, 61, 128, 61, 0, 61, 0,
   59, 128, 59, 0, 59, 0, 60, 0, 60, 0, 59, 128, 59, 128, 59, 128, 59, 128, 60, 0, 61, 0, 62, 0,
   62, 0, 62, 128, 62, 128, 62, 128, 63, 128, 63, 128, 63, 128, 63, 0, 64, 0, 63, 0, 63, 128, 63,
   128, 64, 0, 64, 0, 63, 128, 63, 0, 62, 128, 61, 128, 62, 0, 60, 0, 59, 128, 61, 0, 62, 0, 62,
   128, 62, 0, 62, 128, 62, 128, 62, 0, 61, 128, 62, 128, 63, 0, 63, 128, 62, 128, 62, 128, 62,
   128, 64, 0, 64, 0, 64, 128, 65, 128, 66, 128, 67, 128, 68, 0, 69, 128, 70, 0, 70, 0, 69, 128,
   69, 128, 70, 0, 70, 0, 70, 128, 70, 128, 70, 0, 70, 0, 71, 128, 71, 128, 71, 0, 70, 128, 71,
   128, 71, 128, 70, 0, 69, 0, 69, 0, 70, 0, 68, 128, 66, 0, 64, 128, 65, 0, 66, 0, 66, 0, 64,
   128, 63, 128, 63, 128, 64, 0, 64, 0, 63, 0, 62, 128, 62, 128, 62, 128, 61, 128, 60, 0, 60, 0,
   60, 128, 60, 128, 59, 0, 59, 128, 60, 0, 60, 0, 62, 128, 61, 128, 60, 128, 59, 0, 60, 0, 61,
   128, 61, 0, 60, 0, 60, 0, 60, 0, 59, 128, 59, 0, 61, 128, 63, 128, 64, 128, 62, 128, 61, 0,
   63, 128, 66, 128, 66, 128, 65, 0, 62, 128, 64, 0, 66, 128, 67, 0, 64, 0, 62, 0, 64, 0, 67,
   128, 67, 128, 64, 128, 62, 0, 62, 128, 66, 128, 68, 128, 65, 128, 62, 128, 62, 128, 65, 0, 66,
   128, 64, 128, 62, 128, 64, 128, 66, 128, 66, 128, 64, 128, 65, 0, 66, 128, 67, 0, 67, 0, 65,
   128, 65, 128, 65, 0, 67, 0, 68, 0, 66, 128, 63, 128, 64, 0, 66, 128, 68, 0, 68, 128, 67, 128,
   66, 128, 66, 0, 66, 0, 66, 128, 66, 128, 67, 0, 66, 128, 66, 0, 64, 0, 61, 128, 63, 0, 66, 0,
   68, 0, 67, 128, 65, 0, 64, 0, 64, 0, 65, 0, 66, 128, 67, 0, 66, 0, 65, 0, 64, 128, 64, 0, 64,
   128, 65, 128, 66, 0, 66, 0, 65, 128, 65, 0, 64, 0, 66, 0, 67, 0, 66, 0, 65, 0, 63, 128, 63, 0,
   64, 0, 65, 0, 65, 0, 62, 128, 61, 128, 62, 0, 62, 128, 62, 128, 62, 128, 62, 0, 61, 128, 61,
   128, 61, 0, 61, 0, 60, 128, 61, 0, 61, 128, 61, 128, 60, 0, 59, 0, 60, 128, 61, 128, 62, 0,
   60, 128, 60, 0, 60, 0, 60, 0, 59, 128, 58, 128, 58, 0, 58, 0, 57, 0, 57, 0, 57, 128, 56, 128,
   57, 128, 58, 0, 57, 128, 56, 128, 56, 128, 56, 128, 56, 128, 56, 0, 55, 128, 55, 128, 55, 0,
   56, 0, 56, 128, 57, 0, 56, 128, 56, 128, 58, 0, 59, 0, 59, 128, 58, 0, 57, 128, 59, 128, 59,
   128, 58, 0, 57, 128, 58, 0, 60, 0, 60, 128, 60, 0, 59, 128, 59, 128, 61, 128, 64, 0, 66, 0,
   65, 0, 63, 128]

/-- The assertions of /repo/tests/test_SignalPdu.py:17-43. -/
def signal_asserted (p : SignalPdu) : Bool :=
  decide (p.protocolVersion = 6) &&
  decide (p.exerciseID = 1) &&
  decide (p.pduType = 26) &&
  decide (p.protocolFamily = 4) &&
  decide (p.length = 1056) &&
  decide (p.entityID.simulationAddress.site = 1677) &&
  decide (p.entityID.simulationAddress.application = 1678) &&
  decide (p.entityID.entityNumber = 169) &&
  decide (p.radioID = 1) &&
  decide (p.encodingScheme = 4) &&
  decide (p.tdlType = 0) &&
  decide (p.sampleRate = 22050) &&
  decide (p.data.length * 8 = 8192) &&
  decide (p.samples = 512) &&
  decide (p.data.length = 1024)

#guard match createPdu signal with
  | .ok (some (.SignalPdu p)) => signal_asserted p && same p.serialize signal
  | _ => false

/-- The file /repo/tests/SetDataPdu-vbs-script-cmd.raw (56 bytes), used at /repo/tests/test_SetDataPdu.py:16-33. -/
def setDataScript : Bytes :=
  [6, 1, 19, 5, 0, 0, 0, 0, 0, 56, 0, 0, 0, 0, 0, 0, 0, 0, 0, 0, 0, 0, 0, 0, 0, 0, 0, 9, 0, 0, 0,
   0, 0, 0, 0, 0, 0, 0, 0, 1, 0, 0, 0, 1, 0, 0, 0, 64, 97, 108, 108, 117, 110, 105, 116, 115]

/-- The assertions of /repo/tests/test_SetDataPdu.py:16-33. -/
def setDataScript_asserted (p : SetDataPdu) : Bool :=
  decide (p.protocolVersion = 6) &&
  decide (p.exerciseID = 1) &&
  decide (p.pduType = 19) &&
  decide (p.protocolFamily = 5) &&
  decide (p.timestamp = 0) &&
  decide (p.length = 56) &&
  decide (p._datums.fixedDatumRecords.length = 0) &&
  decide (p._datums.variableDatumRecords.length = 1) &&
  decide (p._datums.fixedDatumRecords.length = 0) &&
  decide (p._datums.variableDatumRecords.length = 1) &&
  decide ((p._datums.variableDatumRecords.headD VariableDatum.init).variableDatumID = 1) &&
  decide ((p._datums.variableDatumRecords.headD VariableDatum.init).variableDatumLength = 64) &&
  decide ((p._datums.variableDatumRecords.headD VariableDatum.init).variableData = [97, 108, 108, 117, 110, 105, 116, 115])

#guard match createPdu setDataScript with
  | .ok (some (.SetDataPdu p)) => setDataScript_asserted p && same p.serialize setDataScript
  | _ => false

/-- The file /repo/tests/SetDataPdu-multi-variable-datums.raw (112 bytes), used at /repo/tests/test_SetDataPdu.py:35-40. -/
def setDataMulti : Bytes :=
  [6, 1, 19, 5, 0, 0, 0, 0, 0, 112, 0, 0, 0, 0, 0, 0, 0, 0, 0, 0, 0, 0, 0, 0, 0, 0, 0, 1, 0, 0,
   0, 0, 0, 0, 0, 0, 0, 0, 0, 3, 0, 0, 0, 1, 0, 0, 0, 104, 118, 101, 114, 115, 105, 111, 110, 78,
   117, 109, 98, 101, 114, 0, 0, 0, 0, 0, 0, 1, 0, 0, 0, 104, 118, 101, 114, 115, 105, 111, 110,
   78, 117, 109, 98, 101, 114, 0, 0, 0, 0, 0, 0, 1, 0, 0, 0, 104, 118, 101, 114, 115, 105, 111,
   110, 78, 117, 109, 98, 101, 114, 0, 0, 0]

/-- The assertions of /repo/tests/test_SetDataPdu.py:35-40. -/
def setDataMulti_asserted (p : SetDataPdu) : Bool :=
  decide (p.length = 112) &&
  decide (p._datums.variableDatumRecords.length = 3) &&
  decide (p._datums.variableDatumRecords.length = 3)

#guard match createPdu setDataMulti with
  | .ok (some (.SetDataPdu p)) => setDataMulti_asserted p && same p.serialize setDataMulti
  | _ => false

/-- The file /repo/tests/ElectromagneticEmissionPdu-single-system.raw (108 bytes), used at /repo/tests/test_ElectromageneticEmissionPdu.py:16-62. -/
def emission : Bytes :=
  [6, 1, 23, 6, 242, 18, 234, 21, 0, 108, 0, 0, 0, 23, 0, 1, 0, 2, 0, 23, 0, 1, 0, 8, 0, 1, 0, 0,
   20, 1, 1, 244, 111, 249, 2, 1, 0, 0, 0, 0, 0, 0, 0, 0, 128, 0, 0, 0, 15, 1, 0, 0, 80, 6, 28,
   70, 0, 0, 0, 0, 71, 136, 184, 0, 0, 0, 0, 0, 0, 0, 0, 0, 0, 0, 0, 0, 64, 73, 15, 219, 63, 61,
   228, 78, 63, 84, 59, 103, 63, 128, 0, 0, 4, 1, 0, 0, 0, 0, 0, 0, 0, 23, 0, 1, 0, 1, 0, 0]

/-- The assertions of /repo/tests/test_ElectromageneticEmissionPdu.py:16-62. -/
def emission_asserted (p : ElectromagneticEmissionsPdu) : Bool :=
  decide (p.protocolVersion = 6) &&
  decide (p.exerciseID = 1) &&
  decide (p.pduType = 23) &&
  decide (p.protocolFamily = 6) &&
  decide (p.length = 108) &&
  decide (p.emittingEntityID.simulationAddress.site = 23) &&
  decide (p.emittingEntityID.simulationAddress.application = 1) &&
  decide (p.emittingEntityID.entityNumber = 2) &&
  decide (p.eventID.simulationAddress.site = 23) &&
  decide (p.eventID.simulationAddress.application = 1) &&
  decide (p.eventID.eventNumber = 8) &&
  decide (p.stateUpdateIndicator = 0) &&
  decide (p.systems.length = 1) &&
  decide (p.paddingForEmissionsPdu = 0) &&
  decide ((p.systems.headD EmissionSystemRecord.init).beamRecords.length = 1) &&
  decide ((p.systems.headD EmissionSystemRecord.init).location.x.units = 0 * 2 ^ 1074) &&
  decide ((p.systems.headD EmissionSystemRecord.init).location.y.units = 0 * 2 ^ 1074) &&
  decide ((p.systems.headD EmissionSystemRecord.init).location.z.units = 0 * 2 ^ 1074) &&
  decide (((p.systems.headD EmissionSystemRecord.init).beamRecords.headD EmissionSystemBeamRecord.init).beamDataLength = 15) &&
  decide (((p.systems.headD EmissionSystemRecord.init).beamRecords.headD EmissionSystemBeamRecord.init).beamIDNumber = 1) &&
  decide (((p.systems.headD EmissionSystemRecord.init).beamRecords.headD EmissionSystemBeamRecord.init).beamParameterIndex = 0) &&
  decide (((p.systems.headD EmissionSystemRecord.init).beamRecords.headD EmissionSystemBeamRecord.init).fundamentalParameterData.frequencyRange.units = 0 * 2 ^ 1074) &&
  decide (((p.systems.headD EmissionSystemRecord.init).beamRecords.headD EmissionSystemBeamRecord.init).fundamentalParameterData.effectiveRadiatedPower.units = 70000 * 2 ^ 1074) &&
  decide (((p.systems.headD EmissionSystemRecord.init).beamRecords.headD EmissionSystemBeamRecord.init).fundamentalParameterData.pulseRepetitionFrequency.units = 0 * 2 ^ 1074) &&
  decide (((p.systems.headD EmissionSystemRecord.init).beamRecords.headD EmissionSystemBeamRecord.init).fundamentalParameterData.pulseWidth.units = 0 * 2 ^ 1074) &&
  decide (((p.systems.headD EmissionSystemRecord.init).beamRecords.headD EmissionSystemBeamRecord.init).fundamentalParameterData.beamAzimuthCenter.units = 0 * 2 ^ 1074) &&
  decide (((p.systems.headD EmissionSystemRecord.init).beamRecords.headD EmissionSystemBeamRecord.init).fundamentalParameterData.beamSweepSync.units = 1 * 2 ^ 1074) &&
  decide (((p.systems.headD EmissionSystemRecord.init).beamRecords.headD EmissionSystemBeamRecord.init).beamFunction = 4) &&
  decide (((p.systems.headD EmissionSystemRecord.init).beamRecords.headD EmissionSystemBeamRecord.init).trackJamRecords.length = 1) &&
  decide (((p.systems.headD EmissionSystemRecord.init).beamRecords.headD EmissionSystemBeamRecord.init).highDensityTrackJam = 0) &&
  decide (((p.systems.headD EmissionSystemRecord.init).beamRecords.headD EmissionSystemBeamRecord.init).jammingModeSequence = 0) &&
  decide ((((p.systems.headD EmissionSystemRecord.init).beamRecords.headD EmissionSystemBeamRecord.init).trackJamRecords.headD TrackJamData.init).entityID.simulationAddress.site = 23) &&
  decide ((((p.systems.headD EmissionSystemRecord.init).beamRecords.headD EmissionSystemBeamRecord.init).trackJamRecords.headD TrackJamData.init).entityID.simulationAddress.application = 1) &&
  decide ((((p.systems.headD EmissionSystemRecord.init).beamRecords.headD EmissionSystemBeamRecord.init).trackJamRecords.headD TrackJamData.init).entityID.entityNumber = 1) &&
  decide ((((p.systems.headD EmissionSystemRecord.init).beamRecords.headD EmissionSystemBeamRecord.init).trackJamRecords.headD TrackJamData.init).emitterNumber = 0) &&
  decide ((((p.systems.headD EmissionSystemRecord.init).beamRecords.headD EmissionSystemBeamRecord.init).trackJamRecords.headD TrackJamData.init).beamNumber = 0)

#guard match createPdu emission with
  | .ok (some (.ElectromagneticEmissionsPdu p)) => emission_asserted p && same p.serialize ((emission.set 30 0).set 31 0)
  | _ => false

end Dis.Validation
