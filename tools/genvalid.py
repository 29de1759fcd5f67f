"""Generate lean/Verif/Validation.lean: the assertions of /repo/tests about the recorded messages
/repo/tests/*.raw, checked on the model. Run once; reads /repo/tests."""
import os, re
from decimal import Decimal
T = "/repo/tests/"
OUT = os.path.join(os.path.dirname(os.path.abspath(__file__)), "..", "lean", "Verif", "Validation.lean")

FLOATS = re.compile(r"\.(x|y|z|psi|theta|phi|frequencyRange|effectiveRadiatedPower|pulseRepetitionFrequency|"
                    r"pulseWidth|beamAzimuthCenter|beamSweepSync|transmitFrequencyBandwidth|power)$")
LEN = {"numberOfVariableParameters": "variableParameters.length",
       "numberOfFixedDatumRecords": "_datums.fixedDatumRecords.length",
       "numberOfVariableDatumRecords": "_datums.variableDatumRecords.length",
       "numberOfSystems": "systems.length", "numberOfBeams": "beamRecords.length",
       "numberOfTargetsInTrackJam": "trackJamRecords.length"}

def path(e, cls):
    e = e.strip()
    m = re.fullmatch(r"len\((.*)\)", e)
    if m:
        return path(m.group(1), cls) + ".length"
    m = re.fullmatch(r"bytes\((.*)\)", e)
    if m:
        return path(m.group(1), cls)
    if e.startswith("datum"):
        e = "pdu._datums.variableDatumRecords[0]" + e[5:]
    e = re.sub(r"^pdu\.(fixed|variable)DatumRecords", r"pdu._datums.\1DatumRecords", e)
    out = "p"
    for part in e.split(".")[1:]:
        m = re.fullmatch(r"(\w+)\[0\]", part)
        if m:
            out = f"({out}.{m.group(1)}.headD {ELEM[m.group(1)]}.init)"
        elif part == "charactersString()":
            out = f"{out}.charactersString"
        elif part == "dataLength" and cls == "SignalPdu":
            out = f"{out}.data.length * 8"
        else:
            out = f"{out}.{LEN.get(part, part)}"
    return out

ELEM = {"systems": "EmissionSystemRecord", "beamRecords": "EmissionSystemBeamRecord",
        "trackJamRecords": "TrackJamData", "variableDatumRecords": "VariableDatum"}

def claims(body, cls):
    res = []
    for l in body.splitlines():
        m = re.match(r"\s*self\.assert(Almost)?Equal\((.*)\)\s*$", l)
        if not m or "memoryStream" in l:
            continue
        args = re.split(r",\s*(?![^()]*\))", m.group(2))
        val, e = args[0].strip(), args[1].strip()
        pth = path(e, cls)
        if m.group(1):
            places = int(args[2]) if len(args) > 2 else 7
            d = Decimal(val)
            res.append(f"near {pth} ({int(d.scaleb(15))}) {places}")
        elif val.startswith('"'):
            res.append(f"{pth} = .ok {[ord(c) for c in eval(val)]}")
        elif val.startswith("b'"):
            res.append(f"{pth} = {list(eval(val))}")
        elif FLOATS.search(e):
            res.append(f"{pth}.units = {int(val)} * 2 ^ 1074")
        else:
            res.append(f"{pth} = {int(eval(val))}")
    return res

def lean_bytes(b):
    s, line = "", "  ["
    items = [str(x) for x in b]
    lines = []
    for i, x in enumerate(items):
        t = x + (", " if i < len(items) - 1 else "]")
        if len(line) + len(t) > 98:
            lines.append(line.rstrip()); line = "   "
        line += t
    lines.append(line)
    return "\n".join(lines)

TESTS = [("EntityStatePdu-26.raw", "test_EntityStatePdu.py", "test_parse", "EntityStatePdu", "entityState26", True),
         ("TransmitterPdu.raw", "test_TransmitterPdu.py", "test_parse", "TransmitterPdu", "transmitter", True),
         ("SignalPdu.raw", "test_SignalPdu.py", "test_parse_and_serialize", "SignalPdu", "signal", True),
         ("SetDataPdu-vbs-script-cmd.raw", "test_SetDataPdu.py", "test_parse", "SetDataPdu", "setDataScript", True),
         ("SetDataPdu-multi-variable-datums.raw", "test_SetDataPdu.py", "test_parse_multi_variable_datums",
          "SetDataPdu", "setDataMulti", True),
         ("ElectromagneticEmissionPdu-single-system.raw", "test_ElectromageneticEmissionPdu.py", "test_parse",
          "ElectromagneticEmissionsPdu", "emission", False)]

o = ["""import Verif.Model.Factory
import Verif.Model.Text
import Verif.Spec.Float

/-!
# Validation of the model against the recorded messages of the test suite

Generated by `tools/genvalid.py`. These are tests, not proofs of properties: the model decodes the
messages `/repo/tests/*.raw` as the assertions of `/repo/tests/test_*.py` demand, and sends each of
them on unchanged (but for two padding bytes of the emission message). They guard against a model that
differs from the code; `#guard` evaluates the model and makes the build fail if the result is not
`true`.
-/

namespace Dis.Validation

/-- `assertAlmostEqual(d / 10^15, x, places)` of the unit tests (/repo/tests/test_EntityStatePdu.py:67-75):
the values differ by at most half a unit of the last place, `x` being an exact multiple of 2^-1074. -/
def near (x : F64) (d : Int) (places : Nat) : Prop :=
  (2 * 10 ^ places * (x.units * 10 ^ 15 - d * 2 ^ 1074)).natAbs ≤ 10 ^ 15 * 2 ^ 1074

instance (x : F64) (d : Int) (places : Nat) : Decidable (near x d places) := by
  unfold near; infer_instance

/-- The PDU decodes and, sent again, gives the same bytes (/repo/tests/test_SignalPdu.py:40-44). -/
def same (w : W Unit) (b : Bytes) : Bool := decide (w.out = b) && decide (w.res = .ok ())
"""]
for raw, py, fn, cls, name, ser in TESTS:
    data = open(T + raw, "rb").read()
    src = open(T + py).read()
    lines = src.splitlines()
    i0 = next(i for i, l in enumerate(lines) if f"def {fn}(" in l)
    i1 = next((i for i in range(i0 + 1, len(lines)) if lines[i].startswith("    def ") or lines[i].startswith("if __name")), len(lines))
    while not lines[i1 - 1].strip():
        i1 -= 1
    cs = claims("\n".join(lines[i0:i1]), cls)
    o.append(f"/-- The file /repo/tests/{raw} ({len(data)} bytes), used at /repo/tests/{py}:{i0+1}-{i1}. -/")
    o.append(f"def {name} : Bytes :=\n{lean_bytes(data)}\n")
    o.append(f"/-- The assertions of /repo/tests/{py}:{i0+1}-{i1}. -/")
    o.append(f"def {name}_asserted (p : {cls}) : Bool :=\n  " + " &&\n  ".join(f"decide ({c})" for c in cs) + "\n")
    # the two padding bytes of an emission system are read and sent as zero (dis7.py:5262, :5271)
    sent = name if ser else f"(({name}.set 30 0).set 31 0)"
    o.append(f"""#guard match createPdu {name} with
  | .ok (some (.{cls} p)) => {name}_asserted p && same p.serialize {sent}
  | _ => false
""")
o.append("end Dis.Validation")
open(OUT, "w").write("\n".join(o) + "\n")
