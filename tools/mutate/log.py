"""Write seeded/LOG.jsonl from the mutation lists and the results of run.py.

    python3 tools/mutate/log.py [/tmp/mut /tmp/mut2 ...]

One line per mutant: the definition edited, the edit, the claim it breaks, the theorems that failed and
those tightened because of it (kept in tightened.json beside this file, with remarks on survivors)."""
import json, os, sys
here = os.path.dirname(os.path.abspath(__file__))
work = sys.argv[1:] or ["/tmp/mut", "/tmp/mut2", "/tmp/mut3", "/tmp/mut4"]
lines = [l for w in work for l in open(os.path.join(w, "results.jsonl"))]
muts = {}
for f in sorted(os.listdir(here)):
    if f.endswith(".json") and f != "tightened.json":
        for m in json.load(open(os.path.join(here, f))):
            muts[m["id"]] = m
notes = {}
tf = os.path.join(here, "tightened.json")
if os.path.exists(tf):
    notes = json.load(open(tf))
def edit(m):
    if "edit" in m:
        return m["edit"]
    return "; ".join(f"{x['old']} -> {x['new']}" for x in m.get("edits", [m]))

def stopped(r):
    return "the build was stopped at the first module that failed; the claims of " + ", ".join(r["expect"]) + " rest on these lemmas"

def lemmas(within, fails):
    """The failed declarations that are about the edited method (and not about another edit of the batch)."""
    c, _, m = within.rpartition(".")
    c = c.split(".")[-1]
    kinds = {"serialize": ("serializes", "serializesOf", "serializesWith", "lawful", "firstRaw", "writes"),
             "parse": ("parses", "parsesBy", "parsesRaw", "body", "lawful", "builds", "reads"),
             "__init__": ("makes", "makesOf", "makesRaw"), "marshalledSize": ("sizes",)}
    by_hand = {"PduSuperclass.__init__": ["header_inits"], "LiveEntityPdu.__init__": ["live_init"],
               "SimulationManagementFamilyPdu.__init__": ["management_init"], "WarfareFamilyPdu.__init__": ["warfare_init"],
               "SimulationManagementWithReliabilityFamilyPdu.__init__": ["reliable_init"],
               "UnknownStandardVariableRecord.__init__": ["C77_construct_unknown"],
               "LinearObjectStatePdu.numberOfSegments": ["LinearObjectStatePdu.serializes", "C80_segments"],
               "VariableDatum.datumPaddingSizeInBits": ["VariableDatum.padding"],
               "TransmitterPdu.antennaPatternLength": ["TransmitterPdu.patternLength"],
               "TransmitterPdu.modulationParametersLength": ["TransmitterPdu.parametersLength"],
               "TransmitterPdu.variableTransmitterParameterCount": ["TransmitterPdu.serializes", "C80_transmitter"],
               "IntercomControlPdu.intercomParametersLength": ["fails_length", "gives_length"],
               "EntityIdentifier.marshalledSize": ["C80_sizes_common"], "EventIdentifier.marshalledSize": ["C80_sizes_common"],
               "SimulationAddress.marshalledSize": ["C80_sizes_common"], "WorldCoordinates.marshalledSize": ["C80_sizes_common"],
               "VariableRecord.is_positive_int": ["C80_is_positive_int"],
               "StandardVariableRecord.is_positive_int": ["C80_is_positive_int"],
               "ModulationType.marshalledSize": ["C80_sizes_parts"], "GenericRadio.marshalledSize": ["mod_sizes"],
               "SimpleIntercomRadio.marshalledSize": ["mod_sizes"],
               "DirectedEnergyAreaAimpoint.beamAntennaPatternCount": ["C80_area_counts", "DirectedEnergyAreaAimpoint.serializesOf"],
               "DirectedEnergyAreaAimpoint.directedEnergyTargetEnergyDepositionCount":
                   ["C80_area_counts", "DirectedEnergyAreaAimpoint.serializesOf"],
               "Module.getStandardVariableClass": ["getClass"], "rangeCoordinates.GPS.lla2utm": ["utm_pre"]}
    if within in by_hand:
        return [d for d in by_hand[within] if d in fails]
    if m in kinds:
        own = {d for d in fails if d.startswith(c + ".") and d.split(".")[-1] in kinds[m]}
        return sorted(own) or sorted(d for d in fails if m == "__init__" and c in d)
    return sorted(d for d in fails if d == f"{c}.{m}_value" or (d.startswith(m + "_") and
                  d[len(m) + 1:].split("_")[-1] in ("runs", "gives", "np", "body", "rounds", "pre", "floats")))

def claims(within, own, broken, batch):
    """The broken properties that state what the edited method does."""
    m = within.rpartition(".")[2]
    want = {"serialize": ["C77_serialize"], "parse": ["C77_parse"],
            "__init__": ["C77_construct", "C77_construct_with", "C77_construct_serialize"]}.get(m)
    if want is None and within.startswith(("DataInputStream", "DataOutputStream")):
        want = [x for x in ("C79_read", "C79_read_text", "C79_write", "C79_write_text", "C79_table")
                if x == "C79_table" or x.split("_")[1] == m.split("_")[0]]
    if batch[0] == "Q":
        one = {"PduSuperclass": "C77_header_init", "SimulationManagementFamilyPdu": "C77_management_init",
               "WarfareFamilyPdu": "C77_warfare_init", "UnknownStandardVariableRecord": "C77_construct_unknown",
               "HighFidelityHAVEQUICKRadio": "C77_construct_radio"}
        c = within.rpartition(".")[0]
        two = {"TransmitterPdu": f"C77_transmitter_{m}", "IntercomControlPdu": f"C77_intercom_{m}"}
        named = [one.get(c) if m == "__init__" else two.get(c)]
        return sorted(set(own) | {x for x in named if x in broken})
    return [x for x in broken if want is None or x in want]

out, logged = [], set()
for line in lines:
    r = json.loads(line)
    m = muts.get(r["id"])
    if m is None or "error" in r:
        continue
    if r.get("quick") and not r["failed_decls"] and "failed" not in notes.get(r["id"], {}):
        continue
    if r.get("quick") and (r["id"], "quick") in logged:
        continue
    if r.get("quick"):
        logged.add((r["id"], "quick"))
    if any("within" in e and "descr" in e for e in m.get("edits", [])):
        if r.get("quick"):
            found = [x.split(":") for x in r["failed_decls"]]
        else:
            det = next(p for w in work for p in [os.path.join(w, "detail_" + r["id"] + ".json")] if os.path.exists(p))
            found = [x[:2] for x in json.load(open(det))["fails"]]
        # a module with an error before its first declaration could not import another: its errors say nothing
        cut = {x[0] for x in found if x[1] == "?"}
        fails = {x[1] for x in found if x[0] not in cut}
        for k, x in enumerate(m["edits"], 1):
            i = f"{r['id']}.{k}" if len(m["edits"]) > 1 else r["id"]
            own = lemmas(x["within"], fails) if len(m["edits"]) > 1 else sorted(fails)
            n = notes.get(i, notes.get(f"{r['id']}:{x['within']}", {}))
            e = {"id": i, "definition": x["within"], "edit": x["descr"], "claim": m["claim"],
                 "theorems_failed": n.get("failed", claims(x["within"], own, r["broken_properties"], r["id"]) if own and not r.get("quick") else own),
                 "lemmas_failed": own,
                 "theorems_tightened": n.get("tightened", []), "batch": f"{r['id']}: {len(m['edits'])} edits built together; failures assigned to an edit by the name of the method"}
            if len(m["edits"]) == 1:
                del e["batch"]
            if r.get("quick"):
                del e["lemmas_failed"]
                e["note"] = stopped(r)
            if "note" in n:
                e["note"] = n["note"]
            out.append(e)
        continue
    cut = {d.split(":")[0] for d in r["failed_decls"] if r.get("quick") and d.endswith(":?")}
    own = sorted({d.split(":")[1] for d in r["failed_decls"] if d.split(":")[0] not in cut} | set(r.get("broken_properties", [])))
    n = notes.get(r["id"], {})
    e = {"id": r["id"], "definition": m["definition"], "edit": edit(m), "claim": m["claim"],
         "theorems_failed": [x for x in own if x[:1] == "C" and x[1:3].isdigit()] ,
         "other_failures": len([x for x in own if not (x[:1] == "C" and x[1:3].isdigit())]),
         "theorems_tightened": n.get("tightened", [])}
    if r.get("quick"):
        e["theorems_failed"] = n.get("failed", own)
        del e["other_failures"]
        e["note"] = stopped(r)
    if "note" in n:
        e["note"] = n["note"]
    out.append(e)
for k, e in enumerate(out):
    if not e["theorems_failed"] and "note" not in e and any(x["id"] == e["id"] and x["theorems_failed"] for x in out[k + 1:]):
        e["note"] = "survived; tried again with the theorems added since, see the later entry of this id"
os.makedirs(os.path.join(here, "../../seeded"), exist_ok=True)
with open(os.path.join(here, "../../seeded/LOG.jsonl"), "w") as f:
    for e in out:
        f.write(json.dumps(e) + "\n")
print(len(out), "entries;", sum(not e["theorems_failed"] for e in out), "without a failed theorem")
for e in out:
    if not e["theorems_failed"] and not e["theorems_tightened"] and "note" not in e:
        print(e["id"], e["definition"], e.get("lemmas_failed"), e["edit"][:90])
