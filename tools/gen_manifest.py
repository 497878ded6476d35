#!/usr/bin/env python3
"""Write MANIFEST.json and lean/Verif/Axioms.lean from the theorem names in lean/Verif/Props.

A theorem named cNN_... belongs to property CNN. NOTES holds the status of the properties that are not
simply proved."""
import json, os, re

ROOT = os.path.join(os.path.dirname(os.path.abspath(__file__)), "..")
PROPS = os.path.join(ROOT, "lean", "Verif", "Props")
NOTES = json.load(open(os.path.join(ROOT, "tools", "notes.json")))

theorems = {}
files = sorted(os.listdir(PROPS))
for f in files:
    text = open(os.path.join(PROPS, f)).read()
    for name in re.findall(r"^theorem ([A-Za-z0-9_'.]+)", text, re.M):
        m = re.match(r"c(\d\d+)_", name)
        if m:
            theorems.setdefault("C" + m.group(1), []).append("Pemv." + name)
        else:
            print("unassigned theorem in Props:", f, name)

claims = []
for line in open(os.path.join(ROOT, "properties.jsonl")):
    pid = json.loads(line)["id"]
    thms = theorems.pop(pid, [])
    note = NOTES.get(pid, {})
    if thms:
        claims.append({"property": pid, "status": note.get("status", "proved"), "theorems": thms,
                       "note": note.get("note", "")})
    else:
        print("no theorem:", pid)
if theorems:
    print("no property for", theorems)
json.dump({"claims": claims}, open(os.path.join(ROOT, "MANIFEST.json"), "w"), indent=1, ensure_ascii=False)
with open(os.path.join(ROOT, "lean", "Verif", "Axioms.lean"), "w") as out:
    for f in files:
        out.write(f"import Verif.Props.{f[:-5]}\n")
    out.write("\n/-! Axioms of every property theorem (generated by tools/gen_manifest.py). -/\n\n")
    for c in claims:
        for t in c["theorems"]:
            out.write(f"#print axioms {t}\n")
