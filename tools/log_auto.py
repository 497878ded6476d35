#!/usr/bin/env python3
"""Usage: log_auto.py RESULTS.jsonl BASE

Adds the edits of automutate.py that some theorem noticed to seeded/LOG.jsonl, one line each; names already logged are
skipped. BASE is the copy of the lean directory that was edited. Survivors are looked at and logged by hand.
"""
import json, re, sys

LOG = "/verif/seeded/LOG.jsonl"
done = {json.loads(l)["name"] for l in open(LOG)}
n = 0
with open(LOG, "a") as out:
    for l in open(sys.argv[1]):
        r = json.loads(l)
        name = "auto " + r["name"]
        if r["result"] != "noticed" or name in done:
            continue
        f, line, col, edit = r["name"].split(":", 3)
        L = open(f"{sys.argv[2]}/Verif/{f}").read().split("\n")
        i = int(line) - 1
        src = L[i].strip()
        while i > 0 and not re.match(r"^(def|instance|structure|inductive|abbrev)\b", L[i]):
            i -= 1
        by = r["by"].split(":")[-1]
        m = re.match(r"c(\d+)_", by)
        out.write(json.dumps({
            "name": name,
            "definition": f"{L[i].split()[1] if len(L[i].split()) > 1 else '?'} ({f})",
            "edit": f"column {col} of `{src}`: {edit}",
            "claim": f"C{m.group(1)}" if m else f"the claims that rest on the lemma {by}",
            "failed": [by] if m else [],
            "failed_lemmas": [] if m else [by],
            "tightened": [],
        }, ensure_ascii=False) + "\n")
        n += 1
print(n)
