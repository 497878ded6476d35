#!/usr/bin/env python3
"""Usage: log_mutations.py MUTATIONS.json RESULTS.jsonl [TIGHTENED.json]

Adds the results of mutate.py to seeded/LOG.jsonl, one line per wrong program; names already logged are skipped.
TIGHTENED.json maps names to the theorems tightened or added because of the attempt.
"""
import json, os, re, sys

LOG = "/verif/seeded/LOG.jsonl"


def definition(edit):
    """The declaration that an edit changes."""
    f, old, _ = edit
    for base in ("/tmp/mut/lean.pristine", "/verif/lean"):
        try:
            s = open(f"{base}/Verif/{f}").read()
        except OSError:
            continue
        i = s.find(old)
        if i >= 0:
            names = re.findall(r"^(?:def|theorem|instance|structure|inductive|abbrev) (\S+)", s[:i + len(old)], re.M)
            own = re.search(r"^(?:def|abbrev|inductive|structure) (\S+)", old, re.M)
            return (own.group(1) if own else names[-1] if names else "?") + f" ({f})"
    return f"? ({f})"


def main():
    ms = {m["name"]: m for m in json.load(open(sys.argv[1]))}
    tight = json.load(open(sys.argv[3])) if len(sys.argv) > 3 else {}
    done = {json.loads(l)["name"] for l in open(LOG)} if os.path.exists(LOG) else set()
    n = 0
    with open(LOG, "a") as out:
        for l in open(sys.argv[2]):
            r = json.loads(l)
            if r["name"] in done or "error" in r:
                continue
            m = ms[r["name"]]
            out.write(json.dumps({
                "name": m["name"],
                "definition": ", ".join(dict.fromkeys(definition(e) for e in m["edits"])),
                "edit": [{"file": f, "from": o, "to": w} for f, o, w in m["edits"]],
                "claim": m["claim"],
                "failed": r["failed"],
                "failed_lemmas": r["lemmas"],
                "tightened": tight.get(m["name"], []),
            }, ensure_ascii=False) + "\n")
            n += 1
    print(n)


main()
