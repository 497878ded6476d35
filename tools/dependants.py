#!/usr/bin/env python3
"""Usage: dependants.py

Edits that were tried with automutate.py are logged with the first declaration that fails. This adds to each of them, in
seeded/LOG.jsonl, the property theorems that rest on that declaration and so fail with it. Needs a built project.
"""
import json, os, re, subprocess, tempfile

LEAN = "/verif/lean"
LOG = "/verif/seeded/LOG.jsonl"
SCRIPT = """import Lean.Elab.Command
import Verif
open Lean
run_cmd do
  let env ← getEnv
  let mut out : Array String := #[]
  for (n, c) in env.constants.map₁.toList do
    if (n.toString.splitOn "Pemv").length > 1 then
      let mut used : Array String := #[]
      for e in [c.type] ++ (c.value? (allowOpaque := true)).toList do
        for u in e.getUsedConstants do
          if (u.toString.splitOn "Pemv").length > 1 then used := used.push u.toString
      out := out.push (n.toString ++ "\\t" ++ " ".intercalate used.toList)
  IO.FS.writeFile "OUT" ("\\n".intercalate out.toList)
"""


def graph():
    with tempfile.TemporaryDirectory() as d:
        src, out = os.path.join(d, "deps.lean"), os.path.join(d, "deps.tsv")
        open(src, "w").write(SCRIPT.replace("OUT", out))
        subprocess.run(["lake", "env", "lean", src], cwd=LEAN, check=True)
        return {a: b.split() for a, b in (l.split("\t") for l in open(out).read().split("\n"))}


def main():
    users = {}
    for a, bs in graph().items():
        for b in bs:
            users.setdefault(b, set()).add(a)
    nodes = set(users) | {a for s in users.values() for a in s}

    def resting_on(lemma):
        todo = [n for n in nodes if n.split(".")[-1] == lemma or n.endswith("." + lemma)]
        seen = set(todo)
        while todo:
            for u in users.get(todo.pop(), ()):
                if u not in seen:
                    seen.add(u)
                    todo.append(u)
        return {m.group(1) for n in seen if (m := re.search(r"\.(c\d+_\w+)$", n))}

    entries = [json.loads(l) for l in open(LOG)]
    unknown = []
    for r in entries:
        if not (r["name"].startswith("auto ") or len(r["failed"]) + len(r["failed_lemmas"]) == 1) or not (r["failed"] or r["failed_lemmas"]):
            continue
        found = set(r["failed"])
        for n in r["failed"] + r["failed_lemmas"]:
            found |= resting_on(n)
        if not found:
            unknown.append((r["name"], r["failed_lemmas"]))
        r["failed"] = sorted(found)
        if r["claim"].startswith("the claims that rest on the lemma") and found:
            r["claim"] = ", ".join(sorted({"C" + re.match(r"c(\d+)_", n).group(1) for n in found}, key=lambda c: int(c[1:])))
    with open(LOG, "w") as f:
        for r in entries:
            f.write(json.dumps(r, ensure_ascii=False) + "\n")
    for u in unknown:
        print(*u)


main()
