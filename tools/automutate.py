#!/usr/bin/env python3
"""Systematic small edits of the model, to find edits that no theorem notices. (The same works for the specifications:
an edit of one of them that nothing notices is a definition that the theorems do not pin down.)

Usage: automutate.py [--lines] RESULTS [FILE ...]   (FILE relative to lean/Verif, default: all of Model)
       automutate.py --file MUTATIONS.json RESULTS   (the input and output of mutate.py --file, for log_mutations.py)

With --lines, whole lines are left out or swapped with the next one, conditions are negated and constructors are
exchanged, instead of the edits of single symbols.

Works like mutate.py in a scratch copy without the examples, but stops at the first proof that fails. An edit for
which everything still builds is a survivor: either the edited program is equivalent to the original one, or some
claim is not stated strongly enough. Edits that do not type-check are not counted.
"""
import hashlib, json, os, re, subprocess, sys
sys.path.insert(0, os.path.dirname(__file__))
os.environ.setdefault("SCRATCH", "/tmp/mut2/lean")
import mutate

FILES = ["Model/" + f + ".lean" for f in ("Util", "Tlv", "Ber", "Ingenico", "Auto", "Process", "Values", "Bitflags", "Output", "Display",
                                "Main", "Config", "Cli", "Basic", "Tables")]
OPS = [("<", "≤"), ("≤", "<"), ("==", "!="), ("!=", "=="), ("&&", "||"), ("||", "&&"), ("∧", "∨"), ("∨", "∧"), ("true", "false"),
       ("false", "true"), ("+", "-"), ("-", "+"), ("/", "%"), ("%", "/"), ("&&&", "|||"), ("|||", "&&&"), ("any", "all"),
       ("all", "any"), ("some", "none"), ("take", "drop"), ("drop", "take"), ("head?", "getLast?"), ("≠", "="), ("=", "≠")]


def strip(src):
    """The text with comments blanked out."""
    out = re.sub(r"/-.*?-/", lambda m: re.sub(r"[^\n]", " ", m.group(0)), src, flags=re.S)
    return re.sub(r"--[^\n]*", lambda m: " " * len(m.group(0)), out)


def candidates(f):
    src = open(f"{mutate.PRISTINE}/Verif/{f}").read()
    code = strip(src)
    res = []
    # numerals
    for m in re.finditer(r"(?<![\w.'\"])(0x[0-9A-Fa-f]+|\d+)(?![\w.'\"])", code):
        t = m.group(1)
        v = int(t, 0)
        news = [v + 1] + ([v - 1] if v > 1 else []) + ([0] if v == 1 else [])
        for n in news:
            res.append((m.start(1), t, str(n)))
    # operators and words, written with spaces around
    for old, new in OPS:
        word = re.match(r"\w", old)
        pat = (r"(?<![\w])" + re.escape(old) + r"(?![\w])") if word else (r"(?<= )" + re.escape(old) + r"(?= )")
        for m in re.finditer(pat, code):
            if code[max(0, m.start() - 8):m.start()].endswith(":") and old == "=":
                continue
            res.append((m.start(), old, new))
    # characters and strings
    for m in re.finditer(r"'([A-Za-z0-9:.*])'", code):
        c = m.group(1)
        res.append((m.start(), m.group(0), "'%s'" % chr(ord(c) + 1)))
    for m in re.finditer(r'"([^"\n\\]*)"', code):
        res.append((m.start(), m.group(0), '"%sx"' % m.group(1)))
    # list items and swapped constructors are left to hand-written edits
    out = []
    for pos, old, new in sorted(set(res)):
        line = src.count("\n", 0, pos) + 1
        out.append({"name": f"{f}:{line}:{pos - src.rfind(chr(10), 0, pos)}:{old}->{new}", "file": f, "pos": pos, "old": old, "new": new})
    return out


SWAPS = [(".primitive", ".constructed"), (".application", ".universal"), (".contextSpecific", ".priv"), (".normal", ".masked"),
         ("println", "print"), ("boldSpec", "headerSpec"), (".always", ".never"), (".auto", ".always"), (".nonCompliant", ".unrecognised"),
         (".unsupported", ".nonCompliant"), (".invalidNumber", ".invalidBytes"), (".warning", ".error"), (".cyan", ".red"), (".gt", ".lt"),
         (".eq", ".gt"), (".none", ".exactly"), ("getLast?", "head?"), ("isSome", "isNone"), ("takeWhile", "dropWhile"), ("map", "filterMap"),
         ("indentation", "0"), ("masks", "[]"), ("sort", "true")]


def line_candidates(f):
    src = open(f"{mutate.PRISTINE}/Verif/{f}").read()
    code = strip(src)
    res = []
    lines = code.split("\n")
    pos = 0
    starts = []
    for l in lines:
        starts.append(pos)
        pos += len(l) + 1
    inside = False
    for i, l in enumerate(lines):
        if re.match(r"(def|abbrev)\b", l):
            inside = True
        elif re.match(r"\S", l):
            inside = False
        if not inside or not l.startswith(" ") or not l.strip():
            continue
        whole = src[starts[i]:starts[i] + len(l) + 1]
        res.append((starts[i], whole, "", "left out"))
        if i + 1 < len(lines) and lines[i + 1].startswith(" ") and lines[i + 1].strip():
            nxt = src[starts[i + 1]:starts[i + 1] + len(lines[i + 1]) + 1]
            res.append((starts[i], whole + nxt, nxt + whole, "swapped with the next"))
    for m in re.finditer(r"\bif ([^\n:]*?) then\b", code):
        res.append((m.start(), m.group(0), f"if ¬ ({m.group(1)}) then", "negated condition"))
    for a, b in SWAPS:
        for old, new in ((a, b), (b, a)) if b not in ("0", "[]", "true") else ((a, b),):
            for m in re.finditer(r"(?<![\w.])" + re.escape(old) + r"(?![\w?])", code):
                res.append((m.start(), old, new, f"{old}->{new}"))
    out = []
    for pos, old, new, what in res:
        line = src.count("\n", 0, pos) + 1
        out.append({"name": f"{f}:{line}:{pos - src.rfind(chr(10), 0, pos)}:{what}", "file": f, "pos": pos, "old": old, "new": new})
    return out


def quick(m):
    p = f"{mutate.SCRATCH}/Verif/{m['file']}"
    s = open(p).read()
    assert s[m["pos"]:].startswith(m["old"])
    open(p, "w").write(s[:m["pos"]] + m["new"] + s[m["pos"] + len(m["old"]):])
    return first_failure([m["file"]])


def written(source, results):
    """Wrong programs written by hand: the first declaration that fails with each."""
    done = {json.loads(l)["name"] for l in open(results)} if os.path.exists(results) else set()
    for m in json.load(open(source)):
        if m["name"] in done:
            continue
        mutate.restore()
        for f, old, new in m["edits"]:
            p = f"{mutate.SCRATCH}/Verif/{f}"
            s = open(p).read()
            assert s.count(old) == 1, (m["name"], s.count(old))
            open(p, "w").write(s.replace(old, new))
        r = first_failure([f for f, _, _ in m["edits"]])
        res = {"name": m["name"]}
        if r["result"] in ("stillborn", "error"):
            res["error"] = r["result"]
        else:
            by = [r["by"].split(":")[-1]] if "by" in r else []
            res["failed"] = [b for b in by if re.match(r"c\d+_", b)]
            res["lemmas"] = [b for b in by if not re.match(r"c\d+_", b)]
        with open(results, "a") as f:
            f.write(json.dumps(res, ensure_ascii=False) + "\n")


def first_failure(files):
    b = subprocess.Popen(["timeout", "3000", "lake", "build"], cwd=mutate.SCRATCH, stdout=subprocess.PIPE, stderr=subprocess.STDOUT,
                         text=True, preexec_fn=os.setsid)
    first = None
    for line in b.stdout:
        e = re.match(r"error: (Verif/\S+?\.lean):(\d+):(\d+): (.*)$", line)
        if e:
            first = e
            break
    if first:
        try:
            os.killpg(b.pid, 9)
        except ProcessLookupError:
            pass
    b.wait()
    if not first:
        return {"result": "survived" if b.returncode == 0 else "error"}
    if first.group(1).startswith("Verif/Model") or first.group(1)[len("Verif/"):] in files:
        return {"result": "stillborn"}
    L = open(f"{mutate.SCRATCH}/{first.group(1)}").read().split("\n")
    i = int(first.group(2)) - 1
    while i > 0 and not re.match(r"^(theorem|def|instance|noncomputable|private|abbrev)\b", L[i]):
        i -= 1
    return {"result": "noticed", "by": first.group(1) + ":" + (L[i].split()[1] if len(L[i].split()) > 1 else "?")}


if __name__ == "__main__":
    make = candidates
    if sys.argv[1] == "--file":
        written(sys.argv[2], sys.argv[3])
        raise SystemExit
    if sys.argv[1] == "--lines":
        make = line_candidates
        del sys.argv[1]
    results = sys.argv[1]
    done = {json.loads(l)["name"] for l in open(results)} if os.path.exists(results) else set()
    todo = []
    for f in sys.argv[2:] or FILES:
        todo.append(make(f))
    # a fixed pseudo-random order, so that an interrupted run has sampled everything
    flat = sorted((c for l in todo for c in l), key=lambda c: hashlib.md5(c["name"].encode()).hexdigest())
    print(len(flat), "edits", flush=True)
    for c in flat:
        if c["name"] in done:
            continue
        mutate.restore()
        r = quick(c)
        with open(results, "a") as f:
            f.write(json.dumps({"name": c["name"], **r}, ensure_ascii=False) + "\n")
