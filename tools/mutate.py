#!/usr/bin/env python3
"""Test the theorems against wrong programs.

Usage: mutate.py NAME FILE OLD NEW   (FILE relative to lean/Verif; OLD must occur exactly once)

Works in a scratch copy of the Lake project (never in /verif). The model is edited, then everything is rebuilt;
every proof that fails is replaced by `sorry` IN THE SCRATCH COPY ONLY, until the build goes through. A theorem
that then depends on `sorryAx` is one that no longer proves; the others still hold of the wrong program.
Prints and returns the list of property theorems that fail.
"""
import json, os, re, shutil, subprocess, sys, threading, time

SRC = "/verif/lean"
SCRATCH = os.environ.get("SCRATCH", "/tmp/mut/lean")
PRISTINE = SCRATCH + ".pristine"
TOP = re.compile(r"^(theorem|def|example|end\b|/--|/-!|@\[|instance|mutual|namespace|open\b|abbrev|structure|inductive|class|private|noncomputable|section|variable|set_option|macro|syntax|import)")


def sync():
    """Make a fresh, built copy of the project without its examples (they are tests of the statements, not theorems)."""
    shutil.rmtree(PRISTINE, ignore_errors=True)
    shutil.copytree(SRC, PRISTINE, symlinks=True)
    for root, _, files in os.walk(PRISTINE + "/Verif"):
        for f in files:
            p = os.path.join(root, f)
            while True:
                L = open(p).read().split("\n")
                ex = [i for i, l in enumerate(L) if re.match(r"example\b", l)]
                if not ex:
                    break
                i = ex[-1]
                j = i + 1
                while j < len(L) and not TOP.match(L[j]):
                    j += 1
                if L[i - 1].endswith("-/"):
                    i -= 1
                    while not L[i].startswith("/--"):
                        i -= 1
                L[i:j] = []
                open(p, "w").write("\n".join(L))
    print(build(PRISTINE)[1])


def restore():
    """A fresh scratch copy of the built project."""
    shutil.rmtree(SCRATCH, ignore_errors=True)
    shutil.copytree(PRISTINE, SCRATCH, symlinks=True)


def body_start(text):
    """Index of the top-level `:=` (or first `|` alternative) of a declaration."""
    depth = 0
    in_match = False
    i = 0
    while i < len(text):
        c = text[i]
        if c in "([{⟨":
            depth += 1
        elif c in ")]}⟩":
            depth -= 1
        elif c == '"':
            i += 1
            while text[i] != '"':
                i += 2 if text[i] == "\\" else 1
        elif c == "'" and i + 2 < len(text) and (text[i + 2] == "'" or text[i + 1] == "\\"):
            i = text.index("'", i + 2 if text[i + 1] != "\\" else i + 3)
        elif depth == 0 and text.startswith(":=", i):
            return i, ":= sorry\n"
        elif depth == 0 and c == "\n" and text[:i].rstrip().endswith(" with"):
            in_match = True
        elif depth == 0 and not in_match and c == "\n" and re.match(r"\n\s*\| ", text[i:]):
            return i, " := sorry\n"
        i += 1
    return None


def starts(path, lines):
    """The first lines (1-based) of the declarations around `lines`: a proof with several errors counts once."""
    L = open(path).read().split("\n")
    found = set()
    for line in lines:
        i = min(line, len(L)) - 1
        while i >= 0 and not re.match(r"^(theorem|def|example|instance|noncomputable|private|abbrev)\b", L[i]):
            i -= 1
        found.add(max(i, 0) + 1)
    return found


def kill(path, line):
    """Replace the proof of the declaration around `line` (1-based) by sorry; returns its name."""
    L = open(path).read().split("\n")
    i = min(line, len(L)) - 1
    while i >= 0 and not re.match(r"^(theorem|def|example|instance|noncomputable|private|abbrev)\b", L[i]):
        i -= 1
    if i < 0:
        return None
    j = i + 1
    while j < len(L) and not TOP.match(L[j]):
        j += 1
    decl = "\n".join(L[i:j]) + "\n"
    m = re.match(r"(?:private )?theorem ([^\s:({\[]+)", decl)
    if decl.startswith("example"):
        # drop it, with its comment
        k = i
        new = ["example : True := trivial", ""]
        name = "example"
    elif m:
        b = body_start(decl[len("theorem"):])
        if b is None:
            return None
        pos, rep = b
        pos += len("theorem")
        if decl[pos:].startswith(":= sorry"):
            return None
        new = (decl[:pos] + rep).split("\n")
        name = m.group(1)
    else:
        return None
    L[i:j] = new
    open(path, "w").write("\n".join(L))
    return name


def build(where):
    """`lake build` with a time limit; any checker using more than 7 GB is killed."""
    p = subprocess.Popen(["timeout", "2400", "lake", "build"], cwd=where, stdout=subprocess.PIPE, stderr=subprocess.STDOUT, text=True)
    done = []

    def watch():
        while not done:
            for pid in filter(str.isdigit, os.listdir("/proc")):
                try:
                    cmd = open(f"/proc/{pid}/cmdline").read()
                    rss = int(open(f"/proc/{pid}/statm").read().split()[1]) * 4096
                    if "/lean" in cmd.split("\0")[0] and os.readlink(f"/proc/{pid}/cwd").startswith(where) and rss > 7 << 30:
                        os.kill(int(pid), 9)
                except (OSError, IndexError, ValueError):
                    pass
            time.sleep(1)

    t = threading.Thread(target=watch, daemon=True)
    t.start()
    out = p.communicate()[0]
    done.append(1)
    return out, p.returncode


def run(name, edits, quiet=False):
    t0 = time.time()
    restore()
    for f, old, new in edits:
        p = f"{SCRATCH}/Verif/{f}"
        s = open(p).read()
        assert s.count(old) == 1, (name, f, old, s.count(old))
        open(p, "w").write(s.replace(old, new))
    killed, examples = [], 0
    while True:
        out, rc = build(SCRATCH)
        if rc == 0:
            break
        # only errors of files; lines descending so that numbers stay valid
        errs = {}
        for m in re.finditer(r"^error: (Verif/\S+?\.lean):(\d+):(\d+): (.*)$", out, re.M):
            errs.setdefault(m.group(1), set()).add(int(m.group(2)))
        if not errs:
            print(out[-3000:])
            raise SystemExit("no error positions")
        progress = False
        for f, lines in errs.items():
            for ln in sorted(starts(f"{SCRATCH}/{f}", lines), reverse=True):
                n = kill(f"{SCRATCH}/{f}", ln)
                if n == "example":
                    examples += 1
                    progress = True
                elif n:
                    killed.append(n)
                    progress = True
        if not progress:
            print(out[-3000:])
            raise SystemExit("no progress")
    # axioms: force Axioms.lean to be shown
    r = subprocess.run(["lake", "env", "lean", "Verif/Axioms.lean"], cwd=SCRATCH, capture_output=True, text=True)
    txt = re.sub(r"\n ", " ", r.stdout)
    failed = sorted({m.group(1).split(".")[-1] for m in re.finditer(r"'([^']+)' depends on axioms: \[([^\]]*)\]", txt) if "sorryAx" in m.group(2)})
    res = {"name": name, "failed": failed, "lemmas": sorted(set(killed)), "examples": examples, "seconds": round(time.time() - t0)}
    print(json.dumps(res))
    return res


if __name__ == "__main__":
    if sys.argv[1] == "--sync":
        sync()
    elif sys.argv[1] == "--file":
        done = set()
        if os.path.exists(sys.argv[3]):
            done = {json.loads(l)["name"] for l in open(sys.argv[3])}
        for m in json.load(open(sys.argv[2])):
            if m["name"] in done:
                continue
            try:
                r = run(m["name"], m["edits"])
            except (SystemExit, AssertionError) as e:
                r = {"name": m["name"], "error": str(e)}
                print(r)
            with open(sys.argv[3], "a") as f:
                f.write(json.dumps(r) + "\n")
    else:
        run(sys.argv[1], [tuple(sys.argv[2:5])])
