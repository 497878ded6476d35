#!/usr/bin/env python3
"""Write lean/Verif/Conformance/Changelog.lean: the groups of CHANGELOG.md as examples."""
import re
L=open('/repo/CHANGELOG.md').read().split("\n")
secs=[];cur=None
for l in L:
    if l.startswith("## "): cur=[l]; secs.append(cur)
    elif cur is not None and l.strip() and not l.startswith("<!--"): cur.append(l)
T={"Features":"feat","Bug Fixes":"fix","Documentation":"docs","Refactor":"refactor","Testing":"test","Continuous Integration":"ci","Miscellaneous Tasks":"misc","Performance":"perf"}
def q(s): return '"'+s.replace("\\","\\\\").replace('"','\\"')+'"'
out=[]
for s in secs:
    v=re.match(r"## \[(.*?)\] - (\S+)",s[0])
    h=None;msgs=[]
    for l in s[1:]:
        if l.startswith("### "): h=T[l[4:]]
        else:
            m=re.match(r"- (.*) \(\[(\w{7})\]\(https://github.com/zedseven/pemv/commit/\2\)\)$",l); assert m,l
            msgs.append((m[2],h+": "+m[1]))
    # one order in which every group keeps its own: round robin over the groups
    g={}
    for x in msgs: g.setdefault(x[1].split(":")[0],[]).append(x)
    order=[];qs=[list(x) for x in reversed(list(g.values()))]
    while any(qs):
        for x in qs:
            if x: order.append(x.pop(0))
    out.append((v[1],v[2],order,s))
print(len(secs),[len(o[2]) for o in out])

f=open('/verif/lean/Verif/Conformance/Changelog.lean','w')
f.write("""import Verif.Model.Changelog

/-!
# The groups of CHANGELOG.md are those of the model of cliff.toml

Of each message only the first word of its description is kept, and of the histories only the order within each type is
known: the one used here goes through the types in turn. The commits are told by the seven digits of their hashes.
-/

namespace Pemv

/-- The groups with the hashes of their commits, of a history of hashes and messages. -/
def groupedHashes (commits : List (String × String)) : List (Text × List Text) :=
  (groupCommits (commits.map fun c => ⟨c.1.toList, c.2.toList⟩)).map fun g => (g.1, g.2.map HistoryCommit.id)
""")
def wrap(items,ind,w=118):
    lines=[];cur=ind
    for k,x in enumerate(items):
        x=x+("," if k<len(items)-1 else "")
        if len(cur)+len(x)+1>w: lines.append(cur.rstrip()); cur=ind
        cur+=x+" "
    lines.append(cur.rstrip()); return "\n".join(lines)
for v,d,o,s in out:
    f.write(f'\n/-- CHANGELOG.md, version {v}. -/\nexample : groupedHashes [\n')
    f.write(wrap([f"({q(i)}, {q(' '.join(m.split(' ')[:2]))})" for i,m in o],"      ")+"] = List.map (fun g => (g.1.toList, g.2.map String.toList)) [\n")
    gs=[]
    for l in s[1:]:
        if l.startswith("### "): gs.append((l[4:],[]))
        else: gs[-1][1].append(re.search(r"\(\[(\w{7})\]",l)[1])
    f.write(",\n".join("      ("+q(g)+", [\n"+wrap([q(i) for i in ids],"        ")+"])" for g,ids in gs)+"] := by\n  decide +kernel\n")
f.write("\nend Pemv\n")
