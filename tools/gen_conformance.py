#!/usr/bin/env python3
"""Translate the parser unit tests of /repo into Lean examples (lean/Verif/Conformance/Parsers.lean).

They are tests, not proofs: they check that the model was transcribed correctly."""
import re

SRC = "/repo/src/emv/tlv_parsing/"
TOK = re.compile(r'\s+|//[^\n]*|b?"(?:\\.|[^"\\])*"|0[xb][0-9A-Fa-f_]+|\d+|[A-Za-z_][A-Za-z_0-9]*(?:::[A-Za-z_][A-Za-z_0-9]*)*!?|[\[\](){},:.;&]', re.S)


def tokens(s):
    i, out = 0, []
    while i < len(s):
        m = TOK.match(s, i)
        assert m, s[i:i + 40]
        t = m.group(0)
        i = m.end()
        if not t.isspace() and not t.startswith("//"):
            out.append(t)
    return out


def lower(n):
    return {"Private": "priv"}.get(n, n[0].lower() + n[1:])


class P:
    def __init__(self, t):
        self.t, self.i = t, 0

    def peek(self):
        return self.t[self.i]

    def next(self):
        self.i += 1
        return self.t[self.i - 1]

    def eat(self, x):
        assert self.next() == x, (x, self.t[self.i - 3:self.i + 3])

    def seq(self, close):
        xs = []
        while self.peek() != close:
            xs.append(self.expr())
            if self.peek() == ",":
                self.next()
        self.eat(close)
        return xs

    def expr(self):
        t = self.next()
        if t == "[":
            r = "[" + ", ".join(self.seq("]")) + "]"
        elif t == "vec!":
            self.eat("[")
            r = "[" + ", ".join(self.seq("]")) + "]"
        elif t == "(":
            r = "(" + ", ".join(self.seq(")")) + ")"
        elif t in ("Ok", "Err"):
            self.eat("(")
            r = f".{t.lower()} {self.seq(')')[0]}"
        elif t.startswith("ParseError::"):
            r = "." + lower(t.split("::")[1])
        elif t == "RawEmvBlock::default":
            self.eat("(")
            self.eat(")")
            r = "[]"
        elif t in ("RawEmvBlock", "RawEmvNode", "RawEmvTag"):
            self.eat("{")
            f = {}
            while self.peek() != "}":
                k = self.next()
                self.eat(":")
                f[k] = self.expr()
                if self.peek() == ",":
                    self.next()
            self.eat("}")
            if t == "RawEmvBlock":
                r = f["nodes"]
            elif t == "RawEmvNode":
                r = f".mk {f['tag']} {f['child_block']}"
            else:
                r = f"⟨{f['tag']}, {f['class']}, {f['data_object_type']}, {f['data']}⟩"
        elif t == "EmvData::Normal":
            self.eat("(")
            r = f".normal {self.seq(')')[0]}"
        elif "::" in t:
            r = "." + lower(t.split("::")[1])
        elif t.startswith('"'):
            t = re.sub(r"\\\n\s*", "", t)
            r = re.sub(r"\\u\{([0-9a-f]+)\}", lambda m: chr(int(m.group(1), 16)), t) + ".toList"
        else:
            r = t
        while self.i < len(self.t) and self.peek() == ".":
            self.next()
            assert self.next() == "as_slice"
            self.eat("(")
            self.eat(")")
        return r


out = ["import Verif.Model.Auto", "import Verif.Proofs.NodeEq", "", "/-!",
       "# The unit tests of the parsers, on the model", "",
       "Generated by tools/gen_conformance.py from the `test_parse` calls in src/emv/tlv_parsing. These are tests:",
       "they check that the model agrees with what the authors of the program expect on their own examples.", "-/", "",
       "namespace Pemv", ""]
n = 0
for f, fn in (("ber_tlv", "berParse"), ("ingenico_tlv", "ingParse"), ("auto_tlv", "autoParse")):
    s = open(SRC + f + ".rs").read()
    s = s[s.index("mod tests"):]
    for m in re.finditer(r"fn (\w+)\(\) \{\s*test_parse\(", s):
        toks = P(tokens(s[m.end():s.index("\n\t}\n", m.end())].rsplit(";", 1)[0]))
        a, b = toks.seq(")")
        line = f"example : {fn} .debug64 {a if a.startswith('[') else a} ['*'] = {b.replace('.ok [', '.ok [', 1)} := by decide +kernel"
        out += [f"/-- `{m.group(1)}`, src/emv/tlv_parsing/{f}.rs. -/", line, ""]
        n += 1
out.append("end Pemv")
import os
os.makedirs("/verif/lean/Verif/Conformance", exist_ok=True)
open("/verif/lean/Verif/Conformance/Parsers.lean", "w").write("\n".join(out) + "\n")
print(n)
