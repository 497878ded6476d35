#!/usr/bin/env python3
"""Transcribes the texts of the options in /repo/src/cli.rs into lean/Verif/Model/Help.lean. Only a transcription
aid: the output is checked in and reviewed."""
import re, sys
t = open("/repo/src/cli.rs").read()
def line(i): return t.count('\n', 0, i) + 1
STR = r'"((?:[^"\\]|\\.|\\\n)*)"'
def unq(s):
    s = re.sub(r'\\\n\s*', '', s)
    return s.replace('\\n', '\n').replace('\\"', '"')
def lean(s):
    return '"' + s.replace('\\', '\\\\').replace('"', '\\"').replace('\n', '\\n') + '"'
def wrap(s, indent):
    """A string literal broken at spaces, with string gaps."""
    q = lean(s); out = []; width = 112
    while len(q) + indent > width:
        k = q.rfind(' ', 0, width - indent - 1)
        out.append(q[:k + 1] + '\\'); q = q[k + 1:]
    out.append(q)
    return ('\n' + ' ' * indent).join(out)
starts = [(m.start(), m.group(0)) for m in re.finditer(r'\.arg\(|\.next_help_heading\([^)]*\)', t)]
starts.append((t.index('// Unit Tests'), 'end'))
heading = None; rows = []
for (a, what), (b, _) in zip(starts, starts[1:]):
    if what.startswith('.next'):
        heading = re.search(r'"(.*)"', what).group(1); continue
    body = t[a:b]
    one = lambda name: (lambda m: unq(m.group(1)) if m else None)(re.search(r'\.%s\(\s*%s,?\s*\)' % (name, STR), body))
    many = lambda name: [unq(x) for x in re.findall(r'\.%s\(\s*%s,?\s*\)' % (name, STR), body)]
    rows.append(dict(id=re.search(r'Arg::new\("(.*?)"\)', body).group(1), heading=heading, valueName=one('value_name'),
        visible=many('visible_alias'), help=one('help'), longHelp=one('long_help'), lines=(line(a), line(a + len(body.rstrip()) - 1) if True else 0)))
opt = lambda s: 'none' if s is None else 'some ' + lean(s)
out = []
for r in rows:
    f = ['id := ' + lean(r['id'])]
    if r['heading']: f.append('heading := ' + opt(r['heading']))
    if r['valueName']: f.append('valueName := ' + opt(r['valueName']))
    if r['visible']: f.append('visible := [' + ', '.join(map(lean, r['visible'])) + ']')
    s = '  { ' + ', '.join(f) + ',\n    help := ' + wrap(r['help'], 6)
    if r['longHelp']: s += ',\n    longHelp := some ' + wrap(r['longHelp'], 6)
    out.append(s + ' }')
sys.stdout.write(',\n'.join(out) + ']\n')
