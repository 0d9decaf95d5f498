#!/usr/bin/env python3
"""Check the citations in the model: `openid/x.py:a-b `name`` must be where `name` is defined in /repo."""
import ast, glob, os, re
ranges = {}
def load(f):
    if f in ranges: return ranges[f]
    d = {}
    t = ast.parse(open('/repo/' + f).read())
    def walk(n):
        for c in ast.iter_child_nodes(n):
            if isinstance(c, (ast.FunctionDef, ast.ClassDef)):
                d.setdefault(c.name, []).append((c.lineno, c.end_lineno)); walk(c)
    walk(t)
    d[''] = len(open('/repo/' + f).read().split('\n'))
    ranges[f] = d
    return d
bad = n = 0
here = os.path.dirname(os.path.abspath(__file__)) + '/../lean/Verif/'
for p in sorted(glob.glob(here + '*/*.lean')):
    for i, l in enumerate(open(p), 1):
        for m in re.finditer(r'((?:openid|examples)/[\w/]+\.py):(\d+)(?:-(\d+))?(?: `([\w.]+)`)?', l):
            f, a, b, name = m.group(1), int(m.group(2)), int(m.group(3) or m.group(2)), m.group(4)
            n += 1
            if not os.path.exists('/repo/' + f): print(p, i, 'no file', f); bad += 1; continue
            d = load(f)
            if b > d['']: print(p, i, 'past the end', m.group(0)); bad += 1; continue
            if name:
                last = name.split('.')[-1]
                if last in d and not any(x - 2 <= a <= y and a <= b <= y + 1 for x, y in d[last]):
                    print(os.path.relpath(p, here), i, m.group(0), d[last]); bad += 1
print(n, 'citations,', bad, 'wrong')
