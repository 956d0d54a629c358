#!/usr/bin/env python3
"""Writes lean/Verif/Model/ExampleFiles.lean: the example of /repo and the files its tests read.  With --check, compares only."""
import sys, os
R = '/repo'
FILES = [
  ('traces', 'examples/bmon/traces'),
  ('testsJson', 'examples/bmon/tests.json'),
  ('stmsJson', 'examples/bmon/stms.json'),
  ('genXml', 'examples/bmon/gen.xml'),
  ('animateConvert', 'examples/bmon/animate/src/convert/convert.cpp'),
  ('rosConvert', 'examples/bmon/ros/src/convert/convert.cpp'),
  ('configValid1', 'internal/gen/config/testdata/valid1.xml'),
  ('packageValid1', 'internal/gen/catkin/testdata/valid1.xml'),
]
def lit(s):
    o = ''
    for ch in s:
        if ch == '\\': o += '\\\\'
        elif ch == '"': o += '\\"'
        elif ch == '\t': o += '\\t'
        elif ch == '\r': o += '\\r'
        else:
            assert 32 <= ord(ch) and ord(ch) != 127, repr(ch)
            o += ch
    return 'c!"' + o + '"'
out = []
w = out.append
w('''import Verif.Model.TemplateFiles
import Verif.Model.Json

/-
The example in /repo and the files that its tests read, character by character.  Written by tools/examples.py, which also checks that they are
the same.  They are not part of the model: they are what it is compared with (Props/Conformance.lean).
-/

namespace Rtcg

namespace ExampleFiles
''')
N = 150
for name, path in FILES:
    text = open(os.path.join(R, path)).read()
    lines = text.split('\n')
    n = len(lines) - (1 if lines[-1] == '' else 0)
    parts = [lines[i:i+N] for i in range(0, len(lines), N)]
    for k, part in enumerate(parts):
        w(f'/-- {path}:{k*N+1}-{min(k*N+N, n)} -/')
        w(f'def {name}Lines{k} : List Str :=')
        for i, l in enumerate(part):
            w(('  [ ' if i == 0 else '    ') + lit(l) + (',' if i + 1 < len(part) else ' ]'))
        w('')
    w(f'/-- {path}, the whole file -/')
    w(f'def {name} : Str := TemplateFiles.unlines ({" ++ ".join(f"{name}Lines{k}" for k in range(len(parts)))})')
    w('')
import json
def value(v):
    if isinstance(v, str): return '.str ' + lit(v)
    if isinstance(v, list): return '.arr [' + ', '.join(map(value, v)) + ']'
    return '.obj [' + ', '.join(f'({lit(k)}, {value(x)})' for k, x in v[1]) + ']'
top = dict(json.load(open(os.path.join(R, 'examples/bmon/stms.json')), object_pairs_hook=lambda ps: ('obj', ps))[1])
w('/-! The value that examples/bmon/stms.json is the text of. -/\n')
tests = top['tests'][1]
for k, m in tests:
    w(f'/-- the machine of {k} in examples/bmon/stms.json -/')
    w(f'def stm_{k} : Json :=\n  {value(m)}\n')
w('/-- all of examples/bmon/stms.json -/')
w('def stms : Json := .obj [(c!"types", ' + value(top['types']) + '),\n  (c!"tests", .obj [' + ', '.join(f'({lit(k)}, stm_{k})' for k, _ in tests) + '])]\n')
w('end ExampleFiles\n\nend Rtcg')
text = '\n'.join(out) + '\n'
dst = '/verif/lean/Verif/Model/ExampleFiles.lean'
if '--check' in sys.argv:
    sys.exit(0 if open(dst).read() == text else 'differs')
open(dst, 'w').write(text)
