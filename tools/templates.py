#!/usr/bin/env python3
"""Writes lean/Verif/Model/TemplateFiles.lean: the embedded templates of /repo, line by line.  With --check, compares only."""
import sys, os
R = '/repo/internal/gen'
FILES = [
  ('baseCpp', f'cpp/embed/templates/base/base.cpp.tmpl'),
  ('entryCpp', f'cpp/embed/templates/base/entry.cpp.tmpl'),
  ('inCallbackCpp', f'cpp/embed/templates/base/in_callback.cpp.tmpl'),
  ('includesCpp', f'cpp/embed/templates/base/includes.cpp.tmpl'),
  ('outCallbackCpp', f'cpp/embed/templates/base/out_callback.cpp.tmpl'),
  ('stateEntryCpp', f'cpp/embed/templates/base/state_entry.cpp.tmpl'),
  ('stateMetaCpp', f'cpp/embed/templates/base/state_meta.cpp.tmpl'),
  ('stmCpp', f'cpp/embed/templates/base/stm.cpp.tmpl'),
  ('verdictCpp', f'cpp/embed/templates/base/verdict.cpp.tmpl'),
  ('convertBaseH', f'cpp/embed/templates/base/convert/convert_base.h.tmpl'),
  ('animateMainCpp', f'cpp/embed/templates/animate/main.cpp.tmpl'),
  ('animateMainBodyCpp', f'cpp/embed/templates/animate/main_body.cpp.tmpl'),
  ('animateConvertH', f'cpp/embed/templates/animate/convert/convert.h.tmpl'),
  ('rosMainCpp', f'cpp/embed/templates/ros/main.cpp.tmpl'),
  ('rosMainBodyCpp', f'cpp/embed/templates/ros/main_body.cpp.tmpl'),
  ('rosConvertH', f'cpp/embed/templates/ros/convert/convert.h.tmpl'),
  ('makefile', f'makefile/embed/templates/Makefile.tmpl'),
  ('cmakeLists', f'catkin/embed/templates/CMakeLists.txt.tmpl'),
]
PRELUDE = [('rtcgCpp', 'cpp/embed/prelude/rtcg.cpp'), ('rtcgH', 'cpp/embed/prelude/rtcg.h')]
def lit(s):
    o = ''
    for ch in s:
        if ch == '\\': o += '\\\\'
        elif ch == '"': o += '\\"'
        elif ch == '\t': o += '\\t'
        elif ch == '\r': o += '\\r'
        else:
            assert 32 <= ord(ch) < 127, repr(ch)
            o += ch
    return 'c!"' + o + '"'
out = []
w = out.append
w('''import Verif.Model.Base

/-
The embedded files of /repo, character by character.  Written by tools/templates.py, which also checks that they are the same.
A file is the list of its lines, joined by newlines; a file that ends in a newline has an empty last line.
-/

namespace Rtcg

namespace TemplateFiles

/-- Lines joined by newlines -/
def unlines : List Str → Str
  | [] => []
  | [l] => l
  | l :: ls => l ++ '\\n' :: unlines ls
''')
for name, path in FILES + PRELUDE:
    text = open(os.path.join(R, path)).read()
    lines = text.split('\n')
    w(f'/-- gen/{path}:1-{len(lines) - (1 if lines[-1] == "" else 0)} -/')
    w(f'def {name}Lines : List Str :=')
    for i, l in enumerate(lines):
        w(('  [ ' if i == 0 else '    ') + lit(l) + (',' if i + 1 < len(lines) else ' ]'))
    w('')
    w(f'/-- gen/{path}, the whole file -/')
    w(f'def {name} : Str := unlines {name}Lines')
    w('')
w('end TemplateFiles\n\nend Rtcg')
text = '\n'.join(out) + '\n'
dst = '/verif/lean/Verif/Model/TemplateFiles.lean'
if '--check' in sys.argv:
    sys.exit(0 if open(dst).read() == text else 'differs')
open(dst, 'w').write(text)
