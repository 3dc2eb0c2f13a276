#!/usr/bin/env python3
"""Copy /repo/README.md into lean/Verif/Source/ReadmeText.lean as a list of lines."""
import os
OUT = os.path.join(os.path.dirname(os.path.dirname(os.path.abspath(__file__))), 'lean/Verif/Source/ReadmeText.lean')
L = open('/repo/README.md').read().split('\n')
def lit(s): return '"%s"' % s.replace('\\', '\\\\').replace('"', '\\"')
open(OUT, 'w').write('''/-!
# The text of README.md

Generated by tools/readme.py; do not edit.
-/

namespace Raki.Source

/-- README.md, line by line. -/
def readme_md : List String :=
  [%s]

end Raki.Source
''' % ',\n   '.join(map(lit, L)))
