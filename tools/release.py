"""Write lean/Verif/Release/Decode.lean: the text of the decoder model over the release-build arithmetic.

The bodies are copied from lean/Verif/Model; only the namespace changes, so that the arithmetic
operations resolve to those of lean/Verif/Release/Rust.lean.
"""
import os, re
root = os.path.join(os.path.dirname(os.path.abspath(__file__)), '..', 'lean', 'Verif')
out = []
for f in ['DecodeUtil', 'BaseI', 'M', 'A', 'Zifencei', 'Zicboz', 'Zicsr', 'Zicfiss', 'Zicntr', 'Priv', 'C',
          'Inst32', 'Inst16', 'Lib']:
    s = open('%s/Model/%s.lean' % (root, f)).read()
    s = re.sub(r'^import .*\n', '', s, flags=re.M)
    s = re.sub(r'/-!.*?-/\n', '', s, flags=re.S)
    if f == 'DecodeUtil':
        s = re.sub(r'/-- `enum Extensions`.*?Repr\n', '', s, flags=re.S)
        s = re.sub(r'/-- `only_rv64`.*?\n\n', '', s, flags=re.S)
        # `end - start + 1` is `u32` arithmetic and wraps
        s = s.replace('(d + 1)', '((d + 1) % 2 ^ 32)')
    s = re.sub(r'^(namespace|end) Raki', r'\1 Raki.Release', s, flags=re.M)
    s = re.sub(r'^open (U32|U16)', r'open Raki.Release.\1', s, flags=re.M)
    out.append('/-! ### %s -/\n' % f + s)
head = '''import Verif.Release.Rust
import Verif.Model.Lib
/-!
# The decoder in a release build

Written by `tools/release.py` from `lean/Verif/Model`: the same functions, each citing the Rust source it
models, over the arithmetic of `Verif.Release.Rust`, which wraps where a debug build panics.
-/

'''
open('%s/Release/Decode.lean' % root, 'w').write(head + '\n'.join(out))
