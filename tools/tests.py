"""Transcribe the crate's own unit tests into Lean examples about the model.

Reads the tests in /repo/src/decode/*.rs and writes lean/Verif/Tests/Crate.lean.  The tests in src/lib.rs and
the assertions in documentation are written out by hand at the end.
"""
import re, glob, os

out = []
total = 0
names = []
for p in sorted(glob.glob('/repo/src/decode/*_extension.rs') + ['/repo/src/decode/base_i.rs']):
    src = re.sub(r'//[^\n]*', '', open(p).read())
    rel = 'src/' + p.split('/src/')[1]
    for f in re.finditer(r'#\[test\]\s*(?:#\[[^\]]*\]\s*)*fn (\w+)\(\) \{(.*?)\n    \}\n', src, re.S):
        calls = list(re.finditer(r'(?<!let )\btest_(32|16)(_in_rv64|_in_rv32|)\(\s*([^;]*?)\s*\);', f.group(2), re.S))
        first = src[:f.start(1)].count('\n') + 1
        last = src[:f.end()].count('\n')
        out.append('\n/-- Test `%s`, %s:%d-%d. -/\ndef %s : RustM Unit := do' % (f.group(1), rel, first, last, f.group(1)))
        for m in calls:
            args = [a.strip() for a in m.group(3).rstrip(',').split(',')]
            assert len(args) == 6, (p, args)
            k = re.match(r'OpcodeKind::(\w+)\(\w+::(\w+)\)', args[1])
            opt = lambda s: 'none' if s == 'None' else '(some %s)' % re.sub(r'^(-.*)$', r'(\1)', re.match(r'Some\((.*)\)$', s).group(1))
            fn = 'test_%s%s' % (m.group(1), m.group(2)) if m.group(2) else 'zicfiss_test_16'
            out.append('  %s %s (.%s .%s) %s %s %s %s' % (fn, args[0], k.group(1), k.group(2), *map(opt, args[2:])))
        total += len(calls)
        names.append(f.group(1))
head = '''import Verif.Model.TestHelpers
import Verif.Model.Display
/-!
# The crate's unit tests, run on the model

Written by `tools/tests.py` from the tests in `/repo/src`.  These are checks of the transcription of the code,
not proofs of properties.
-/

namespace Raki.Tests
'''
tail = '''
/-! ## `src/lib.rs` -/

-- lines 11-26, documentation
example : ∃ i, U32.decode 0b1110_1110_1100_0010_1000_0010_1001_0011 .Rv32 = .ok i ∧
    i.opc = .BaseI .ADDI ∧ i.fmt = .ok "addi t0, t0, -276" := ⟨_, rfl, rfl, rfl⟩

/-- The word `usize_try_from_test` and `inst_eq_test` decode, and what they expect; src/lib.rs:99-108. -/
def jal : Instruction := ⟨.BaseI .JAL, some 0, none, none, some (-8), .JFormat, false⟩

/-- src/lib.rs:113-121 -/
def mv : Instruction := ⟨.C .MV, some 16, none, some 2, none, .CrFormat, true⟩

/-- `==` on `Result<Instruction, DecodingError>` against `Ok(i)`; a panic stays a panic. -/
def eqOk : RustM Instruction → Instruction → RustM Bool
  | .ok j, i => .ok (j.eq i)
  | .err _, _ => .ok false
  | .panic, _ => .panic

/-- Test `usize_try_from_test`, src/lib.rs:93-143. -/
def usize_try_from_test : RustM Unit := do
  rAssert (← eqOk (try_from 0b1111_1111_1001_1111_1111_0000_0110_1111) jal)
  rAssert (← eqOk (try_from 0x880a) mv)
  rAssert (!(← eqOk (try_from 0x880b) mv))
  rAssert ((← unwrapResult (try_from 0b1111_1111_1001_1111_1111_0000_0110_1111)).opc.eq (.BaseI .JAL))

/-- Test `inst_eq_test`, src/lib.rs:146-171. -/
def inst_eq_test : RustM Unit := do
  rAssert (← eqOk (U32.decode 0b1111_1111_1001_1111_1111_0000_0110_1111 .Rv64) jal)
  rAssert ((← unwrapResult (U32.decode 0b1111_1111_1001_1111_1111_0000_0110_1111 .Rv64)).opc.eq (.BaseI .JAL))

/-! ## `src/decode.rs`, documentation -/

-- lines 35-38
example : U32.decode 0 .Rv64 = .err .InvalidOpcode := by decide
-- lines 41-44
example : U32.decode 0b100000000100010011010000100011 .Rv32 = .err .OnlyRv64Inst := by decide
-- lines 127-129; the example is not run by rustdoc (`ignore`) and states `0b1_0110`, five bits of a four
-- bit range
example : U32.slice 0b0101_0101_1001 5 2 = .ok 0b0110 := by decide
-- lines 139-141; not run by rustdoc either, and states `0b1111_1000`, which the loop of `set` does not give
example : U32.set 0b1010_1101 [7, 5, 3, 2, 0, 6, 4, 1] = .ok 0b1100_1011 := by decide

/-! ## The tests pass -/

@@PASS@@

end Raki.Tests
'''
names += ['usize_try_from_test', 'inst_eq_test']
tail = tail.replace('@@PASS@@', '\n'.join('example : %s = .ok () := by decide' % n for n in names))

p = os.path.join(os.path.dirname(__file__), '..', 'lean', 'Verif', 'Tests', 'Crate.lean')
os.makedirs(os.path.dirname(p), exist_ok=True)
open(p, 'w').write(head + '\n'.join(out) + '\n' + tail)
print(total, 'tests')
