import Verif.Model.Lib
import Verif.Model.Derive
/-!
# The functions the crate's unit tests are written with

Models `test_32` and `test_16` with their two wrappers each (`/repo/src/decode/inst_32.rs`,
`/repo/src/decode/inst_16.rs`), compiled only for tests, and the closure `test_16` of the test `zicfiss_16`
(`/repo/src/decode/zicfiss_extension.rs`).

Simplified: the source location handed around, and the text of the panic messages.  A message is built only
when the test is about to panic; whatever happens while it is built, the outcome is a panic.
-/

namespace Raki

/-- `x.unwrap()` and `x.unwrap_or_else(|e| panic!(..))` on a `Result`. -/
def unwrapResult {α : Type} : RustM α → RustM α
  | .ok a => .ok a
  | .err _ => .panic
  | .panic => .panic

/-- `test_32`, src/decode/inst_32.rs:185-265. -/
def test_32 (isa : Isa) (inst_32 : BitVec 32) (op : OpcodeKind) (rd rs1 rs2 : Option Nat) (imm : Option Int) :
    RustM Unit := do
  let op_32 ← unwrapResult (U32.parse_opcode inst_32 isa)
  rAssert (op_32.eq op)
  rAssert (eqOption (← unwrapResult (U32.parse_rd inst_32 op_32)) rd)
  rAssert (eqOption (← unwrapResult (U32.parse_rs1 inst_32 op_32)) rs1)
  rAssert (eqOption (← unwrapResult (U32.parse_rs2 inst_32 op_32)) rs2)
  rAssert (eqOption (← unwrapResult (U32.parse_imm inst_32 op_32 isa)) imm)

/-- `test_32_in_rv32`, src/decode/inst_32.rs:270-280. -/
def test_32_in_rv32 (inst_32 : BitVec 32) (op : OpcodeKind) (rd rs1 rs2 : Option Nat) (imm : Option Int) :
    RustM Unit :=
  test_32 .Rv32 inst_32 op rd rs1 rs2 imm

/-- `test_32_in_rv64`, src/decode/inst_32.rs:284-294. -/
def test_32_in_rv64 (inst_32 : BitVec 32) (op : OpcodeKind) (rd rs1 rs2 : Option Nat) (imm : Option Int) :
    RustM Unit :=
  test_32 .Rv64 inst_32 op rd rs1 rs2 imm

/-- `test_16`, src/decode/inst_16.rs:100-180. -/
def test_16 (isa : Isa) (inst_16 : BitVec 16) (op : OpcodeKind) (rd rs1 rs2 : Option Nat) (imm : Option Int) :
    RustM Unit := do
  let op_16 ← unwrapResult (U16.parse_opcode inst_16 isa)
  rAssert (op_16.eq op)
  rAssert (eqOption (← unwrapResult (U16.parse_rd inst_16 op_16)) rd)
  rAssert (eqOption (← unwrapResult (U16.parse_rs1 inst_16 op_16)) rs1)
  rAssert (eqOption (← unwrapResult (U16.parse_rs2 inst_16 op_16)) rs2)
  rAssert (eqOption (← unwrapResult (U16.parse_imm inst_16 op_16 isa)) imm)

/-- `test_16_in_rv32`, src/decode/inst_16.rs:184-194. -/
def test_16_in_rv32 (inst_16 : BitVec 16) (op : OpcodeKind) (rd rs1 rs2 : Option Nat) (imm : Option Int) :
    RustM Unit :=
  test_16 .Rv32 inst_16 op rd rs1 rs2 imm

/-- `test_16_in_rv64`, src/decode/inst_16.rs:198-208. -/
def test_16_in_rv64 (inst_16 : BitVec 16) (op : OpcodeKind) (rd rs1 rs2 : Option Nat) (imm : Option Int) :
    RustM Unit :=
  test_16 .Rv64 inst_16 op rd rs1 rs2 imm

/-- The closure `test_16` in the test `zicfiss_16`, src/decode/zicfiss_extension.rs:199-211.  In
`matches!(&op_16, op)` the second argument is a pattern: `op` is a new variable that any value matches, so the
parameter of that name is not used. -/
def zicfiss_test_16 (inst_16 : BitVec 16) (_op : OpcodeKind) (rd rs1 rs2 : Option Nat) (imm : Option Int) :
    RustM Unit := do
  let op_16 ← unwrapResult (U16.parse_opcode inst_16 .Rv64)
  rAssert (match op_16 with | _op => true)
  rAssert (eqOption (← unwrapResult (U16.parse_rd inst_16 op_16)) rd)
  rAssert (eqOption (← unwrapResult (U16.parse_rs1 inst_16 op_16)) rs1)
  rAssert (eqOption (← unwrapResult (U16.parse_rs2 inst_16 op_16)) rs2)
  rAssert (eqOption (← unwrapResult (U16.parse_imm inst_16 op_16 .Rv64)) imm)

end Raki
