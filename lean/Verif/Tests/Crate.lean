import Verif.Model.TestHelpers
import Verif.Model.Display
/-!
# The crate's unit tests, run on the model

Written by `tools/tests.py` from the tests in `/repo/src`.  These are checks of the transcription of the code,
not proofs of properties.
-/

namespace Raki.Tests

/-- Test `a_decode_test`, src/decode/a_extension.rs:172-201. -/
def a_decode_test : RustM Unit := do
  test_32_in_rv64 0x04d7_27af (.A .AMOADD_W) (some 15) (some 14) (some 13) (some 2)
  test_32_in_rv64 0x1007b62f (.A .LR_D) (some 12) (some 15) none (some 0)
  test_32_in_rv64 0x60f6302f (.A .AMOAND_D) (some 0) (some 12) (some 15) (some 0)

/-- Test `basei_decode_test`, src/decode/base_i.rs:345-486. -/
def basei_decode_test : RustM Unit := do
  test_32_in_rv64 0xfdead737 (.BaseI .LUI) (some 14) none none (some 0xfdead)
  test_32_in_rv64 0x1597 (.BaseI .AUIPC) (some 11) none none (some 0x1)
  test_32_in_rv64 0x013f9517 (.BaseI .AUIPC) (some 10) none none (some 0x13f9)
  test_32_in_rv64 0x009bc097 (.BaseI .AUIPC) (some 1) none none (some 0x9bc)
  test_32_in_rv64 0x9d3ff0ef (.BaseI .JAL) (some 1) none none (some (-1582))
  test_32_in_rv64 0x02e78263 (.BaseI .BEQ) none (some 15) (some 14) (some 36)
  test_32_in_rv64 0b1111_1110_0010_0000_1000_1110_1010_0011 (.BaseI .SB) none (some 1) (some 2) (some (-3))
  test_32_in_rv64 0b1110_1110_1100_0010_1000_0010_1001_0011 (.BaseI .ADDI) (some 5) (some 5) none (some (-276))
  test_32_in_rv64 0b0000_0000_0000_0000_0000_0000_0111_0011 (.BaseI .ECALL) none none none none
  test_32_in_rv64 0b0000_0000_0000_0101_0100_1100_0110_0011 (.BaseI .BLT) none (some 10) (some 0) (some 24)
  test_32_in_rv64 0x0010_0513 (.BaseI .ADDI) (some 10) (some 0) none (some 1)
  test_32_in_rv64 0x4170_04b3 (.BaseI .SUB) (some 9) (some 0) (some 23) none
  test_32_in_rv64 0x3307_3983 (.BaseI .LD) (some 19) (some 14) none (some 816)
  test_32_in_rv64 0x10ec_eb63 (.BaseI .BLTU) none (some 25) (some 14) (some 278)
  test_32_in_rv64 0x31e1_60ef (.BaseI .JAL) (some 1) none none (some 90910)
  test_32_in_rv64 0x0019_4913 (.BaseI .XORI) (some 18) (some 18) none (some 1)
  test_32_in_rv64 0x00a9_3933 (.BaseI .SLTU) (some 18) (some 18) (some 10) none

/-- Test `c_decode_test`, src/decode/c_extension.rs:270-371. -/
def c_decode_test : RustM Unit := do
  test_16_in_rv64 0b0000_0000_0000_0001 (.C .NOP) none none none (some 0)
  test_16_in_rv64 0b0110_0011_1000_0001 (.C .LUI) (some 7) none none (some 0)
  test_16_in_rv64 0b1000_0010_1100_0001 (.C .SRLI) (some 13) (some 13) none (some 16)
  test_16_in_rv64 0x4521 (.C .LI) (some 10) none none (some 8)
  test_16_in_rv64 0xb5e5 (.C .J) none none none (some (-280))
  test_16_in_rv64 0x6105 (.C .ADDI16SP) (some 2) (some 2) none (some 32)
  test_16_in_rv64 0x8082 (.C .JR) none (some 1) (some 0) none
  test_16_in_rv64 0xe29d (.C .BNEZ) none (some 13) none (some 38)
  test_16_in_rv64 0xc05c (.C .SW) none (some 8) (some 15) (some 4)
  test_16_in_rv64 0x9002 (.C .EBREAK) none none none none
  test_16_in_rv64 0x880a (.C .MV) (some 16) none (some 2) none
  test_16_in_rv64 0x8585 (.C .SRAI) (some 11) (some 11) none (some 1)

/-- Test `m_decode_test`, src/decode/m_extension.rs:108-137. -/
def m_decode_test : RustM Unit := do
  test_32_in_rv64 0x02d706b3 (.M .MUL) (some 13) (some 14) (some 13) none
  test_32_in_rv64 0x0289_7933 (.M .REMU) (some 18) (some 18) (some 8) none
  test_32_in_rv64 0x0289_5933 (.M .DIVU) (some 18) (some 18) (some 8) none

/-- Test `priv_decode_test`, src/decode/priv_extension.rs:55-76. -/
def priv_decode_test : RustM Unit := do
  test_32_in_rv64 0x10200073 (.Priv .SRET) none none none none
  test_32_in_rv64 0x10500073 (.Priv .WFI) none none none none

/-- Test `zicboz_decode_test`, src/decode/zicboz_extension.rs:55-77. -/
def zicboz_decode_test : RustM Unit := do
  test_32_in_rv64 0b0000_0000_0100_1010_1010_0000_0000_1111 (.Zicboz .CBO_ZERO) none (some 21) none none
  test_32_in_rv64 0b0000_0000_0100_1000_0010_0000_0000_1111 (.Zicboz .CBO_ZERO) none (some 16) none none

/-- Test `zicfiss_32bit_decode_test`, src/decode/zicfiss_extension.rs:125-192. -/
def zicfiss_32bit_decode_test : RustM Unit := do
  test_32_in_rv64 0b1100_1110_0101_0000_0100_0000_0111_0011 (.Zicfiss .SSPUSH) (some 0) (some 0) (some 5) none
  test_32_in_rv64 0b1100_1110_0001_0000_0100_0000_0111_0011 (.Zicfiss .SSPUSH) (some 0) (some 0) (some 1) none
  test_32_in_rv64 0b1100_1101_1100_0000_1100_0000_0111_0011 (.Zicfiss .SSPOPCHK) (some 0) (some 1) none none
  test_32_in_rv64 0b1100_1101_1100_0010_1100_0000_0111_0011 (.Zicfiss .SSPOPCHK) (some 0) (some 5) none none
  test_32_in_rv64 0b0100_1000_1100_0010_1010_0001_1010_1111 (.Zicfiss .SSAMOSWAP_W) (some 3) (some 5) (some 12) none
  test_32_in_rv64 0b0100_1000_1100_0111_0011_0001_1010_1111 (.Zicfiss .SSAMOSWAP_D) (some 3) (some 14) (some 12) none
  test_32_in_rv64 0xcdc0c073 (.Zicfiss .SSPOPCHK) (some 0) (some 1) none none

/-- Test `zicfiss_16`, src/decode/zicfiss_extension.rs:196-230. -/
def zicfiss_16 : RustM Unit := do
  zicfiss_test_16 0x6081 (.Zicfiss .C_SSPUSH) (some 1) none none none
  zicfiss_test_16 0x6281 (.Zicfiss .C_SSPOPCHK) (some 5) none none none

/-- Test `zicntr_decode_test`, src/decode/zicntr_extension.rs:82-95. -/
def zicntr_decode_test : RustM Unit := do
  test_32_in_rv64 0b1100_0000_0001_0000_0010_0111_1111_0011 (.Zicntr .RDTIME) (some 15) none none none

/-- Test `zicsr_decode_test`, src/decode/zicsr_extension.rs:76-105. -/
def zicsr_decode_test : RustM Unit := do
  test_32_in_rv64 0b0001_0000_0000_1000_0011_0000_0111_0011 (.Zicsr .CSRRC) (some 0) (some 16) (some 0x100) none
  test_32_in_rv64 0b0001_0000_0000_1000_0010_0000_0111_0011 (.Zicsr .CSRRS) (some 0) (some 16) (some 0x100) none
  test_32_in_rv64 0b0001_0000_0000_0001_0110_0000_0111_0011 (.Zicsr .CSRRSI) (some 0) none (some 0x100) (some 2)

/-- Test `zifenci_decode_test`, src/decode/zifencei_extension.rs:53-66. -/
def zifenci_decode_test : RustM Unit := do
  test_32_in_rv64 0b0000_0011_0011_0000_0000_0000_0000_1111 (.Zifencei .FENCE) (some 0) (some 0) none (some 0b0011_0011)

/-! ## `src/lib.rs` -/

-- lines 11-26, documentation
example : ∃ i, U32.decode 0b1110_1110_1100_0010_1000_0010_1001_0011 .Rv32 = .ok i ∧
    i.opc = .BaseI .ADDI ∧ i.fmt = .ok "addi t0, t0, -276" := ⟨_, rfl, rfl, rfl⟩

/-- The word `usize_try_from_test` and `inst_eq_test` decode, and what they expect; src/lib.rs:99-108. -/
def jal : Instruction := ⟨.BaseI .JAL, some 0, none, none, some (-8), .JFormat, false⟩

/-- src/lib.rs:113-121 -/
def mv : Instruction := ⟨.C .MV, some 16, none, some 2, none, .CrFormat, true⟩

/-- `==` on `Result<Instruction, DecodingError>` against `Ok(i)`; a panic stays a panic. -/
def eqOk : RustM Instruction → Instruction → RustM Bool
  | .ok j, i => .ok (j.eq i)
  | .err _, _ => .ok false
  | .panic, _ => .panic

/-- Test `usize_try_from_test`, src/lib.rs:93-143. -/
def usize_try_from_test : RustM Unit := do
  rAssert (← eqOk (try_from 0b1111_1111_1001_1111_1111_0000_0110_1111) jal)
  rAssert (← eqOk (try_from 0x880a) mv)
  rAssert (!(← eqOk (try_from 0x880b) mv))
  rAssert ((← unwrapResult (try_from 0b1111_1111_1001_1111_1111_0000_0110_1111)).opc.eq (.BaseI .JAL))

/-- Test `inst_eq_test`, src/lib.rs:146-171. -/
def inst_eq_test : RustM Unit := do
  rAssert (← eqOk (U32.decode 0b1111_1111_1001_1111_1111_0000_0110_1111 .Rv64) jal)
  rAssert ((← unwrapResult (U32.decode 0b1111_1111_1001_1111_1111_0000_0110_1111 .Rv64)).opc.eq (.BaseI .JAL))

/-! ## `src/decode.rs`, documentation -/

-- lines 35-38
example : U32.decode 0 .Rv64 = .err .InvalidOpcode := by decide
-- lines 41-44
example : U32.decode 0b100000000100010011010000100011 .Rv32 = .err .OnlyRv64Inst := by decide
-- lines 127-129; the example is not run by rustdoc (`ignore`) and states `0b1_0110`, five bits of a four
-- bit range
example : U32.slice 0b0101_0101_1001 5 2 = .ok 0b0110 := by decide
-- lines 139-141; not run by rustdoc either, and states `0b1111_1000`, which the loop of `set` does not give
example : U32.set 0b1010_1101 [7, 5, 3, 2, 0, 6, 4, 1] = .ok 0b1100_1011 := by decide

/-! ## The tests pass -/

example : a_decode_test = .ok () := by decide
example : basei_decode_test = .ok () := by decide
example : c_decode_test = .ok () := by decide
example : m_decode_test = .ok () := by decide
example : priv_decode_test = .ok () := by decide
example : zicboz_decode_test = .ok () := by decide
example : zicfiss_32bit_decode_test = .ok () := by decide
example : zicfiss_16 = .ok () := by decide
example : zicntr_decode_test = .ok () := by decide
example : zicsr_decode_test = .ok () := by decide
example : zifenci_decode_test = .ok () := by decide
example : usize_try_from_test = .ok () := by decide
example : inst_eq_test = .ok () := by decide

end Raki.Tests
