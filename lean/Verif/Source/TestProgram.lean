import Verif.Source.Program
/-!
# The functions compiled only for tests, as syntax trees

Generated from /repo/src by tools/source.py; do not edit.
-/

namespace Raki.Source

/-- `usize_try_from_test`, src/lib.rs:93-143. -/
def lib_tests_usize_try_from_test : Fn := ⟨.lib_tests, .usize_try_from_test, [], .other,
  (.block (.assertEq true (.call .Instruction .try_from (.cons (.litT 4288671855 .usize) .nil)) (.variantOf
  .Result .Ok (.struct .Instruction
    (.cons .opc (.variantOf .OpcodeKind .BaseI (.variant .BaseIOpcode .JAL))
    (.cons .rd (.variantOf .Option .Some (.lit 0))
    (.cons .rs1 (.variant .Option .None)
    (.cons .rs2 (.variant .Option .None)
    (.cons .imm (.variantOf .Option .Some (.neg (.lit 8)))
    (.cons .inst_format (.variant .InstFormat .JFormat)
    (.cons .is_compressed (.bool false)
    .nil)))))))))
    (.assertEq true (.call .Instruction .try_from (.cons (.litT 34826 .usize) .nil)) (.variantOf .Result
    .Ok (.struct .Instruction
    (.cons .opc (.variantOf .OpcodeKind .C (.variant .COpcode .MV))
    (.cons .rd (.variantOf .Option .Some (.lit 16))
    (.cons .rs1 (.variant .Option .None)
    (.cons .rs2 (.variantOf .Option .Some (.lit 2))
    (.cons .imm (.variant .Option .None)
    (.cons .inst_format (.variant .InstFormat .CrFormat)
    (.cons .is_compressed (.bool true)
    .nil)))))))))
    (.assertEq false (.call .Instruction .try_from (.cons (.litT 34827 .usize) .nil)) (.variantOf .Result
    .Ok (.struct .Instruction
    (.cons .opc (.variantOf .OpcodeKind .C (.variant .COpcode .MV))
    (.cons .rd (.variantOf .Option .Some (.lit 16))
    (.cons .rs1 (.variant .Option .None)
    (.cons .rs2 (.variantOf .Option .Some (.lit 2))
    (.cons .imm (.variant .Option .None)
    (.cons .inst_format (.variant .InstFormat .CrFormat)
    (.cons .is_compressed (.bool true)
    .nil)))))))))
    (.assertEq true (.field (.unwrap (.call .Instruction .try_from (.cons (.litT 4288671855 .usize) .nil)))
    .opc) (.variantOf .OpcodeKind .BaseI (.variant .BaseIOpcode .JAL))
    (.done .unit))))))⟩

/-- `inst_eq_test`, src/lib.rs:146-171. -/
def lib_tests_inst_eq_test : Fn := ⟨.lib_tests, .inst_eq_test, [], .other,
  (.block (.assertEq true (.method (.litT 4288671855 .u32) .decode (.cons (.variant .Isa .Rv64) .nil))
  (.variantOf .Result .Ok (.struct .Instruction
    (.cons .opc (.variantOf .OpcodeKind .BaseI (.variant .BaseIOpcode .JAL))
    (.cons .rd (.variantOf .Option .Some (.lit 0))
    (.cons .rs1 (.variant .Option .None)
    (.cons .rs2 (.variant .Option .None)
    (.cons .imm (.variantOf .Option .Some (.neg (.lit 8)))
    (.cons .inst_format (.variant .InstFormat .JFormat)
    (.cons .is_compressed (.bool false)
    .nil)))))))))
    (.assertEq true (.field (.unwrap (.method (.litT 4288671855 .u32) .decode (.cons (.variant .Isa .Rv64)
    .nil))) .opc) (.variantOf .OpcodeKind .BaseI (.variant .BaseIOpcode .JAL))
    (.done .unit))))⟩

/-- `test_16`, src/decode/inst_16.rs:100-180. -/
def inst_16_test_16 : Fn := ⟨.inst_16, .test_16, [(.isa, .other), (.location, .other), (.inst_16, .u16), (.op, .other), (.rd, (.option .usize)), (.rs1, (.option .usize)), (.rs2, (.option .usize)), (.imm, (.option .i32))], .other,
  (.block (.let_ .op_16 .other (.orElse (.method (.var .inst_16) .parse_opcode (.cons (.var .isa) .nil)) .e
  (.block (.expr .unreachable
    (.done .unit))))
    (.assertEq true (.var .op_16) (.var .op)
    (.assertEq true (.orElse (.method (.var .inst_16) .parse_rd (.cons (.var .op_16) .nil)) .e (.block
    (.expr .unreachable
    (.done .unit)))) (.var .rd)
    (.assertEq true (.orElse (.method (.var .inst_16) .parse_rs1 (.cons (.var .op_16) .nil)) .e (.block
    (.expr .unreachable
    (.done .unit)))) (.var .rs1)
    (.assertEq true (.orElse (.method (.var .inst_16) .parse_rs2 (.cons (.var .op_16) .nil)) .e (.block
    (.expr .unreachable
    (.done .unit)))) (.var .rs2)
    (.assertEq true (.orElse (.method (.var .inst_16) .parse_imm (.cons (.var .op_16) (.cons (.var .isa)
    .nil))) .e (.block (.expr .unreachable
    (.done .unit)))) (.var .imm)
    (.done .unit))))))))⟩

/-- `test_16_in_rv32`, src/decode/inst_16.rs:184-194. -/
def inst_16_test_16_in_rv32 : Fn := ⟨.inst_16, .test_16_in_rv32, [(.inst_16, .u16), (.op, .other), (.rd, (.option .usize)), (.rs1, (.option .usize)), (.rs2, (.option .usize)), (.imm, (.option .i32))], .other,
  (.block (.let_ .location .other .unit
    (.expr (.call .inst_16 .test_16 (.cons (.variant .Isa .Rv32) (.cons (.var .location) (.cons (.var
    .inst_16) (.cons (.var .op) (.cons (.var .rd) (.cons (.var .rs1) (.cons (.var .rs2) (.cons (.var .imm)
    .nil)))))))))
    (.done .unit))))⟩

/-- `test_16_in_rv64`, src/decode/inst_16.rs:198-208. -/
def inst_16_test_16_in_rv64 : Fn := ⟨.inst_16, .test_16_in_rv64, [(.inst_16, .u16), (.op, .other), (.rd, (.option .usize)), (.rs1, (.option .usize)), (.rs2, (.option .usize)), (.imm, (.option .i32))], .other,
  (.block (.let_ .location .other .unit
    (.expr (.call .inst_16 .test_16 (.cons (.variant .Isa .Rv64) (.cons (.var .location) (.cons (.var
    .inst_16) (.cons (.var .op) (.cons (.var .rd) (.cons (.var .rs1) (.cons (.var .rs2) (.cons (.var .imm)
    .nil)))))))))
    (.done .unit))))⟩

/-- `test_32`, src/decode/inst_32.rs:185-265. -/
def inst_32_test_32 : Fn := ⟨.inst_32, .test_32, [(.isa, .other), (.location, .other), (.inst_32, .u32), (.op, .other), (.rd, (.option .usize)), (.rs1, (.option .usize)), (.rs2, (.option .usize)), (.imm, (.option .i32))], .other,
  (.block (.let_ .op_32 .other (.orElse (.method (.var .inst_32) .parse_opcode (.cons (.var .isa) .nil)) .e
  (.block (.expr .unreachable
    (.done .unit))))
    (.assertEq true (.var .op_32) (.var .op)
    (.assertEq true (.orElse (.method (.var .inst_32) .parse_rd (.cons (.var .op_32) .nil)) .e (.block
    (.expr .unreachable
    (.done .unit)))) (.var .rd)
    (.assertEq true (.orElse (.method (.var .inst_32) .parse_rs1 (.cons (.var .op_32) .nil)) .e (.block
    (.expr .unreachable
    (.done .unit)))) (.var .rs1)
    (.assertEq true (.orElse (.method (.var .inst_32) .parse_rs2 (.cons (.var .op_32) .nil)) .e (.block
    (.expr .unreachable
    (.done .unit)))) (.var .rs2)
    (.assertEq true (.orElse (.method (.var .inst_32) .parse_imm (.cons (.var .op_32) (.cons (.var .isa)
    .nil))) .e (.block (.expr .unreachable
    (.done .unit)))) (.var .imm)
    (.done .unit))))))))⟩

/-- `test_32_in_rv32`, src/decode/inst_32.rs:270-280. -/
def inst_32_test_32_in_rv32 : Fn := ⟨.inst_32, .test_32_in_rv32, [(.inst_32, .u32), (.op, .other), (.rd, (.option .usize)), (.rs1, (.option .usize)), (.rs2, (.option .usize)), (.imm, (.option .i32))], .other,
  (.block (.let_ .location .other .unit
    (.expr (.call .inst_32 .test_32 (.cons (.variant .Isa .Rv32) (.cons (.var .location) (.cons (.var
    .inst_32) (.cons (.var .op) (.cons (.var .rd) (.cons (.var .rs1) (.cons (.var .rs2) (.cons (.var .imm)
    .nil)))))))))
    (.done .unit))))⟩

/-- `test_32_in_rv64`, src/decode/inst_32.rs:284-294. -/
def inst_32_test_32_in_rv64 : Fn := ⟨.inst_32, .test_32_in_rv64, [(.inst_32, .u32), (.op, .other), (.rd, (.option .usize)), (.rs1, (.option .usize)), (.rs2, (.option .usize)), (.imm, (.option .i32))], .other,
  (.block (.let_ .location .other .unit
    (.expr (.call .inst_32 .test_32 (.cons (.variant .Isa .Rv64) (.cons (.var .location) (.cons (.var
    .inst_32) (.cons (.var .op) (.cons (.var .rd) (.cons (.var .rs1) (.cons (.var .rs2) (.cons (.var .imm)
    .nil)))))))))
    (.done .unit))))⟩

/-- `a_decode_test`, src/decode/a_extension.rs:172-201. -/
def a_extension_test_a_a_decode_test : Fn := ⟨.a_extension_test_a, .a_decode_test, [], .other,
  (.block (.expr (.call .inst_32 .test_32_in_rv64 (.cons (.lit 81209263) (.cons (.variantOf .OpcodeKind .A
  (.variant .AOpcode .AMOADD_W)) (.cons (.variantOf .Option .Some (.lit 15)) (.cons (.variantOf .Option
  .Some (.lit 14)) (.cons (.variantOf .Option .Some (.lit 13)) (.cons (.variantOf .Option .Some (.lit 2))
  .nil)))))))
    (.expr (.call .inst_32 .test_32_in_rv64 (.cons (.lit 268940847) (.cons (.variantOf .OpcodeKind .A
    (.variant .AOpcode .LR_D)) (.cons (.variantOf .Option .Some (.lit 12)) (.cons (.variantOf .Option .Some
    (.lit 15)) (.cons (.variant .Option .None) (.cons (.variantOf .Option .Some (.lit 0)) .nil)))))))
    (.expr (.call .inst_32 .test_32_in_rv64 (.cons (.lit 1626746927) (.cons (.variantOf .OpcodeKind .A
    (.variant .AOpcode .AMOAND_D)) (.cons (.variantOf .Option .Some (.lit 0)) (.cons (.variantOf .Option
    .Some (.lit 12)) (.cons (.variantOf .Option .Some (.lit 15)) (.cons (.variantOf .Option .Some (.lit 0))
    .nil)))))))
    (.done .unit)))))⟩

/-- `basei_decode_test`, src/decode/base_i.rs:345-486. -/
def base_i_test_basei_basei_decode_test : Fn := ⟨.base_i_test_basei, .basei_decode_test, [], .other,
  (.block (.expr (.call .inst_32 .test_32_in_rv64 (.cons (.lit 4260026167) (.cons (.variantOf .OpcodeKind
  .BaseI (.variant .BaseIOpcode .LUI)) (.cons (.variantOf .Option .Some (.lit 14)) (.cons (.variant .Option
  .None) (.cons (.variant .Option .None) (.cons (.variantOf .Option .Some (.lit 1040045)) .nil)))))))
    (.expr (.call .inst_32 .test_32_in_rv64 (.cons (.lit 5527) (.cons (.variantOf .OpcodeKind .BaseI
    (.variant .BaseIOpcode .AUIPC)) (.cons (.variantOf .Option .Some (.lit 11)) (.cons (.variant .Option
    .None) (.cons (.variant .Option .None) (.cons (.variantOf .Option .Some (.lit 1)) .nil)))))))
    (.expr (.call .inst_32 .test_32_in_rv64 (.cons (.lit 20944151) (.cons (.variantOf .OpcodeKind .BaseI
    (.variant .BaseIOpcode .AUIPC)) (.cons (.variantOf .Option .Some (.lit 10)) (.cons (.variant .Option
    .None) (.cons (.variant .Option .None) (.cons (.variantOf .Option .Some (.lit 5113)) .nil)))))))
    (.expr (.call .inst_32 .test_32_in_rv64 (.cons (.lit 10207383) (.cons (.variantOf .OpcodeKind .BaseI
    (.variant .BaseIOpcode .AUIPC)) (.cons (.variantOf .Option .Some (.lit 1)) (.cons (.variant .Option
    .None) (.cons (.variant .Option .None) (.cons (.variantOf .Option .Some (.lit 2492)) .nil)))))))
    (.expr (.call .inst_32 .test_32_in_rv64 (.cons (.lit 2638213359) (.cons (.variantOf .OpcodeKind .BaseI
    (.variant .BaseIOpcode .JAL)) (.cons (.variantOf .Option .Some (.lit 1)) (.cons (.variant .Option
    .None) (.cons (.variant .Option .None) (.cons (.variantOf .Option .Some (.neg (.lit 1582))) .nil)))))))
    (.expr (.call .inst_32 .test_32_in_rv64 (.cons (.lit 48726627) (.cons (.variantOf .OpcodeKind .BaseI
    (.variant .BaseIOpcode .BEQ)) (.cons (.variant .Option .None) (.cons (.variantOf .Option .Some (.lit
    15)) (.cons (.variantOf .Option .Some (.lit 14)) (.cons (.variantOf .Option .Some (.lit 36)) .nil)))))))
    (.expr (.call .inst_32 .test_32_in_rv64 (.cons (.lit 4263546531) (.cons (.variantOf .OpcodeKind .BaseI
    (.variant .BaseIOpcode .SB)) (.cons (.variant .Option .None) (.cons (.variantOf .Option .Some (.lit 1))
    (.cons (.variantOf .Option .Some (.lit 2)) (.cons (.variantOf .Option .Some (.neg (.lit 3))) .nil)))))))
    (.expr (.call .inst_32 .test_32_in_rv64 (.cons (.lit 4005724819) (.cons (.variantOf .OpcodeKind .BaseI
    (.variant .BaseIOpcode .ADDI)) (.cons (.variantOf .Option .Some (.lit 5)) (.cons (.variantOf .Option
    .Some (.lit 5)) (.cons (.variant .Option .None) (.cons (.variantOf .Option .Some (.neg (.lit 276)))
    .nil)))))))
    (.expr (.call .inst_32 .test_32_in_rv64 (.cons (.lit 115) (.cons (.variantOf .OpcodeKind .BaseI
    (.variant .BaseIOpcode .ECALL)) (.cons (.variant .Option .None) (.cons (.variant .Option .None) (.cons
    (.variant .Option .None) (.cons (.variant .Option .None) .nil)))))))
    (.expr (.call .inst_32 .test_32_in_rv64 (.cons (.lit 347235) (.cons (.variantOf .OpcodeKind .BaseI
    (.variant .BaseIOpcode .BLT)) (.cons (.variant .Option .None) (.cons (.variantOf .Option .Some (.lit
    10)) (.cons (.variantOf .Option .Some (.lit 0)) (.cons (.variantOf .Option .Some (.lit 24)) .nil)))))))
    (.expr (.call .inst_32 .test_32_in_rv64 (.cons (.lit 1049875) (.cons (.variantOf .OpcodeKind .BaseI
    (.variant .BaseIOpcode .ADDI)) (.cons (.variantOf .Option .Some (.lit 10)) (.cons (.variantOf .Option
    .Some (.lit 0)) (.cons (.variant .Option .None) (.cons (.variantOf .Option .Some (.lit 1)) .nil)))))))
    (.expr (.call .inst_32 .test_32_in_rv64 (.cons (.lit 1097860275) (.cons (.variantOf .OpcodeKind .BaseI
    (.variant .BaseIOpcode .SUB)) (.cons (.variantOf .Option .Some (.lit 9)) (.cons (.variantOf .Option
    .Some (.lit 0)) (.cons (.variantOf .Option .Some (.lit 23)) (.cons (.variant .Option .None) .nil)))))))
    (.expr (.call .inst_32 .test_32_in_rv64 (.cons (.lit 856111491) (.cons (.variantOf .OpcodeKind .BaseI
    (.variant .BaseIOpcode .LD)) (.cons (.variantOf .Option .Some (.lit 19)) (.cons (.variantOf .Option
    .Some (.lit 14)) (.cons (.variant .Option .None) (.cons (.variantOf .Option .Some (.lit 816))
    .nil)))))))
    (.expr (.call .inst_32 .test_32_in_rv64 (.cons (.lit 283962211) (.cons (.variantOf .OpcodeKind .BaseI
    (.variant .BaseIOpcode .BLTU)) (.cons (.variant .Option .None) (.cons (.variantOf .Option .Some (.lit
    25)) (.cons (.variantOf .Option .Some (.lit 14)) (.cons (.variantOf .Option .Some (.lit 278))
    .nil)))))))
    (.expr (.call .inst_32 .test_32_in_rv64 (.cons (.lit 836853999) (.cons (.variantOf .OpcodeKind .BaseI
    (.variant .BaseIOpcode .JAL)) (.cons (.variantOf .Option .Some (.lit 1)) (.cons (.variant .Option
    .None) (.cons (.variant .Option .None) (.cons (.variantOf .Option .Some (.lit 90910)) .nil)))))))
    (.expr (.call .inst_32 .test_32_in_rv64 (.cons (.lit 1657107) (.cons (.variantOf .OpcodeKind .BaseI
    (.variant .BaseIOpcode .XORI)) (.cons (.variantOf .Option .Some (.lit 18)) (.cons (.variantOf .Option
    .Some (.lit 18)) (.cons (.variant .Option .None) (.cons (.variantOf .Option .Some (.lit 1)) .nil)))))))
    (.expr (.call .inst_32 .test_32_in_rv64 (.cons (.lit 11090227) (.cons (.variantOf .OpcodeKind .BaseI
    (.variant .BaseIOpcode .SLTU)) (.cons (.variantOf .Option .Some (.lit 18)) (.cons (.variantOf .Option
    .Some (.lit 18)) (.cons (.variantOf .Option .Some (.lit 10)) (.cons (.variant .Option .None) .nil)))))))
    (.done .unit)))))))))))))))))))⟩

/-- `c_decode_test`, src/decode/c_extension.rs:270-371. -/
def c_extension_test_c_c_decode_test : Fn := ⟨.c_extension_test_c, .c_decode_test, [], .other,
  (.block (.expr (.call .inst_16 .test_16_in_rv64 (.cons (.lit 1) (.cons (.variantOf .OpcodeKind .C
  (.variant .COpcode .NOP)) (.cons (.variant .Option .None) (.cons (.variant .Option .None) (.cons
  (.variant .Option .None) (.cons (.variantOf .Option .Some (.lit 0)) .nil)))))))
    (.expr (.call .inst_16 .test_16_in_rv64 (.cons (.lit 25473) (.cons (.variantOf .OpcodeKind .C (.variant
    .COpcode .LUI)) (.cons (.variantOf .Option .Some (.lit 7)) (.cons (.variant .Option .None) (.cons
    (.variant .Option .None) (.cons (.variantOf .Option .Some (.lit 0)) .nil)))))))
    (.expr (.call .inst_16 .test_16_in_rv64 (.cons (.lit 33473) (.cons (.variantOf .OpcodeKind .C (.variant
    .COpcode .SRLI)) (.cons (.variantOf .Option .Some (.lit 13)) (.cons (.variantOf .Option .Some (.lit
    13)) (.cons (.variant .Option .None) (.cons (.variantOf .Option .Some (.lit 16)) .nil)))))))
    (.expr (.call .inst_16 .test_16_in_rv64 (.cons (.lit 17697) (.cons (.variantOf .OpcodeKind .C (.variant
    .COpcode .LI)) (.cons (.variantOf .Option .Some (.lit 10)) (.cons (.variant .Option .None) (.cons
    (.variant .Option .None) (.cons (.variantOf .Option .Some (.lit 8)) .nil)))))))
    (.expr (.call .inst_16 .test_16_in_rv64 (.cons (.lit 46565) (.cons (.variantOf .OpcodeKind .C (.variant
    .COpcode .J)) (.cons (.variant .Option .None) (.cons (.variant .Option .None) (.cons (.variant .Option
    .None) (.cons (.variantOf .Option .Some (.neg (.lit 280))) .nil)))))))
    (.expr (.call .inst_16 .test_16_in_rv64 (.cons (.lit 24837) (.cons (.variantOf .OpcodeKind .C (.variant
    .COpcode .ADDI16SP)) (.cons (.variantOf .Option .Some (.lit 2)) (.cons (.variantOf .Option .Some (.lit
    2)) (.cons (.variant .Option .None) (.cons (.variantOf .Option .Some (.lit 32)) .nil)))))))
    (.expr (.call .inst_16 .test_16_in_rv64 (.cons (.lit 32898) (.cons (.variantOf .OpcodeKind .C (.variant
    .COpcode .JR)) (.cons (.variant .Option .None) (.cons (.variantOf .Option .Some (.lit 1)) (.cons
    (.variantOf .Option .Some (.lit 0)) (.cons (.variant .Option .None) .nil)))))))
    (.expr (.call .inst_16 .test_16_in_rv64 (.cons (.lit 58013) (.cons (.variantOf .OpcodeKind .C (.variant
    .COpcode .BNEZ)) (.cons (.variant .Option .None) (.cons (.variantOf .Option .Some (.lit 13)) (.cons
    (.variant .Option .None) (.cons (.variantOf .Option .Some (.lit 38)) .nil)))))))
    (.expr (.call .inst_16 .test_16_in_rv64 (.cons (.lit 49244) (.cons (.variantOf .OpcodeKind .C (.variant
    .COpcode .SW)) (.cons (.variant .Option .None) (.cons (.variantOf .Option .Some (.lit 8)) (.cons
    (.variantOf .Option .Some (.lit 15)) (.cons (.variantOf .Option .Some (.lit 4)) .nil)))))))
    (.expr (.call .inst_16 .test_16_in_rv64 (.cons (.lit 36866) (.cons (.variantOf .OpcodeKind .C (.variant
    .COpcode .EBREAK)) (.cons (.variant .Option .None) (.cons (.variant .Option .None) (.cons (.variant
    .Option .None) (.cons (.variant .Option .None) .nil)))))))
    (.expr (.call .inst_16 .test_16_in_rv64 (.cons (.lit 34826) (.cons (.variantOf .OpcodeKind .C (.variant
    .COpcode .MV)) (.cons (.variantOf .Option .Some (.lit 16)) (.cons (.variant .Option .None) (.cons
    (.variantOf .Option .Some (.lit 2)) (.cons (.variant .Option .None) .nil)))))))
    (.expr (.call .inst_16 .test_16_in_rv64 (.cons (.lit 34181) (.cons (.variantOf .OpcodeKind .C (.variant
    .COpcode .SRAI)) (.cons (.variantOf .Option .Some (.lit 11)) (.cons (.variantOf .Option .Some (.lit
    11)) (.cons (.variant .Option .None) (.cons (.variantOf .Option .Some (.lit 1)) .nil)))))))
    (.done .unit))))))))))))))⟩

/-- `m_decode_test`, src/decode/m_extension.rs:108-137. -/
def m_extension_test_m_m_decode_test : Fn := ⟨.m_extension_test_m, .m_decode_test, [], .other,
  (.block (.expr (.call .inst_32 .test_32_in_rv64 (.cons (.lit 47646387) (.cons (.variantOf .OpcodeKind .M
  (.variant .MOpcode .MUL)) (.cons (.variantOf .Option .Some (.lit 13)) (.cons (.variantOf .Option .Some
  (.lit 14)) (.cons (.variantOf .Option .Some (.lit 13)) (.cons (.variant .Option .None) .nil)))))))
    (.expr (.call .inst_32 .test_32_in_rv64 (.cons (.lit 42563891) (.cons (.variantOf .OpcodeKind .M
    (.variant .MOpcode .REMU)) (.cons (.variantOf .Option .Some (.lit 18)) (.cons (.variantOf .Option .Some
    (.lit 18)) (.cons (.variantOf .Option .Some (.lit 8)) (.cons (.variant .Option .None) .nil)))))))
    (.expr (.call .inst_32 .test_32_in_rv64 (.cons (.lit 42555699) (.cons (.variantOf .OpcodeKind .M
    (.variant .MOpcode .DIVU)) (.cons (.variantOf .Option .Some (.lit 18)) (.cons (.variantOf .Option .Some
    (.lit 18)) (.cons (.variantOf .Option .Some (.lit 8)) (.cons (.variant .Option .None) .nil)))))))
    (.done .unit)))))⟩

/-- `priv_decode_test`, src/decode/priv_extension.rs:55-76. -/
def priv_extension_test_priv_priv_decode_test : Fn := ⟨.priv_extension_test_priv, .priv_decode_test, [], .other,
  (.block (.expr (.call .inst_32 .test_32_in_rv64 (.cons (.lit 270532723) (.cons (.variantOf .OpcodeKind
  .Priv (.variant .PrivOpcode .SRET)) (.cons (.variant .Option .None) (.cons (.variant .Option .None)
  (.cons (.variant .Option .None) (.cons (.variant .Option .None) .nil)))))))
    (.expr (.call .inst_32 .test_32_in_rv64 (.cons (.lit 273678451) (.cons (.variantOf .OpcodeKind .Priv
    (.variant .PrivOpcode .WFI)) (.cons (.variant .Option .None) (.cons (.variant .Option .None) (.cons
    (.variant .Option .None) (.cons (.variant .Option .None) .nil)))))))
    (.done .unit))))⟩

/-- `zicboz_decode_test`, src/decode/zicboz_extension.rs:55-77. -/
def zicboz_extension_test_zicboz_zicboz_decode_test : Fn := ⟨.zicboz_extension_test_zicboz, .zicboz_decode_test, [], .other,
  (.block (.expr (.call .inst_32 .test_32_in_rv64 (.cons (.lit 4890639) (.cons (.variantOf .OpcodeKind
  .Zicboz (.variant .ZicbozOpcode .CBO_ZERO)) (.cons (.variant .Option .None) (.cons (.variantOf .Option
  .Some (.lit 21)) (.cons (.variant .Option .None) (.cons (.variant .Option .None) .nil)))))))
    (.expr (.call .inst_32 .test_32_in_rv64 (.cons (.lit 4726799) (.cons (.variantOf .OpcodeKind .Zicboz
    (.variant .ZicbozOpcode .CBO_ZERO)) (.cons (.variant .Option .None) (.cons (.variantOf .Option .Some
    (.lit 16)) (.cons (.variant .Option .None) (.cons (.variant .Option .None) .nil)))))))
    (.done .unit))))⟩

/-- `zicfiss_32bit_decode_test`, src/decode/zicfiss_extension.rs:125-192. -/
def zicfiss_extension_test_zicfiss_zicfiss_32bit_decode_test : Fn := ⟨.zicfiss_extension_test_zicfiss, .zicfiss_32bit_decode_test, [], .other,
  (.block (.expr (.call .inst_32 .test_32_in_rv64 (.cons (.lit 3461365875) (.cons (.variantOf .OpcodeKind
  .Zicfiss (.variant .ZicfissOpcode .SSPUSH)) (.cons (.variantOf .Option .Some (.lit 0)) (.cons (.variantOf
  .Option .Some (.lit 0)) (.cons (.variantOf .Option .Some (.lit 5)) (.cons (.variant .Option .None)
  .nil)))))))
    (.expr (.call .inst_32 .test_32_in_rv64 (.cons (.lit 3457171571) (.cons (.variantOf .OpcodeKind
    .Zicfiss (.variant .ZicfissOpcode .SSPUSH)) (.cons (.variantOf .Option .Some (.lit 0)) (.cons
    (.variantOf .Option .Some (.lit 0)) (.cons (.variantOf .Option .Some (.lit 1)) (.cons (.variant .Option
    .None) .nil)))))))
    (.expr (.call .inst_32 .test_32_in_rv64 (.cons (.lit 3451961459) (.cons (.variantOf .OpcodeKind
    .Zicfiss (.variant .ZicfissOpcode .SSPOPCHK)) (.cons (.variantOf .Option .Some (.lit 0)) (.cons
    (.variantOf .Option .Some (.lit 1)) (.cons (.variant .Option .None) (.cons (.variant .Option .None)
    .nil)))))))
    (.expr (.call .inst_32 .test_32_in_rv64 (.cons (.lit 3452092531) (.cons (.variantOf .OpcodeKind
    .Zicfiss (.variant .ZicfissOpcode .SSPOPCHK)) (.cons (.variantOf .Option .Some (.lit 0)) (.cons
    (.variantOf .Option .Some (.lit 5)) (.cons (.variant .Option .None) (.cons (.variant .Option .None)
    .nil)))))))
    (.expr (.call .inst_32 .test_32_in_rv64 (.cons (.lit 1220714927) (.cons (.variantOf .OpcodeKind
    .Zicfiss (.variant .ZicfissOpcode .SSAMOSWAP_W)) (.cons (.variantOf .Option .Some (.lit 3)) (.cons
    (.variantOf .Option .Some (.lit 5)) (.cons (.variantOf .Option .Some (.lit 12)) (.cons (.variant
    .Option .None) .nil)))))))
    (.expr (.call .inst_32 .test_32_in_rv64 (.cons (.lit 1221013935) (.cons (.variantOf .OpcodeKind
    .Zicfiss (.variant .ZicfissOpcode .SSAMOSWAP_D)) (.cons (.variantOf .Option .Some (.lit 3)) (.cons
    (.variantOf .Option .Some (.lit 14)) (.cons (.variantOf .Option .Some (.lit 12)) (.cons (.variant
    .Option .None) .nil)))))))
    (.expr (.call .inst_32 .test_32_in_rv64 (.cons (.lit 3451961459) (.cons (.variantOf .OpcodeKind
    .Zicfiss (.variant .ZicfissOpcode .SSPOPCHK)) (.cons (.variantOf .Option .Some (.lit 0)) (.cons
    (.variantOf .Option .Some (.lit 1)) (.cons (.variant .Option .None) (.cons (.variant .Option .None)
    .nil)))))))
    (.done .unit)))))))))⟩

/-- `zicfiss_16`, src/decode/zicfiss_extension.rs:196-230. -/
def zicfiss_extension_test_zicfiss_zicfiss_16 : Fn := ⟨.zicfiss_extension_test_zicfiss, .zicfiss_16, [], .other,
  (.block (.letFn .zicfiss_extension_test_zicfiss .test_16 [(.inst_16, .u16), (.op, .other), (.rd, (.option
  .usize)), (.rs1, (.option .usize)), (.rs2, (.option .usize)), (.imm, (.option .i32))] (.block (.let_
  .op_16 .other (.unwrap (.method (.var .inst_16) .parse_opcode (.cons (.variant .Isa .Rv64) .nil)))
    (.assert (.matches_ (.var .op_16) (.var .op))
    (.assertEq true (.unwrap (.method (.var .inst_16) .parse_rd (.cons (.var .op_16) .nil))) (.var .rd)
    (.assertEq true (.unwrap (.method (.var .inst_16) .parse_rs1 (.cons (.var .op_16) .nil))) (.var .rs1)
    (.assertEq true (.unwrap (.method (.var .inst_16) .parse_rs2 (.cons (.var .op_16) .nil))) (.var .rs2)
    (.assertEq true (.unwrap (.method (.var .inst_16) .parse_imm (.cons (.var .op_16) (.cons (.variant .Isa
    .Rv64) .nil)))) (.var .imm)
    (.done .unit))))))))
    (.expr (.call .zicfiss_extension_test_zicfiss .test_16 (.cons (.lit 24705) (.cons (.variantOf
    .OpcodeKind .Zicfiss (.variant .ZicfissOpcode .C_SSPUSH)) (.cons (.variantOf .Option .Some (.lit 1))
    (.cons (.variant .Option .None) (.cons (.variant .Option .None) (.cons (.variant .Option .None)
    .nil)))))))
    (.expr (.call .zicfiss_extension_test_zicfiss .test_16 (.cons (.lit 25217) (.cons (.variantOf
    .OpcodeKind .Zicfiss (.variant .ZicfissOpcode .C_SSPOPCHK)) (.cons (.variantOf .Option .Some (.lit 5))
    (.cons (.variant .Option .None) (.cons (.variant .Option .None) (.cons (.variant .Option .None)
    .nil)))))))
    (.done .unit)))))⟩

/-- `zicntr_decode_test`, src/decode/zicntr_extension.rs:82-95. -/
def zicntr_extension_test_zicntr_zicntr_decode_test : Fn := ⟨.zicntr_extension_test_zicntr, .zicntr_decode_test, [], .other,
  (.block (.expr (.call .inst_32 .test_32_in_rv64 (.cons (.lit 3222284275) (.cons (.variantOf .OpcodeKind
  .Zicntr (.variant .ZicntrOpcode .RDTIME)) (.cons (.variantOf .Option .Some (.lit 15)) (.cons (.variant
  .Option .None) (.cons (.variant .Option .None) (.cons (.variant .Option .None) .nil)))))))
    (.done .unit)))⟩

/-- `zicsr_decode_test`, src/decode/zicsr_extension.rs:76-105. -/
def zicsr_extension_test_zicsr_zicsr_decode_test : Fn := ⟨.zicsr_extension_test_zicsr, .zicsr_decode_test, [], .other,
  (.block (.expr (.call .inst_32 .test_32_in_rv64 (.cons (.lit 268972147) (.cons (.variantOf .OpcodeKind
  .Zicsr (.variant .ZicsrOpcode .CSRRC)) (.cons (.variantOf .Option .Some (.lit 0)) (.cons (.variantOf
  .Option .Some (.lit 16)) (.cons (.variantOf .Option .Some (.lit 256)) (.cons (.variant .Option .None)
  .nil)))))))
    (.expr (.call .inst_32 .test_32_in_rv64 (.cons (.lit 268968051) (.cons (.variantOf .OpcodeKind .Zicsr
    (.variant .ZicsrOpcode .CSRRS)) (.cons (.variantOf .Option .Some (.lit 0)) (.cons (.variantOf .Option
    .Some (.lit 16)) (.cons (.variantOf .Option .Some (.lit 256)) (.cons (.variant .Option .None)
    .nil)))))))
    (.expr (.call .inst_32 .test_32_in_rv64 (.cons (.lit 268525683) (.cons (.variantOf .OpcodeKind .Zicsr
    (.variant .ZicsrOpcode .CSRRSI)) (.cons (.variantOf .Option .Some (.lit 0)) (.cons (.variant .Option
    .None) (.cons (.variantOf .Option .Some (.lit 256)) (.cons (.variantOf .Option .Some (.lit 2))
    .nil)))))))
    (.done .unit)))))⟩

/-- `zifenci_decode_test`, src/decode/zifencei_extension.rs:53-66. -/
def zifencei_extension_test_zifenci_zifenci_decode_test : Fn := ⟨.zifencei_extension_test_zifenci, .zifenci_decode_test, [], .other,
  (.block (.expr (.call .inst_32 .test_32_in_rv64 (.cons (.lit 53477391) (.cons (.variantOf .OpcodeKind
  .Zifencei (.variant .ZifenceiOpcode .FENCE)) (.cons (.variantOf .Option .Some (.lit 0)) (.cons
  (.variantOf .Option .Some (.lit 0)) (.cons (.variant .Option .None) (.cons (.variantOf .Option .Some
  (.lit 51)) .nil)))))))
    (.done .unit)))⟩

/-- The functions of the crate when it is compiled for its tests, file by file. -/
def testCrate : List Fn :=
  [Instruction_try_from, lib_tests_usize_try_from_test, lib_tests_inst_eq_test, decode_only_rv64,
  Instruction_fmt, instruction_reg2str, OpcodeKind_fmt, OpcodeKind_get_format, AOpcode_fmt,
  AOpcode_get_format, BaseIOpcode_fmt, BaseIOpcode_get_format, COpcode_fmt, COpcode_get_format,
  MOpcode_fmt, MOpcode_get_format, PrivOpcode_fmt, PrivOpcode_get_format, ZicbozOpcode_fmt,
  ZicbozOpcode_get_format, ZicfissOpcode_fmt, ZicfissOpcode_get_format, ZicntrOpcode_fmt,
  ZicntrOpcode_get_format, ZicsrOpcode_fmt, ZicsrOpcode_get_format, ZifenceiOpcode_fmt,
  ZifenceiOpcode_get_format, u16_decode, u16_parse_opcode, u16_parse_rd, u16_parse_rs1, u16_parse_rs2,
  u16_parse_imm, u16_slice, u16_parse_extension, u16_set, inst_16_test_16, inst_16_test_16_in_rv32,
  inst_16_test_16_in_rv64, u32_decode, u32_parse_opcode, u32_parse_rd, u32_parse_rs1, u32_parse_rs2,
  u32_parse_imm, u32_slice, u32_parse_extension, u32_set, inst_32_test_32, inst_32_test_32_in_rv32,
  inst_32_test_32_in_rv64, a_extension_bit_32_parse_opcode, a_extension_bit_32_parse_rd,
  a_extension_bit_32_parse_rs1, a_extension_bit_32_parse_rs2, a_extension_bit_32_parse_imm,
  a_extension_test_a_a_decode_test, base_i_bit_32_parse_opcode, base_i_bit_32_parse_rd,
  base_i_bit_32_parse_rs1, base_i_bit_32_parse_rs2, base_i_bit_32_parse_imm,
  base_i_test_basei_basei_decode_test, c_extension_bit_16_quadrant0, c_extension_bit_16_quadrant1,
  c_extension_bit_16_quadrant2, c_extension_bit_16_parse_opcode, c_extension_bit_16_parse_rd,
  c_extension_bit_16_parse_rs1, c_extension_bit_16_parse_rs2, c_extension_bit_16_parse_imm,
  c_extension_test_c_c_decode_test, m_extension_bit_32_parse_opcode, m_extension_bit_32_parse_rd,
  m_extension_bit_32_parse_rs1, m_extension_bit_32_parse_rs2, m_extension_bit_32_parse_imm,
  m_extension_test_m_m_decode_test, priv_extension_bit_32_parse_opcode, priv_extension_bit_32_parse_rd,
  priv_extension_bit_32_parse_rs1, priv_extension_bit_32_parse_rs2, priv_extension_bit_32_parse_imm,
  priv_extension_test_priv_priv_decode_test, zicboz_extension_bit_32_parse_opcode,
  zicboz_extension_bit_32_parse_rd, zicboz_extension_bit_32_parse_rs1, zicboz_extension_bit_32_parse_rs2,
  zicboz_extension_bit_32_parse_imm, zicboz_extension_test_zicboz_zicboz_decode_test,
  zicfiss_extension_bit_32_parse_opcode, zicfiss_extension_bit_32_parse_rd,
  zicfiss_extension_bit_32_parse_rs1, zicfiss_extension_bit_32_parse_rs2,
  zicfiss_extension_bit_32_parse_imm, zicfiss_extension_bit_16_parse_opcode,
  zicfiss_extension_bit_16_parse_rd, zicfiss_extension_bit_16_parse_rs1,
  zicfiss_extension_bit_16_parse_rs2, zicfiss_extension_bit_16_parse_imm,
  zicfiss_extension_test_zicfiss_zicfiss_32bit_decode_test, zicfiss_extension_test_zicfiss_zicfiss_16,
  zicntr_extension_bit_32_parse_opcode, zicntr_extension_bit_32_parse_rd,
  zicntr_extension_bit_32_parse_rs1, zicntr_extension_bit_32_parse_rs2, zicntr_extension_bit_32_parse_imm,
  zicntr_extension_test_zicntr_zicntr_decode_test, zicsr_extension_bit_32_parse_opcode,
  zicsr_extension_bit_32_parse_rd, zicsr_extension_bit_32_parse_rs1, zicsr_extension_bit_32_parse_rs2,
  zicsr_extension_bit_32_parse_imm, zicsr_extension_test_zicsr_zicsr_decode_test,
  zifencei_extension_bit_32_parse_opcode, zifencei_extension_bit_32_parse_rd,
  zifencei_extension_bit_32_parse_rs1, zifencei_extension_bit_32_parse_rs2,
  zifencei_extension_bit_32_parse_imm, zifencei_extension_test_zifenci_zifenci_decode_test,
  u16_to_signed_nbit, u32_to_signed_nbit]

end Raki.Source
